import Verif.Props.Tiles
import Verif.Lemmas.Combos

/-! # C95: global steric results do not depend on the order of the cells -/

set_option linter.unusedSectionVars false

namespace Momlevel.Props
open Momlevel Momlevel.Fl Momlevel.Eos Momlevel.Spec

variable {x : String} {idx : List Nat} {m : Nat} {d r ref : DS (Fl ℝ)} {cn : DictArg} {rhozero : Fl ℝ}
  {patm : DA (Fl ℝ)} {eos variant domain : String} {strict : Bool} {tc zc zb : String}

/-! ## Arrays -/

theorem mem_bdims_names {a b : List (String × Nat)} {n : String} :
    n ∈ (DA.bdims a b).map Prod.fst ↔ n ∈ a.map Prod.fst ∨ n ∈ b.map Prod.fst := by
  unfold DA.bdims
  rw [List.map_append, List.mem_append]
  constructor
  · rintro (h | h)
    · exact Or.inl h
    · obtain ⟨p, hp, rfl⟩ := List.mem_map.1 h
      exact Or.inr (List.mem_map_of_mem (List.mem_filter.1 hp).1)
  · rintro (h | h)
    · exact Or.inl h
    · by_cases ha : n ∈ a.map Prod.fst
      · exact Or.inl ha
      · obtain ⟨p, hp, rfl⟩ := List.mem_map.1 h
        exact Or.inr (List.mem_map_of_mem (List.mem_filter.2 ⟨hp, by simpa using ha⟩))

theorem bdims_nodup {a b : List (String × Nat)} (ha : (a.map Prod.fst).Nodup) (hb : (b.map Prod.fst).Nodup) :
    ((DA.bdims a b).map Prod.fst).Nodup := by
  unfold DA.bdims
  rw [List.map_append, List.nodup_append]
  refine ⟨ha, (hb.sublist (List.Sublist.map _ List.filter_sublist)), ?_⟩
  intro u hu v hv huv
  obtain ⟨p, hp, rfl⟩ := List.mem_map.1 hv
  have := (List.mem_filter.1 hp).2
  subst huv
  simp only [Bool.not_eq_true', ← Bool.not_eq_true, List.contains_iff_mem] at this
  exact this hu

theorem WF_zip {V W U : Type} {a : DA V} {b : DA W} (ha : a.WF) (hb : b.WF) (f : V → W → U) :
    (DA.zip f a b).WF := by
  intro e e' h
  show f _ _ = f _ _
  rw [ha e e' (fun y hy => h y (mem_bdims_names.2 (Or.inl hy))),
    hb e e' (fun y hy => h y (mem_bdims_names.2 (Or.inr hy)))]

theorem WF_zip3 {V W U X : Type} {a : DA V} {b : DA W} {c : DA U} (ha : a.WF) (hb : b.WF) (hc : c.WF)
    (f : V → W → U → X) : (DA.zip3 f a b c).WF := by
  intro e e' h
  show f _ _ _ = f _ _ _
  rw [ha e e' (fun y hy => h y (mem_bdims_names.2 (Or.inl (mem_bdims_names.2 (Or.inl hy))))),
    hb e e' (fun y hy => h y (mem_bdims_names.2 (Or.inl (mem_bdims_names.2 (Or.inr hy))))),
    hc e e' (fun y hy => h y (mem_bdims_names.2 (Or.inr hy)))]

theorem WF_sumDims {a : DA (Fl ℝ)} (ha : a.WF) (ds : List String) : (a.sumDims ds).WF := by
  intro e e' h
  show nansum _ = nansum _
  congr 1
  refine List.map_congr_left (fun e2 _ => ha _ _ (fun y hy => ?_))
  by_cases hd : ds.contains y
  · simp only [hd, if_true]
  · simp only [hd, Bool.false_eq_true, if_false]
    refine h y ?_
    obtain ⟨p, hp, rfl⟩ := List.mem_map.1 hy
    exact List.mem_map_of_mem (List.mem_filter.2 ⟨hp, by simpa using hd⟩)

/-- Renumbering one dimension renumbers the index environments. -/
theorem envs_perm (hp : idx.Perm (List.range m)) : ∀ {D : List (String × Nat)}, (D.map Prod.fst).Nodup →
    (x, m) ∈ D →
    ((DA.envs (D.map (pickDim x idx.length))).map
      (fun e => Function.update e x (idx.getD (e x) 0))).Perm (DA.envs D) := by
  intro D
  induction D with
  | nil => intro _ h; cases h
  | cons q D ih =>
    intro hn hm
    obtain ⟨d, n⟩ := q
    simp only [List.map_cons, List.nodup_cons] at hn
    by_cases hx : d = x
    · subst hx
      have hnm : n = m := by
        rcases List.mem_cons.1 hm with h | h
        · exact (Prod.mk.inj h).2.symm
        · exact absurd (List.mem_map_of_mem (f := Prod.fst) h) hn.1
      subst hnm
      rw [List.map_cons, map_pickDim_of_not hn.1]
      have : pickDim d idx.length (d, n) = (d, idx.length) := if_pos rfl
      rw [this]
      simp only [DA.envs, List.map_flatMap, List.map_map]
      refine List.Perm.flatMap_left _ (fun e _ => ?_)
      have h2 : (List.range idx.length).map
          ((fun e => Function.update e d (idx.getD (e d) 0)) ∘ fun i => Function.update e d i)
          = idx.map (fun j => Function.update e d j) := by
        conv_rhs => rw [show idx = (List.range idx.length).map (fun i => idx.getD i 0) by
          refine List.ext_getElem (by simp) (fun i h1 h2 => ?_)
          simp [List.getD_eq_getElem?_getD, h1]]
        rw [List.map_map]
        refine List.map_congr_left (fun i _ => ?_)
        simp only [Function.comp, Function.update_self, Function.update_idem]
      rw [h2]
      exact hp.map _
    · have hm' : (x, m) ∈ D := by
        rcases List.mem_cons.1 hm with h | h
        · exact absurd (Prod.mk.inj h).1.symm hx
        · exact h
      rw [List.map_cons, pickDim_of_ne hx]
      have h1 := (ih hn.2 hm').flatMap_right (fun e => (List.range n).map (fun i => Function.update e d i))
      refine List.Perm.trans (List.Perm.of_eq ?_) h1
      simp only [DA.envs, List.map_flatMap, List.map_map, List.flatMap_map]
      refine List.flatMap_congr (fun e _ => List.map_congr_left (fun i _ => ?_))
      simp only [Function.comp]
      rw [Function.update_of_ne (Ne.symm hx), Function.update_comm hx]

theorem pick_sumAll (hp : idx.Perm (List.range m)) {a : DA (Fl ℝ)} (hw : a.WF) (hn : a.dimNames.Nodup)
    (hm : ∀ q ∈ a.dims, q.1 = x → q.2 = m) : (pick x idx a).sumAll = a.sumAll := by
  by_cases hx : x ∈ a.dimNames
  · obtain ⟨q, hq, hqx⟩ := List.mem_map.1 hx
    have hxm : (x, m) ∈ a.dims := by
      have := hm q hq hqx
      rw [← hqx, ← this]; exact hq
    show DA.mk _ _ = DA.mk _ _
    congr 1
    funext e
    refine nansum_perm ?_
    have := (envs_perm (x := x) hp hn hxm).map a.get
    rw [List.map_map] at this
    exact this
  · rw [pick_of_not hw hx]

theorem pick_calcMasso (hp : idx.Perm (List.range m)) (ht : tc ≠ x) {rho vol : DA (Fl ℝ)}
    (hn : (rho * vol).dimNames.Nodup) (hm : ∀ q ∈ (rho * vol).dims, q.1 = x → q.2 = m) :
    calcMasso (pick x idx rho) (pick x idx vol) tc = pick x idx (calcMasso rho vol tc) := by
  unfold calcMasso
  simp only [pick_mul, pick_dimNames]
  generalize (rho * vol) = p at hn hm
  set ds := p.dimNames.filter (fun y => y != tc) with hds
  show DA.mk _ _ = DA.mk _ _
  congr 1
  · rw [pick_dims]
    exact filter_map_pickDim _ _ (fun s => !ds.contains s)
  · funext e
    rw [pick_dims, filter_map_pickDim _ _ (fun s => ds.contains s)]
    by_cases hx : x ∈ p.dimNames
    · have hxd : x ∈ ds := List.mem_filter.2 ⟨hx, by simpa using ht.symm⟩
      obtain ⟨q, hq, hqx⟩ := List.mem_map.1 hx
      have hxm : (x, m) ∈ p.dims.filter (fun q => ds.contains q.1) := by
        have h1 := hm q hq hqx
        refine List.mem_filter.2 ⟨?_, by simpa using hxd⟩
        rw [← hqx, ← h1]; exact hq
      have hnf : ((p.dims.filter (fun q => ds.contains q.1)).map Prod.fst).Nodup :=
        hn.sublist (List.Sublist.map _ List.filter_sublist)
      have key := (envs_perm (x := x) hp hnf hxm).map
        (fun e' => p.get (fun y => if ds.contains y then e' y else Function.update e x (idx.getD (e x) 0) y))
      rw [List.map_map] at key
      refine Eq.trans ?_ (nansum_perm key)
      congr 1
      refine List.map_congr_left (fun e' _ => ?_)
      show p.get _ = p.get _
      congr 1
      funext y
      by_cases hy : y = x
      · subst hy
        have : ds.contains y = true := by simpa using hxd
        simp only [Function.update_self, this, if_true]
      · simp only [Function.update_of_ne hy]
    · have hxd : ds.contains x = false := by
        rw [← Bool.not_eq_true, List.contains_iff_mem]
        exact fun h => hx (List.mem_filter.1 h).1
      rw [map_pickDim_of_not (fun h => hx ?_)]
      · show nansum _ = nansum _
        congr 1
        refine List.map_congr_left (fun e' _ => ?_)
        show p.get _ = p.get _
        congr 1
        funext y
        by_cases hy : y = x
        · subst hy
          simp only [Function.update_self, hxd, Bool.false_eq_true, if_false]
        · simp only [Function.update_of_ne hy]
      · obtain ⟨q, hq, rfl⟩ := List.mem_map.1 h
        exact List.mem_map_of_mem (List.mem_filter.1 hq).1

/-! ## Regular arrays -/

/-- An array that depends on its own dimensions only, names none twice, and has size `m` along `x`. -/
structure Regular (x : String) (m : Nat) (a : DA (Fl ℝ)) : Prop where
  wf : a.WF
  nodup : a.dimNames.Nodup
  size : ∀ q ∈ a.dims, q.1 = x → q.2 = m

theorem Regular.zip {a b : DA (Fl ℝ)} (ha : Regular x m a) (hb : Regular x m b) (f : Fl ℝ → Fl ℝ → Fl ℝ) :
    Regular x m (DA.zip f a b) :=
  ⟨WF_zip ha.wf hb.wf f, bdims_nodup ha.nodup hb.nodup, fun q hq => by
    rcases DA.mem_bdims hq with h | h
    · exact ha.size q h
    · exact hb.size q h⟩

theorem Regular.zip3 {a b c : DA (Fl ℝ)} (ha : Regular x m a) (hb : Regular x m b) (hc : Regular x m c)
    (f : Fl ℝ → Fl ℝ → Fl ℝ → Fl ℝ) : Regular x m (DA.zip3 f a b c) :=
  ⟨WF_zip3 ha.wf hb.wf hc.wf f, bdims_nodup (bdims_nodup ha.nodup hb.nodup) hc.nodup, fun q hq => by
    rcases DA.mem_bdims hq with h | h
    · rcases DA.mem_bdims h with h | h
      · exact ha.size q h
      · exact hb.size q h
    · exact hc.size q h⟩

theorem Regular.scalar (v : Fl ℝ) : Regular x m (DA.scalar v) :=
  ⟨fun _ _ _ => rfl, List.nodup_nil, fun q hq => by cases hq⟩

theorem Regular.isel {a : DA (Fl ℝ)} (ha : Regular x m a) (t : String) (i : Nat) : Regular x m (a.isel t i) := by
  refine ⟨fun e e' h => ha.wf _ _ (fun y hy => ?_), ha.nodup.sublist (List.Sublist.map _ List.filter_sublist),
    fun q hq => ha.size q (List.mem_filter.1 hq).1⟩
  by_cases hyt : y = t
  · subst hyt; rw [Function.update_self, Function.update_self]
  · rw [Function.update_of_ne hyt, Function.update_of_ne hyt]
    refine h y ?_
    obtain ⟨p, hp, rfl⟩ := List.mem_map.1 hy
    exact List.mem_map_of_mem (List.mem_filter.2 ⟨hp, by simpa using hyt⟩)

/-- A dataset of regular arrays. -/
def RegularDS (x : String) (m : Nat) (d : DS (Fl ℝ)) : Prop := ∀ p ∈ d.vars, Regular x m p.2

theorem RegularDS.getVar (hs : RegularDS x m d) {n : String} {a : DA (Fl ℝ)} (h : d.getVar n = .ok a) :
    Regular x m a := by
  rw [getVar_lookup] at h
  exact hs _ (lookup_mem' h)

theorem RegularDS.getItem (hs : RegularDS x m d) {n : String} (hn : n ≠ x) {a : DA (Fl ℝ)}
    (h : d.getItem n = .ok a) : Regular x m a := by
  unfold DS.getItem at h
  split at h
  · rename_i b hb
    cases h
    exact hs _ (lookup_mem' hb)
  · split at h
    · cases h
      refine ⟨fun e e' he => ?_, by simp [DA.dimNames], fun q hq hx => ?_⟩
      · show fin _ = fin _
        rw [he n (by simp [DA.dimNames])]
      · simp only [List.mem_cons, List.not_mem_nil, or_false] at hq
        subst hq
        exact absurd hx hn
    · cases h

theorem RegularDS.pressure {pres : DA (Fl ℝ)} (hs : RegularDS x m d) (hz : zc ≠ x) (hp : Regular x m patm)
    (h : pressureField d zc patm = .ok pres) : Regular x m pres := by
  simp only [pressureField, bind_ok, pure_ok] at h
  obtain ⟨z, h1, h2⟩ := h
  rw [← h2]
  exact ((hs.getItem hz h1).zip (Regular.scalar _) _).zip hp _

theorem Regular.rho {th so pres rho : DA (Fl ℝ)} (h1 : Regular x m th) (h2 : Regular x m so)
    (h3 : Regular x m pres) (h : calcRho th so pres eos = .ok rho) : Regular x m rho := by
  obtain ⟨f, -, rfl⟩ := calcRho_ok h
  exact h1.zip3 h2 h3 f

theorem RegularDS.fields {th so : DA (Fl ℝ)} (hd : RegularDS x m d) (hr : RegularDS x m ref)
    (h : stericFields d ref variant = .ok (th, so)) : Regular x m th ∧ Regular x m so := by
  rcases stericFields_ok h with ⟨-, a, b⟩ | ⟨-, a, b⟩ | ⟨-, a, b⟩
  · exact ⟨hd.getVar a, hr.getVar b⟩
  · exact ⟨hr.getVar a, hd.getVar b⟩
  · exact ⟨hd.getVar a, hd.getVar b⟩

theorem Regular.pick_calcMasso (hp : idx.Perm (List.range m)) (ht : tc ≠ x) {rho vol : DA (Fl ℝ)}
    (h1 : Regular x m rho) (h2 : Regular x m vol) :
    calcMasso (pick x idx rho) (pick x idx vol) tc = calcMasso rho vol tc := by
  have h := h1.zip h2 (· * ·)
  rw [Props.pick_calcMasso hp ht h.nodup h.size]
  refine pick_of_not (WF_sumDims h.wf _) (fun hx => ?_)
  obtain ⟨q, hq, rfl⟩ := List.mem_map.1 hx
  obtain ⟨q1, q2⟩ := List.mem_filter.1 hq
  have : q.1 ∈ (rho * vol).dimNames.filter (fun y => y != tc) :=
    List.mem_filter.2 ⟨List.mem_map_of_mem q1, by simpa using ht.symm⟩
  rw [List.contains_iff_mem.2 this] at q2
  cases q2

theorem Regular.pick_sumAll (hp : idx.Perm (List.range m)) {a : DA (Fl ℝ)} (h : Regular x m a) :
    (pick x idx a).sumAll = a.sumAll := Props.pick_sumAll hp h.wf h.nodup h.size

theorem Regular.pick_scalar {a : DA (Fl ℝ)} (h : Regular x m a) (h0 : a.dims = []) : pick x idx a = a :=
  pick_of_not h.wf (by unfold DA.dimNames; rw [h0]; simp)

/-- Validation, strict or not, sees the ranks and the total area only. -/
theorem validate_area (hs : ∀ a, d.getVar "areacello" = .ok a → (pick x idx a).sumAll = a.sumAll)
    {reference : Bool} {av : VarsArg} (h : validateDataset d reference strict av = .ok ()) :
    validateDataset (pickDS x idx d) reference strict av = .ok () := by
  obtain ⟨a1, a2, a3, a4, a5, a6⟩ := (C34_iff d reference strict av).1.1 h
  refine (C34_iff _ reference strict av).1.2 ⟨?_, ?_, ?_, ?_, ?_, ?_⟩
  · intro v hv; rw [rankOf_pick]; exact a1 v hv
  · rw [rankOf_pick]; exact a2
  · intro r hr; rw [rankOf_pick] at hr; exact a3 r hr
  · intro v hv; rw [rankOf_pick]; exact a4 v hv
  · intro h
    obtain ⟨a, ha, hv⟩ := a5 h
    refine ⟨pick x idx a, by rw [pickDS_lookup, ha]; rfl, ?_⟩
    unfold validateAreacello at hv ⊢
    rw [hs a (getVar_lookup.2 ha)]
    exact hv
  · intro h
    obtain ⟨b1, b2⟩ := a6 h
    exact ⟨by rw [rankOf_pick]; exact b1, fun v hv => by rw [rankOf_pick]; exact b2 v hv⟩

theorem validate_reorder (hp : idx.Perm (List.range m)) (hs : RegularDS x m d) {reference : Bool} {av : VarsArg}
    (h : validateDataset d reference strict av = .ok ()) :
    validateDataset (pickDS x idx d) reference strict av = .ok () :=
  validate_area (fun _ ha => (hs.getVar ha).pick_sumAll hp) h

theorem reorder_global {rho : DA (Fl ℝ)} (hp : idx.Perm (List.range m)) (ht : tc ≠ x) (hr : RegularDS x m ref)
    (hrho : Regular x m rho) (hv : validateDataset ref true strict = .ok ())
    (h : stericGlobal ref rho tc variant = .ok r) :
    stericGlobal (pickDS x idx ref) (pick x idx rho) tc variant = .ok r := by
  obtain ⟨-, -, -, -, -, a6⟩ := (C34_iff ref true strict .none).1.1 hv
  obtain ⟨-, a6⟩ := a6 rfl
  have h0 : ∀ n ∈ ["masso", "volo", "rhoga"], ∀ a, ref.getVar n = .ok a → pick x idx a = a := by
    intro n hn a ha
    refine (hr.getVar ha).pick_scalar (List.length_eq_zero_iff.1 ?_)
    have := a6 n hn
    rw [rankOf_of_getVar ha] at this
    simpa using this
  simp only [stericGlobal, bind_ok, pure_ok] at h ⊢
  obtain ⟨rvol, h1, rhoga, h2, volo, h3, area, h4, h5⟩ := h
  refine ⟨_, pickDS_getVar h1, _, pickDS_getVar h2, _, pickDS_getVar h3, _, pickDS_getVar h4, ?_⟩
  rw [h0 "rhoga" (by simp) _ h2, h0 "volo" (by simp) _ h3,
    Regular.pick_calcMasso hp ht hrho (hr.getVar h1), (hr.getVar h4).pick_sumAll hp]
  exact h5

theorem pres_one {pres : DA (Fl ℝ)} (hp : idx.Perm (List.range m)) (h : Regular x m pres) :
    (x, 1) ∈ pres.dims → idx.length = 1 := by
  intro hx
  have := h.size _ hx rfl
  rw [hp.length_eq, List.length_range]
  exact this.symm

/-- The global result is the same for every ordering of the rows (or columns) of the domain, the supplied
reference and the pressure being reordered alike. -/
theorem C95_order (h : steric d (.dataset ref) cn none rhozero patm eos variant "global" strict = .ok (r, ref))
    (hc : defaultCoords cn = .ok (tc, zc, zb)) (hp : idx.Perm (List.range m)) (hs : RegularDS x m d)
    (hr : RegularDS x m ref) (hpa : Regular x m patm) (ht : tc ≠ x) (hz : zc ≠ x) :
    steric (pickDS x idx d) (.dataset (pickDS x idx ref)) cn none rhozero (pick x idx patm) eos variant "global"
      strict = .ok (r, pickDS x idx ref) := by
  obtain ⟨dd, tc', zc', zb', pres, th, so, rho, h1, h2, h3, h4, h5, h6, h7, h8, h9⟩ := steric_ok_iff.1 h
  rw [hc] at h2
  cases h2
  cases h1
  simp only [stericResult, if_true] at h9
  have hpr := hs.pressure hz hpa h4
  obtain ⟨ht', hs'⟩ := hs.fields hr h7
  refine steric_ok_iff.2 ⟨pickDS x idx d, tc, zc, zb, _, _, _, _, rfl, hc, validate_reorder hp hs h3,
    pick_pressure hz h4, rfl, validate_reorder hp hr h6, pick_fields h7, pick_calcRho h8 (pres_one hp hpr), ?_⟩
  simp only [stericResult, if_true]
  exact reorder_global hp ht hr (ht'.rho hs' hpr h8) h6 h9

theorem order_own (h : steric d .none cn none rhozero patm eos variant "global" strict = .ok (r, ref))
    (hc : defaultCoords cn = .ok (tc, zc, zb)) (hp : idx.Perm (List.range m)) (hs : RegularDS x m d)
    (hpa : Regular x m patm) (ht : tc ≠ x) (hz : zc ≠ x) :
    RegularDS x m ref ∧
    steric (pickDS x idx d) .none cn none rhozero (pick x idx patm) eos variant "global" strict
      = .ok (r, pickDS x idx ref) := by
  obtain ⟨dd, tc', zc', zb', pres, th, so, rho, e1, e2, e3, e4, e5, e6, e7, e8, e9⟩ := steric_ok_iff.1 h
  rw [hc] at e2
  cases e2
  cases e1
  simp only [stericResult, if_true] at e9
  have hpr := hs.pressure hz hpa e4
  obtain ⟨a3, a2, -, -, -, -⟩ := (C34_iff d false strict _).1.1 e3
  obtain ⟨b3, b2, b4, b5, -, b6⟩ := (C34_iff ref true strict .none).1.1 e6
  obtain ⟨dth, hth, th4⟩ := rankOf_getVar (a3 "thetao" (by simp))
  obtain ⟨dso, hso, so4⟩ := rankOf_getVar (a3 "so" (by simp))
  obtain ⟨dvol, hvol, vol4⟩ := rankOf_getVar (a3 "volcello" (by simp))
  have e5' := e5
  simp only [chooseReference, setupReferenceState, hc, ok_bind, e4, bind_ok, pure_ok] at e5'
  obtain ⟨rth, g1, rso, g2, rvol, g3, rrho, g4, volo, g5, area, g6, g7⟩ := e5'
  have r1 := b3 "thetao" (by simp)
  have r2 := b3 "so" (by simp)
  have r3 := b3 "volcello" (by simp)
  have r1' : rth.dims.length = 3 := by rw [← g7] at r1; simpa [rankOf] using r1
  have r2' : rso.dims.length = 3 := by rw [← g7] at r2; simpa [rankOf, List.lookup_cons] using r2
  have r3' : rvol.dims.length = 3 := by rw [← g7] at r3; simpa [rankOf, List.lookup_cons] using r3
  have slice : ∀ {n : String} {a b : DA (Fl ℝ)}, d.getVar n = .ok a → a.dims.length = 4 →
      refSlice d n tc 0 = .ok b → b.dims.length = 3 →
      refSlice (pickDS x idx d) n tc 0 = .ok (pick x idx b) ∧ Regular x m b := by
    intro n a b ha h4 hb h3
    have hra := hs.getVar ha
    obtain ⟨-, k2, k3, k4⟩ := refSlice_ok ha h4 hb h3
    refine ⟨pick_refSlice ht (fun hx => ?_) ha h4 hb h3, ?_⟩
    · obtain ⟨q, hq, hqx⟩ := List.mem_map.1 hx
      have hqm := hra.size q hq hqx
      rw [hp.length_eq, List.length_range, ← hqm]
      refine k3 q ?_
      rw [k2]
      exact List.mem_filter.2 ⟨hq, by rw [hqx]; simpa using ht.symm⟩
    · have : b = a.isel tc 0 := by
        cases b with
        | mk bd bg => exact congrArg₂ DA.mk k2 (funext k4)
      rw [this]
      exact hra.isel tc 0
  obtain ⟨n1, q1⟩ := slice hth th4 g1 r1'
  obtain ⟨n2, q2⟩ := slice hso so4 g2 r2'
  obtain ⟨n3, q3⟩ := slice hvol vol4 g3 r3'
  have n4 := pick_calcRho (x := x) (idx := idx) g4 (pres_one hp hpr)
  have q4 := q1.rho q2 hpr g4
  have hvolo : volo = rvol.sumAll := by
    unfold calcVolo at g5
    simp only [bind_ok, pure_ok] at g5
    obtain ⟨u, hu, hv⟩ := g5
    exact hv.symm
  have hra : ∀ a : DA (Fl ℝ), Regular x m a.sumAll := fun a =>
    ⟨fun _ _ _ => rfl, List.nodup_nil, fun q hq => by cases hq⟩
  have n5 : calcVolo (pick x idx rvol) = .ok (pick x idx volo) := by
    have hn : (pick x idx rvol).ndim = rvol.ndim := by unfold DA.ndim; rw [pick_dims, List.length_map]
    rw [hvolo, (hra _).pick_scalar rfl]
    unfold calcVolo at g5 ⊢
    rw [hn, q3.pick_sumAll hp, g5, hvolo]
  have hvar : d.getVar "areacello" = .ok area := by
    rw [getVar_lookup]
    unfold DS.getAttr at g6
    split at g6
    · rename_i b hb
      cases g6
      exact hb
    · cases g6
  have n6 : (pickDS x idx d).getAttr "areacello" = .ok (pick x idx area) := by
    have := pickDS_getVar (x := x) (idx := idx) hvar
    rw [getVar_lookup] at this
    unfold DS.getAttr
    rw [this]
  have p4 := pick_pressure (x := x) (idx := idx) hz e4
  have q5 : Regular x m (calcMasso rrho rvol tc) := by
    have hz := q4.zip q3 (· * ·)
    exact ⟨WF_sumDims hz.wf _, hz.nodup.sublist (List.Sublist.map _ List.filter_sublist),
      fun q hq => hz.size q (List.mem_filter.1 hq).1⟩
  have n7 : calcMasso (pick x idx rrho) (pick x idx rvol) tc = pick x idx (calcMasso rrho rvol tc) :=
    pick_calcMasso hp ht (q4.zip q3 (· * ·)).nodup (q4.zip q3 (· * ·)).size
  have hset : chooseReference (pickDS x idx d) .none (pick x idx patm) eos cn = .ok (pickDS x idx ref) := by
    rw [← g7]
    simp only [chooseReference, setupReferenceState, hc, ok_bind, p4, n1, n2, n3, n4, n5, n6, n7, calcRhoga,
      pick_div]
    rfl
  have hr : RegularDS x m ref := by
    rw [← g7]
    intro p hp
    simp only [List.mem_cons, List.not_mem_nil, or_false] at hp
    rcases hp with rfl | rfl | rfl | rfl | rfl | rfl | rfl | rfl
    · exact q1
    · exact q2
    · exact q3
    · exact q4
    · exact hvolo ▸ hra _
    · exact q5
    · exact q5.zip (hvolo ▸ hra _) _
    · exact hs.getVar hvar
  obtain ⟨ht', hs'⟩ := hs.fields hr e7
  refine ⟨hr, steric_ok_iff.2 ⟨pickDS x idx d, tc, zc, zb, _, _, _, _, rfl, hc, validate_reorder hp hs e3, p4, hset,
    validate_reorder hp hr e6, pick_fields e7, pick_calcRho e8 (pres_one hp hpr), ?_⟩⟩
  simp only [stericResult, if_true]
  exact reorder_global hp ht hr (ht'.rho hs' hpr e8) e6 e9

/-- The same when the reference state is computed from the data; it is then reordered like them. -/
theorem C95_order_own (h : steric d .none cn none rhozero patm eos variant "global" strict = .ok (r, ref))
    (hc : defaultCoords cn = .ok (tc, zc, zb)) (hp : idx.Perm (List.range m)) (hs : RegularDS x m d)
    (hpa : Regular x m patm) (ht : tc ≠ x) (hz : zc ≠ x) :
    steric (pickDS x idx d) .none cn none rhozero (pick x idx patm) eos variant "global" strict
      = .ok (r, pickDS x idx ref) :=
  (order_own h hc hp hs hpa ht hz).2

/-- Summing over the other dimensions commutes with taking parts along the time dimension. -/
theorem calcMasso_times (rho vol : DA (Fl ℝ)) :
    calcMasso (pick tc idx rho) (pick tc idx vol) tc = pick tc idx (calcMasso rho vol tc) := by
  unfold calcMasso
  simp only [pick_mul, pick_dimNames]
  generalize (rho * vol) = p
  set ds := p.dimNames.filter (fun y => y != tc) with hds
  have hxd : ds.contains tc = false := by
    rw [← Bool.not_eq_true, List.contains_iff_mem]
    intro h
    simpa using (List.mem_filter.1 h).2
  show DA.mk _ _ = DA.mk _ _
  congr 1
  · rw [pick_dims]
    exact filter_map_pickDim _ _ (fun s => !ds.contains s)
  · funext e
    rw [pick_dims, filter_map_pickDim _ _ (fun s => ds.contains s), map_pickDim_of_not]
    · show nansum _ = nansum _
      congr 1
      refine List.map_congr_left (fun e' _ => ?_)
      show p.get _ = p.get _
      congr 1
      funext y
      by_cases hy : y = tc
      · subst hy
        simp only [Function.update_self, hxd, Bool.false_eq_true, if_false]
      · simp only [Function.update_of_ne hy]
    · intro h
      obtain ⟨q, hq, hqx⟩ := List.mem_map.1 h
      have := (List.mem_filter.1 hq).2
      rw [hqx, hxd] at this
      cases this

/-- With a supplied reference each time of the global result depends on that time of the data only: choosing
times (in any order, with repetitions) before the call or after it is the same. -/
theorem C95_times (h : steric d (.dataset ref) cn none rhozero patm eos variant "global" strict = .ok (r, ref))
    (hc : defaultCoords cn = .ok (tc, zc, zb)) (hz : zc ≠ tc)
    (hpt : ∀ pres, Spec.IsPressure d zc patm pres → (tc, 1) ∈ pres.dims → idx.length = 1)
    (had : ∀ a, d.getVar "areacello" = .ok a → a.WF ∧ tc ∉ a.dimNames)
    (hr : ∀ n a, ref.getVar n = .ok a → a.WF ∧ tc ∉ a.dimNames) :
    steric (pickDS tc idx d) (.dataset ref) cn none rhozero (pick tc idx patm) eos variant "global" strict
      = .ok (pickDS tc idx r, ref) := by
  have hpt : ∀ pres, pressureField d zc patm = .ok pres → (tc, 1) ∈ pres.dims → idx.length = 1 :=
    fun p hp => hpt p (isPressure_of hp)
  obtain ⟨dd, tc', zc', zb', pres, th, so, rho, h1, h2, h3, h4, h5, h6, h7, h8, h9⟩ := steric_ok_iff.1 h
  rw [hc] at h2
  cases h2
  cases h1
  simp only [stericResult, if_true] at h9
  have hrp : ∀ n a, ref.getVar n = .ok a → pick tc idx a = a := fun n a ha =>
    pick_of_not (hr n a ha).1 (hr n a ha).2
  have hf : stericFields (pickDS tc idx d) ref variant = .ok (pick tc idx th, pick tc idx so) := by
    unfold stericFields
    rcases stericFields_ok h7 with ⟨hv, a, b⟩ | ⟨hv, a, b⟩ | ⟨hv, a, b⟩
    · subst hv
      rw [if_pos rfl, pickDS_getVar a, b, hrp _ _ b]
      rfl
    · subst hv
      rw [if_neg (by decide), if_pos rfl, pickDS_getVar b, a, hrp _ _ a]
      rfl
    · subst hv
      rw [if_neg (by decide), if_neg (by decide), if_pos rfl, pickDS_getVar a, pickDS_getVar b]
      rfl
  refine steric_ok_iff.2 ⟨pickDS tc idx d, tc, zc, zb, _, _, _, _, rfl, hc, validate_area (fun a ha => ?_) h3,
    pick_pressure hz h4, rfl, h6, hf, pick_calcRho h8 (hpt _ h4), ?_⟩
  · rw [pick_of_not (had a ha).1 (had a ha).2]
  · simp only [stericResult, if_true]
    simp only [stericGlobal, bind_ok, pure_ok] at h9 ⊢
    obtain ⟨rvol, k1, rhoga, k2, volo, k3, area, k4, k5⟩ := h9
    refine ⟨_, k1, _, k2, _, k3, _, k4, ?_⟩
    have e1 := calcMasso_times (tc := tc) (idx := idx) rho rvol
    rw [hrp _ _ k1] at e1
    have e2 : volo / area.sumAll = pick tc idx (volo / area.sumAll) := by
      rw [← pick_div, hrp _ _ k3]
      congr 1
    have e3 : rhoga / (pick tc idx (calcMasso rho rvol tc) / volo)
        = pick tc idx (rhoga / (calcMasso rho rvol tc / volo)) := by
      rw [← pick_div, ← pick_div, hrp _ _ k2, hrp _ _ k3]
    rw [e1, e3, pick_map, ← k5]
    show DS.mk [(_, _), (_, _)] [] = DS.mk [(_, pick _ _ _), (_, pick _ _ _)] []
    rw [← pick_mul, ← e2]

/-- An array that depends on its own dimensions only, `t` not being one of them. -/
def Without (t : String) (a : DA (Fl ℝ)) : Prop := a.WF ∧ t ∉ a.dimNames

theorem Without.pick {t : String} {a : DA (Fl ℝ)} (h : Without t a) : pick t idx a = a := pick_of_not h.1 h.2

theorem Without.zip {t : String} {a b : DA (Fl ℝ)} (ha : Without t a) (hb : Without t b)
    (f : Fl ℝ → Fl ℝ → Fl ℝ) : Without t (DA.zip f a b) :=
  ⟨WF_zip ha.1 hb.1 f, fun h => (mem_bdims_names.1 h).elim ha.2 hb.2⟩

theorem Without.zip3 {t : String} {a b c : DA (Fl ℝ)} (ha : Without t a) (hb : Without t b) (hc : Without t c)
    (f : Fl ℝ → Fl ℝ → Fl ℝ → Fl ℝ) : Without t (DA.zip3 f a b c) :=
  ⟨WF_zip3 ha.1 hb.1 hc.1 f, fun h => (mem_bdims_names.1 h).elim
    (fun h => (mem_bdims_names.1 h).elim ha.2 hb.2) hc.2⟩

theorem Without.sumDims {t : String} {a : DA (Fl ℝ)} (ha : Without t a) (ds : List String) :
    Without t (a.sumDims ds) := by
  refine ⟨WF_sumDims ha.1 ds, fun h => ha.2 ?_⟩
  obtain ⟨p, hp, rfl⟩ := List.mem_map.1 h
  exact List.mem_map_of_mem (List.mem_filter.1 hp).1

theorem Without.isel {t : String} {a : DA (Fl ℝ)} (ha : a.WF) (i : Nat) : Without t (a.isel t i) := by
  refine ⟨fun e e' h => ha _ _ (fun y hy => ?_), fun h => ?_⟩
  · by_cases hyt : y = t
    · subst hyt; rw [Function.update_self, Function.update_self]
    · rw [Function.update_of_ne hyt, Function.update_of_ne hyt]
      refine h y ?_
      obtain ⟨p, hp, rfl⟩ := List.mem_map.1 hy
      exact List.mem_map_of_mem (List.mem_filter.2 ⟨hp, by simpa using hyt⟩)
  · obtain ⟨p, hp, rfl⟩ := List.mem_map.1 h
    simpa using (List.mem_filter.1 hp).2

theorem Without.squeeze {t : String} {a : DA (Fl ℝ)} (ha : Without t a) : Without t a.squeeze := by
  refine ⟨fun e e' h => ha.1 _ _ (fun y hy => ?_), fun h => ha.2 ?_⟩
  · by_cases h1 : (y, 1) ∈ a.dims
    · simp only [h1, if_true]
    · simp only [h1, if_false]
      refine h y ?_
      obtain ⟨p, hp, rfl⟩ := List.mem_map.1 hy
      refine List.mem_map_of_mem (List.mem_filter.2 ⟨hp, ?_⟩)
      simp only [bne_iff_ne, ne_eq]
      intro hp1
      apply h1
      rw [← hp1]
      exact hp
  · obtain ⟨p, hp, rfl⟩ := List.mem_map.1 h
    exact List.mem_map_of_mem (List.mem_filter.1 hp).1

/-- A reference state computed from data has no time dimension, and is the same for every choice of times that
begins with the first. -/
theorem own_reference {l : List Nat} (hs : Sound d) (hc : defaultCoords cn = .ok (tc, zc, zb)) (hz : zc ≠ tc)
    (hpa : Without tc patm) (hzt : ∀ a, d.getItem zc = .ok a → tc ∉ a.dimNames)
    (hat : ∀ a, d.getVar "areacello" = .ok a → tc ∉ a.dimNames)
    (h : setupReferenceState d patm eos cn = .ok ref) :
    (∀ p ∈ ref.vars, Without tc p.2) ∧
      setupReferenceState (pickDS tc (0 :: l) d) patm eos cn = .ok ref := by
  simp only [setupReferenceState, hc, ok_bind, bind_ok, pure_ok] at h
  obtain ⟨pres, g0, rth, g1, rso, g2, rvol, g3, rrho, g4, volo, g5, area, g6, g7⟩ := h
  have slice : ∀ {n : String} {b : DA (Fl ℝ)}, refSlice d n tc 0 = .ok b →
      refSlice (pickDS tc (0 :: l) d) n tc 0 = .ok b ∧ Without tc b := by
    intro n b hb
    simp only [refSlice, bind_ok, pure_ok] at hb ⊢
    obtain ⟨a, h1, c, h2, h3⟩ := hb
    obtain ⟨h4, rfl⟩ := iselE_ok h2
    have hwf := (hs.getVar h1).1
    have hsize : (pick tc (0 :: l) a).size tc ≠ 0 := by
      unfold DA.size
      rw [pick_dims]
      have : ∀ L : List (String × Nat), tc ∈ L.map Prod.fst →
          (((L.map (pickDim tc (0 :: l).length)).find? (fun p => p.1 == tc)).map Prod.snd).getD 0 ≠ 0 := by
        intro L
        induction L with
        | nil => intro h; cases h
        | cons q L ih =>
          intro h
          obtain ⟨y, k⟩ := q
          by_cases hy : y = tc
          · subst hy
            simp [pickDim]
          · rw [List.map_cons, pickDim_of_ne hy, List.find?_cons_of_neg (by simpa using hy)]
            refine ih ?_
            rcases List.mem_cons.1 h with h | h
            · exact absurd h.symm hy
            · exact h
      exact this _ h4
    have hisel : (pick tc (0 :: l) a).isel tc 0 = a.isel tc 0 := by
      show DA.mk _ _ = DA.mk _ _
      congr 1
      · rw [pick_dims, filter_map_pickDim _ _ (fun s => s != tc), map_pickDim_of_not]
        intro h
        obtain ⟨p, hp, hpt⟩ := List.mem_map.1 h
        have := (List.mem_filter.1 hp).2
        rw [hpt] at this
        simp at this
      · funext e
        show a.get _ = a.get _
        simp
    refine ⟨⟨_, pickDS_getVar h1, a.isel tc 0, ?_, h3⟩, h3 ▸ (Without.isel hwf 0).squeeze⟩
    unfold DA.iselE
    rw [pick_dimNames, if_pos h4]
    simp only [pyIndex, le_refl, if_true, Int.toNat_zero]
    rw [if_pos (Nat.pos_of_ne_zero hsize), ok_bind, hisel]
    rfl
  obtain ⟨n1, q1⟩ := slice g1
  obtain ⟨n2, q2⟩ := slice g2
  obtain ⟨n3, q3⟩ := slice g3
  have qp : Without tc pres := by
    simp only [pressureField, bind_ok, pure_ok] at g0
    obtain ⟨z, hz1, hz2⟩ := g0
    rw [← hz2]
    exact (Without.zip ⟨hs.getItem hz1, hzt z hz1⟩ ⟨fun _ _ _ => rfl, by simp [DA.dimNames, DA.scalar]⟩ _).zip hpa _
  have q4 : Without tc rrho := by
    obtain ⟨f, -, rfl⟩ := calcRho_ok g4
    exact q1.zip3 q2 qp f
  have hvar : d.getVar "areacello" = .ok area := by
    rw [getVar_lookup]
    unfold DS.getAttr at g6
    split at g6
    · rename_i b hb
      cases g6
      exact hb
    · cases g6
  have q6 : Without tc area := ⟨(hs.getVar hvar).1, hat _ hvar⟩
  have q5 : Without tc volo := by
    unfold calcVolo at g5
    simp only [bind_ok, pure_ok] at g5
    obtain ⟨u, hu, hv⟩ := g5
    rw [← hv]
    exact ⟨fun _ _ _ => rfl, by simp [DA.dimNames, DA.sumAll]⟩
  have qm : Without tc (calcMasso rrho rvol tc) := (q4.zip q3 _).sumDims _
  constructor
  · intro p hp
    rw [← g7] at hp
    simp only [List.mem_cons, List.not_mem_nil, or_false] at hp
    rcases hp with rfl | rfl | rfl | rfl | rfl | rfl | rfl | rfl
    · exact q1
    · exact q2
    · exact q3
    · exact q4
    · exact q5
    · exact qm
    · exact qm.zip q5 _
    · exact q6
  · have p0 := pick_pressure (x := tc) (idx := 0 :: l) hz g0
    rw [hpa.pick, qp.pick] at p0
    have p6 : (pickDS tc (0 :: l) d).getAttr "areacello" = .ok area := by
      have := pickDS_getVar (x := tc) (idx := 0 :: l) hvar
      rw [getVar_lookup, q6.pick] at this
      unfold DS.getAttr
      rw [this]
    simp only [setupReferenceState, hc, ok_bind, p0, n1, n2, n3, g4, g5, p6]
    exact congrArg Except.ok g7

/-- Without a supplied reference the same is true of every choice of times that begins with the first (whose
state is the reference): adding or dropping later times changes nothing at the times kept. -/
theorem C95_times_own {l : List Nat}
    (h : steric d .none cn none rhozero patm eos variant "global" strict = .ok (r, ref)) (hs : Sound d)
    (hc : defaultCoords cn = .ok (tc, zc, zb)) (hz : zc ≠ tc) (hpa : Without tc patm)
    (hzt : ∀ a, d.getItem zc = .ok a → tc ∉ a.dimNames)
    (hat : ∀ a, d.getVar "areacello" = .ok a → tc ∉ a.dimNames) :
    steric (pickDS tc (0 :: l) d) .none cn none rhozero patm eos variant "global" strict
      = .ok (pickDS tc (0 :: l) r, ref) := by
  have hset : setupReferenceState d patm eos cn = .ok ref := by
    obtain ⟨dd, tc', zc', zb', pres, th, so, rho, e1, e2, e3, e4, e5, -⟩ := steric_ok_iff.1 h
    cases e1
    exact e5
  obtain ⟨w, hset'⟩ := own_reference (l := l) hs hc hz hpa hzt hat hset
  have h1 := C95_times (idx := 0 :: l) (C32_feedback h) hc hz (fun pres hp ht => by
    have hp := of_isPressure hp
    simp only [pressureField, bind_ok, pure_ok] at hp
    obtain ⟨z, hz1, hz2⟩ := hp
    rw [← hz2] at ht
    have hn := ((Without.zip ⟨hs.getItem hz1, hzt z hz1⟩
      (⟨fun _ _ _ => rfl, by simp [DA.dimNames, DA.scalar]⟩ : Without tc (DA.scalar (1.0e4 : Fl ℝ))) (· * ·)).zip
        hpa (· + ·)).2
    exact absurd (List.mem_map_of_mem (f := Prod.fst) ht) hn)
    (fun a ha => ⟨(hs.getVar ha).1, hat a ha⟩) (fun n a ha => w _ (lookup_mem' (getVar_lookup.1 ha)))
  rw [hpa.pick] at h1
  obtain ⟨dd, tc', zc', zb', pres, th, so, rho, e1, e2, e3, e4, e5, e6, e7, e8, e9⟩ := steric_ok_iff.1 h1
  exact steric_ok_iff.2 ⟨dd, tc', zc', zb', pres, th, so, rho, e1, e2, e3, e4, by cases e1; exact hset', e6, e7, e8,
    e9⟩

theorem pickDS_without {t : String} (h : ∀ p ∈ d.vars, Without t p.2) : pickDS t idx d = d := by
  cases d with
  | mk vars coords =>
    show DS.mk _ _ = _
    congr 1
    conv_rhs => rw [← List.map_id vars]
    refine List.map_congr_left (fun p hp => ?_)
    rw [(h p hp).pick]
    rfl

/-- Local requests without a supplied reference, likewise: choices of times that begin with the first. -/
theorem C94_times_own {l : List Nat}
    (h : steric d .none cn none rhozero patm eos variant domain strict = .ok (r, ref)) (hd : domain ≠ "global")
    (hs : Sound d) (hc : defaultCoords cn = .ok (tc, zc, zb)) (hz : zc ≠ tc) (hb : zb ≠ tc)
    (hpa : Without tc patm) (hzt : ∀ a, d.getItem zc = .ok a → tc ∉ a.dimNames)
    (hbt : ∀ a, d.getItem zb = .ok a → tc ∉ a.dimNames)
    (hdt : ∀ a, d.getVar "deptho" = .ok a → tc ∉ a.dimNames)
    (hat : ∀ a, d.getVar "areacello" = .ok a → tc ∉ a.dimNames) :
    steric (pickDS tc (0 :: l) d) .none cn none rhozero patm eos variant domain false
      = .ok (pickDS tc (0 :: l) r, ref) := by
  have hset : setupReferenceState d patm eos cn = .ok ref := by
    obtain ⟨dd, tc', zc', zb', pres, th, so, rho, e1, e2, e3, e4, e5, -⟩ := steric_ok_iff.1 h
    cases e1
    exact e5
  obtain ⟨w, hset'⟩ := own_reference (l := l) hs hc hz hpa hzt hat hset
  have h1 := C94_tile (idx := 0 :: l) (C32_feedback h) hd hc hs hz hb hzt hbt
    (fun a ha i _ q hq hx => absurd (hx ▸ List.mem_map_of_mem (f := Prod.fst) hq) (hdt a ha))
    (fun ht => absurd (List.mem_map_of_mem (f := Prod.fst) ht) hpa.2)
  rw [hpa.pick, pickDS_without w] at h1
  obtain ⟨dd, tc', zc', zb', pres, th, so, rho, e1, e2, e3, e4, e5, e6, e7, e8, e9⟩ := steric_ok_iff.1 h1
  exact steric_ok_iff.2 ⟨dd, tc', zc', zb', pres, th, so, rho, e1, e2, e3, e4, by cases e1; exact hset', e6, e7, e8,
    e9⟩

theorem exRegular : RegularDS "xh" 2 exD := by
  intro p hp
  refine ⟨(exSound p hp).1, (exSound p hp).2, ?_⟩
  simp only [exD, List.mem_cons, List.not_mem_nil, or_false] at hp
  rcases hp with rfl | rfl | rfl | rfl | rfl | rfl | rfl <;> decide

/-- The example ocean with its two columns exchanged has the same global results. -/
example (variant eos : String) (hv : variant ∈ ["thermosteric", "halosteric", "steric"])
    (he : CaseVariant eos "wright" ∨ CaseVariant eos "linear") :
    ∃ r ref, steric exD .none .none none (fin 1035) (DA.scalar (fin 101325)) eos variant "global" true
        = .ok (r, ref) ∧
      steric (pickDS "xh" [1, 0] exD) .none .none none (fin 1035) (DA.scalar (fin 101325)) eos variant
        "global" true = .ok (r, pickDS "xh" [1, 0] ref) := by
  obtain ⟨⟨r, ref⟩, h⟩ := exRun variant "global" eos hv he
  exact ⟨r, ref, h, C95_order_own (x := "xh") (m := 2) (idx := [1, 0]) h exC (by decide) exRegular
    (Regular.scalar _) (by decide) (by decide)⟩

/-- The first of the two times of the example ocean alone. -/
example (variant eos : String) (hv : variant ∈ ["thermosteric", "halosteric", "steric"])
    (he : CaseVariant eos "wright" ∨ CaseVariant eos "linear") :
    ∃ r ref, steric exD .none .none none (fin 1035) (DA.scalar (fin 101325)) eos variant "global" true
        = .ok (r, ref) ∧
      steric (pickDS "time" [0] exD) .none .none none (fin 1035) (DA.scalar (fin 101325)) eos variant
        "global" true = .ok (pickDS "time" [0] r, ref) ∧
      steric (pickDS "time" [1] exD) (.dataset ref) .none none (fin 1035) (DA.scalar (fin 101325)) eos variant
        "global" true = .ok (pickDS "time" [1] r, ref) := by
  obtain ⟨⟨r, ref⟩, h⟩ := exRun variant "global" eos hv he
  have hpa : Without "time" (DA.scalar (fin 101325)) := ⟨fun _ _ _ => rfl, by simp [DA.dimNames, DA.scalar]⟩
  have hzt : ∀ a, exD.getItem "z_l" = .ok a → "time" ∉ a.dimNames := by
    intro a ha; cases ha; decide
  have hat : ∀ a, exD.getVar "areacello" = .ok a → "time" ∉ a.dimNames := by
    intro a ha; cases ha; decide
  refine ⟨r, ref, h, C95_times_own (l := []) h exSound exC (by decide) hpa hzt hat, ?_⟩
  have hset : setupReferenceState exD (DA.scalar (fin 101325)) eos .none = .ok ref := by
    obtain ⟨dd, tc', zc', zb', pres, th, so, rho, e1, e2, e3, e4, e5, -⟩ := steric_ok_iff.1 h
    cases e1
    exact e5
  obtain ⟨w, -⟩ := own_reference (l := []) exSound exC (by decide) hpa hzt hat hset
  exact C95_times (tc := "time") (idx := [1]) (C32_feedback h) exC (by decide) (fun _ _ _ => rfl)
    (fun a ha => ⟨(exSound.getVar ha).1, hat a ha⟩) (fun n a ha => w _ (lookup_mem' (getVar_lookup.1 ha)))

/-- `C95_order`: with the reference given, the two columns exchanged in both. -/
example (variant eos : String) (hv : variant ∈ ["thermosteric", "halosteric", "steric"])
    (he : CaseVariant eos "wright" ∨ CaseVariant eos "linear") :
    ∃ ref r, steric exD (.dataset ref) .none none (fin 1035) (DA.scalar (fin 101325)) eos variant "global" true
        = .ok (r, ref) ∧
      steric (pickDS "xh" [1, 0] exD) (.dataset (pickDS "xh" [1, 0] ref)) .none none (fin 1035)
        (DA.scalar (fin 101325)) eos variant "global" true = .ok (r, pickDS "xh" [1, 0] ref) := by
  obtain ⟨⟨r, ref⟩, h⟩ := exRun variant "global" eos hv he
  have hr := (order_own (x := "xh") (m := 2) (idx := [1, 0]) h exC (by decide) exRegular (Regular.scalar _) (by decide)
    (by decide)).1
  exact ⟨ref, r, C32_feedback h, C95_order (x := "xh") (m := 2) (idx := [1, 0]) (C32_feedback h) exC (by decide)
    exRegular hr (Regular.scalar _) (by decide) (by decide)⟩

end Momlevel.Props
