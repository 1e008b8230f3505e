import Verif.Props.DimOrder
import Verif.Model.N2Interfaces
import Verif.Model.Coriolis
import Verif.Model.XGrid
import Verif.Model.AverageDS
import Verif.Model.Trend
import Verif.Props.StericSuccess

/-! C100, continued: derived fields, time averages and trends with the dimensions in another order. -/

set_option linter.unusedSectionVars false

namespace Momlevel.Props
open Momlevel Momlevel.Fl Momlevel.Spec

variable {K : Type} [Field K] [LinearOrder K] {t t' s s' p p' : DA (Fl K)}

theorem dimNames_mem {d d' : DS (Fl K)} (h : TransposedDS d d') (x : String) : x ∈ d.dimNames ↔ x ∈ d'.dimNames := by
  have := h.vars
  unfold DS.dimNames
  generalize d.vars = l at this ⊢
  generalize d'.vars = l' at this ⊢
  induction this with
  | nil => rfl
  | cons h1 _ ih => simp only [List.flatMap_cons, List.mem_append, ih, h1.2.mem]

/-- C100 (equation of state): density, expansion coefficients. -/
theorem C100_eos (eos : String) (ht : Transposed t t') (hs : Transposed s s') (hp : Transposed p p') :
    SameOutcome Transposed (calcRho t s p eos) (calcRho t' s' p' eos) ∧
    SameOutcome Transposed (calcAlpha t s p eos) (calcAlpha t' s' p' eos) ∧
    SameOutcome Transposed (calcBeta t s p eos) (calcBeta t' s' p' eos) :=
  ⟨applyEos_order _ _ ht hs hp, applyEos_order _ _ ht hs hp, applyEos_order _ _ ht hs hp⟩

/-- C100 (potential density). -/
theorem C100_pdens (eos : String) (level : Fl K) (ht : Transposed t t') (hs : Transposed s s') (hp : Transposed p p') :
    SameOutcome Transposed (calcPdens t s level p eos) (calcPdens t' s' level p' eos) :=
  SameOutcome.same (fun _ => applyEos_order _ _ ht hs ((Transposed.scalar _).add hp))

/-- C100 (inverse barometer). -/
theorem C100_barometer (eos : String) (g : Fl K) (ht : Transposed t t') (hs : Transposed s s') (hp : Transposed p p') :
    SameOutcome Transposed (inverseBarometer t s p g eos) (inverseBarometer t' s' p' g eos) :=
  SameOutcome.bind (applyEos_order _ _ ht hs hp)
    (fun _ _ hr => hp.mul ((hr.mul (Transposed.scalar g)).map (fun d => (-1.0 : Fl K) / d)))

/-- C100 (sums): mass, volume, mean density and layer thickness. -/
theorem C100_sums (tc : String) (ht : Transposed t t') (hs : Transposed s s') :
    Transposed (calcMasso t s tc) (calcMasso t' s' tc) ∧ SameOutcome Transposed (calcVolo t) (calcVolo t') ∧
    Transposed (calcRhoga t s) (calcRhoga t' s') := ⟨calcMasso_order tc ht hs, calcVolo_order ht, ht.div hs⟩

/-- C100 (thickness). -/
theorem C100_dz (ht : Transposed t t') (hs : Transposed s s') (hp : Transposed p p') (top : Fl K)
    (bottom : Option (Fl K)) (fraction : Bool) :
    SameOutcome Transposed (calcDz t s p top bottom fraction) (calcDz t' s' p' top bottom fraction) :=
  calcDz_order ht hs hp top bottom fraction

/-- C100 (rotation): Coriolis parameter and Rossby radius. -/
theorem C100_rotation {f f' : DA (Fl ℝ)} (hf : Transposed f f') (ht : Transposed t t') (hs : Transposed s s') :
    Transposed (calcCoriolis f) (calcCoriolis f') ∧ Transposed (calcRossbyRd t s) (calcRossbyRd t' s') :=
  ⟨hf.map _, ht.div (hs.map _)⟩

theorem differentiate_order (ht : Transposed t t') (zc : String) (z : Nat → Fl K) :
    SameOutcome Transposed (differentiate t zc z) (differentiate t' zc z) := by
  unfold differentiate
  simp only [ht.mem, ht.size, ht.get]
  split
  · split
    · exact rfl
    · exact ⟨ht.perm, rfl, ht.nodup⟩
  · exact rfl

theorem coordArray_order (ht : Transposed t t') (zc : String) (z : Nat → Fl K) :
    coordArray t zc z = coordArray t' zc z := by
  unfold coordArray
  simp only [ht.mem, ht.size]

theorem coordArray_nodup {zc : String} {z : Nat → Fl K} {r : DA (Fl K)} (h : coordArray t zc z = .ok r) :
    r.dimNames.Nodup := by
  unfold coordArray at h
  split at h
  · cases h
    simp [DA.dimNames]
  · cases h

/-- The unadjusted buoyancy frequency. -/
theorem n2_order (eos : String) (g : Fl K) (zc : String) (z : Nat → Fl K) (ht : Transposed t t')
    (hs : Transposed s s') (hp : Transposed p p') :
    SameOutcome Transposed (calcN2 t s z eos g p zc false) (calcN2 t' s' z eos g p' zc false) := by
  unfold calcN2
  rw [coordArray_order ht]
  cases hc : coordArray t' zc z with
  | error e => exact rfl
  | ok c =>
    have hcc := Transposed.refl' (coordArray_nodup hc)
    have hpr := (hcc.mul (Transposed.scalar (1.0e4 : Fl K))).add hp
    simp only [ok_bind]
    refine SameOutcome.bind (applyEos_order eos "alpha" ht hs hpr) (fun _ _ ha => ?_)
    refine SameOutcome.bind (applyEos_order eos "beta" ht hs hpr) (fun _ _ hb => ?_)
    refine SameOutcome.bind (differentiate_order ht zc z) (fun _ _ hdt => ?_)
    refine SameOutcome.bind (differentiate_order hs zc z) (fun _ _ hds => ?_)
    exact ((ha.mul hdt).sub (hb.mul hds)).map (fun x => g * x)

/-- C100 (buoyancy frequency), without the adjustment of negative values. -/
theorem C100_n2 (eos : String) (g : Fl K) (zc : String) (z : Nat → Fl K) (ht : Transposed t t')
    (hs : Transposed s s') (hp : Transposed p p') :
    SameOutcome Transposed (calcN2 t s z eos g p zc false) (calcN2 t' s' z eos g p' zc false) :=
  n2_order eos g zc z ht hs hp

theorem gridTransform_order (ht : Transposed t t') (zc : String) (z : Nat → Fl K) (name : String) (m : Nat)
    (w : Nat → Fl K) (hn : name ∉ t.dimNames) :
    Transposed (gridTransform t zc z name m w) (gridTransform t' zc z name m w) := by
  refine ⟨(ht.perm.filter _).append (List.Perm.refl _), ?_, ?_⟩
  · unfold gridTransform
    rw [ht.size, ht.get]
  · unfold gridTransform DA.dimNames
    rw [List.map_append, List.nodup_append]
    refine ⟨ht.nodup.sublist (List.filter_sublist.map _), by simp, ?_⟩
    intro x hx y hy hxy
    simp only [List.map_cons, List.map_nil, List.mem_singleton] at hy
    obtain ⟨q, hq, rfl⟩ := List.mem_map.1 hx
    exact hn (hy ▸ hxy ▸ List.mem_map_of_mem (List.mem_of_mem_filter hq))

/-- C100 (buoyancy frequency on interfaces), without the adjustment of negative values. -/
theorem C100_n2_interfaces (refuses : Bool) (eos : String) (g : Fl K) (zc : String) (z : Nat → Fl K) (name : String)
    (m : Nat) (w : Nat → Fl K) (h1 : name ∉ t.dimNames) (h2 : name ∉ s.dimNames) (ht : Transposed t t')
    (hs : Transposed s s') (hp : Transposed p p') :
    SameOutcome Transposed (calcN2Interfaces refuses t s z name m w eos g p zc false)
      (calcN2Interfaces refuses t' s' z name m w eos g p' zc false) := by
  unfold calcN2Interfaces
  simp only [ht.mem, hs.mem]
  split
  · exact rfl
  split
  · exact rfl
  split
  · exact rfl
  · exact n2_order eos g name w (gridTransform_order ht _ _ _ _ _ h1) (gridTransform_order hs _ _ _ _ _ h2) hp

/-- C100 (stability angle). -/
theorem C100_stability {t t' s s' p p' : DA (Fl ℝ)} (eos zc : String) (z : Nat → Fl ℝ) (ht : Transposed t t')
    (hs : Transposed s s') (hp : Transposed p p') :
    SameOutcome Transposed (calcStabilityAngle t s p z eos zc) (calcStabilityAngle t' s' p' z eos zc) := by
  unfold calcStabilityAngle
  refine SameOutcome.bind (applyEos_order eos "alpha" ht hs hp) (fun _ _ ha => ?_)
  refine SameOutcome.bind (applyEos_order eos "beta" ht hs hp) (fun _ _ hb => ?_)
  refine SameOutcome.bind (differentiate_order ht zc z) (fun _ _ hdt => ?_)
  refine SameOutcome.bind (differentiate_order hs zc z) (fun _ _ hds => ?_)
  exact ((hb.mul hds).div (ha.mul hdt)).map
    (fun R => npDegrees (npArctan (((1 : Fl ℝ) + R) / ((1 : Fl ℝ) - R))))

/-- The adjustment looks at the first dimension, so it only keeps the order of the others free. -/
theorem adjust_order (ht : Transposed t t') (hh : t.dims.head? = t'.dims.head?) (zc : String) :
    SameOutcome Transposed (adjustNegativeN2 t zc) (adjustNegativeN2 t' zc) := by
  unfold adjustNegativeN2
  have hm := ht.map (fun v => Fl.sel (Fl.isnull v) .nan (1.0 : Fl K))
  have ha := ht.map (fun v => Fl.sel (Fl.le v (0.0 : Fl K)) .nan v)
  have hf : SameOutcome Transposed (fillFirst (t.map (fun v => Fl.sel (Fl.le v (0.0 : Fl K)) .nan v)) (1.0e-8 : Fl K))
      (fillFirst (t'.map (fun v => Fl.sel (Fl.le v (0.0 : Fl K)) .nan v)) (1.0e-8 : Fl K)) := by
    unfold fillFirst
    simp only [DA.dims_map]
    have hp := ht.perm
    cases h1 : t.dims with
    | nil =>
      cases h2 : t'.dims with
      | nil => exact rfl
      | cons q l => rw [h1, h2] at hh; cases hh
    | cons q l =>
      cases h2 : t'.dims with
      | nil => rw [h1, h2] at hh; cases hh
      | cons q' l' =>
        rw [h1, h2] at hh
        simp only [List.head?_cons, Option.some.injEq] at hh
        subst hh
        obtain ⟨d, n⟩ := q
        dsimp only
        split
        · exact rfl
        · refine ⟨by rw [← h1, ← h2]; exact hp, by rw [ha.get], ?_⟩
          have := ht.nodup
          unfold DA.dimNames at this ⊢
          rw [h1] at this
          exact this
  refine SameOutcome.bind hf (fun a b hab => ?_)
  refine SameOutcome.bind (R := Transposed) ?_ (fun _ _ h => h.mul hm)
  unfold ffill
  simp only [hab.mem, hab.get]
  split
  · exact ⟨hab.perm, rfl, hab.nodup⟩
  · exact rfl

/-- C101 (adjusted buoyancy frequency), `_partial`: only while the first dimension stays the first; see
`C101_adjust_counterexample` for the others. -/
theorem C101_adjust_partial (ht : Transposed t t') (hh : t.dims.head? = t'.dims.head?) (zc : String) :
    SameOutcome Transposed (adjustNegativeN2 t zc) (adjustNegativeN2 t' zc) := adjust_order ht hh zc

/-- With (time, z_l) instead of (z_l, time) the same values are adjusted otherwise: the surface value at the second
time becomes missing instead of 1e-8. -/
theorem C101_adjust_counterexample :
    ∃ a b r r' : DA (Fl ℚ), Transposed a b ∧ a.dims = [("z_l", 2), ("time", 2)] ∧
      b.dims = [("time", 2), ("z_l", 2)] ∧ adjustNegativeN2 a = .ok r ∧ adjustNegativeN2 b = .ok r' ∧
      r.get (fun d => if d = "time" then 1 else 0) = .fin (1 / 10 ^ 8) ∧
      r'.get (fun d => if d = "time" then 1 else 0) = .nan := by
  refine ⟨⟨[("z_l", 2), ("time", 2)], fun _ => .fin (-1)⟩, ⟨[("time", 2), ("z_l", 2)], fun _ => .fin (-1)⟩, _, _,
    ⟨List.Perm.swap _ _ _, rfl, by simp [DA.dimNames]⟩, rfl, rfl, rfl, rfl, ?_, ?_⟩
  · simp [ffillAt, Fl.sel, Fl.le, ofSci, Fl.fillna]
    norm_num
  · simp [ffillAt, Fl.sel, Fl.le, ofSci]
    norm_num

theorem first_order (ht : Transposed t t') (hh : t.dims.head? = t'.dims.head?) :
    SameOutcome Transposed (first t) (first t') := by
  unfold first
  cases h1 : t.dims with
  | nil =>
    cases h2 : t'.dims with
    | nil => exact rfl
    | cons q l => rw [h1, h2] at hh; cases hh
  | cons q l =>
    cases h2 : t'.dims with
    | nil => rw [h1, h2] at hh; cases hh
    | cons q' l' =>
      rw [h1, h2] at hh
      simp only [List.head?_cons, Option.some.injEq] at hh
      subst hh
      obtain ⟨d, n⟩ := q
      dsimp only
      split
      · exact rfl
      · exact ht.isel d 0

/-- C101 (wave speed), `_partial`: only while the first dimension of `n2` stays the first. -/
theorem C101_wave_partial {n2 n2' dz dz' : DA (Fl ℝ)} (hn : Transposed n2 n2')
    (hh : n2.dims.head? = n2'.dims.head?) (hd : Transposed dz dz') (zc : String) :
    SameOutcome Transposed (calcWaveSpeed n2 dz zc) (calcWaveSpeed n2' dz' zc) := by
  unfold calcWaveSpeed
  refine SameOutcome.bind (adjust_order hn hh _) (fun a b hab => ?_)
  have hprod := (hab.map npSqrt).mul hd
  dsimp only
  simp only [hprod.mem]
  split
  · exact rfl
  · refine SameOutcome.bind (first_order hn hh) (fun _ _ htop => ?_)
    exact (htop.map Fl.isnull).zip3 (Transposed.scalar _) ((hprod.sumDim zc).div (Transposed.scalar npPi)) Fl.sel

/-- C101 (adjusted buoyancy frequency, all in one), `_partial`: only while the first dimensions of temperature and
salinity stay the first. -/
theorem C101_n2_adjusted_partial (eos : String) (g : Fl K) (zc : String) (z : Nat → Fl K) (ht : Transposed t t')
    (hs : Transposed s s') (hp : Transposed p p') (hh : t.dims.head? = t'.dims.head?) :
    SameOutcome Transposed (calcN2 t s z eos g p zc true) (calcN2 t' s' z eos g p' zc true) := by
  unfold calcN2
  rw [coordArray_order ht]
  cases hc : coordArray t' zc z with
  | error e => exact rfl
  | ok c =>
    have hcc := Transposed.refl' (coordArray_nodup hc)
    have hpr := (hcc.mul (Transposed.scalar (1.0e4 : Fl K))).add hp
    have hne : t'.dims ≠ [] := by
      rintro h0
      unfold coordArray DA.dimNames at hc
      rw [h0] at hc
      simp at hc
    have hne' : t.dims ≠ [] := fun h0 => hne (List.nil_perm.1 (h0 ▸ ht.perm))
    simp only [ok_bind]
    have heads : ∀ {a b : DA (Fl K)} {f : String}, applyEos eos f t s
        (c * DA.scalar (1.0e4 : Fl K) + p) = .ok a → applyEos eos f t' s' (c * DA.scalar (1.0e4 : Fl K) + p') = .ok b →
        a.dims.head? = t.dims.head? ∧ b.dims.head? = t'.dims.head? := by
      intro a b f h1 h2
      have key : ∀ {u v q r : DA (Fl K)}, u.dims ≠ [] → applyEos eos f u v q = .ok r → r.dims.head? = u.dims.head? := by
        intro u v q r hu hr
        unfold applyEos at hr
        obtain ⟨f, _, hr⟩ := bind_ok.1 hr
        split at hr
        · cases hr
        · cases hr
          unfold DA.zip3 DA.bdims
          obtain ⟨x, l, hx⟩ := List.exists_cons_of_ne_nil hu
          simp only [hx, List.cons_append, List.head?_cons]
      exact ⟨key hne' h1, key hne h2⟩
    have hal := applyEos_order eos "alpha" ht hs hpr
    unfold calcAlpha
    cases h1 : applyEos eos "alpha" t s (c * DA.scalar (1.0e4 : Fl K) + p) with
    | error e1 =>
      cases h2 : applyEos eos "alpha" t' s' (c * DA.scalar (1.0e4 : Fl K) + p') with
      | error e2 => rw [h1, h2] at hal; exact hal
      | ok b => rw [h1, h2] at hal; exact hal.elim
    | ok a =>
      cases h2 : applyEos eos "alpha" t' s' (c * DA.scalar (1.0e4 : Fl K) + p') with
      | error e2 => rw [h1, h2] at hal; exact hal.elim
      | ok b =>
        rw [h1, h2] at hal
        have hd := heads h1 h2
        have ha : Transposed a b := hal
        simp only [ok_bind]
        refine SameOutcome.bind (applyEos_order eos "beta" ht hs hpr) (fun _ _ hb => ?_)
        refine SameOutcome.bind (differentiate_order ht zc z) (fun dt dt' hdt => ?_)
        refine SameOutcome.bind (differentiate_order hs zc z) (fun _ _ hds => ?_)
        simp only [if_true]
        refine adjust_order (((ha.mul hdt).sub (hb.mul hds)).map _) ?_ _
        have hda : a.dims ≠ [] := fun h0 => by
          have := hd.1
          rw [h0] at this
          cases htd : t.dims with
          | nil => exact hne' htd
          | cons x l => rw [htd] at this; cases this
        have hdb : b.dims ≠ [] := fun h0 => hda (List.perm_nil.1 (h0 ▸ ha.perm))
        obtain ⟨x, l, hx⟩ := List.exists_cons_of_ne_nil hda
        obtain ⟨y, m, hy⟩ := List.exists_cons_of_ne_nil hdb
        show (DA.bdims (DA.bdims a.dims _) _).head? = (DA.bdims (DA.bdims b.dims _) _).head?
        unfold DA.bdims
        rw [hx, hy] at hd ⊢
        simp only [List.cons_append, List.head?_cons] at hd ⊢
        rw [hd.1, hd.2, hh]

theorem cornerDims_nodup {ax : XAxis} {D : List (String × Nat)} (hn : (D.map Prod.fst).Nodup)
    (hc : ax.corner ∉ D.map Prod.fst) : ((cornerDims ax D).map Prod.fst).Nodup := by
  unfold cornerDims
  rw [List.map_map]
  have : (Prod.fst ∘ fun p : String × Nat => if p.1 = ax.center then (ax.corner, if ax.outer then p.2 + 1 else p.2) else p)
      = (fun s => if s = ax.center then ax.corner else s) ∘ Prod.fst := by
    funext p
    simp only [Function.comp]
    split <;> rfl
  rw [this, ← List.map_map]
  refine List.Nodup.map_on ?_ hn
  intro x hx y hy hxy
  split_ifs at hxy with h1 h2 h2
  · rw [h1, h2]
  · exact absurd (hxy ▸ hy) hc
  · exact absurd (hxy ▸ hx) hc
  · exact hxy

theorem toCorner_order (op : Fl K → Fl K → Fl K) (ax : XAxis) (ht : Transposed t t') (hc : ax.corner ∉ t.dimNames) :
    SameOutcome Transposed (toCorner op ax t) (toCorner op ax t') := by
  unfold toCorner
  simp only [ht.mem, ht.size, ht.get]
  split
  · exact ⟨ht.perm.map _, rfl, cornerDims_nodup ht.nodup hc⟩
  · exact rfl

theorem toCorner_names {op : Fl K → Fl K → Fl K} {ax : XAxis} {r : DA (Fl K)} (h : toCorner op ax t = .ok r)
    {x : String} (hx : x ≠ ax.corner) (hxt : x ∉ t.dimNames) : x ∉ r.dimNames := by
  unfold toCorner at h
  split at h
  · cases h
    intro hm
    obtain ⟨q, hq, rfl⟩ := List.mem_map.1 hm
    obtain ⟨q', hq', rfl⟩ := List.mem_map.1 hq
    by_cases h1 : q'.1 = ax.center
    · rw [if_pos h1] at hx
      exact hx rfl
    · rw [if_neg h1] at hxt
      exact hxt (List.mem_map_of_mem hq')
  · cases h

/-- C100 (relative vorticity), where no velocity already has the corner dimension that the difference creates. -/
theorem C100_vorticity {d d' : DS (Fl K)} (h : TransposedDS d d') (vm cd : Option (List (String × String)))
    (sym : Bool)
    (hY : ∀ g vm' n m a b, vm' = vm.getD
      [("u", "uo"), ("v", "vo"), ("dx", "dxCu"), ("dy", "dyCv"), ("area", "areacello_bu")] →
      getXgcmGrid d.dimNames cd sym = .ok g → dictGet vm' "u" = .ok n → dictGet vm' "dx" = .ok m →
      d.getVar n = .ok a → d.getVar m = .ok b → g.Y.corner ∉ a.dimNames ∧ g.Y.corner ∉ b.dimNames)
    (hX : ∀ g vm' n m a b, vm' = vm.getD
      [("u", "uo"), ("v", "vo"), ("dx", "dxCu"), ("dy", "dyCv"), ("area", "areacello_bu")] →
      getXgcmGrid d.dimNames cd sym = .ok g → dictGet vm' "v" = .ok n → dictGet vm' "dy" = .ok m →
      d.getVar n = .ok a → d.getVar m = .ok b → g.X.corner ∉ a.dimNames ∧ g.X.corner ∉ b.dimNames) :
    SameOutcome Transposed (calcRelVort d vm cd sym) (calcRelVort d' vm cd sym) := by
  have hg : getXgcmGrid d.dimNames cd sym = getXgcmGrid d'.dimNames cd sym := by
    unfold getXgcmGrid
    simp only [dimNames_mem h]
  have hprod : ∀ {a b : DA (Fl K)} {x : String}, x ∉ a.dimNames ∧ x ∉ b.dimNames → x ∉ (a * b).dimNames := by
    intro a b x hx hm
    unfold DA.dimNames at hx hm
    obtain ⟨q, hq, rfl⟩ := List.mem_map.1 hm
    rcases List.mem_append.1 hq with h1 | h1
    · exact hx.1 (List.mem_map_of_mem h1)
    · exact hx.2 (List.mem_map_of_mem (List.mem_of_mem_filter h1))
  unfold calcRelVort
  generalize hv : vm.getD [("u", "uo"), ("v", "vo"), ("dx", "dxCu"), ("dy", "dyCv"), ("area", "areacello_bu")] = vm'
    at hY hX ⊢
  rw [← hg, h.names]
  dsimp only
  split
  · exact rfl
  refine SameOutcome.same_eq (fun g hgr => ?_)
  refine SameOutcome.same_eq (fun un hun => ?_)
  refine SameOutcome.bind_eq (h.getVar un) (fun u _ hu _ tu => ?_)
  refine SameOutcome.same_eq (fun dxn hdxn => ?_)
  refine SameOutcome.bind_eq (h.getVar dxn) (fun dx _ hdx _ tdx => ?_)
  refine SameOutcome.bind (toCorner_order _ g.Y (tu.mul tdx)
    (hprod (hY g vm' un dxn u dx rfl hgr hun hdxn hu hdx))) (fun du _ hdu => ?_)
  refine SameOutcome.same_eq (fun vn hvn => ?_)
  refine SameOutcome.bind_eq (h.getVar vn) (fun v _ hv _ tv => ?_)
  refine SameOutcome.same_eq (fun dyn hdyn => ?_)
  refine SameOutcome.bind_eq (h.getVar dyn) (fun dy _ hdy _ tdy => ?_)
  refine SameOutcome.bind (toCorner_order _ g.X (tv.mul tdy)
    (hprod (hX g vm' vn dyn v dy rfl hgr hvn hdyn hv hdy))) (fun dv _ hdv => ?_)
  refine SameOutcome.same (fun an => ?_)
  refine SameOutcome.bind (h.getVar an) (fun _ _ ha => ?_)
  exact (hdu.neg.add hdv).div ha

/-- C100 (potential vorticity), where `n2` has no corner dimension yet. -/
theorem C100_pv {ze ze' f f' n2 n2' : DA (Fl K)} (hz : Transposed ze ze') (hf : Transposed f f')
    (hn : Transposed n2 n2') (g : Fl K) (cd : Option (List (String × String))) (sym interp : Bool) (units : String)
    (hc : ∀ gr, getXgcmGrid (ze.dimNames ++ f.dimNames ++ n2.dimNames) cd sym = .ok gr →
      gr.X.corner ∉ n2.dimNames ∧ gr.Y.corner ∉ n2.dimNames ∧ gr.X.corner ≠ gr.Y.corner) :
    SameOutcome Transposed (calcPv ze f n2 g cd sym units interp) (calcPv ze' f' n2' g cd sym units interp) := by
  unfold calcPv
  have hp : SameOutcome Transposed (pvN2 ze f n2 cd sym interp) (pvN2 ze' f' n2' cd sym interp) := by
    unfold pvN2
    split
    · have hg : getXgcmGrid (ze.dimNames ++ f.dimNames ++ n2.dimNames) cd sym
          = getXgcmGrid (ze'.dimNames ++ f'.dimNames ++ n2'.dimNames) cd sym := by
        unfold getXgcmGrid
        simp only [List.mem_append, hz.mem, hf.mem, hn.mem]
      rw [← hg]
      refine SameOutcome.same_eq (fun gr hgr => ?_)
      refine SameOutcome.bind_eq (toCorner_order _ gr.X hn (hc gr hgr).1) (fun a b ha _ hab => ?_)
      exact toCorner_order _ gr.Y hab (toCorner_names ha (Ne.symm (hc gr hgr).2.2) (hc gr hgr).2.1)
    · exact hn
  refine SameOutcome.bind hp (fun a b hab => ?_)
  have hq := (hz.add hf).mul (hab.div (Transposed.scalar g))
  dsimp only
  split
  · exact hq
  split
  · exact ((hq.div (Transposed.scalar _)).mul (Transposed.scalar _)).map Fl.abs
  · exact rfl

section time
variable {axes : List (String × TimeAxis)}

/-- The same times, the values with their dimensions in another order. -/
def TimedOrder (x y : Timed (DA (Fl K))) : Prop := Transposed x.obj y.obj ∧ x.axes = y.axes

/-- The same for datasets. -/
def TimedOrderDS (x y : Timed (DS (Fl K))) : Prop := TransposedDS x.obj y.obj ∧ x.axes = y.axes

theorem cons_filter_nodup {D : List (String × Nat)} (hn : (D.map Prod.fst).Nodup) {name tc : String} {n : Nat}
    (h : name = tc ∨ name ∉ D.map Prod.fst) :
    (((name, n) :: D.filter (fun p => p.1 != tc)).map Prod.fst).Nodup := by
  rw [List.map_cons, List.nodup_cons]
  refine ⟨?_, hn.sublist (List.filter_sublist.map _)⟩
  intro hm
  obtain ⟨q, hq, hqn⟩ := List.mem_map.1 hm
  have hqn : q.1 = name := hqn
  rcases h with rfl | h
  · have := (List.mem_filter.1 hq).2
    simp [hqn] at this
  · exact h (hqn ▸ List.mem_map_of_mem (List.mem_of_mem_filter hq))

theorem annualReduce_order (ht : Transposed t t') (ax : TimeAxis) {tc : String} (h : tc = "time" ∨ "time" ∉ t.dimNames) :
    Transposed (annualReduce t ax tc) (annualReduce t' ax tc) := by
  refine ⟨(ht.perm.filter _).cons _, ?_, cons_filter_nodup ht.nodup (h.imp Eq.symm id)⟩
  unfold annualReduce column
  rw [ht.get]

theorem monthlyReduce_order (ht : Transposed t t') (ax : TimeAxis) (tc : String) :
    Transposed (monthlyReduce t ax tc) (monthlyReduce t' ax tc) := by
  refine ⟨(ht.perm.filter _).cons _, ?_, cons_filter_nodup ht.nodup (Or.inl rfl)⟩
  unfold monthlyReduce column
  rw [ht.get]

theorem cycleReduce_order {t t' : DA (Fl ℝ)} (ht : Transposed t t') (f : List (Fl ℝ) → Fl ℝ) (ax : TimeAxis)
    (tc : String) : Transposed (cycleReduce f t ax tc) (cycleReduce f t' ax tc) := by
  refine ⟨ht.perm.map _, ?_, ?_⟩
  · unfold cycleReduce column
    rw [ht.get]
  · have : (cycleReduce f t ax tc).dimNames = t.dimNames := by
      unfold cycleReduce DA.dimNames
      rw [List.map_map]
      refine List.map_congr_left (fun q _ => ?_)
      simp only [Function.comp]
      split
      · rename_i h; exact h.symm
      · rfl
    rw [this]
    exact ht.nodup

/-- C100 (annual average). -/
theorem C100_annual (ht : Transposed t t') {tc : String} (h : tc = "time" ∨ "time" ∉ t.dimNames) :
    SameOutcome TimedOrder (annualAverage ⟨t, axes⟩ tc) (annualAverage ⟨t', axes⟩ tc) :=
  SameOutcome.same (x := Timed.axis ⟨t, axes⟩ tc) (fun ax => SameOutcome.same (fun _ =>
    ⟨annualReduce_order ht ax h, rfl⟩))

/-- C100 (monthly average). -/
theorem C100_monthly (ht : Transposed t t') (tc : String) :
    SameOutcome TimedOrder (monthlyAverage ⟨t, axes⟩ tc) (monthlyAverage ⟨t', axes⟩ tc) := by
  refine SameOutcome.same (x := Timed.axis ⟨t, axes⟩ tc) (fun ax => ?_)
  dsimp only
  split
  · exact ⟨monthlyReduce_order ht ax tc, rfl⟩
  · exact rfl

/-- C100 (annual cycle). -/
theorem C100_cycle {t t' : DA (Fl ℝ)} (ht : Transposed t t') (tc func : String) (y : Option Nat) :
    SameOutcome TimedOrder (annualCycle ⟨t, axes⟩ tc func y) (annualCycle ⟨t', axes⟩ tc func y) := by
  refine SameOutcome.same (x := Timed.axis ⟨t, axes⟩ tc) (fun ax => SameOutcome.same (fun f => ?_))
  dsimp only
  split
  · exact ⟨cycleReduce_order ht f ax tc, rfl⟩
  · exact rfl

theorem averagedVars_order {d d' : DS (Fl K)} (h : TransposedDS d d') (iso : String → Bool) (tc : String) :
    SameOutcome (fun v v' => List.Forall₂ (fun (p q : String × DA (Fl K)) => p.1 = q.1 ∧ Transposed p.2 q.2) v v' ∧
      ∀ p ∈ v, p ∈ d.vars) (averagedVars d iso tc) (averagedVars d' iso tc) := by
  unfold averagedVars
  have hd : ∀ x, d.dimNames.contains x = d'.dimNames.contains x := by
    intro x
    rw [Bool.eq_iff_iff, List.contains_iff_mem, List.contains_iff_mem, dimNames_mem h]
  simp only [hd, h.coords]
  generalize hq : (fun s : String => !(d'.dimNames.contains s || d'.coords.contains s || iso s)) = q
  have hq' : (fun p : String × DA (Fl K) => !(d'.dimNames.contains p.1 || d'.coords.contains p.1 || iso p.1))
      = fun p => q p.1 := by rw [← hq]
  rw [hq']
  have key : List.Forall₂ (fun (p q : String × DA (Fl K)) => p.1 = q.1 ∧ Transposed p.2 q.2)
      (d.vars.filter (fun p => q p.1)) (d'.vars.filter (fun p => q p.1)) := by
    have := h.vars
    clear hq' hq hd h
    generalize d.vars = l at this ⊢
    generalize d'.vars = l' at this ⊢
    induction this with
    | nil => exact List.Forall₂.nil
    | cons h1 _ ih =>
      simp only [List.filter_cons, h1.1]
      split
      · exact List.Forall₂.cons h1 ih
      · exact ih
  have hany : ∀ {l l' : List (String × DA (Fl K))},
      List.Forall₂ (fun p q => p.1 = q.1 ∧ Transposed p.2 q.2) l l' →
      l.any (fun p => p.2.dimNames.contains tc) = l'.any (fun p => p.2.dimNames.contains tc) := by
    intro l l' hl
    induction hl with
    | nil => rfl
    | cons h1 _ ih =>
      simp only [List.any_cons, ih]
      congr 1
      rw [Bool.eq_iff_iff, List.contains_iff_mem, List.contains_iff_mem, h1.2.mem]
  rw [hany key]
  split
  · exact ⟨key, fun p hp => List.mem_of_mem_filter hp⟩
  · exact rfl

theorem forall₂_map_order {l l' : List (String × DA (Fl K))} {f : DA (Fl K) → DA (Fl K)}
    (h : List.Forall₂ (fun p q => p.1 = q.1 ∧ Transposed p.2 q.2) l l')
    (hf : ∀ p ∈ l, ∀ b, Transposed p.2 b → Transposed (f p.2) (f b)) :
    List.Forall₂ (fun (p q : String × DA (Fl K)) => p.1 = q.1 ∧ Transposed p.2 q.2)
      (l.map (fun p => (p.1, f p.2))) (l'.map (fun p => (p.1, f p.2))) := by
  induction h with
  | nil => exact List.Forall₂.nil
  | cons h1 _ ih =>
    exact List.Forall₂.cons ⟨h1.1, hf _ List.mem_cons_self _ h1.2⟩
      (ih (fun p hp b hb => hf p (List.mem_cons_of_mem _ hp) b hb))

/-- C100 (annual average of a dataset). -/
theorem C100_annual_ds {d d' : DS (Fl K)} (h : TransposedDS d d') (iso : String → Bool) {tc : String}
    (hn : tc = "time" ∨ ∀ p ∈ d.vars, "time" ∉ p.2.dimNames) :
    SameOutcome TimedOrderDS (annualAverageDS ⟨d, axes⟩ iso tc) (annualAverageDS ⟨d', axes⟩ iso tc) := by
  refine SameOutcome.same (x := Timed.axis ⟨d, axes⟩ tc) (fun ax => ?_)
  refine SameOutcome.bind (averagedVars_order h iso tc) (fun v v' hv => SameOutcome.same (fun _ => ?_))
  refine ⟨⟨forall₂_map_order (f := fun a => annualReduce a ax tc) hv.1 (fun p hp b hb => ?_), rfl⟩, rfl⟩
  exact annualReduce_order hb ax (hn.imp id (fun hh => hh p (hv.2 p hp)))

/-- C100 (monthly average of a dataset). -/
theorem C100_monthly_ds {d d' : DS (Fl K)} (h : TransposedDS d d') (iso : String → Bool) (tc : String) :
    SameOutcome TimedOrderDS (monthlyAverageDS ⟨d, axes⟩ iso tc) (monthlyAverageDS ⟨d', axes⟩ iso tc) := by
  refine SameOutcome.same (x := Timed.axis ⟨d, axes⟩ tc) (fun ax => ?_)
  refine SameOutcome.bind (averagedVars_order h iso tc) (fun v v' hv => ?_)
  split
  · exact ⟨⟨forall₂_map_order (f := fun a => monthlyReduce a ax tc) hv.1
      (fun p _ b hb => monthlyReduce_order hb ax tc), rfl⟩, rfl⟩
  · exact rfl

/-- C100 (annual cycle of a dataset). -/
theorem C100_cycle_ds {d d' : DS (Fl ℝ)} (h : TransposedDS d d') (iso : String → Bool) (tc func : String)
    (y : Option Nat) :
    SameOutcome TimedOrderDS (annualCycleDS ⟨d, axes⟩ iso tc func y) (annualCycleDS ⟨d', axes⟩ iso tc func y) := by
  refine SameOutcome.same (x := Timed.axis ⟨d, axes⟩ tc) (fun ax => ?_)
  refine SameOutcome.bind (averagedVars_order h iso tc) (fun v v' hv => SameOutcome.same (fun f => ?_))
  split
  · exact ⟨⟨forall₂_map_order (f := fun a => cycleReduce f a ax tc) hv.1
      (fun p _ b hb => cycleReduce_order hb f ax tc), rfl⟩, rfl⟩
  · exact rfl

/-- C100 (steric with annual averages): the whole of `steric`, `annual` included. -/
theorem C100_steric_annual {d d' : DS (Fl ℝ)} (h : TransposedDS d d') {r r' : RefArg ℝ} (hr : SameRef r r')
    {p p' : DA (Fl ℝ)} (hp : Transposed p p') (c : DictArg) (m : Option (List (String × String)))
    (hm : ∀ l, m = some l → ∀ q ∈ d.vars, (q.2.dimNames.map (fun s => (l.lookup s).getD s)).Nodup)
    (rz : Fl ℝ) (eos variant domain : String) (strict annual : Bool) :
    SameOutcome (fun x y => TimedOrderDS x.1 y.1 ∧ TransposedDS x.2 y.2)
      (stericAnnual ⟨d, axes⟩ r c m rz p eos variant domain strict annual)
      (stericAnnual ⟨d', axes⟩ r' c m rz p' eos variant domain strict annual) := by
  unfold stericAnnual
  refine SameOutcome.bind (C100_steric h hr hp c m hm rz eos variant domain strict) (fun x y hxy => ?_)
  obtain ⟨x1, x2⟩ := x
  obtain ⟨y1, y2⟩ := y
  have hd : ∀ s, x1.dimNames.contains s = y1.dimNames.contains s := by
    intro s
    rw [Bool.eq_iff_iff, List.contains_iff_mem, List.contains_iff_mem, dimNames_mem hxy.1]
  dsimp only
  simp only [hd]
  split
  · exact SameOutcome.bind (C100_annual_ds hxy.1 _ (Or.inl rfl)) (fun _ _ hres => ⟨hres, hxy.2⟩)
  · exact ⟨⟨hxy.1, rfl⟩, hxy.2⟩

end time

section trend

/-- The same array with its labels and attributes, dimensions in another order. -/
structure TrendOrder (a b : TrendArray K) : Prop where
  da : Transposed a.da b.da
  indexes : a.indexes = b.indexes
  attrs : a.attrs = b.attrs

/-- C100 (linear trend). -/
theorem C100_trend {a b : TrendArray K} (h : TrendOrder a b) (dim : String) (units : Option String) :
    SameOutcome (fun x y => TrendOrder x.1 y.1 ∧ TrendOrder x.2 y.2) (calcLinearTrend a dim units)
      (calcLinearTrend b dim units) := by
  unfold calcLinearTrend
  rw [h.indexes, h.attrs]
  refine SameOutcome.same (fun ix => ?_)
  have hp : SameOutcome (fun (x y : DA (Fl K) × DA (Fl K)) => Transposed x.1 y.1 ∧ Transposed x.2 y.2)
      (polyfitCoefficients a dim ix) (polyfitCoefficients b dim ix) := by
    unfold polyfitCoefficients series
    have : a.da.dimNames.contains dim = b.da.dimNames.contains dim := by
      rw [Bool.eq_iff_iff, List.contains_iff_mem, List.contains_iff_mem, h.da.mem]
    rw [this, h.da.get]
    split
    · exact ⟨h.da.filter _ rfl, h.da.filter _ rfl⟩
    · exact rfl
  refine SameOutcome.bind hp (fun x y hxy => ?_)
  obtain ⟨m, q⟩ := x
  obtain ⟨m', q'⟩ := y
  dsimp only
  refine SameOutcome.bind (R := TrendOrder) ?_ (fun _ _ hs => ⟨hs, hxy.2, rfl, rfl⟩)
  unfold scaleSlope
  split
  · exact SameOutcome.same (fun f => ⟨hxy.1.mul (Transposed.scalar _), rfl, rfl⟩)
  · exact ⟨hxy.1, rfl, rfl⟩

/-- C100 (trend line). -/
theorem C100_broadcast {a b : TrendArray K} (h : TrendOrder a b) (axis : Option (AxisArray K)) (sub : Bool) :
    SameOutcome Transposed (broadcastTrend (some a) axis sub) (broadcastTrend (some b) axis sub) := by
  unfold broadcastTrend
  simp only [Option.elim_some, ok_bind]
  refine SameOutcome.same (fun ax => SameOutcome.same (fun _ => SameOutcome.same (fun ix => ?_)))
  refine SameOutcome.bind (R := Transposed) ?_ (fun m m' hm => SameOutcome.same (fun ts => ?_))
  · unfold slopeForIndex slopeToNs
    rw [h.attrs]
    split
    · split
      · exact h.da
      · split
        · exact h.da
        · split
          · exact h.da
          · exact SameOutcome.same (fun f => h.da.mul (Transposed.scalar _))
        · exact rfl
    · exact h.da
  · have hr := hm.mul (Transposed.refl' (a := indexArray (ax.dims.headD "") ts) (by simp [indexArray, DA.dimNames]))
    split
    · unfold subtractFirst
      have : ∀ x, (m * indexArray (ax.dims.headD "") ts).dimNames.contains x
          = (m' * indexArray (ax.dims.headD "") ts).dimNames.contains x := by
        intro x
        rw [Bool.eq_iff_iff, List.contains_iff_mem, List.contains_iff_mem, hr.mem]
      rw [this, hr.size]
      split
      · split
        · exact rfl
        · exact hr.sub (hr.isel _ _)
      · exact rfl
    · exact hr

/-- C100 (detrending). -/
theorem C100_detrend {a b : TrendArray K} (h : TrendOrder a b) (dim : String) (order : Int) (mode : String) :
    SameOutcome TrendOrder (detrendArray a dim order mode) (detrendArray b dim order mode) := by
  unfold detrendArray
  refine SameOutcome.same (fun _ => ?_)
  refine SameOutcome.bind (C100_trend h dim none) (fun x y hxy => ?_)
  obtain ⟨m, q⟩ := x
  obtain ⟨m', q'⟩ := y
  dsimp only
  rw [h.indexes]
  refine SameOutcome.same (fun ix => ?_)
  refine SameOutcome.bind (C100_broadcast hxy.1 _ _) (fun l l' hl => ?_)
  refine SameOutcome.bind (R := Transposed) ?_ (fun f f' hf => ?_)
  · unfold modeFit
    split
    · exact hl.add hxy.2.da
    split
    · exact hl
    · exact rfl
  · rw [h.attrs]
    exact ⟨h.da.sub hf, rfl, rfl⟩

end trend

section examples

/-- The example dataset with every variable in Fortran order. -/
def revD : DS (Fl ℝ) := ⟨exD.vars.map (fun p => (p.1, ⟨p.2.dims.reverse, p.2.get⟩)), exD.coords⟩

theorem revD_order : TransposedDS exD revD := by
  have h : ∀ a : DA (Fl ℝ), a.dimNames.Nodup → Transposed a ⟨a.dims.reverse, a.get⟩ :=
    fun a ha => ⟨(List.reverse_perm _).symm, rfl, ha⟩
  refine ⟨?_, rfl⟩
  unfold revD exD
  simp only [List.map_cons, List.map_nil]
  repeat' first
    | exact List.Forall₂.nil
    | refine List.Forall₂.cons ⟨rfl, h _ (by decide)⟩ ?_

/-- The dimensions really are in another order: (x, y, z, time) instead of (time, z, y, x). -/
example : exD.getVar "thetao" = .ok exT ∧ exT.dims = [("time", 2), ("z_l", 2), ("yh", 2), ("xh", 2)] ∧
    ∃ a, revD.getVar "thetao" = .ok a ∧ a.dims = [("xh", 2), ("yh", 2), ("z_l", 2), ("time", 2)] :=
  ⟨rfl, rfl, _, rfl, rfl⟩

/-- C100 on a run that succeeds: local and global steric heights of the reversed dataset exist and agree. -/
example (domain : String) : ∃ x y, steric exD (domain := domain) = .ok x ∧ steric revD (domain := domain) = .ok y ∧
    TransposedDS x.1 y.1 ∧ TransposedDS x.2 y.2 := by
  obtain ⟨x, hx⟩ := exRun "steric" domain "Wright" (by simp) (Or.inl wright_case)
  have h := C100_steric revD_order SameRef.none (Transposed.scalar (fin 101325)) .none none (by simp) (fin 1035)
    "Wright" "steric" domain true
  rw [hx] at h
  cases hy : steric revD .none .none none (fin 1035) (DA.scalar (fin 101325)) "Wright" "steric" domain true with
  | error e => rw [hy] at h; exact h.elim
  | ok y =>
    rw [hy] at h
    refine ⟨x, y, ?_, ?_, h⟩
    · rw [← hx]; congr 1 <;> simp [ofSci] <;> norm_num
    · rw [← hy]; congr 1 <;> simp [ofSci] <;> norm_num

/-- C101_adjust_partial: (z_l, yh, xh) and (z_l, xh, yh). -/
example : ∃ a b : DA (Fl ℚ), Transposed a b ∧ a.dims ≠ b.dims ∧ a.dims.head? = b.dims.head? :=
  ⟨⟨[("z_l", 3), ("yh", 2), ("xh", 4)], fun e => .fin (e "yh")⟩, ⟨[("z_l", 3), ("xh", 4), ("yh", 2)],
    fun e => .fin (e "yh")⟩, ⟨(List.Perm.swap _ _ _).cons _, rfl, by decide⟩, by decide, rfl⟩

/-- C100_vorticity: the default names of a staggered grid, with the velocities given as (x, y). -/
example : ∃ d d' : DS (Fl ℚ), TransposedDS d d' ∧ (∃ r, calcRelVort d = .ok r) ∧
    (∀ g a b, getXgcmGrid d.dimNames = .ok g → d.getVar "uo" = .ok a → d.getVar "dxCu" = .ok b →
      g.Y.corner ∉ a.dimNames ∧ g.Y.corner ∉ b.dimNames) ∧
    (∀ g a b, getXgcmGrid d.dimNames = .ok g → d.getVar "vo" = .ok a → d.getVar "dyCv" = .ok b →
      g.X.corner ∉ a.dimNames ∧ g.X.corner ∉ b.dimNames) := by
  refine ⟨⟨[("uo", ⟨[("yh", 2), ("xq", 2)], fun e => .fin (e "yh")⟩), ("dxCu", ⟨[("yh", 2), ("xq", 2)], fun _ => .fin 1⟩),
    ("vo", ⟨[("yq", 2), ("xh", 2)], fun e => .fin (e "xh")⟩), ("dyCv", ⟨[("yq", 2), ("xh", 2)], fun _ => .fin 1⟩),
    ("areacello_bu", ⟨[("yq", 2), ("xq", 2)], fun _ => .fin 1⟩)], []⟩,
    ⟨[("uo", ⟨[("xq", 2), ("yh", 2)], fun e => .fin (e "yh")⟩), ("dxCu", ⟨[("xq", 2), ("yh", 2)], fun _ => .fin 1⟩),
    ("vo", ⟨[("xh", 2), ("yq", 2)], fun e => .fin (e "xh")⟩), ("dyCv", ⟨[("xh", 2), ("yq", 2)], fun _ => .fin 1⟩),
    ("areacello_bu", ⟨[("xq", 2), ("yq", 2)], fun _ => .fin 1⟩)], []⟩, ⟨?_, rfl⟩, ⟨_, rfl⟩, ?_, ?_⟩
  · repeat' first
      | exact List.Forall₂.nil
      | refine List.Forall₂.cons ⟨rfl, List.Perm.swap _ _ _, rfl, by decide⟩ ?_
  · intro g a b hg ha hb
    cases hg; cases ha; cases hb
    decide
  · intro g a b hg ha hb
    cases hg; cases ha; cases hb
    decide

/-- A year of two levels in two columns, as (time, z_l, xh) … -/
noncomputable def ordA : DA (Fl ℝ) := ⟨[("time", 12), ("z_l", 2), ("xh", 2)], fun e => fin (10 - e "z_l" + e "xh" + e "time")⟩

/-- … and as (xh, z_l, time). -/
noncomputable def ordB : DA (Fl ℝ) := ⟨ordA.dims.reverse, ordA.get⟩

theorem ordAB : Transposed ordA ordB := ⟨(List.reverse_perm _).symm, rfl, by decide⟩

/-- `C100_eos`, `C100_pdens`, `C100_barometer`: density exists for both orders and is the same. -/
example : ∃ r r', calcRho ordA ordA ordA = .ok r ∧ calcRho ordB ordB ordB = .ok r' ∧ Transposed r r' ∧
    r.dims = [("time", 12), ("z_l", 2), ("xh", 2)] ∧ r'.dims = [("xh", 2), ("z_l", 2), ("time", 12)] := by
  have h := (C100_eos "Wright" ordAB ordAB ordAB).1
  have e := wright_eos wright_case
  simp only [calcRho, applyEos, e, ok_bind] at h ⊢
  exact ⟨_, _, rfl, rfl, h, rfl, rfl⟩

/-- `C100_sums`. -/
example : Transposed (calcMasso ordA ordA) (calcMasso ordB ordB) ∧ Transposed (calcRhoga ordA ordA) (calcRhoga ordB ordB) :=
  ⟨(C100_sums "time" ordAB ordAB).1, (C100_sums "time" ordAB ordAB).2.2⟩

/-- `C100_dz`: levels and interfaces have one dimension, the depth map is turned. -/
example (top : ℝ) : SameOutcome Transposed
    (calcDz (⟨[("z_l", 2)], fun e => fin (10 * e "z_l" + 5)⟩ : DA (Fl ℝ)) ⟨[("z_i", 3)], fun e => fin (10 * e "z_i")⟩
      ⟨[("yh", 2), ("xh", 3)], fun e => fin (7 * e "yh" + e "xh")⟩ (fin top) none false)
    (calcDz ⟨[("z_l", 2)], fun e => fin (10 * e "z_l" + 5)⟩ ⟨[("z_i", 3)], fun e => fin (10 * e "z_i")⟩
      ⟨[("xh", 3), ("yh", 2)], fun e => fin (7 * e "yh" + e "xh")⟩ (fin top) none false) := by
  apply C100_dz
  · exact ⟨.rfl, rfl, by decide⟩
  · exact ⟨.rfl, rfl, by decide⟩
  · exact ⟨.swap _ _ _, rfl, by decide⟩

/-- `C100_rotation`. -/
example : Transposed (calcCoriolis ordA) (calcCoriolis ordB) := (C100_rotation ordAB ordAB ordAB).1

/-- `C100_n2`, `C100_n2_interfaces`: the interfaces are no dimension of the data. -/
example : ordA.dims ≠ ordB.dims ∧ "z_i" ∉ ordA.dimNames ∧
    SameOutcome Transposed (calcN2 ordA ordA (fun k => fin (10 * k + 5)) "Wright" (fin (-9.8)) ordA "z_l" false)
      (calcN2 ordB ordB (fun k => fin (10 * k + 5)) "Wright" (fin (-9.8)) ordB "z_l" false) :=
  ⟨by simp [ordA, ordB], by decide, C100_n2 _ _ _ _ ordAB ordAB ordAB⟩

/-- `C100_stability`: both orders give an angle. -/
example : SameOutcome Transposed (calcStabilityAngle ordA ordA ordA (fun k => fin (10 * k + 5)))
    (calcStabilityAngle ordB ordB ordB (fun k => fin (10 * k + 5))) :=
  C100_stability _ _ _ ordAB ordAB ordAB

/-- The levels first, the columns in either order: `C101_wave_partial`, `C101_n2_adjusted_partial`. -/
example : ∃ r r', calcWaveSpeed (⟨[("z_l", 2), ("yh", 2), ("xh", 3)], fun e => fin (e "yh" + 1)⟩ : DA (Fl ℝ))
      ⟨[("z_l", 2), ("yh", 2), ("xh", 3)], fun _ => fin 10⟩ "z_l" = .ok r ∧
    calcWaveSpeed (⟨[("z_l", 2), ("xh", 3), ("yh", 2)], fun e => fin (e "yh" + 1)⟩ : DA (Fl ℝ))
      ⟨[("z_l", 2), ("xh", 3), ("yh", 2)], fun _ => fin 10⟩ "z_l" = .ok r' ∧ Transposed r r' := by
  have h := C101_wave_partial (n2 := ⟨[("z_l", 2), ("yh", 2), ("xh", 3)], fun e => fin (e "yh" + 1)⟩)
    (n2' := ⟨[("z_l", 2), ("xh", 3), ("yh", 2)], fun e => fin (e "yh" + 1)⟩)
    (dz := ⟨[("z_l", 2), ("yh", 2), ("xh", 3)], fun _ => fin 10⟩)
    (dz' := ⟨[("z_l", 2), ("xh", 3), ("yh", 2)], fun _ => fin 10⟩)
    ⟨(List.Perm.swap _ _ _).cons _, rfl, by decide⟩ rfl ⟨(List.Perm.swap _ _ _).cons _, rfl, by decide⟩ "z_l"
  exact ⟨_, _, rfl, rfl, h⟩

/-- `C100_pv`: vorticity at the corners, `n2` at the centres. -/
example : ∃ r r', calcPv (⟨[("yq", 2), ("xq", 3)], fun e => fin (e "yq")⟩ : DA (Fl ℝ))
      ⟨[("yq", 2), ("xq", 3)], fun _ => fin 1⟩ ⟨[("yh", 2), ("xh", 3)], fun _ => fin 1⟩ = .ok r ∧
    calcPv (⟨[("xq", 3), ("yq", 2)], fun e => fin (e "yq")⟩ : DA (Fl ℝ))
      ⟨[("xq", 3), ("yq", 2)], fun _ => fin 1⟩ ⟨[("xh", 3), ("yh", 2)], fun _ => fin 1⟩ = .ok r' ∧
    Transposed r r' := by
  have h := C100_pv (ze := (⟨[("yq", 2), ("xq", 3)], fun e => fin (e "yq")⟩ : DA (Fl ℝ)))
    (ze' := ⟨[("xq", 3), ("yq", 2)], fun e => fin (e "yq")⟩)
    (f := ⟨[("yq", 2), ("xq", 3)], fun _ => fin 1⟩) (f' := ⟨[("xq", 3), ("yq", 2)], fun _ => fin 1⟩)
    (n2 := ⟨[("yh", 2), ("xh", 3)], fun _ => fin 1⟩) (n2' := ⟨[("xh", 3), ("yh", 2)], fun _ => fin 1⟩)
    ⟨.swap _ _ _, rfl, by decide⟩ ⟨.swap _ _ _, rfl, by decide⟩ ⟨.swap _ _ _, rfl, by decide⟩
    (9.8 : Fl ℝ) none false true "m" (by
      intro gr hg
      cases hg
      decide)
  exact ⟨_, _, rfl, rfl, h⟩

/-- Twelve monthly times. -/
def ordAxes : List (String × TimeAxis) :=
  [("time", ⟨.noleap, (List.range 12).map (fun k => ⟨⟨2004, k + 1, 15⟩, 0⟩)⟩)]

/-- `C100_annual`, `C100_monthly`, `C100_cycle`: the averages of both orders exist and agree. -/
example : ∃ r r', annualAverage (⟨ordA, ordAxes⟩ : Timed (DA (Fl ℝ))) "time" = .ok r ∧
    annualAverage ⟨ordB, ordAxes⟩ "time" = .ok r' ∧ TimedOrder r r' := by
  have h := C100_annual (axes := ordAxes) ordAB (tc := "time") (Or.inl rfl)
  exact ⟨_, _, rfl, rfl, h⟩

example : SameOutcome TimedOrder (monthlyAverage ⟨ordA, ordAxes⟩ "time") (monthlyAverage ⟨ordB, ordAxes⟩ "time") ∧
    SameOutcome TimedOrder (annualCycle ⟨ordA, ordAxes⟩ "time" "max" none)
      (annualCycle ⟨ordB, ordAxes⟩ "time" "max" none) :=
  ⟨C100_monthly ordAB _, C100_cycle ordAB _ _ _⟩

/-- `C100_annual_ds`, `C100_monthly_ds`, `C100_cycle_ds` and `C100_steric_annual`: the reversed example dataset. -/
example : (∀ p ∈ exD.vars, "year" ∉ p.2.dimNames) ∧
    SameOutcome TimedOrderDS (annualAverageDS ⟨exD, ordAxes⟩ (fun _ => false) "time")
      (annualAverageDS ⟨revD, ordAxes⟩ (fun _ => false) "time") ∧
    SameOutcome TimedOrderDS (monthlyAverageDS ⟨exD, ordAxes⟩ (fun _ => false) "time")
      (monthlyAverageDS ⟨revD, ordAxes⟩ (fun _ => false) "time") ∧
    SameOutcome TimedOrderDS (annualCycleDS ⟨exD, ordAxes⟩ (fun _ => false) "time" "min" none)
      (annualCycleDS ⟨revD, ordAxes⟩ (fun _ => false) "time" "min" none) :=
  ⟨by decide, C100_annual_ds revD_order _ (Or.inl rfl), C100_monthly_ds revD_order _ _,
    C100_cycle_ds revD_order _ _ _ _⟩

/-- `C100_steric_annual` with `annual=True`. -/
example : SameOutcome (fun x y => TimedOrderDS x.1 y.1 ∧ TransposedDS x.2 y.2)
    (stericAnnual ⟨exD, ordAxes⟩ .none .none none (fin 1035) (DA.scalar (fin 101325)) "Wright" "steric" "local" true true)
    (stericAnnual ⟨revD, ordAxes⟩ .none .none none (fin 1035) (DA.scalar (fin 101325)) "Wright" "steric" "local" true
      true) :=
  C100_steric_annual revD_order SameRef.none (Transposed.scalar _) _ none (by simp) _ _ _ _ _ _

/-- `C100_trend`: the slope of a series stored as (time, xh) and as (xh, time). -/
example : ∃ r r', calcLinearTrend (⟨⟨[("time", 3), ("xh", 2)], fun e => fin (e "time" * e "xh")⟩,
      [("time", .numeric [0, 1, 2])], []⟩ : TrendArray ℝ) "time" none = .ok r ∧
    calcLinearTrend (⟨⟨[("xh", 2), ("time", 3)], fun e => fin (e "time" * e "xh")⟩,
      [("time", .numeric [0, 1, 2])], []⟩ : TrendArray ℝ) "time" none = .ok r' ∧
    TrendOrder r.1 r'.1 := by
  have h := C100_trend (a := (⟨⟨[("time", 3), ("xh", 2)], fun e => fin (e "time" * e "xh")⟩,
      [("time", .numeric [0, 1, 2])], []⟩ : TrendArray ℝ))
    (b := ⟨⟨[("xh", 2), ("time", 3)], fun e => fin (e "time" * e "xh")⟩,
      [("time", .numeric [0, 1, 2])], []⟩) ⟨⟨.swap _ _ _, rfl, by decide⟩, rfl, rfl⟩ "time" none
  exact ⟨_, _, rfl, rfl, h.1⟩

end examples

end Momlevel.Props
