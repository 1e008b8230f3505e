import Verif.Lemmas.Interp
import Verif.Props.N2
import Verif.Lemmas.Steric

/-! # C90: buoyancy frequency on cell interfaces -/

set_option linter.unusedSectionVars false

namespace Momlevel.Props
open Momlevel Momlevel.Fl Momlevel.Eos

variable {K : Type} [Field K] [LinearOrder K] [IsStrictOrderedRing K]

/-- A column through position `e` (of the result): temperature `T` and salinity `S` at the increasing
depths `x` of `n ≥ 2` levels, to be evaluated at the increasing depths `v` of `m ≥ 3` interfaces along a
new dimension `name`. -/
structure EdgeColumn (th so : DA (Fl K)) (z : Nat → Fl K) (zc name : String) (w : Nat → Fl K) (e : Env)
    (n m : Nat) (x T S v : Nat → K) : Prop where
  hn : 2 ≤ n
  hm : 3 ≤ m
  incr : ∀ a b, a < b → b < n → x a < x b
  vinj : Set.InjOn v (Set.Iio m)
  hz : z = fun k => fin (x k)
  hw : w = fun k => fin (v k)
  tz : zc ∈ th.dimNames
  sz : zc ∈ so.dimNames
  tn : th.size zc = n
  sn : so.size zc = n
  tname : name ∉ th.dimNames
  sname : name ∉ so.dimNames
  hT : ∀ i < m, ∀ k < n, th.get (Function.update (Function.update e name i) zc k) = fin (T k)
  hS : ∀ i < m, ∀ k < n, so.get (Function.update (Function.update e name i) zc k) = fin (S k)
  he : e name < m

/-- The interpolated column at interface `i`. -/
theorem transform_get {a : DA (Fl K)} {zc name : String} {e : Env} {n m : Nat} {x f v : Nat → K}
    (hn : 2 ≤ n) (hs : a.size zc = n)
    (hf : ∀ i < m, ∀ k < n, a.get (Function.update (Function.update e name i) zc k) = fin (f k))
    {i : Nat} (hi : i < m) :
    (gridTransform a zc (fun k => fin (x k)) name m (fun k => fin (v k))).get (Function.update e name i)
      = interpMasked n (fun k => fin (x k)) (fun k => fin (f k)) (fin (v i)) := by
  simp only [gridTransform, hs, Function.update_self]
  exact interpMasked_congr (by omega) _ (hf i hi) _

/-- The pieces of `calc_n2` on interfaces, for any installed xgcm that transforms. -/
theorem edge_run {th so : DA (Fl K)} {z w : Nat → Fl K} {zc name : String} {e : Env} {n m : Nat}
    {x T S v : Nat → K} (c : EdgeColumn th so z zc name w e n m x T S v) {eos : String}
    {fa fb : EosFn (Fl K)}
    (ha : eosFuncFromStr eos "alpha" = .ok fa) (hb : eosFuncFromStr eos "beta" = .ok fb)
    (g : Fl K) (patm : DA (Fl K)) (hpd : ∀ p ∈ patm.dims, p.1 ∈ th.dimNames ∧ p.1 ≠ zc) :
    let IT : Nat → Fl K := fun i => interpMasked n z (fun k => fin (T k)) (w i)
    let IS : Nat → Fl K := fun i => interpMasked n z (fun k => fin (S k)) (w i)
    ∃ r, calcN2Interfaces false th so z name m w eos g patm zc = .ok r ∧
      r.get e = g * (fa (IT (e name)) (IS (e name)) (w (e name) * (1.0e4 : Fl K) + patm.get e)
            * npGradient m w IT (e name)
        - fb (IT (e name)) (IS (e name)) (w (e name) * (1.0e4 : Fl K) + patm.get e)
            * npGradient m w IS (e name)) := by
  intro IT IS
  obtain ⟨hn, hm, incr, vinj, rfl, rfl, tz, sz, tn, sn, tname, sname, hT, hS, he⟩ := c
  set th' := gridTransform th zc (fun k => fin (x k)) name m (fun k => fin (v k)) with hth
  set so' := gridTransform so zc (fun k => fin (x k)) name m (fun k => fin (v k)) with hso
  have nt : name ∈ th'.dimNames := mem_dimNames_transform.2 (Or.inr rfl)
  have ns : name ∈ so'.dimNames := mem_dimNames_transform.2 (Or.inr rfl)
  have st : th'.size name = m := size_transform tname
  have ss : so'.size name = m := size_transform sname
  have gT : ∀ i < m, th'.get (Function.update e name i) = IT i := fun i hi =>
    transform_get hn tn hT hi
  have gS : ∀ i < m, so'.get (Function.update e name i) = IS i := fun i hi =>
    transform_get hn sn hS hi
  have dT : differentiate th' name (fun k => fin (v k)) = .ok ⟨th'.dims, fun e =>
      npGradient (th'.size name) (fun k => fin (v k)) (fun k => th'.get (Function.update e name k))
        (e name)⟩ := by
    have : ¬ th'.size name < 3 := by omega
    simp only [differentiate, if_pos nt, if_neg this]
  have dS : differentiate so' name (fun k => fin (v k)) = .ok ⟨so'.dims, fun e =>
      npGradient (so'.size name) (fun k => fin (v k)) (fun k => so'.get (Function.update e name k))
        (e name)⟩ := by
    have : ¬ so'.size name < 3 := by omega
    simp only [differentiate, if_pos ns, if_neg this]
  have hc : coordArray th' name (fun k => fin (v k))
      = .ok ⟨[(name, th'.size name)], fun e => fin (v (e name))⟩ := by
    simp only [coordArray, if_pos nt]
  have hpres : ∀ p ∈ ((⟨[(name, th'.size name)], fun e => fin (v (e name))⟩ : DA (Fl K))
      * DA.scalar (1.0e4 : Fl K) + patm).dims, p.1 ∈ th'.dimNames := by
    intro p hp
    rcases DA.mem_bdims hp with h | h
    · rcases DA.mem_bdims h with h | h
      · simp only [List.mem_singleton] at h
        subst h; exact nt
      · simp at h
    · exact mem_dimNames_transform.2 (Or.inl (hpd p h))
  have eT := gT (e name) he
  have eS := gS (e name) he
  rw [Function.update_eq_self] at eT eS
  refine ⟨_, by
    have h1 : ¬ (zc ∉ th.dimNames ∧ zc ∉ so.dimNames) := fun h => h.1 tz
    have h2 : ¬ (zc ∉ th.dimNames ∨ zc ∉ so.dimNames) := by
      rintro (h | h)
      · exact h tz
      · exact h sz
    simp only [calcN2Interfaces, if_neg h1, if_neg h2, Bool.false_eq_true, if_false]
    simp only [calcN2, ← hth, ← hso, hc, ok_bind, calcAlpha, calcBeta, applyEos_ok ha th' so' _ hpres,
      applyEos_ok hb th' so' _ hpres, dT, dS, Bool.false_eq_true, if_false]
    rfl, ?_⟩
  simp only [DA.get_map, DA.get_sub, DA.get_mul, DA.get_zip3, DA.get_add, DA.get_scalar, eT, eS, st, ss]
  rw [npGradient_congr hm _ gT he, npGradient_congr hm _ gS he]

/-- Where the three interfaces used by the finite difference lie within the range of the levels: `N²`
at the interface is `g (α T_z - β S_z)` of the linearly interpolated columns `T'`, `S'`. -/
theorem C90_value {th so : DA (Fl K)} {z w : Nat → Fl K} {zc name : String} {e : Env} {n m : Nat}
    {x T S v : Nat → K} (c : EdgeColumn th so z zc name w e n m x T S v) {eos : String}
    {fa fb : EosFn (Fl K)}
    (ha : eosFuncFromStr eos "alpha" = .ok fa) (hb : eosFuncFromStr eos "beta" = .ok fb)
    (g : K) (patm : DA (Fl K)) (hpd : ∀ p ∈ patm.dims, p.1 ∈ th.dimNames ∧ p.1 ≠ zc) (p0 : K)
    (hp : patm.get e = fin p0) (T' S' : Nat → K)
    (hT' : ∀ k, Spec.stencil m (e name) ≤ k → k ≤ Spec.stencil m (e name) + 2 →
      Spec.InterpAt n x T (v k) (T' k))
    (hS' : ∀ k, Spec.stencil m (e name) ≤ k → k ≤ Spec.stencil m (e name) + 2 →
      Spec.InterpAt n x S (v k) (S' k)) :
    ∃ r, calcN2Interfaces false th so z name m w eos (fin g) patm zc = .ok r ∧
      r.get e = fin g *
        (fa (fin (T' (e name))) (fin (S' (e name))) (fin (v (e name) * 10 ^ 4 + p0))
            * fin (Spec.derivAt m v T' (e name))
        - fb (fin (T' (e name))) (fin (S' (e name))) (fin (v (e name) * 10 ^ 4 + p0))
            * fin (Spec.derivAt m v S' (e name))) := by
  obtain ⟨r, h1, h2⟩ := edge_run c ha hb (fin g) patm hpd
  refine ⟨r, h1, ?_⟩
  have hst : Spec.stencil m (e name) ≤ e name ∧ e name ≤ Spec.stencil m (e name) + 2 := by
    have := c.he; have := c.hm
    unfold Spec.stencil
    split_ifs <;> omega
  have gT : npGradient m w (fun i => interpMasked n z (fun k => fin (T k)) (w i)) (e name)
      = fin (Spec.derivAt m v T' (e name)) := by
    rw [npGradient_local c.hm w (g := fun k => fin (T' k)) (fun k k1 k2 => by
      rw [c.hw, c.hz]; exact interp_inside c.incr (hT' k k1 k2)), c.hw]
    exact npGradient_eq c.hm c.vinj T' c.he
  have gS : npGradient m w (fun i => interpMasked n z (fun k => fin (S k)) (w i)) (e name)
      = fin (Spec.derivAt m v S' (e name)) := by
    rw [npGradient_local c.hm w (g := fun k => fin (S' k)) (fun k k1 k2 => by
      rw [c.hw, c.hz]; exact interp_inside c.incr (hS' k k1 k2)), c.hw]
    exact npGradient_eq c.hm c.vinj S' c.he
  have iT : interpMasked n z (fun k => fin (T k)) (w (e name)) = fin (T' (e name)) := by
    rw [c.hw, c.hz]; exact interp_inside c.incr (hT' _ hst.1 hst.2)
  have iS : interpMasked n z (fun k => fin (S k)) (w (e name)) = fin (S' (e name)) := by
    rw [c.hw, c.hz]; exact interp_inside c.incr (hS' _ hst.1 hst.2)
  have h4 : (1.0e4 : Fl K) = fin (10 ^ 4) := by rw [ofSci]; norm_num
  simp only [h2, gT, gS, iT, iS, hp, h4]
  simp only [c.hw, fin_mul, fin_add]

/-- Temperature and salinity that are linear in depth: at such interfaces the derivatives are exact. -/
theorem C90_linear_profile {th so : DA (Fl K)} {z w : Nat → Fl K} {zc name : String} {e : Env}
    {n m : Nat} {x T S v : Nat → K} (c : EdgeColumn th so z zc name w e n m x T S v) {eos : String}
    {fa fb : EosFn (Fl K)}
    (ha : eosFuncFromStr eos "alpha" = .ok fa) (hb : eosFuncFromStr eos "beta" = .ok fb)
    (g : K) (patm : DA (Fl K)) (hpd : ∀ p ∈ patm.dims, p.1 ∈ th.dimNames ∧ p.1 ≠ zc) (p0 : K)
    (hp : patm.get e = fin p0) (T0 T1 S0 S1 : K) (hT : ∀ k, T k = T0 + T1 * x k)
    (hS : ∀ k, S k = S0 + S1 * x k)
    (hin : ∀ k, Spec.stencil m (e name) ≤ k → k ≤ Spec.stencil m (e name) + 2 →
      x 0 ≤ v k ∧ v k ≤ x (n - 1)) :
    ∃ r, calcN2Interfaces false th so z name m w eos (fin g) patm zc = .ok r ∧
      r.get e = fin g *
        (fa (fin (T0 + T1 * v (e name))) (fin (S0 + S1 * v (e name))) (fin (v (e name) * 10 ^ 4 + p0))
            * fin T1
        - fb (fin (T0 + T1 * v (e name))) (fin (S0 + S1 * v (e name))) (fin (v (e name) * 10 ^ 4 + p0))
            * fin S1) := by
  have key : ∀ (y : K), x 0 ≤ y → y ≤ x (n - 1) → ∃ k, k + 1 < n ∧ x k ≤ y ∧ y ≤ x (k + 1) := by
    intro y hy0 hy1
    have hn := c.hn
    by_contra hne
    have all : ∀ k, k < n → x k ≤ y := by
      intro k
      induction k with
      | zero => exact fun _ => hy0
      | succ k ih =>
        intro hk
        by_contra hlt
        exact hne ⟨k, hk, ih (by omega), (not_le.1 hlt).le⟩
    refine hne ⟨n - 2, by omega, all _ (by omega), ?_⟩
    rw [show n - 2 + 1 = n - 1 by omega]
    exact hy1
  have lin : ∀ (a b y : K) (f : Nat → K), (∀ k, f k = a + b * x k) → x 0 ≤ y → y ≤ x (n - 1) →
      Spec.InterpAt n x f y (a + b * y) := by
    intro a b y f hf h0 h1
    obtain ⟨k, k1, k2, k3⟩ := key y h0 h1
    refine ⟨k, k1, k2, k3, ?_⟩
    have : x (k + 1) - x k ≠ 0 := (sub_pos.2 (c.incr k (k + 1) (by omega) k1)).ne'
    rw [hf, hf]
    field_simp
    ring
  obtain ⟨r, h1, h2⟩ := C90_value c ha hb g patm hpd p0 hp (fun k => T0 + T1 * v k)
    (fun k => S0 + S1 * v k) (fun k k1 k2 => lin _ _ _ _ hT (hin k k1 k2).1 (hin k k1 k2).2)
    (fun k k1 k2 => lin _ _ _ _ hS (hin k k1 k2).1 (hin k k1 k2).2)
  refine ⟨r, h1, ?_⟩
  have d : ∀ a b : K, Spec.derivAt m v (fun k => a + b * v k) (e name) = b := by
    intro a b
    have := derivAt_quadratic c.hm c.vinj c.he a b 0
    simpa using this
  rw [h2, d, d]

/-- Where an interface used by the finite difference lies outside the range of the levels, the result
is missing. -/
theorem C90_missing {th so : DA (Fl K)} {z w : Nat → Fl K} {zc name : String} {e : Env} {n m : Nat}
    {x T S v : Nat → K} (c : EdgeColumn th so z zc name w e n m x T S v) {eos : String}
    {fa fb : EosFn (Fl K)}
    (ha : eosFuncFromStr eos "alpha" = .ok fa) (hb : eosFuncFromStr eos "beta" = .ok fb)
    (g : Fl K) (patm : DA (Fl K)) (hpd : ∀ p ∈ patm.dims, p.1 ∈ th.dimNames ∧ p.1 ≠ zc) (j : Nat)
    (hj : Spec.stencil m (e name) ≤ j ∧ j ≤ Spec.stencil m (e name) + 2)
    (hje : j ≠ e name ∨ e name = 0 ∨ e name + 1 = m) (hout : v j < x 0 ∨ x (n - 1) < v j) :
    ∃ r, calcN2Interfaces false th so z name m w eos g patm zc = .ok r ∧ r.get e = nan := by
  obtain ⟨r, h1, h2⟩ := edge_run c ha hb g patm hpd
  refine ⟨r, h1, ?_⟩
  have gT : npGradient m w (fun i => interpMasked n z (fun k => fin (T k)) (w i)) (e name) = nan :=
    npGradient_nan c.hm w c.he hj hje (by rw [c.hw, c.hz]; exact interp_outside x _ hout)
  rw [h2, gT]
  simp

/-- On the grid of a model, whose levels lie between the first and the last interface: two interfaces
at the top and two at the bottom are missing. -/
theorem C90_edges {th so : DA (Fl K)} {z w : Nat → Fl K} {zc name : String} {e : Env} {n m : Nat}
    {x T S v : Nat → K} (c : EdgeColumn th so z zc name w e n m x T S v) {eos : String}
    {fa fb : EosFn (Fl K)}
    (ha : eosFuncFromStr eos "alpha" = .ok fa) (hb : eosFuncFromStr eos "beta" = .ok fb)
    (g : Fl K) (patm : DA (Fl K)) (hpd : ∀ p ∈ patm.dims, p.1 ∈ th.dimNames ∧ p.1 ≠ zc)
    (htop : v 0 < x 0) (hbot : x (n - 1) < v (m - 1))
    (hi : e name ≤ 1 ∨ m ≤ e name + 2) :
    ∃ r, calcN2Interfaces false th so z name m w eos g patm zc = .ok r ∧ r.get e = nan := by
  have hm := c.hm
  have he := c.he
  rcases hi with hi | hi
  · refine C90_missing c ha hb g patm hpd (if e name + 1 = m then m - 1 else 0) ?_ ?_ ?_
    · unfold Spec.stencil; split_ifs <;> omega
    · split_ifs <;> omega
    · split_ifs
      · exact Or.inr hbot
      · exact Or.inl htop
  · refine C90_missing c ha hb g patm hpd (if e name = 0 then 0 else m - 1) ?_ ?_ ?_
    · unfold Spec.stencil; split_ifs <;> omega
    · split_ifs <;> omega
    · split_ifs
      · exact Or.inl htop
      · exact Or.inr hbot

/-- A release of xgcm that refuses to transform along a periodic axis: always a ValueError. -/
theorem C90_refused (th so : DA (Fl K)) (z : Nat → Fl K) (name : String) (m : Nat) (w : Nat → Fl K)
    (eos : String) (g : Fl K) (patm : DA (Fl K)) (zc : String) (adj : Bool) :
    calcN2Interfaces true th so z name m w eos g patm zc adj = .error .valueError := by
  unfold calcN2Interfaces
  split_ifs <;> simp_all

/-- Interfaces and adjustment of negative values cannot be combined: the adjustment looks for the
dimension `z_l`, which the interpolation has replaced. -/
theorem C90_adjust (refuses : Bool) (th so : DA (Fl K)) (z : Nat → Fl K) (name : String) (m : Nat)
    (w : Nat → Fl K) (eos : String) (g : Fl K) (patm : DA (Fl K)) (hname : name ≠ "z_l")
    (hp : "z_l" ∉ patm.dimNames) (r : DA (Fl K)) :
    calcN2Interfaces refuses th so z name m w eos g patm "z_l" true ≠ .ok r := by
  intro h
  cases refuses with
  | true => rw [C90_refused] at h; cases h
  | false =>
    unfold calcN2Interfaces at h
    split_ifs at h with h1 h2 h3
    · set th' := gridTransform th "z_l" z name m w with hth
      set so' := gridTransform so "z_l" z name m w with hso
      have nt : "z_l" ∉ th'.dimNames := by
        rw [hth, mem_dimNames_transform]
        rintro (⟨-, h⟩ | h)
        · exact h rfl
        · exact hname h.symm
      have ns : "z_l" ∉ so'.dimNames := by
        rw [hso, mem_dimNames_transform]
        rintro (⟨-, h⟩ | h)
        · exact h rfl
        · exact hname h.symm
      have hb : ∀ {a b : List (String × Nat)}, "z_l" ∉ a.map Prod.fst → "z_l" ∉ b.map Prod.fst →
          "z_l" ∉ (DA.bdims a b).map Prod.fst := by
        intro a b ha hb hab
        obtain ⟨p, hp, hpe⟩ := List.mem_map.1 hab
        rcases DA.mem_bdims hp with h | h
        · exact ha (hpe ▸ List.mem_map_of_mem h)
        · exact hb (hpe ▸ List.mem_map_of_mem h)
      simp only [calcN2, bind_ok, calcAlpha, calcBeta] at h
      obtain ⟨zc, k1, al, k2, be, k3, dt, k4, ds, k5, k6⟩ := h
      have zn : "z_l" ∉ zc.dims.map Prod.fst := by
        unfold coordArray at k1
        split_ifs at k1
        cases k1
        simpa using hname.symm
      have pn : "z_l" ∉ (zc * DA.scalar (1.0e4 : Fl K) + patm).dims.map Prod.fst :=
        hb (hb zn (by simp)) hp
      have en : ∀ {fn : String} {a : DA (Fl K)},
          applyEos eos fn th' so' (zc * DA.scalar (1.0e4 : Fl K) + patm) = .ok a →
          "z_l" ∉ a.dims.map Prod.fst := by
        intro fn a ha
        simp only [applyEos, bind_ok] at ha
        obtain ⟨f, -, ha⟩ := ha
        split_ifs at ha
        rw [pure_ok] at ha
        subst ha
        exact hb (hb nt ns) pn
      have dn : ∀ {a b : DA (Fl K)}, differentiate a name w = .ok b → "z_l" ∉ a.dimNames →
          "z_l" ∉ b.dims.map Prod.fst := by
        intro a b hab ha
        unfold differentiate at hab
        split_ifs at hab
        cases hab
        exact ha
      have n2n : "z_l" ∉ ((al * dt - be * ds).map (fun x => g * x)).dims.map Prod.fst :=
        hb (hb (en k2) (dn k4 nt)) (hb (en k3) (dn k5 ns))
      simp only [if_true] at k6
      revert k6 n2n
      generalize (al * dt - be * ds).map (fun x => g * x) = N
      intro n2n k6
      simp only [adjustNegativeN2, bind_ok] at k6
      obtain ⟨A, q1, B, q2, -⟩ := k6
      unfold ffill at q2
      split_ifs at q2 with q3
      apply n2n
      unfold fillFirst at q1
      split at q1
      · cases q1
      · split_ifs at q1
        cases q1
        exact q3

/-! ### A concrete column: levels 5, 15, 25, 35 m and interfaces 0, 10, 20, 30, 40 m -/

def exEdgeTh : DA (Fl ℚ) := ⟨[("z_l", 4), ("x", 1)], fun e => fin (20 - ((10 * e "z_l" + 5 : Nat) : ℚ) / 5)⟩
def exEdgeSo : DA (Fl ℚ) := ⟨[("z_l", 4), ("x", 1)], fun _ => fin 35⟩
def exEdgeX : Nat → ℚ := fun k => ((10 * k + 5 : Nat) : ℚ)
def exEdgeV : Nat → ℚ := fun k => ((10 * k : Nat) : ℚ)

theorem exEdge (i : Nat) (hi : i < 5) : EdgeColumn exEdgeTh exEdgeSo (fun k => fin (exEdgeX k)) "z_l" "z_i"
    (fun k => fin (exEdgeV k)) (fun _ => i) 4 5 exEdgeX (fun k => 20 + (-(1 / 5)) * exEdgeX k)
    (fun k => 35 + 0 * exEdgeX k) exEdgeV := by
  refine ⟨by norm_num, by norm_num, ?_, ?_, rfl, rfl, by simp [exEdgeTh, DA.dimNames],
    by simp [exEdgeSo, DA.dimNames], rfl, rfl, by simp [exEdgeTh, DA.dimNames],
    by simp [exEdgeSo, DA.dimNames], ?_, ?_, hi⟩
  · intro a b hab _
    simp only [exEdgeX, Nat.cast_lt]; omega
  · intro a _ b _ hab
    simp only [exEdgeV, Nat.cast_inj] at hab; omega
  · intro i _ k _
    simp only [exEdgeTh, Function.update_self, exEdgeX]
    congr 1; ring
  · intro i _ k _
    simp [exEdgeSo]

/-- The middle interface has a value (positive: colder water below). -/
theorem exEdge_value : ∃ r, calcN2Interfaces false exEdgeTh exEdgeSo (fun k => fin (exEdgeX k)) "z_i" 5
    (fun k => fin (exEdgeV k)) "linear" (fin (-(49 / 5))) (DA.scalar (fin 101325)) "z_l" = .ok r ∧
    r.get (fun _ => 2) = fin (49 / 5 * (1 / 25) / linRho 16 35) := by
  have hl : pyLower "linear" = "linear".toList := (pyLower_linear _).2 ((pyLower_linear _).1 rfl)
  have ha : eosFuncFromStr "linear" "alpha" = .ok (fun T S p : Fl ℚ => Linear.alpha T S p) := by
    simp only [eosFuncFromStr, hl, if_true]; rfl
  have hb : eosFuncFromStr "linear" "beta" = .ok (fun T S p : Fl ℚ => Linear.beta T S p) := by
    simp only [eosFuncFromStr, hl, if_true]; rfl
  obtain ⟨r, h1, h2⟩ := C90_linear_profile (exEdge 2 (by norm_num)) ha hb (-(49 / 5))
    (DA.scalar (fin 101325)) (by simp) 101325 rfl 20 (-(1 / 5)) 35 0 (fun _ => rfl) (fun _ => rfl) (by
      intro k k1 k2
      simp only [Spec.stencil, exEdgeV, exEdgeX] at k1 k2 ⊢
      norm_num at k1 k2
      constructor <;> · norm_cast; omega)
  refine ⟨r, h1, ?_⟩
  have hv : exEdgeV 2 = 20 := by norm_num [exEdgeV]
  rw [h2]
  simp only [hv]
  rw [show (20 + -(1 / 5) * 20 : ℚ) = 16 by norm_num, show (35 + 0 * 20 : ℚ) = 35 by norm_num]
  rw [(linear_coeffs _ _ _ (by norm_num [linRho])).1, (linear_coeffs _ _ _ (by norm_num [linRho])).2]
  simp only [fin_mul, fin_sub]
  congr 1
  norm_num [linRho]

/-- The full claim, that `N²` is calculated on the cell edges (every edge between two levels with data
gets a value), is false: the edge between the first two levels has none. -/
theorem C90_counterexample : ¬ ∀ (th so : DA (Fl ℚ)) (z w : Nat → Fl ℚ) (zc name : String) (e : Env)
    (n m : Nat) (x T S v : Nat → ℚ), EdgeColumn th so z zc name w e n m x T S v →
    x 0 < v (e name) → v (e name) < x (n - 1) → ∃ r N,
    calcN2Interfaces false th so z name m w "linear" (fin (-(49 / 5))) (DA.scalar (fin 101325)) zc = .ok r ∧
      r.get e = fin N := by
  intro h
  have hl : pyLower "linear" = "linear".toList := (pyLower_linear _).2 ((pyLower_linear _).1 rfl)
  have ha : eosFuncFromStr "linear" "alpha" = .ok (fun T S p : Fl ℚ => Linear.alpha T S p) := by
    simp only [eosFuncFromStr, hl, if_true]; rfl
  have hb : eosFuncFromStr "linear" "beta" = .ok (fun T S p : Fl ℚ => Linear.beta T S p) := by
    simp only [eosFuncFromStr, hl, if_true]; rfl
  obtain ⟨r, N, h1, h2⟩ := h _ _ _ _ _ _ _ _ _ _ _ _ _ (exEdge 1 (by norm_num))
    (by norm_num [exEdgeX, exEdgeV]) (by norm_num [exEdgeX, exEdgeV])
  obtain ⟨r', h3, h4⟩ := C90_edges (exEdge 1 (by norm_num)) ha hb (fin (-(49 / 5)))
    (DA.scalar (fin 101325)) (by simp) (by norm_num [exEdgeX, exEdgeV])
    (by norm_num [exEdgeX, exEdgeV]) (Or.inl le_rfl)
  rw [h1] at h3
  cases h3
  rw [h2] at h4
  cases h4

/-- Full statement: `N²` is calculated on every edge between two levels with data.  Missing: the edges
next to the first and to the last one, see `C90_counterexample`; and xgcm must not refuse. -/
theorem C90_partial {th so : DA (Fl K)} {z w : Nat → Fl K} {zc name : String} {e : Env} {n m : Nat}
    {x T S v : Nat → K} (c : EdgeColumn th so z zc name w e n m x T S v) (g : K) (p0 : K)
    (T' S' : Nat → K)
    (hT' : ∀ k, Spec.stencil m (e name) ≤ k → k ≤ Spec.stencil m (e name) + 2 →
      Spec.InterpAt n x T (v k) (T' k))
    (hS' : ∀ k, Spec.stencil m (e name) ≤ k → k ≤ Spec.stencil m (e name) + 2 →
      Spec.InterpAt n x S (v k) (S' k)) (hρ : linRho (T' (e name)) (S' (e name)) ≠ 0) :
    ∃ r, calcN2Interfaces false th so z name m w "linear" (fin g) (DA.scalar (fin p0)) zc = .ok r ∧
      r.get e = fin (-(g / linRho (T' (e name)) (S' (e name)))
        * Spec.derivAt m v (fun k => linRho (T' k) (S' k)) (e name)) := by
  have hl : pyLower "linear" = "linear".toList := (pyLower_linear _).2 ((pyLower_linear _).1 rfl)
  have ha : eosFuncFromStr "linear" "alpha" = .ok (fun T S p : Fl K => Linear.alpha T S p) := by
    simp only [eosFuncFromStr, hl, if_true]; rfl
  have hb : eosFuncFromStr "linear" "beta" = .ok (fun T S p : Fl K => Linear.beta T S p) := by
    simp only [eosFuncFromStr, hl, if_true]; rfl
  obtain ⟨r, h1, h2⟩ := C90_value c ha hb g (DA.scalar (fin p0)) (by simp) p0 rfl T' S' hT' hS'
  refine ⟨r, h1, ?_⟩
  rw [h2, (linear_coeffs _ _ _ hρ).1, (linear_coeffs _ _ _ hρ).2]
  simp only [fin_mul, fin_sub]
  congr 1
  have e1 : (fun k => linRho (T' k) (S' k))
      = (fun k => 1 * (1000 : K) + 1 * ((-(1 / 5)) * T' k + 4 / 5 * S' k)) := by
    funext k; unfold linRho; ring
  rw [e1, derivAt_linear m v (fun _ => (1000 : K)) (fun k => (-(1 / 5)) * T' k + 4 / 5 * S' k) 1 1,
    derivAt_linear m v T' S', derivAt_const c.hm c.vinj c.he]
  field_simp
  ring

/-- `C90_partial` (and so `C90_value`) at the middle interface of the column above. -/
example : ∃ r, calcN2Interfaces false exEdgeTh exEdgeSo (fun k => fin (exEdgeX k)) "z_i" 5
    (fun k => fin (exEdgeV k)) "linear" (fin (-(49 / 5))) (DA.scalar (fin 101325)) "z_l" = .ok r ∧
    r.get (fun _ => 2) = fin (49 / 5 / linRho 16 35 * (1 / 25)) := by
  obtain ⟨r, h1, h2⟩ := exEdge_value
  exact ⟨r, h1, by rw [h2]; congr 1; ring⟩

/-- `C90_edges`: the two uppermost and the two lowest of the five interfaces have no value. -/
example (i : Nat) (hi : i = 0 ∨ i = 1 ∨ i = 3 ∨ i = 4) :
    ∃ r, calcN2Interfaces false exEdgeTh exEdgeSo (fun k => fin (exEdgeX k)) "z_i" 5
      (fun k => fin (exEdgeV k)) "linear" (fin (-(49 / 5))) (DA.scalar (fin 101325)) "z_l" = .ok r ∧
      r.get (fun _ => i) = nan := by
  have hl : pyLower "linear" = "linear".toList := (pyLower_linear _).2 ((pyLower_linear _).1 rfl)
  have ha : eosFuncFromStr "linear" "alpha" = .ok (fun T S p : Fl ℚ => Linear.alpha T S p) := by
    simp only [eosFuncFromStr, hl, if_true]; rfl
  have hb : eosFuncFromStr "linear" "beta" = .ok (fun T S p : Fl ℚ => Linear.beta T S p) := by
    simp only [eosFuncFromStr, hl, if_true]; rfl
  exact C90_edges (exEdge i (by omega)) ha hb _ _ (by simp) (by norm_num [exEdgeV, exEdgeX])
    (by norm_num [exEdgeV, exEdgeX]) (by omega)

/-- `C90_refused`: with a version of xarray that refuses to interpolate. -/
example : calcN2Interfaces true exEdgeTh exEdgeSo (fun k => fin (exEdgeX k)) "z_i" 5 (fun k => fin (exEdgeV k))
    "linear" (fin (-(49 / 5))) (DA.scalar (fin 101325)) "z_l" = .error .valueError := C90_refused ..

end Momlevel.Props
