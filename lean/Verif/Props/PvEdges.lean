import Verif.Props.Vorticity
import Verif.Spec.Beside
import Mathlib.Tactic.NormNum.OfScientific
import Mathlib.Algebra.Order.BigOperators.Group.Finset

/-! # C148: potential vorticity near land and at the edge of the grid -/

set_option linter.unusedSectionVars false

namespace Momlevel.Props
open Momlevel Momlevel.Fl

variable {K : Type} [Field K] [LinearOrder K] [IsStrictOrderedRing K]

theorem beside_iff (s : Bool) (k c : Nat) :
    Spec.Beside s k c ↔ (c : ℤ) = k - Spec.shift s ∨ (c : ℤ) = k - Spec.shift s + 1 := by
  cases s <;> simp only [Spec.Beside, Spec.shift, Bool.false_eq_true, if_true, if_false] <;> omega

theorem sum_at (n : Nat) (G : Nat → K) (t : ℤ) :
    ∑ c ∈ Finset.range n, (if (c : ℤ) = t then G c else 0) = Spec.pad 0 n G t := by
  unfold Spec.pad
  split
  · next h =>
    have : ∀ c ∈ Finset.range n, (if (c : ℤ) = t then G c else 0) = if c = t.toNat then G c else 0 := by
      intro c _
      have : (c : ℤ) = t ↔ c = t.toNat := by omega
      simp only [this]
    rw [Finset.sum_congr rfl this, Finset.sum_ite_eq', if_pos (Finset.mem_range.2 (by omega))]
  · next h =>
    refine Finset.sum_eq_zero (fun c hc => ?_)
    rw [if_neg]
    have := Finset.mem_range.1 hc
    omega

theorem sum_beside (s : Bool) (n k : Nat) (G : Nat → K) :
    ∑ c ∈ (Finset.range n).filter (Spec.Beside s k), G c
      = Spec.pad 0 n G (k - Spec.shift s) + Spec.pad 0 n G (k + 1 - Spec.shift s) := by
  rw [← sum_at, ← sum_at, ← Finset.sum_add_distrib, Finset.sum_filter]
  refine Finset.sum_congr rfl (fun c _ => ?_)
  simp only [beside_iff]
  have e : (k : ℤ) + 1 - Spec.shift s = k - Spec.shift s + 1 := by ring
  rw [e]
  by_cases h : (c : ℤ) = k - Spec.shift s
  · have : ¬ (c : ℤ) = k - Spec.shift s + 1 := by omega
    simp only [h, true_or, if_true]
    rw [if_neg (by omega), add_zero]
  · simp only [h, false_or, if_false, zero_add]

/-- The two neighbours with the fill value outside, as floats. -/
theorem beside_fin (s : Bool) (n k : Nat) {F : Nat → Fl K} {G : Nat → K}
    (h : ∀ c < n, Spec.Beside s k c → F c = fin (G c)) :
    Spec.pad (fin 0) n F (k - Spec.shift s) + Spec.pad (fin 0) n F (k + 1 - Spec.shift s)
      = fin (∑ c ∈ (Finset.range n).filter (Spec.Beside s k), G c) := by
  have p : ∀ t : ℤ, (t = k - Spec.shift s ∨ t = k - Spec.shift s + 1) →
      Spec.pad (fin 0) n F t = fin (Spec.pad 0 n G t) := by
    intro t ht
    unfold Spec.pad
    split
    · next hh =>
      refine h _ (by omega) ?_
      rw [beside_iff]
      omega
    · rfl
  rw [p _ (Or.inl rfl), p _ (Or.inr (by ring)), fin_add, sum_beside]

theorem beside_nan (s : Bool) (n k c : Nat) {F : Nat → Fl K} (hc : c < n) (hb : Spec.Beside s k c) (hF : F c = nan) :
    Spec.pad (fin 0) n F (k - Spec.shift s) + Spec.pad (fin 0) n F (k + 1 - Spec.shift s) = nan := by
  have p : Spec.pad (fin 0) n F (c : ℤ) = nan := by
    unfold Spec.pad
    rw [if_pos (by omega)]
    simpa using hF
  rw [beside_iff] at hb
  rcases hb with h | h
  · rw [← h, p, nan_add]
  · rw [show (k : ℤ) + 1 - Spec.shift s = k - Spec.shift s + 1 by ring, ← h, p, add_nan]

/-- `calc_pv` with interpolation, in terms of padded neighbours. -/
theorem pv_neighbours (zeta f n2 : DA (Fl K)) (g : Fl K) (xc yc xq yq : String) (s : Bool)
    (hx : xc ∈ n2.dimNames) (hy : yc ∈ n2.dimNames)
    (hxq : xq ∈ zeta.dimNames) (hyq : yq ∈ zeta.dimNames) (d1 : xc ≠ yc) (d2 : xq ≠ yc) :
    ∃ r, calcPv zeta f n2 g (some (coordDict xc yc xq yq)) s "m" true = .ok r ∧
      ∀ e : Env, r.get e = (zeta.get e + f.get e) * ((0.5 : Fl K) *
        (let R : Nat → Fl K := fun k => (0.5 : Fl K) *
          (let F : Nat → Fl K := fun l => n2.get (Function.update (Function.update e yc k) xc l)
           Spec.pad (fin 0) (n2.size xc) F (e xq - Spec.shift s)
            + Spec.pad (fin 0) (n2.size xc) F (e xq + 1 - Spec.shift s))
         Spec.pad (fin 0) (n2.size yc) R (e yq - Spec.shift s)
          + Spec.pad (fin 0) (n2.size yc) R (e yq + 1 - Spec.shift s)) / g) := by
  obtain ⟨r1, h1, h1d, h1g⟩ := toCorner_eq (fun l r => (0.5 : Fl K) * (l + r)) xc xq s n2 hx
  have hy1 : yc ∈ r1.dimNames := by
    unfold DA.dimNames; rw [h1d]; exact cornerDims_mem hy (fun h => d1 h.symm)
  obtain ⟨r2, h2, h2d, h2g⟩ := toCorner_eq (fun l r => (0.5 : Fl K) * (l + r)) yc yq s r1 hy1
  have hsz : r1.size yc = n2.size yc := by
    unfold DA.size; rw [h1d]
    exact cornerDims_size _ (fun h => d1 h.symm) (fun h => d2 h.symm)
  have hgrid : getXgcmGrid (zeta.dimNames ++ f.dimNames ++ n2.dimNames)
      (some (coordDict xc yc xq yq)) s = .ok ⟨⟨xc, xq, s⟩, ⟨yc, yq, s⟩⟩ := by
    rw [getXgcmGrid_eq, if_pos]
    simp [hx, hy, hxq, hyq]
  refine ⟨(zeta + f) * (r2 / DA.scalar g), ?_, fun e => ?_⟩
  · simp only [calcPv, pvN2, if_true, hgrid, ok_bind, gridInterp, h1, h2]; rfl
  · simp only [DA.get_mul, DA.get_add, DA.get_div, DA.get_scalar, h2g, hsz, h1g, Function.update_of_ne d2]

/-- The potential vorticity at a corner needs only the cells beside it: `N²` there is a quarter of the sum over the
cells beside the corner that are in the grid. -/
theorem C148_value (zeta f n2 : DA (Fl K)) (g : K) (hg : g ≠ 0) (xc yc xq yq : String) (s : Bool)
    (hx : xc ∈ n2.dimNames) (hy : yc ∈ n2.dimNames)
    (hxq : xq ∈ zeta.dimNames) (hyq : yq ∈ zeta.dimNames) (d1 : xc ≠ yc) (d2 : xq ≠ yc) :
    ∃ r, calcPv zeta f n2 (fin g) (some (coordDict xc yc xq yq)) s "m" true = .ok r ∧
      ∀ (e : Env) (N : Nat → Nat → K) (a b : K), zeta.get e = fin a → f.get e = fin b →
        (∀ j < n2.size yc, ∀ i < n2.size xc, Spec.Beside s (e yq) j → Spec.Beside s (e xq) i →
          n2.get (Function.update (Function.update e yc j) xc i) = fin (N j i)) →
        r.get e = fin ((a + b) * ((∑ j ∈ (Finset.range (n2.size yc)).filter (Spec.Beside s (e yq)),
          ∑ i ∈ (Finset.range (n2.size xc)).filter (Spec.Beside s (e xq)), N j i) / 4) / g) := by
  obtain ⟨r, hr, h⟩ := pv_neighbours zeta f n2 (fin g) xc yc xq yq s hx hy hxq hyq d1 d2
  refine ⟨r, hr, fun e N a b ha hb hN => ?_⟩
  have h05 : (0.5 : Fl K) = fin (1 / 2) := by rw [ofSci]; norm_num
  rw [h e, ha, hb]
  simp only []
  rw [beside_fin s (n2.size yc) (e yq) (G := fun j => 1 / 2 *
    ∑ i ∈ (Finset.range (n2.size xc)).filter (Spec.Beside s (e xq)), N j i)]
  · rw [h05, fin_mul, fin_div_of_ne _ hg, fin_add, fin_mul]
    congr 1
    rw [← Finset.mul_sum]
    ring
  · intro j hj hjb
    rw [beside_fin s (n2.size xc) (e xq) (G := N j) (fun i hi hib => hN j hj i hi hjb hib), h05, fin_mul]

/-- A missing `N²` in one cell beside a corner makes the potential vorticity there missing. -/
theorem C148_missing (zeta f n2 : DA (Fl K)) (g : Fl K) (xc yc xq yq : String) (s : Bool)
    (hx : xc ∈ n2.dimNames) (hy : yc ∈ n2.dimNames)
    (hxq : xq ∈ zeta.dimNames) (hyq : yq ∈ zeta.dimNames) (d1 : xc ≠ yc) (d2 : xq ≠ yc) :
    ∃ r, calcPv zeta f n2 g (some (coordDict xc yc xq yq)) s "m" true = .ok r ∧
      ∀ (e : Env) (j i : Nat), j < n2.size yc → i < n2.size xc → Spec.Beside s (e yq) j → Spec.Beside s (e xq) i →
        n2.get (Function.update (Function.update e yc j) xc i) = nan → r.get e = nan := by
  obtain ⟨r, hr, h⟩ := pv_neighbours zeta f n2 g xc yc xq yq s hx hy hxq hyq d1 d2
  refine ⟨r, hr, fun e j i hj hi hjb hib hn => ?_⟩
  rw [h e]
  simp only []
  rw [beside_nan s (n2.size yc) (e yq) j hj hjb]
  · simp
  · rw [beside_nan s (n2.size xc) (e xq) i hi hib hn]
    simp

theorem card_beside_inner {s : Bool} {n k : Nat} (h : if s then 0 < k ∧ k < n else k + 1 < n) :
    ((Finset.range n).filter (Spec.Beside s k)).card = 2 := by
  cases s
  · simp only [Bool.false_eq_true, if_false] at h
    have : (Finset.range n).filter (Spec.Beside false k) = {k, k + 1} := by
      ext c; simp only [Finset.mem_filter, Finset.mem_range, Spec.Beside, Bool.false_eq_true, if_false, Finset.mem_insert,
        Finset.mem_singleton]; omega
    rw [this, Finset.card_pair (by omega)]
  · simp only [if_true] at h
    have : (Finset.range n).filter (Spec.Beside true k) = {k - 1, k} := by
      ext c; simp only [Finset.mem_filter, Finset.mem_range, Spec.Beside, if_true, Finset.mem_insert,
        Finset.mem_singleton]; omega
    rw [this, Finset.card_pair (by omega)]

theorem card_beside_edge {s : Bool} {n k : Nat} (hn : 0 < n) (h : if s then k = 0 ∨ k = n else k + 1 = n) :
    ((Finset.range n).filter (Spec.Beside s k)).card = 1 := by
  cases s
  · simp only [Bool.false_eq_true, if_false] at h
    have : (Finset.range n).filter (Spec.Beside false k) = {k} := by
      ext c; simp only [Finset.mem_filter, Finset.mem_range, Spec.Beside, Bool.false_eq_true, if_false,
        Finset.mem_singleton]; omega
    rw [this, Finset.card_singleton]
  · simp only [if_true] at h
    rcases h with h | h
    · have : (Finset.range n).filter (Spec.Beside true k) = {0} := by
        ext c; simp only [Finset.mem_filter, Finset.mem_range, Spec.Beside, if_true, Finset.mem_singleton]; omega
      rw [this, Finset.card_singleton]
    · have : (Finset.range n).filter (Spec.Beside true k) = {n - 1} := by
        ext c; simp only [Finset.mem_filter, Finset.mem_range, Spec.Beside, if_true, Finset.mem_singleton]; omega
      rw [this, Finset.card_singleton]

theorem card_share {s : Bool} {n k : Nat} (hn : 0 < n) (hk : k < Spec.corners s n) :
    (((Finset.range n).filter (Spec.Beside s k)).card : K) = 2 * Spec.edgeShare K s n k := by
  unfold Spec.edgeShare Spec.corners at *
  cases s
  · simp only [Bool.false_eq_true, if_false] at hk ⊢
    split
    · next h => rw [card_beside_edge hn (by simpa using h)]; norm_num
    · next h => rw [card_beside_inner (by simp only [Bool.false_eq_true, if_false]; omega)]; norm_num
  · simp only [if_true] at hk ⊢
    split
    · next h => rw [card_beside_edge hn (by simpa using h)]; norm_num
    · next h => rw [card_beside_inner (by simp only [if_true]; omega)]; norm_num

/-- Uniform stratification: `(zeta + f) N² / g` within the grid, but half of it at the corners on an edge of the grid
(the last row and column, on a symmetric grid also the first) and a quarter where two edges meet. -/
theorem C148_uniform (zeta f n2 : DA (Fl K)) (g N : K) (hg : g ≠ 0) (xc yc xq yq : String) (s : Bool)
    (hx : xc ∈ n2.dimNames) (hy : yc ∈ n2.dimNames)
    (hxq : xq ∈ zeta.dimNames) (hyq : yq ∈ zeta.dimNames) (d1 : xc ≠ yc) (d2 : xq ≠ yc)
    (hnx : 0 < n2.size xc) (hny : 0 < n2.size yc) (hN : ∀ e, n2.get e = fin N) :
    ∃ r, calcPv zeta f n2 (fin g) (some (coordDict xc yc xq yq)) s "m" true = .ok r ∧
      ∀ (e : Env) (a b : K), zeta.get e = fin a → f.get e = fin b →
        e yq < Spec.corners s (n2.size yc) → e xq < Spec.corners s (n2.size xc) →
        r.get e = fin ((a + b) * N / g * (Spec.edgeShare K s (n2.size yc) (e yq) * Spec.edgeShare K s (n2.size xc) (e xq))) := by
  obtain ⟨r, hr, h⟩ := C148_value zeta f n2 g hg xc yc xq yq s hx hy hxq hyq d1 d2
  refine ⟨r, hr, fun e a b ha hb h1 h2 => ?_⟩
  rw [h e (fun _ _ => N) a b ha hb (fun _ _ _ _ _ _ => hN _)]
  simp only [Finset.sum_const, nsmul_eq_mul]
  rw [card_share hny h1, card_share hnx h2]
  congr 1
  ring

/-- At a corner within the grid the potential vorticity lies between those of the smallest and the largest `N²`
beside it. -/
theorem C148_bounds (zeta f n2 : DA (Fl K)) (g : K) (hg : 0 < g) (xc yc xq yq : String) (s : Bool)
    (hx : xc ∈ n2.dimNames) (hy : yc ∈ n2.dimNames)
    (hxq : xq ∈ zeta.dimNames) (hyq : yq ∈ zeta.dimNames) (d1 : xc ≠ yc) (d2 : xq ≠ yc) :
    ∃ r, calcPv zeta f n2 (fin g) (some (coordDict xc yc xq yq)) s "m" true = .ok r ∧
      ∀ (e : Env) (a b lo hi : K), zeta.get e = fin a → f.get e = fin b → 0 ≤ a + b →
        (if s then 0 < e yq ∧ e yq < n2.size yc else e yq + 1 < n2.size yc) →
        (if s then 0 < e xq ∧ e xq < n2.size xc else e xq + 1 < n2.size xc) →
        (∀ j < n2.size yc, ∀ i < n2.size xc, Spec.Beside s (e yq) j → Spec.Beside s (e xq) i →
          ∃ v, n2.get (Function.update (Function.update e yc j) xc i) = fin v ∧ lo ≤ v ∧ v ≤ hi) →
        ∃ q, r.get e = fin q ∧ (a + b) * lo / g ≤ q ∧ q ≤ (a + b) * hi / g := by
  obtain ⟨r, hr, h⟩ := C148_value zeta f n2 g hg.ne' xc yc xq yq s hx hy hxq hyq d1 d2
  refine ⟨r, hr, fun e a b lo hi ha hb hab h1 h2 hv => ?_⟩
  set V : Nat → Nat → K := fun j i => val0 (n2.get (Function.update (Function.update e yc j) xc i)) with hV
  have hV' : ∀ j ∈ (Finset.range (n2.size yc)).filter (Spec.Beside s (e yq)),
      ∀ i ∈ (Finset.range (n2.size xc)).filter (Spec.Beside s (e xq)),
      n2.get (Function.update (Function.update e yc j) xc i) = fin (V j i) ∧ lo ≤ V j i ∧ V j i ≤ hi := by
    intro j hj i hi'
    obtain ⟨hj1, hj2⟩ := Finset.mem_filter.1 hj
    obtain ⟨hi1, hi2⟩ := Finset.mem_filter.1 hi'
    obtain ⟨v, e1, e2, e3⟩ := hv j (Finset.mem_range.1 hj1) i (Finset.mem_range.1 hi1) hj2 hi2
    have : V j i = v := by simp only [hV, e1, val0_fin]
    rw [this]
    exact ⟨e1, e2, e3⟩
  have c1 := card_beside_inner h1
  have c2 := card_beside_inner h2
  refine ⟨_, h e V a b ha hb (fun j hj i hi' hjb hib => (hV' j (Finset.mem_filter.2 ⟨Finset.mem_range.2 hj, hjb⟩) i
    (Finset.mem_filter.2 ⟨Finset.mem_range.2 hi', hib⟩)).1), ?_, ?_⟩
  · have : 4 * lo ≤ ∑ j ∈ (Finset.range (n2.size yc)).filter (Spec.Beside s (e yq)),
        ∑ i ∈ (Finset.range (n2.size xc)).filter (Spec.Beside s (e xq)), V j i := by
      have := Finset.card_nsmul_le_sum _ (fun j => ∑ i ∈ (Finset.range (n2.size xc)).filter (Spec.Beside s (e xq)), V j i)
        (2 * lo) (fun j hj => by
          have := Finset.card_nsmul_le_sum _ (fun i => V j i) lo (fun i hi' => (hV' j hj i hi').2.1)
          rw [c2, nsmul_eq_mul] at this
          exact_mod_cast this)
      rw [c1, nsmul_eq_mul] at this
      push_cast at this
      linarith
    refine div_le_div_of_nonneg_right (mul_le_mul_of_nonneg_left ?_ hab) hg.le
    linarith
  · have : ∑ j ∈ (Finset.range (n2.size yc)).filter (Spec.Beside s (e yq)),
        ∑ i ∈ (Finset.range (n2.size xc)).filter (Spec.Beside s (e xq)), V j i ≤ 4 * hi := by
      have := Finset.sum_le_card_nsmul _ (fun j => ∑ i ∈ (Finset.range (n2.size xc)).filter (Spec.Beside s (e xq)), V j i)
        (2 * hi) (fun j hj => by
          have := Finset.sum_le_card_nsmul _ (fun i => V j i) hi (fun i hi' => (hV' j hj i hi').2.2)
          rw [c2, nsmul_eq_mul] at this
          exact_mod_cast this)
      rw [c1, nsmul_eq_mul] at this
      push_cast at this
      linarith
    refine div_le_div_of_nonneg_right (mul_le_mul_of_nonneg_left ?_ hab) hg.le
    linarith

/-- Relative vorticity: a velocity missing beside a corner makes the vorticity there missing. -/
theorem C148_vorticity_missing (dset : DS (Fl K)) (nu nv ndx ndy na xc yc xq yq : String) (s : Bool)
    {u dx v dy area : DA (Fl K)}
    (lu : dset.vars.lookup nu = some u) (ldx : dset.vars.lookup ndx = some dx)
    (lv : dset.vars.lookup nv = some v) (ldy : dset.vars.lookup ndy = some dy)
    (la : dset.vars.lookup na = some area)
    (yu : yc ∈ u.dimNames) (xv : xc ∈ v.dimNames) (hxq : xq ∈ area.dimNames) (hyq : yq ∈ area.dimNames) :
    ∃ r, calcRelVort dset (some (vortMap nu nv ndx ndy na)) (some (coordDict xc yc xq yq)) s = .ok r ∧
      ∀ (e : Env) (c : Nat),
        ((c < u.size yc ∧ Spec.Beside s (e yq) c ∧ u.get (Function.update e yc c) = nan) ∨
         (c < v.size xc ∧ Spec.Beside s (e xq) c ∧ v.get (Function.update e xc c) = nan)) → r.get e = nan := by
  have hyU : yc ∈ (u * dx).dimNames := mem_bdims_left yu
  have hxV : xc ∈ (v * dy).dimNames := mem_bdims_left xv
  have sU : (u * dx).size yc = u.size yc := size_bdims yu
  have sV : (v * dy).size xc = v.size xc := size_bdims xv
  obtain ⟨du, h1, -, h1g⟩ := toCorner_eq (fun l r => r - l) yc yq s (u * dx) hyU
  obtain ⟨dv, h2, -, h2g⟩ := toCorner_eq (fun l r => r - l) xc xq s (v * dy) hxV
  have mem : ∀ {n a x}, dset.vars.lookup n = some a → x ∈ a.dimNames → x ∈ dset.dimNames := by
    intro n a x h hx
    unfold DS.dimNames
    rw [List.mem_flatMap]
    exact ⟨_, lookup_mem h, hx⟩
  have hgrid : getXgcmGrid dset.dimNames (some (coordDict xc yc xq yq)) s
      = .ok ⟨⟨xc, xq, s⟩, ⟨yc, yq, s⟩⟩ := by
    rw [getXgcmGrid_eq, if_pos]
    exact ⟨mem lv xv, mem la hxq, mem lu yu, mem la hyq⟩
  have hnames : ((vortMap nu nv ndx ndy na).map Prod.snd).any (fun v => !dset.names.contains v)
      = false := by
    have hn : ∀ {n a}, dset.vars.lookup n = some a → n ∈ dset.names :=
      fun h => List.mem_map.2 ⟨_, lookup_mem h, rfl⟩
    simp [vortMap, hn lu, hn lv, hn ldx, hn ldy, hn la]
  have k1 : dictGet (vortMap nu nv ndx ndy na) "u" = .ok nu := rfl
  have k2 : dictGet (vortMap nu nv ndx ndy na) "v" = .ok nv := rfl
  have k3 : dictGet (vortMap nu nv ndx ndy na) "dx" = .ok ndx := rfl
  have k4 : dictGet (vortMap nu nv ndx ndy na) "dy" = .ok ndy := rfl
  have k5 : dictGet (vortMap nu nv ndx ndy na) "area" = .ok na := rfl
  refine ⟨(-du + dv) / area, ?_, fun e c h => ?_⟩
  · simp only [calcRelVort, Option.getD_some, hnames, hgrid, k1, k2, k3, k4, k5, getVar_ok lu,
      getVar_ok lv, getVar_ok ldx, getVar_ok ldy, getVar_ok la, gridDiff, h1, h2, ok_bind,
      Bool.false_eq_true, if_false]
    rfl
  · have sub_nan : ∀ (n k : Nat) (F : Nat → Fl K), c < n → Spec.Beside s k c → F c = nan →
        Spec.pad (fin 0) n F (k + 1 - Spec.shift s) - Spec.pad (fin 0) n F (k - Spec.shift s) = nan := by
      intro n k F hc hb hF
      have p : Spec.pad (fin 0) n F (c : ℤ) = nan := by
        unfold Spec.pad
        rw [if_pos (by omega)]
        simpa using hF
      rw [beside_iff] at hb
      rcases hb with h | h
      · rw [← h, p]; simp
      · rw [show (k : ℤ) + 1 - Spec.shift s = k - Spec.shift s + 1 by ring, ← h, p]; rfl
    simp only [DA.get_div, DA.get_add, DA.get_neg, h1g, h2g, sU, sV]
    rcases h with ⟨hc, hb, hn⟩ | ⟨hc, hb, hn⟩
    · rw [sub_nan _ _ _ hc hb (by simp [hn])]; simp
    · rw [sub_nan (v.size xc) (e xq) _ hc hb (by simp [hn])]; simp

/-- Uniform stratification on a 2 by 2 grid with default options: the last corner gets a quarter. -/
example : ∃ r, calcPv (⟨[("yq", 2), ("xq", 2)], fun _ => fin 0⟩ : DA (Fl ℚ)) ⟨[("yq", 2), ("xq", 2)], fun _ => fin 1⟩
      ⟨[("yh", 2), ("xh", 2)], fun _ => fin 4⟩ (fin 1) (some (coordDict "xh" "yh" "xq" "yq")) false "m" true = .ok r ∧
    r.get (fun _ => 0) = fin 4 ∧ r.get (fun _ => 1) = fin 1 := by
  obtain ⟨r, hr, h⟩ := C148_uniform (⟨[("yq", 2), ("xq", 2)], fun _ => fin 0⟩ : DA (Fl ℚ))
    ⟨[("yq", 2), ("xq", 2)], fun _ => fin 1⟩ ⟨[("yh", 2), ("xh", 2)], fun _ => fin 4⟩ 1 4 one_ne_zero "xh" "yh" "xq" "yq"
    false (by simp [DA.dimNames]) (by simp [DA.dimNames]) (by simp [DA.dimNames]) (by simp [DA.dimNames])
    (by decide) (by decide) (by simp [DA.size]) (by simp [DA.size]) (fun _ => rfl)
  refine ⟨r, hr, ?_, ?_⟩
  · rw [h (fun _ => 0) 0 1 rfl rfl (by simp [Spec.corners, DA.size]) (by simp [Spec.corners, DA.size])]
    norm_num [Spec.edgeShare, DA.size]
    simp
  · rw [h (fun _ => 1) 0 1 rfl rfl (by simp [Spec.corners, DA.size]) (by simp [Spec.corners, DA.size])]
    norm_num [Spec.edgeShare, DA.size]
    rfl

/-- Land in the cell at the origin: only the first corner loses its value. -/
example : ∃ r, calcPv (⟨[("yq", 2), ("xq", 2)], fun _ => fin 0⟩ : DA (Fl ℚ)) ⟨[("yq", 2), ("xq", 2)], fun _ => fin 1⟩
      ⟨[("yh", 2), ("xh", 2)], fun e => if e "yh" = 0 ∧ e "xh" = 0 then nan else fin 4⟩ (fin 1)
      (some (coordDict "xh" "yh" "xq" "yq")) false "m" true = .ok r ∧
    r.get (fun _ => 0) = nan ∧ r.get (fun _ => 1) = fin 1 := by
  obtain ⟨r, hr, h⟩ := C148_missing (⟨[("yq", 2), ("xq", 2)], fun _ => fin 0⟩ : DA (Fl ℚ))
    ⟨[("yq", 2), ("xq", 2)], fun _ => fin 1⟩
    ⟨[("yh", 2), ("xh", 2)], fun e => if e "yh" = 0 ∧ e "xh" = 0 then nan else fin 4⟩ (fin 1) "xh" "yh" "xq" "yq"
    false (by simp [DA.dimNames]) (by simp [DA.dimNames]) (by simp [DA.dimNames]) (by simp [DA.dimNames])
    (by decide) (by decide)
  obtain ⟨r', hr', h'⟩ := C148_value (⟨[("yq", 2), ("xq", 2)], fun _ => fin 0⟩ : DA (Fl ℚ))
    ⟨[("yq", 2), ("xq", 2)], fun _ => fin 1⟩
    ⟨[("yh", 2), ("xh", 2)], fun e => if e "yh" = 0 ∧ e "xh" = 0 then nan else fin 4⟩ 1 one_ne_zero "xh" "yh" "xq" "yq"
    false (by simp [DA.dimNames]) (by simp [DA.dimNames]) (by simp [DA.dimNames]) (by simp [DA.dimNames])
    (by decide) (by decide)
  obtain rfl : r = r' := Except.ok.inj (hr.symm.trans hr')
  refine ⟨r, hr, h (fun _ => 0) 0 0 (by simp [DA.size]) (by simp [DA.size]) (by simp [Spec.Beside]) (by simp [Spec.Beside])
    (by simp), ?_⟩
  rw [h' (fun _ => 1) (fun _ _ => 4) 0 1 rfl rfl]
  · have : ((Finset.range 2).filter (Spec.Beside false 1)).card = 1 := card_beside_edge (by norm_num) (by simp)
    simp [DA.size, this]
  · intro j hj i hi hjb hib
    simp [Spec.Beside, DA.size] at hj hi hjb hib
    obtain rfl : j = 1 := by omega
    simp

/-- Between the values of the neighbours: the first corner of a 2 by 2 grid. -/
example : ∃ r, calcPv (⟨[("yq", 2), ("xq", 2)], fun _ => fin 0⟩ : DA (Fl ℚ)) ⟨[("yq", 2), ("xq", 2)], fun _ => fin 1⟩
      ⟨[("yh", 2), ("xh", 2)], fun e => fin (1 + e "xh")⟩ (fin 1) (some (coordDict "xh" "yh" "xq" "yq")) false "m" true
      = .ok r ∧ ∃ q, r.get (fun _ => 0) = fin q ∧ (0 + 1) * 1 / 1 ≤ q ∧ q ≤ (0 + 1) * 2 / 1 := by
  obtain ⟨r, hr, h⟩ := C148_bounds (⟨[("yq", 2), ("xq", 2)], fun _ => fin 0⟩ : DA (Fl ℚ))
    ⟨[("yq", 2), ("xq", 2)], fun _ => fin 1⟩ ⟨[("yh", 2), ("xh", 2)], fun e => fin (1 + e "xh")⟩ 1 one_pos
    "xh" "yh" "xq" "yq" false (by simp [DA.dimNames]) (by simp [DA.dimNames]) (by simp [DA.dimNames])
    (by simp [DA.dimNames]) (by decide) (by decide)
  refine ⟨r, hr, h (fun _ => 0) 0 1 1 2 rfl rfl (by norm_num) (by simp [DA.size]) (by simp [DA.size]) ?_⟩
  intro j hj i hi hjb hib
  refine ⟨1 + i, by simp, by simp, ?_⟩
  have : i ≤ 1 := by simp [DA.size] at hi; omega
  have : (i : ℚ) ≤ 1 := by exact_mod_cast this
  linarith

/-- A velocity missing at the first point: the first corner has no vorticity. -/
example : ∃ r, calcRelVort (⟨[("u", ⟨[("yh", 2), ("xq", 2)], fun e => if e "yh" = 0 then nan else fin 1⟩),
      ("v", ⟨[("yq", 2), ("xh", 2)], fun _ => fin 1⟩), ("dx", ⟨[], fun _ => fin 1⟩), ("dy", ⟨[], fun _ => fin 1⟩),
      ("area", ⟨[("yq", 2), ("xq", 2)], fun _ => fin 1⟩)], []⟩ : DS (Fl ℚ))
      (some (vortMap "u" "v" "dx" "dy" "area")) (some (coordDict "xh" "yh" "xq" "yq")) false = .ok r ∧
    r.get (fun _ => 0) = nan := by
  obtain ⟨r, hr, h⟩ := C148_vorticity_missing (⟨[("u", ⟨[("yh", 2), ("xq", 2)], fun e => if e "yh" = 0 then nan else
      fin 1⟩), ("v", ⟨[("yq", 2), ("xh", 2)], fun _ => fin 1⟩), ("dx", ⟨[], fun _ => fin 1⟩),
      ("dy", ⟨[], fun _ => fin 1⟩), ("area", ⟨[("yq", 2), ("xq", 2)], fun _ => fin 1⟩)], []⟩ : DS (Fl ℚ))
    "u" "v" "dx" "dy" "area" "xh" "yh" "xq" "yq" false rfl rfl rfl rfl rfl (by simp [DA.dimNames])
    (by simp [DA.dimNames]) (by simp [DA.dimNames]) (by simp [DA.dimNames])
  exact ⟨r, hr, h (fun _ => 0) 0 (Or.inl ⟨by simp [DA.size], by simp [Spec.Beside], by simp⟩)⟩

end Momlevel.Props
