import Verif.Props.Dz
import Mathlib.Algebra.Order.BigOperators.Group.Finset

/-! # C125: thicknesses within depth ranges -/

set_option linter.unusedSectionVars false

namespace Momlevel.Props
open Momlevel Momlevel.Fl

variable {K : Type} [Field K] [LinearOrder K] [IsStrictOrderedRing K]
variable {levels interfaces depth : DA (Fl K)} {z zi : String} {n : Nat} {lev ifc : Nat → K}

/-- The part of a cell's value that exceeds the overlap. -/
def dzExcess (a b t D : K) : K := max 0 (min (b - max t D) (min t D - a))

theorem cellDz_value {a b t D : K} (h : a ≤ b) :
    cellDz a b t D = Spec.overlap a b t D + dzExcess a b t D := by
  unfold cellDz Spec.overlap dzExcess
  rcases le_total t a with h1 | h1
  · have e1 : min t D - a ≤ 0 := by have := min_le_left t D; linarith
    rw [max_eq_left (by linarith : (0 : K) ≤ b - t), max_eq_left h1,
      max_eq_left ((min_le_right _ _).trans e1), add_zero,
      min_eq_right ((min_le_right _ _).trans (by linarith : b - a ≤ b - t))]
    rcases le_total D a with h2 | h2
    · rw [max_eq_right (by linarith : D - a ≤ 0), min_eq_left (by linarith : (0 : K) ≤ b - a),
        min_eq_right (h2.trans h), max_eq_left (by linarith : D - a ≤ 0)]
    · rw [max_eq_left (by linarith : (0 : K) ≤ D - a)]
      rcases le_total D b with h3 | h3
      · rw [min_eq_left (by linarith), min_eq_right h3, max_eq_right (by linarith)]
      · rw [min_eq_right (by linarith), min_eq_left h3, max_eq_right (by linarith)]
  · rcases le_total b t with h2 | h2
    · have e1 : b - max t D ≤ 0 := by have := le_max_left t D; linarith
      have e2 : min b D - max a t ≤ 0 := by
        have := min_le_left b D
        have := le_max_right a t
        linarith
      rw [max_eq_right (by linarith : b - t ≤ 0), max_eq_left e2,
        max_eq_left ((min_le_left _ _).trans e1), add_zero]
      exact min_eq_left (le_min (le_max_right _ _) (by linarith))
    · rw [max_eq_left (by linarith : (0 : K) ≤ b - t), max_eq_right h1]
      rcases le_total D a with h3 | h3
      · have e1 : min t D - a ≤ 0 := by have := min_le_right t D; linarith
        rw [max_eq_right (by linarith : D - a ≤ 0), min_eq_left (by linarith : (0 : K) ≤ b - a),
          min_eq_right (by linarith : (0 : K) ≤ b - t), min_eq_right (h3.trans h),
          max_eq_left (by linarith : D - t ≤ 0), max_eq_left ((min_le_right _ _).trans e1), add_zero]
      · rw [max_eq_left (by linarith : (0 : K) ≤ D - a)]
        rcases le_total b D with h4 | h4
        · have e1 : b - max t D ≤ 0 := by have := le_max_right t D; linarith
          rw [min_eq_right (by linarith : b - a ≤ D - a), min_eq_left (by linarith : b - t ≤ b - a),
            min_eq_left h4, max_eq_right (by linarith : (0 : K) ≤ b - t),
            max_eq_left ((min_le_left _ _).trans e1), add_zero]
        · rw [min_eq_left (by linarith : D - a ≤ b - a), min_eq_right h4]
          rcases le_total t D with h5 | h5
          · rw [max_eq_right h5, min_eq_left h5, max_eq_right (by linarith : (0 : K) ≤ D - t),
              max_eq_right (le_min (by linarith) (by linarith)), ← min_add_add_left]
            congr 1 <;> ring
          · rw [max_eq_left h5, min_eq_right h5, max_eq_left (by linarith : D - t ≤ 0),
              max_eq_right (le_min (by linarith) (by linarith)), zero_add]

theorem dzExcess_nonneg (a b t D : K) : 0 ≤ dzExcess a b t D := le_max_left _ _

theorem dzExcess_ne {a b t D : K} (h : dzExcess a b t D ≠ 0) :
    a < min t D ∧ max t D < b ∧ dzExcess a b t D = min (b - max t D) (min t D - a) ∧
      2 * dzExcess a b t D ≤ b - a := by
  have h0 := lt_of_le_of_ne (dzExcess_nonneg a b t D) h.symm
  have h1 : 0 < min (b - max t D) (min t D - a) := by
    unfold dzExcess at h0
    rcases lt_max_iff.1 h0 with h | h
    · exact absurd h (lt_irrefl _)
    · exact h
  obtain ⟨h2, h3⟩ := lt_min_iff.1 h1
  have h4 : dzExcess a b t D = min (b - max t D) (min t D - a) := max_eq_right h1.le
  refine ⟨by linarith, by linarith, h4, ?_⟩
  rw [h4]
  have e1 := min_le_left (b - max t D) (min t D - a)
  have e2 := min_le_right (b - max t D) (min t D - a)
  have e3 : min t D ≤ max t D := min_le_max
  linarith

/-- The value of every cell, for every depth range: the overlap of the cell with the range, plus an excess
when the cell strictly contains both ends of the range. -/
theorem C125_value (g : DzGrid levels interfaces z zi n lev ifc) (hb : Bathy depth)
    (hz : z ∉ depth.dimNames) (top bottom : K) :
    ∃ r, calcDz levels interfaces depth (fin top) (some (fin bottom)) = .ok r ∧
      ∀ e, depth.InBounds e → e z < n →
        let D := min (val0 (depth.get e)) bottom
        let a := ifc (e z)
        let b := ifc (e z + 1)
        r.get e = fin (Spec.overlap a b top D + max 0 (min (b - max top D) (min top D - a))) := by
  obtain ⟨r, h1, h2, h3⟩ := calcDz_ok g hb top (some bottom) false hz
  refine ⟨r, h1, fun e he hk => ?_⟩
  have := h3 e he
  simp only [Bool.false_eq_true, if_false, floorAt] at this
  rw [this, cellDz_value (g.imono _ hk)]
  rfl

theorem ifc_le (h : ∀ k < n, ifc k ≤ ifc (k + 1)) : ∀ j k, j ≤ k → k ≤ n → ifc j ≤ ifc k := by
  intro j k hjk hk
  induction k with
  | zero => obtain rfl : j = 0 := by omega
            exact le_rfl
  | succ k ih =>
    rcases Nat.lt_or_ge k j with h1 | h1
    · obtain rfl : j = k + 1 := by omega
      exact le_rfl
    · exact (ih h1 (by omega)).trans (h k (by omega))

theorem overlap_join {a b c t D : K} (h1 : a ≤ b) (h2 : b ≤ c) :
    Spec.overlap a b t D + Spec.overlap b c t D = Spec.overlap a c t D := by
  unfold Spec.overlap
  rcases le_total b t with h3 | h3
  · have e1 : min b D - max a t ≤ 0 := by
      have := min_le_left b D
      have := le_max_right a t
      linarith
    rw [max_eq_left e1, zero_add, max_eq_right h3, max_eq_right (h1.trans h3)]
  · have e2 : max a t ≤ b := max_le h1 h3
    rw [max_eq_left h3]
    rcases le_total D b with h4 | h4
    · rw [min_eq_right h4, min_eq_right (h4.trans h2), max_eq_left (by linarith : D - b ≤ 0), add_zero]
    · have e3 : b ≤ min c D := le_min h2 h4
      rw [min_eq_left h4, max_eq_right (by linarith : 0 ≤ b - max a t),
        max_eq_right (by linarith : 0 ≤ min c D - b), max_eq_right (by linarith : 0 ≤ min c D - max a t)]
      ring

theorem overlap_range (ifc : Nat → K) (t D : K) : ∀ n : Nat, (∀ k < n, ifc k ≤ ifc (k + 1)) →
    ∑ k ∈ Finset.range n, Spec.overlap (ifc k) (ifc (k + 1)) t D = Spec.overlap (ifc 0) (ifc n) t D
  | 0, _ => by
    have : min (ifc 0) D - max (ifc 0) t ≤ 0 := by
      have h1 := min_le_left (ifc 0) D
      have h2 := le_max_left (ifc 0) t
      linarith
    simp [Spec.overlap, this]
  | n + 1, h => by
    rw [Finset.sum_range_succ, overlap_range ifc t D n (fun k hk => h k (by omega))]
    exact overlap_join (ifc_le h 0 n (Nat.zero_le _) (by omega)) (h n (by omega))

/-- The sum over a column is the length of the range within the grid and above the sea floor, plus an error that
vanishes unless one layer strictly contains both ends of the range; then it is at most half that layer. -/
theorem C125_column (g : DzGrid levels interfaces z zi n lev ifc) (hb : Bathy depth)
    (hz : z ∉ depth.dimNames) (top bottom : K) :
    ∃ r, calcDz levels interfaces depth (fin top) (some (fin bottom)) = .ok r ∧
      ∀ e, depth.InBounds e → ∃ err,
        let D := min (val0 (depth.get e)) bottom
        (r.sumDim z).get e = fin (Spec.overlap (ifc 0) (ifc n) top D + err) ∧ 0 ≤ err ∧
        (err ≠ 0 → ∃ k < n, ifc k < min top D ∧ max top D < ifc (k + 1) ∧
          err = min (ifc (k + 1) - max top D) (min top D - ifc k) ∧ 2 * err ≤ ifc (k + 1) - ifc k) := by
  obtain ⟨r, h1, h2, h3⟩ := calcDz_ok g hb top (some bottom) false hz
  refine ⟨r, h1, fun e he => ?_⟩
  have hsize : r.size z = n := by
    unfold DA.size
    rw [h2, List.find?_append, List.find?_eq_none.2]
    · simp
    · intro p hp
      have : p.1 ≠ z := fun h => hz (h ▸ List.mem_map_of_mem hp)
      simpa using this
  have hupd : ∀ k, depth.InBounds (Function.update e z k) := by
    intro k p hp
    have : p.1 ≠ z := fun h => hz (h ▸ List.mem_map_of_mem hp)
    rw [Function.update_of_ne this]
    exact he p hp
  have hval : ∀ k < n, r.get (Function.update e z k)
      = fin (Spec.overlap (ifc k) (ifc (k + 1)) top (min (val0 (depth.get e)) bottom)
        + dzExcess (ifc k) (ifc (k + 1)) top (min (val0 (depth.get e)) bottom)) := by
    intro k hk
    have := h3 _ (hupd k)
    simp only [Bool.false_eq_true, if_false, floorAt, Function.update_self] at this
    have hd : depth.get (Function.update e z k) = depth.get e := by
      apply hb.wf
      intro d hd
      have hdz : d ≠ z := fun h => hz (h ▸ hd)
      rw [Function.update_of_ne hdz]
    rw [this, hd, cellDz_value (g.imono _ hk)]
  refine ⟨∑ k ∈ Finset.range n, dzExcess (ifc k) (ifc (k + 1)) top (min (val0 (depth.get e)) bottom),
    ?_, Finset.sum_nonneg (fun k _ => dzExcess_nonneg _ _ _ _), ?_⟩
  · show nansumN (r.size z) _ = _
    rw [hsize, nansumN_eq (fun k hk => by rw [hval k hk]; exact FN_fin _)]
    congr 1
    rw [Finset.sum_congr rfl (fun k hk => by rw [hval k (Finset.mem_range.1 hk), val0_fin]),
      Finset.sum_add_distrib, overlap_range ifc _ _ n g.imono]
  · intro hne
    obtain ⟨k, hk, hke⟩ := Finset.exists_ne_zero_of_sum_ne_zero hne
    have hk := Finset.mem_range.1 hk
    obtain ⟨b1, b2, b3, b4⟩ := dzExcess_ne hke
    have hs : ∑ k ∈ Finset.range n, dzExcess (ifc k) (ifc (k + 1)) top (min (val0 (depth.get e)) bottom)
        = dzExcess (ifc k) (ifc (k + 1)) top (min (val0 (depth.get e)) bottom) := by
      refine Finset.sum_eq_single k (fun j hj hjk => ?_) (fun h => absurd (Finset.mem_range.2 hk) h)
      have hj := Finset.mem_range.1 hj
      by_contra hje
      obtain ⟨c1, c2, -, -⟩ := dzExcess_ne hje
      have mm : min top (min (val0 (depth.get e)) bottom) ≤ max top (min (val0 (depth.get e)) bottom) :=
        min_le_max
      rcases Nat.lt_or_gt_of_ne hjk with h | h
      · have := ifc_le g.imono (j + 1) k h hk.le
        exact absurd (c2.trans_le this) (not_lt.2 (b1.le.trans mm))
      · have := ifc_le g.imono (k + 1) j h hj.le
        exact absurd (b2.trans_le this) (not_lt.2 (c1.le.trans mm))
    rw [hs]
    exact ⟨k, hk, b1, b2, b3, b4⟩

theorem cellDz_split {a b t0 t1 D1 D2 d t2 : K} (h : a ≤ b) (h01 : t0 ≤ t1) (h12 : t1 ≤ t2)
    (e1 : D1 = min d t1) (e2 : D2 = min d t2) :
    cellDz a b t0 D2 ≤ cellDz a b t0 D1 + cellDz a b t1 D2 ∧
    (t1 ≤ a ∨ b ≤ t1 → cellDz a b t0 D2 = cellDz a b t0 D1 + cellDz a b t1 D2) := by
  have q0 : ∀ D, 0 ≤ min (max (D - a) 0) (b - a) := fun D => le_min (le_max_right _ _) (by linarith)
  have qb : ∀ D, min (max (D - a) 0) (b - a) ≤ b - a := fun D => min_le_right _ _
  unfold cellDz
  rcases le_total t1 a with h1 | h1
  · have hD1 : D1 - a ≤ 0 := by have := min_le_right d t1; linarith
    have z1 : min (max (D1 - a) 0) (b - a) = 0 := by
      rw [max_eq_right hD1]; exact min_eq_left (by linarith)
    have p : ∀ t, t ≤ a → min (max (b - t) 0) (min (max (D2 - a) 0) (b - a))
        = min (max (D2 - a) 0) (b - a) := fun t ht =>
      min_eq_right ((qb D2).trans ((by linarith : b - a ≤ b - t).trans (le_max_left _ _)))
    have e : min (max (b - t0) 0) (min (max (D2 - a) 0) (b - a))
        = min (max (b - t0) 0) (min (max (D1 - a) 0) (b - a))
          + min (max (b - t1) 0) (min (max (D2 - a) 0) (b - a)) := by
      rw [p t0 (h01.trans h1), p t1 h1, z1, min_eq_right (le_max_right _ _), zero_add]
    exact ⟨e.le, fun _ => e⟩
  · rcases le_total b t1 with h2 | h2
    · have eq : min (max (D1 - a) 0) (b - a) = min (max (D2 - a) 0) (b - a) := by
        rcases le_total d t1 with h3 | h3
        · rw [e1, e2, min_eq_left h3, min_eq_left (h3.trans h12)]
        · have hD1 : b ≤ D1 := by rw [e1, min_eq_right h3]; exact h2
          have hD2 : b ≤ D2 := by rw [e2]; exact le_min (h2.trans h3) (h2.trans h12)
          rw [min_eq_right ((by linarith : b - a ≤ D1 - a).trans (le_max_left _ _)),
            min_eq_right ((by linarith : b - a ≤ D2 - a).trans (le_max_left _ _))]
      have e : min (max (b - t0) 0) (min (max (D2 - a) 0) (b - a))
          = min (max (b - t0) 0) (min (max (D1 - a) 0) (b - a))
            + min (max (b - t1) 0) (min (max (D2 - a) 0) (b - a)) := by
        rw [eq, max_eq_right (by linarith : b - t1 ≤ 0), min_eq_left (q0 D2), add_zero]
      exact ⟨e.le, fun _ => e⟩
    · refine ⟨?_, ?_⟩
      · rw [max_eq_left (by linarith : (0 : K) ≤ b - t1)]
        rcases le_total d t1 with h3 | h3
        · have : D1 = D2 := by rw [e1, e2, min_eq_left h3, min_eq_left (h3.trans h12)]
          rw [this]
          have : 0 ≤ min (b - t1) (min (max (D2 - a) 0) (b - a)) := le_min (by linarith) (q0 D2)
          linarith
        · have hD1 : D1 = t1 := by rw [e1, min_eq_right h3]
          have z1 : min (max (D1 - a) 0) (b - a) = t1 - a := by
            rw [hD1, max_eq_left (by linarith)]; exact min_eq_left (by linarith)
          rw [z1]
          have hq := qb D2
          have hq0 := q0 D2
          generalize min (max (D2 - a) 0) (b - a) = q at hq hq0
          have hp0 := le_max_left (b - t0) 0
          have hp1 := le_max_right (b - t0) 0
          generalize max (b - t0) 0 = p at hp0 hp1
          rcases le_total (b - t1) q with h4 | h4
          · rw [min_eq_left h4]
            rcases le_total p (t1 - a) with h5 | h5
            · rw [min_eq_left h5]; have := min_le_left p q; linarith
            · rw [min_eq_right h5]; have := min_le_right p q; linarith
          · rw [min_eq_right h4]
            have := min_le_right p q
            have : 0 ≤ min p (t1 - a) := le_min hp1 (by linarith)
            linarith
      · rintro (h3 | h3)
        · obtain rfl := le_antisymm h1 h3
          have hD1 : D1 - a ≤ 0 := by have := min_le_right d a; linarith
          have z1 : min (max (D1 - a) 0) (b - a) = 0 := by
            rw [max_eq_right hD1]; exact min_eq_left (by linarith)
          rw [z1, min_eq_right (le_max_right _ _), zero_add,
            min_eq_right ((qb D2).trans ((by linarith : b - a ≤ b - t0).trans (le_max_left _ _))),
            min_eq_right ((qb D2).trans (le_max_left _ _))]
        · obtain rfl := le_antisymm h2 h3
          have eq : min (max (D1 - a) 0) (t1 - a) = min (max (D2 - a) 0) (t1 - a) := by
            rcases le_total d t1 with h4 | h4
            · rw [e1, e2, min_eq_left h4, min_eq_left (h4.trans h12)]
            · have hD1 : t1 ≤ D1 := by rw [e1, min_eq_right h4]
              have hD2 : t1 ≤ D2 := by rw [e2]; exact le_min h4 h12
              rw [min_eq_right ((by linarith : t1 - a ≤ D1 - a).trans (le_max_left _ _)),
                min_eq_right ((by linarith : t1 - a ≤ D2 - a).trans (le_max_left _ _))]
          rw [eq, sub_self, max_self, min_eq_left (q0 D2), add_zero]

theorem cellDz_mono {a b t t' D D' : K} (h1 : t' ≤ t) (h2 : D ≤ D') : cellDz a b t D ≤ cellDz a b t' D' := by
  unfold cellDz
  exact min_le_min (max_le_max (by linarith) le_rfl)
    (min_le_min (max_le_max (by linarith) le_rfl) le_rfl)

/-- Two adjacent ranges: their thicknesses never add up to less than those of the joint range, and they add up to
it exactly when the ranges meet at an interface. -/
theorem C125_ranges (g : DzGrid levels interfaces z zi n lev ifc) (hb : Bathy depth)
    (hz : z ∉ depth.dimNames) {t0 t1 t2 : K} (h01 : t0 ≤ t1) (h12 : t1 ≤ t2) :
    ∃ r s w, calcDz levels interfaces depth (fin t0) (some (fin t1)) = .ok r ∧
      calcDz levels interfaces depth (fin t1) (some (fin t2)) = .ok s ∧
      calcDz levels interfaces depth (fin t0) (some (fin t2)) = .ok w ∧
      ∀ e, depth.InBounds e → e z < n → ∃ u v x, r.get e = fin u ∧ s.get e = fin v ∧ w.get e = fin x ∧
        x ≤ u + v ∧ ((∃ j ≤ n, ifc j = t1) → x = u + v) := by
  obtain ⟨r, r1, -, r3⟩ := calcDz_ok g hb t0 (some t1) false hz
  obtain ⟨s, s1, -, s3⟩ := calcDz_ok g hb t1 (some t2) false hz
  obtain ⟨w, w1, -, w3⟩ := calcDz_ok g hb t0 (some t2) false hz
  refine ⟨r, s, w, r1, s1, w1, fun e he hk => ?_⟩
  have a1 := r3 e he
  have a2 := s3 e he
  have a3 := w3 e he
  simp only [Bool.false_eq_true, if_false, floorAt] at a1 a2 a3
  obtain ⟨c1, c2⟩ := cellDz_split (d := val0 (depth.get e)) (g.imono _ hk) h01 h12 rfl rfl
  refine ⟨_, _, _, a1, a2, a3, c1, ?_⟩
  rintro ⟨j, hj, rfl⟩
  refine c2 ?_
  rcases Nat.lt_or_ge (e z) j with h | h
  · exact Or.inr (ifc_le g.imono _ _ h hj)
  · exact Or.inl (ifc_le g.imono _ _ h hk.le)

/-- A wider range never gives a smaller thickness. -/
theorem C125_monotone (g : DzGrid levels interfaces z zi n lev ifc) (hb : Bathy depth)
    (hz : z ∉ depth.dimNames) {top top' bottom bottom' : K} (h1 : top' ≤ top) (h2 : bottom ≤ bottom') :
    ∃ r r', calcDz levels interfaces depth (fin top) (some (fin bottom)) = .ok r ∧
      calcDz levels interfaces depth (fin top') (some (fin bottom')) = .ok r' ∧
      ∀ e, depth.InBounds e → e z < n → ∃ u v, r.get e = fin u ∧ r'.get e = fin v ∧ u ≤ v := by
  obtain ⟨r, r1, -, r3⟩ := calcDz_ok g hb top (some bottom) false hz
  obtain ⟨s, s1, -, s3⟩ := calcDz_ok g hb top' (some bottom') false hz
  refine ⟨r, s, r1, s1, fun e he hk => ?_⟩
  have a1 := r3 e he
  have a2 := s3 e he
  simp only [Bool.false_eq_true, if_false, floorAt] at a1 a2
  exact ⟨_, _, a1, a2, cellDz_mono h1 (min_le_min le_rfl h2)⟩

/-- Two ranges within one layer of 100 m: 30–40 m and 40–60 m get 40 m and 60 m, the joint range 60 m. -/
example : ∃ r s w, calcDz wLevels wInterfaces wDepth (fin 30) (some (fin 40)) = .ok r ∧
    calcDz wLevels wInterfaces wDepth (fin 40) (some (fin 60)) = .ok s ∧
    calcDz wLevels wInterfaces wDepth (fin 30) (some (fin 60)) = .ok w ∧
    r.get (fun _ => 0) = fin 40 ∧ s.get (fun _ => 0) = fin 60 ∧ w.get (fun _ => 0) = fin 60 := by
  obtain ⟨r, r1, r2⟩ := C125_value wGrid wBathy (by simp [wDepth, DA.dimNames]) 30 40
  obtain ⟨s, s1, s2⟩ := C125_value wGrid wBathy (by simp [wDepth, DA.dimNames]) 40 60
  obtain ⟨w, w1, w2⟩ := C125_value wGrid wBathy (by simp [wDepth, DA.dimNames]) 30 60
  have hb : wDepth.InBounds (fun _ => 0) := by
    intro p hp; simp [wDepth] at hp; rcases hp with rfl | rfl <;> decide
  refine ⟨r, s, w, r1, s1, w1, ?_, ?_, ?_⟩
  · rw [r2 _ hb (by decide)]; norm_num [Spec.overlap, wIfc, wDepth]
  · rw [s2 _ hb (by decide)]; norm_num [Spec.overlap, wIfc, wDepth]
  · rw [w2 _ hb (by decide)]; norm_num [Spec.overlap, wIfc, wDepth]

/-- `C125_column`: the hypotheses hold for the grid of `Props/Dz.lean`, and the sums of the ranges above follow it. -/
example : ∃ r, calcDz wLevels wInterfaces wDepth (fin 30) (some (fin 40)) = .ok r ∧
    ∃ err, (r.sumDim "z_l").get (fun _ => 0) = fin (Spec.overlap (wIfc 0) (wIfc 1) 30 (min (val0 (wDepth.get (fun _ => 0))) 40) + err) ∧
      0 ≤ err := by
  obtain ⟨r, h1, h2⟩ := C125_column wGrid wBathy (by simp [wDepth, DA.dimNames]) 30 40
  have hb : wDepth.InBounds (fun _ => 0) := by
    intro p hp; simp [wDepth] at hp; rcases hp with rfl | rfl <;> decide
  obtain ⟨err, e1, e2, -⟩ := h2 _ hb
  exact ⟨r, h1, err, e1, e2⟩

end Momlevel.Props
