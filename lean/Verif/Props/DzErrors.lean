import Verif.Props.Dz

/-! # C171: errors in depth, and cell thicknesses -/

set_option linter.unusedSectionVars false

namespace Momlevel.Props
open Momlevel Momlevel.Fl

variable {K : Type} [Field K] [LinearOrder K] [IsStrictOrderedRing K]
variable {levels interfaces depth depth' : DA (Fl K)} {z zi : String} {n : Nat} {lev ifc : Nat → K}

theorem cellDz_diff (a b t t' D D' : K) : |cellDz a b t' D' - cellDz a b t D| ≤ max |t' - t| |D' - D| := by
  unfold cellDz
  refine (abs_min_sub_min_le_max _ _ _ _).trans (max_le_max ?_ ?_)
  · refine (abs_max_sub_max_le_abs _ _ _).trans_eq ?_
    rw [sub_sub_sub_cancel_left, abs_sub_comm]
  · refine (abs_min_sub_min_le_max _ _ _ _).trans (max_le ?_ (by simp))
    refine (abs_max_sub_max_le_abs _ _ _).trans_eq ?_
    rw [sub_sub_sub_cancel_right]

/-- **C171 (depth range)** Depth, `top` and `bottom` each off by some amount: no thickness is off by more than the largest
of the three. -/
theorem C171_range (g : DzGrid levels interfaces z zi n lev ifc) (hb : Bathy depth) (hb' : Bathy depth')
    (hz : z ∉ depth.dimNames) (hz' : z ∉ depth'.dimNames) (top top' bottom bottom' : K) :
    ∃ r r', calcDz levels interfaces depth (fin top) (some (fin bottom)) = .ok r ∧
      calcDz levels interfaces depth' (fin top') (some (fin bottom')) = .ok r' ∧
      ∀ e d d', depth.InBounds e → depth'.InBounds e → depth.get e = fin d → depth'.get e = fin d' →
        ∃ v v', r.get e = fin v ∧ r'.get e = fin v' ∧
          |v' - v| ≤ max |top' - top| (max |d' - d| |bottom' - bottom|) := by
  obtain ⟨r, h1, -, h3⟩ := calcDz_ok g hb top (some bottom) false hz
  obtain ⟨r', h1', -, h3'⟩ := calcDz_ok g hb' top' (some bottom') false hz'
  refine ⟨r, r', h1, h1', fun e d d' he he' hd hd' => ?_⟩
  have k := h3 e he
  have k' := h3' e he'
  simp only [Bool.false_eq_true, if_false, floorAt, hd, hd', val0_fin] at k k'
  exact ⟨_, _, k, k', (cellDz_diff _ _ _ _ _ _).trans (max_le_max le_rfl (abs_min_sub_min_le_max _ _ _ _))⟩

theorem overlap_mono (a b t : K) {D D' : K} (h : D ≤ D') : Spec.overlap a b t D ≤ Spec.overlap a b t D' := by
  unfold Spec.overlap
  exact max_le_max le_rfl (sub_le_sub_right (min_le_min le_rfl h) _)

theorem overlap_diff (a b t D D' : K) : |Spec.overlap a b t D' - Spec.overlap a b t D| ≤ |D' - D| := by
  unfold Spec.overlap
  rw [max_comm 0, max_comm 0]
  refine (abs_max_sub_max_le_abs _ _ _).trans ?_
  rw [sub_sub_sub_cancel_right]
  refine (abs_min_sub_min_le_max _ _ _ _).trans ?_
  simp

/-- **C171 (whole column)** Default limits: an error in depth is spread over the column without being enlarged, and a
deeper sea floor makes no cell thinner. -/
theorem C171_column (g : DzGrid levels interfaces z zi n lev ifc) (hb : Bathy depth) (hb' : Bathy depth')
    (hz : z ∉ depth.dimNames) (hz' : z ∉ depth'.dimNames) :
    ∃ r r', calcDz levels interfaces depth = .ok r ∧ calcDz levels interfaces depth' = .ok r' ∧
      ∀ e d d', depth.InBounds e → depth'.InBounds e → depth.get e = fin d → depth'.get e = fin d' →
        ∃ v v' : Nat → K, (∀ k < n, r.get (Function.update e z k) = fin (v k) ∧
            r'.get (Function.update e z k) = fin (v' k) ∧ (d ≤ d' → v k ≤ v' k)) ∧
          ∑ k ∈ Finset.range n, |v' k - v k| ≤ |d' - d| := by
  obtain ⟨r, h1, -, h3⟩ := C08_cell g hb hz
  obtain ⟨r', h1', -, h3'⟩ := C08_cell g hb' hz'
  have at_ : ∀ {depth r : DA (Fl K)} {e : Env} {d : K}, Bathy depth → z ∉ depth.dimNames →
      (∀ e, depth.InBounds e → e z < n → ∃ v, r.get e = fin v
        ∧ v = Spec.overlap (ifc (e z)) (ifc (e z + 1)) (ifc 0) (val0 (depth.get e))
        ∧ 0 ≤ v ∧ v ≤ ifc (e z + 1) - ifc (e z)) → depth.InBounds e → depth.get e = fin d →
      ∀ k < n, r.get (Function.update e z k) = fin (Spec.overlap (ifc k) (ifc (k + 1)) (ifc 0) d) := by
    intro depth r e d hb hz h he hd k hk
    obtain ⟨v, hv, hv2, -⟩ := h (Function.update e z k) (fun p hp => by
      have : p.1 ≠ z := fun h => hz (h ▸ List.mem_map_of_mem hp)
      rw [Function.update_of_ne this]
      exact he p hp) (by simpa using hk)
    have hg : depth.get (Function.update e z k) = depth.get e := by
      apply hb.wf
      intro q hq
      have hqz : q ≠ z := fun h => hz (h ▸ hq)
      rw [Function.update_of_ne hqz]
    rw [hv, hv2, hg, hd, val0_fin, Function.update_self]
  refine ⟨r, r', h1, h1', fun e d d' he he' hd hd' => ⟨_, _, fun k hk =>
    ⟨at_ hb hz h3 he hd k hk, at_ hb' hz' h3' he' hd' k hk, fun h => overlap_mono _ _ _ h⟩, ?_⟩⟩
  have tot : ∀ x y : K, x ≤ y → ∑ k ∈ Finset.range n,
      |Spec.overlap (ifc k) (ifc (k + 1)) (ifc 0) y - Spec.overlap (ifc k) (ifc (k + 1)) (ifc 0) x| ≤ |y - x| := by
    intro x y h
    rw [Finset.sum_congr rfl (fun k _ => abs_of_nonneg (sub_nonneg.2 (overlap_mono (ifc k) (ifc (k + 1)) (ifc 0) h))),
      Finset.sum_sub_distrib, overlap_telescope ifc _ n g.imono, overlap_telescope ifc _ n g.imono]
    exact (le_abs_self _).trans (overlap_diff _ _ _ _ _)
  rcases le_total d d' with h | h
  · exact tot d d' h
  · rw [abs_sub_comm d', Finset.sum_congr rfl (fun k _ => abs_sub_comm _ _)]
    exact tot d' d h

/-- Depths of 100 m and 70 m over one layer of 100 m. -/
example : ∃ r r', calcDz wLevels wInterfaces wDepth = .ok r ∧
    calcDz wLevels wInterfaces ⟨[("y", 1), ("x", 1)], fun _ => fin 70⟩ = .ok r' ∧
    ∃ v v' : Nat → ℚ, (∀ k < 1, r.get (Function.update (fun _ => 0) "z_l" k) = fin (v k) ∧
      r'.get (Function.update (fun _ => 0) "z_l" k) = fin (v' k)) ∧ ∑ k ∈ Finset.range 1, |v' k - v k| ≤ 30 := by
  have b2 : Bathy (⟨[("y", 1), ("x", 1)], fun _ => fin 70⟩ : DA (Fl ℚ)) :=
    ⟨fun _ _ _ => rfl, by simp [DA.dimNames], fun _ _ => Or.inr ⟨70, by norm_num, rfl⟩⟩
  obtain ⟨r, r', h1, h2, h3⟩ := C171_column wGrid wBathy b2 (by simp [wDepth, DA.dimNames]) (by simp [DA.dimNames])
  have ib : ∀ q : Env → Fl ℚ, DA.InBounds ⟨[("y", 1), ("x", 1)], q⟩ (fun _ => 0) := by
    intro q p hp
    simp at hp
    rcases hp with rfl | rfl <;> decide
  obtain ⟨v, v', k1, k2⟩ := h3 (fun _ => 0) 100 70 (ib _) (ib _) rfl rfl
  exact ⟨r, r', h1, h2, v, v', fun k hk => ⟨(k1 k hk).1, (k1 k hk).2.1⟩, k2.trans (by norm_num [abs_of_neg])⟩

/-- The same with ranges 10 to 80 m and 12 to 85 m. -/
example : ∃ r r', calcDz wLevels wInterfaces wDepth (fin 10) (some (fin 80)) = .ok r ∧
    calcDz wLevels wInterfaces wDepth (fin 12) (some (fin 85)) = .ok r' ∧
    ∃ v v', r.get (fun _ => 0) = fin v ∧ r'.get (fun _ => 0) = fin v' ∧ |v' - v| ≤ 5 := by
  obtain ⟨r, r', h1, h2, h3⟩ := C171_range wGrid wBathy wBathy (by simp [wDepth, DA.dimNames])
    (by simp [wDepth, DA.dimNames]) 10 12 80 85
  have ib : wDepth.InBounds (fun _ => 0) := by
    intro p hp; simp [wDepth] at hp; rcases hp with rfl | rfl <;> decide
  obtain ⟨v, v', k1, k2, k3⟩ := h3 (fun _ => 0) 100 100 ib ib rfl rfl
  exact ⟨r, r', h1, h2, v, v', k1, k2, k3.trans (by norm_num [abs_of_pos])⟩

end Momlevel.Props
