import Verif.Model.Spice
import Verif.Spec.Flament
import Mathlib.Tactic.Ring
import Mathlib.Tactic.NormNum
import Mathlib.Tactic.NormNum.OfScientific
import Mathlib.Tactic.Linarith
import Mathlib.Data.Fin.VecNotation
import Mathlib.Data.List.Nodup

/-! Helper lemmas about the spiciness model. -/

namespace Momlevel.Spice
open Momlevel.Fl

theorem pow_fin (x : ℝ) (k : Nat) : pow (fin x) k = fin (x ^ k) := by
  induction k with
  | zero => simp [pow]
  | succ k ih => simp [pow, ih, pow_succ]

/-- `contract` applied to the power rows of one point. -/
noncomputable def point (t s : Fl ℝ) : Fl ℝ :=
  contract ((List.range 5).map (fun k => pow (s - 35.0) k)) ((List.range 6).map (fun k => pow t k))

set_option maxHeartbeats 1000000 in
theorem point_fin (t s : ℝ) : point (fin t) (fin s) = fin (Spec.Flament.poly t s) := by
  have e35 : (fin s - 35.0 : Fl ℝ) = fin (s - 35) := by
    rw [ofSci, fin_sub]; norm_num
  unfold point contract npsum
  rw [e35]
  simp only [List.range, List.range.loop, List.map_cons, List.map_nil, pow_fin, B_IJ, ofSci,
    fin_neg, List.zip_cons_cons, List.zip_nil_left, List.foldr_cons, List.foldr_nil, fin_mul,
    fin_add]
  congr 1
  unfold Spec.Flament.poly
  simp only [Finset.sum_range_succ, Finset.sum_range_zero, Spec.Flament.b, List.getD_cons_zero,
    List.getD_cons_succ]
  norm_num
  ring

theorem swap_powerRows (m : Nat) (x : List (Fl ℝ)) :
    swapaxes x.length (powerRows m x) = x.map (fun v => (List.range m).map (fun k => pow v k)) := by
  apply List.ext_getElem
  · simp [swapaxes]
  · intro i h1 h2
    have hi : i < x.length := by simpa [swapaxes] using h1
    simp [swapaxes, powerRows, hi]

theorem spice_data (t s : List (Fl ℝ)) :
    List.zipWith contract (swapaxes s.length (powerRows 5 (s.map (fun v => v - 35.0))))
      (swapaxes t.length (powerRows 6 t)) = List.zipWith (fun a b => point b a) s t := by
  have h := swap_powerRows 5 (s.map (fun v => v - 35.0))
  rw [List.length_map] at h
  rw [h, swap_powerRows, List.zipWith_map_left, List.zipWith_map_left, List.zipWith_map_right]
  rfl

theorem npsum_nan {l : List (Fl ℝ)} (h : nan ∈ l) : npsum l = nan := by
  induction l with
  | nil => simp at h
  | cons x l ih =>
    rcases List.mem_cons.1 h with h | h
    · subst h; simp [npsum]
    · have := ih h
      unfold npsum at this ⊢
      rw [List.foldr_cons, this, add_nan]

theorem point_nan_left (s : Fl ℝ) : point nan s = nan := by
  unfold point contract
  apply npsum_nan
  simp only [List.range, List.range.loop, List.map_cons, List.map_nil, B_IJ, List.zip_cons_cons,
    List.zip_nil_left, List.mem_cons]
  right; left
  symm
  apply npsum_nan
  simp [pow]

theorem point_nan_right (t : Fl ℝ) : point t nan = nan := by
  unfold point contract
  apply npsum_nan
  simp only [List.range, List.range.loop, List.map_cons, List.map_nil, B_IJ, List.zip_cons_cons,
    List.zip_nil_left, List.mem_cons]
  left
  symm
  apply npsum_nan
  simp [pow]

theorem count_cons (d : String) (n : Nat) (ds : List (String × Nat)) :
    count ((d, n) :: ds) = n * count ds := by simp [count]

theorem length_ravel {V : Type*} (ds : List (String × Nat)) (g : Env → V) :
    (ravel ds g).length = count ds := by
  induction ds generalizing g with
  | nil => simp [ravel, count]
  | cons p ds ih =>
    obtain ⟨d, n⟩ := p
    rw [count_cons]
    simp [ravel, ih, List.length_flatMap]

theorem flatIndex_lt {ds : List (String × Nat)} {e : Env} (h : ∀ p ∈ ds, e p.1 < p.2) :
    flatIndex ds e < count ds := by
  induction ds with
  | nil => simp [flatIndex, count]
  | cons p ds ih =>
    obtain ⟨d, n⟩ := p
    rw [count_cons]
    have h1 := h (d, n) (by simp)
    have h2 := ih (fun q hq => h q (by simp [hq]))
    simp only at h1
    show e d * count ds + flatIndex ds e < n * count ds
    have : (e d + 1) * count ds ≤ n * count ds := Nat.mul_le_mul_right _ h1
    rw [Nat.add_mul] at this
    omega

theorem flatMap_getElem? {V : Type*} (n c : Nat) (f : Nat → List V) (hf : ∀ i, (f i).length = c)
    (i j : Nat) (hi : i < n) (hj : j < c) :
    ((List.range n).flatMap f)[i * c + j]? = (f i)[j]? := by
  induction n with
  | zero => omega
  | succ n ih =>
    rw [List.range_succ, List.flatMap_append]
    have hl : ((List.range n).flatMap f).length = n * c := by
      simp [List.length_flatMap, hf]
    rcases Nat.lt_or_ge i n with h | h
    · rw [List.getElem?_append_left, ih h]
      rw [hl]
      have : (i + 1) * c ≤ n * c := Nat.mul_le_mul_right _ h
      rw [Nat.add_mul] at this; omega
    · have : i = n := by omega
      subst this
      rw [List.getElem?_append_right (by omega), hl]
      simp

theorem ravel_flatIndex {V : Type*} (ds : List (String × Nat)) (g : Env → V) (e : Env)
    (h : ∀ p ∈ ds, e p.1 < p.2) (hn : (ds.map Prod.fst).Nodup) :
    (ravel ds g)[flatIndex ds e]? = some (g (fun d => if d ∈ ds.map Prod.fst then e d else 0)) := by
  induction ds generalizing g with
  | nil => simp [ravel, flatIndex]
  | cons p ds ih =>
    obtain ⟨d, n⟩ := p
    have h1 := h (d, n) (by simp)
    have h2 : ∀ p ∈ ds, e p.1 < p.2 := fun q hq => h q (by simp [hq])
    simp only [List.map_cons, List.nodup_cons] at hn
    show ((List.range n).flatMap _)[e d * count ds + flatIndex ds e]? = _
    rw [flatMap_getElem? n (count ds) _ (fun i => length_ravel _ _) _ _ h1 (flatIndex_lt h2),
      ih _ h2 hn.2]
    congr 2
    funext x
    by_cases hx : x = d
    · subst hx; simp
    · rw [Function.update_of_ne hx]
      by_cases hm : x ∈ ds.map Prod.fst
      · rw [if_pos hm, if_pos (by rw [List.map_cons]; exact List.mem_cons_of_mem _ hm)]
      · rw [if_neg hm, if_neg (by
          rw [List.map_cons, List.mem_cons, not_or]
          exact ⟨hx, hm⟩)]

end Momlevel.Spice
