import Verif.Model.RoundingAverage
import Verif.Spec.RoundingAverage
import Verif.Props.RoundingDz
import Verif.Props.Annual
import Verif.Props.AnnualCycle
import Verif.Props.Monthly

/-! # C127: averages in time in floating point -/

set_option linter.unusedSectionVars false

namespace Momlevel.Props
open Momlevel Momlevel.Fl Momlevel.Spec

variable {ρ : ℝ → ℝ} {u : ℝ}

/-! ### Sums -/

/-- A sum over a finite set does not depend on the order. -/
theorem tree_finset {S : Finset ℕ} {t : SumTree ℕ} (h : t.leaves.Perm S.toList) (f : ℕ → ℝ) :
    t.sum f = ∑ i ∈ S, f i := by
  rw [SumTree.sum_leaves, (h.map f).sum_eq, Finset.sum_map_toList]

/-- A sum of whole numbers below `2ᵖ` is exact. -/
theorem exact_sum {p : ℕ} {f : ℕ → Rd (nearest p)} {F : ℕ → ℤ} {t : SumTree ℕ}
    (hf : ∀ b ∈ t.leaves, (f b).val = F b) (hs : (t.leaves.map (fun b => |F b|)).sum < 2 ^ p) :
    (t.sum f).val = ((t.leaves.map F).sum : ℤ) ∧ |(t.leaves.map F).sum| ≤ (t.leaves.map (fun b => |F b|)).sum := by
  induction t with
  | leaf b =>
    simp only [SumTree.leaves, SumTree.sum, List.map_cons, List.map_nil, List.sum_cons, List.sum_nil, add_zero]
    exact ⟨hf b (by simp [SumTree.leaves]), le_rfl⟩
  | node l r ihl ihr =>
    have nn : ∀ t : SumTree ℕ, 0 ≤ (t.leaves.map (fun b => |F b|)).sum := fun t =>
      List.sum_nonneg (by simp only [List.mem_map]; rintro _ ⟨k, -, rfl⟩; exact abs_nonneg _)
    have n1 := nn l
    have n2 := nn r
    simp only [SumTree.leaves, List.map_append, List.sum_append] at hs ⊢
    obtain ⟨a, a'⟩ := ihl (fun b h => hf b (by simp [SumTree.leaves, h])) (by linarith)
    obtain ⟨b, b'⟩ := ihr (fun b h => hf b (by simp [SumTree.leaves, h])) (by linarith)
    have hab : |(l.leaves.map F).sum + (r.leaves.map F).sum|
        ≤ (l.leaves.map (fun b => |F b|)).sum + (r.leaves.map (fun b => |F b|)).sum :=
      (abs_add_le _ _).trans (add_le_add a' b')
    refine ⟨?_, hab⟩
    show nearest p ((SumTree.sum f l).val + (SumTree.sum f r).val) = _
    rw [a, b, ← Int.cast_add]
    exact nearest_int (hab.trans_lt hs)

/-- The division at the end of an average. -/
theorem quotient_error (hr : Rounds u 0 ρ) (hu : 0 ≤ u) {g S S' M W : ℝ} (hW : 0 < W) (hM : |S| ≤ M)
    (h : |S' - S| ≤ (g - 1) * M) : |ρ (S' / W) - S / W| ≤ ((1 + u) * g - 1) * (M / W) := by
  have h1 := hr (S' / W)
  rw [max_eq_left (abs_nonneg _), abs_div, abs_of_pos hW] at h1
  have h2 : |S' / W - S / W| = |S' - S| / W := by rw [← sub_div, abs_div, abs_of_pos hW]
  have h3 := abs_sub_le (ρ (S' / W)) (S' / W) (S / W)
  have h4 : |S'| ≤ g * M := by
    have := abs_sub_abs_le_abs_sub S' S
    linarith
  have h5 : |S'| / W ≤ g * M / W := div_le_div_of_nonneg_right h4 hW.le
  have h6 : |S' - S| / W ≤ (g - 1) * M / W := div_le_div_of_nonneg_right h hW.le
  calc _ ≤ u * (|S'| / W) + |S' - S| / W := by linarith
    _ ≤ u * (g * M / W) + (g - 1) * M / W := add_le_add (mul_le_mul_of_nonneg_left h5 hu) h6
    _ = _ := by ring

/-! ### Averages -/

theorem presentWeight_sum (S : Finset ℕ) (w : ℕ → ℕ) (v : ℕ → Fl ℝ) (f : ℕ → ℝ) :
    ∑ i ∈ S, (presentWeight w v i : ℝ) * f i = ∑ i ∈ present S v, (w i : ℝ) * f i := by
  classical
  unfold present
  rw [Finset.sum_filter]
  refine Finset.sum_congr rfl (fun i _ => ?_)
  by_cases h : v i = nan <;> simp [presentWeight, h]

/-- The weighted average, computed in any order, is within `(1+u)^(d+2) - 1` times the average of the absolute
values of the exact average. -/
theorem C127_weighted (hr : Rounds u 0 ρ) (hu : 0 ≤ u) {S : Finset ℕ} {w : ℕ → ℕ} {v : ℕ → Fl ℝ} {q : ℝ}
    (hm : IsWeightedMean S w v (fin q)) (hw : ∀ i ∈ S, 0 < w i) {order orderW : SumTree ℕ}
    (ho : order.leaves.Perm S.toList)
    (hW : (orderW.sum (fun i => (⟨presentWeight w v i⟩ : Rd ρ))).val = ∑ i ∈ present S v, (w i : ℝ)) :
    |(avgWeighted (fun i => (⟨val0 (v i)⟩ : Rd ρ)) (fun i => ⟨presentWeight w v i⟩) order orderW).val - q|
      ≤ ((1 + u) ^ (order.depth + 2) - 1)
        * ((∑ i ∈ present S v, (w i : ℝ) * |val0 (v i)|) / ∑ i ∈ present S v, (w i : ℝ)) := by
  obtain ⟨-, h⟩ | ⟨⟨j, hj, hjn⟩, q', hq', h⟩ := hm
  · exact absurd h (by simp)
  obtain rfl : q = q' := by simpa using hq'
  have hWpos : 0 < ∑ i ∈ present S v, (w i : ℝ) := by
    refine Finset.sum_pos (fun i hi => ?_) ⟨j, by simp [present, hj, hjn]⟩
    exact_mod_cast hw i (Finset.mem_filter.1 hi).1
  set W := ∑ i ∈ present S v, (w i : ℝ)
  set f : ℕ → ℝ := fun i => (presentWeight w v i : ℝ) * val0 (v i)
  set B : ℕ → ℝ := fun i => (presentWeight w v i : ℝ) * |val0 (v i)|
  have hB : ∀ i, |f i| = B i := fun i => by
    simp only [f, B, abs_mul, Nat.abs_cast]
  have hsum : order.sum f = W * q := by
    rw [tree_finset ho, presentWeight_sum S w v (fun i => val0 (v i)), ← h, mul_comm]
  have hBsum : (order.leaves.map B).sum = ∑ i ∈ present S v, (w i : ℝ) * |val0 (v i)| := by
    rw [← SumTree.sum_leaves, tree_finset ho, presentWeight_sum S w v (fun i => |val0 (v i)|)]
  have key := SumTree.sum_error hr hu le_rfl
    (fun i => (⟨val0 (v i)⟩ : Rd ρ) * ⟨presentWeight w v i⟩) f (fun i => u * B i) B order
    (fun b _ => by
      have h := hr (val0 (v b) * presentWeight w v b)
      have e : |val0 (v b) * (presentWeight w v b : ℝ)| = B b := by rw [mul_comm]; exact hB b
      rw [max_eq_left (abs_nonneg _), e] at h
      have e2 : f b = val0 (v b) * presentWeight w v b := mul_comm _ _
      rw [e2]
      exact h)
    (fun b _ => (hB b).le)
  obtain ⟨k1, k2, -⟩ := key
  simp only [add_zero] at k1
  rw [List.sum_map_mul_left] at k1
  set M := (order.leaves.map B).sum
  have e1 : (1 + u) ^ order.depth * (u * M) + ((1 + u) ^ order.depth - 1) * M
      = ((1 + u) ^ (order.depth + 1) - 1) * M := by ring
  rw [e1] at k1
  have fin1 := quotient_error hr hu hWpos k2 k1
  have e2 : order.sum f / W = q := by rw [hsum]; field_simp
  have e3 : (1 + u) * (1 + u) ^ (order.depth + 1) = (1 + u) ^ (order.depth + 2) := by ring
  rw [e2, e3, hBsum] at fin1
  show |ρ (_ / _) - q| ≤ _
  rw [hW]
  exact fin1

/-- The same for the unweighted mean. -/
theorem C127_mean (hr : Rounds u 0 ρ) (hu : 0 ≤ u) {S : Finset ℕ} {v : ℕ → Fl ℝ} {q : ℝ}
    (hm : IsMean S v (fin q)) {order : SumTree ℕ} (ho : order.leaves.Perm S.toList) :
    |(avgPlain (fun i => (⟨val0 (v i)⟩ : Rd ρ)) ⟨(present S v).card⟩ order).val - q|
      ≤ ((1 + u) ^ (order.depth + 1) - 1) * ((∑ i ∈ present S v, |val0 (v i)|) / (present S v).card) := by
  classical
  obtain ⟨-, h⟩ | ⟨⟨j, hj, hjn⟩, q', hq', h⟩ := hm
  · exact absurd h (by simp)
  obtain rfl : q = q' := by simpa using hq'
  have hWpos : (0 : ℝ) < (present S v).card := by
    exact_mod_cast Finset.card_pos.2 ⟨j, by simp [present, hj, hjn]⟩
  have hsub : ∀ f : Fl ℝ → ℝ, f nan = 0 → ∑ i ∈ S, f (v i) = ∑ i ∈ present S v, f (v i) := by
    intro f hf
    unfold present
    rw [Finset.sum_filter]
    refine Finset.sum_congr rfl (fun i _ => ?_)
    by_cases h : v i = nan <;> simp [h, hf]
  set W : ℝ := ((present S v).card : ℝ) with hWdef
  have hsum : order.sum (fun i => val0 (v i)) = W * q := by
    rw [tree_finset ho, hsub val0 rfl, ← h, mul_comm]
  have hBsum : (order.leaves.map (fun i => |val0 (v i)|)).sum = ∑ i ∈ present S v, |val0 (v i)| := by
    rw [← SumTree.sum_leaves, tree_finset ho, hsub (fun x => |val0 x|) (by simp)]
  obtain ⟨k1, k2, -⟩ := SumTree.sum_error hr hu le_rfl (fun i => (⟨val0 (v i)⟩ : Rd ρ)) (fun i => val0 (v i))
    (fun _ => 0) (fun i => |val0 (v i)|) order (fun b _ => by simp) (fun b _ => le_rfl)
  simp only [add_zero, List.map_const', List.sum_replicate, smul_zero, mul_zero, zero_add] at k1
  have fin1 := quotient_error hr hu hWpos k2 k1
  have e2 : order.sum (fun i => val0 (v i)) / W = q := by rw [hsum]; field_simp
  have e3 : (1 + u) * (1 + u) ^ order.depth = (1 + u) ^ (order.depth + 1) := by ring
  rw [e2, e3, hBsum] at fin1
  exact fin1

/-- The sum of the weights is exact as long as it has no more digits than the format. -/
theorem C127_weights {p : ℕ} {S : Finset ℕ} {w : ℕ → ℕ} {v : ℕ → Fl ℝ} (hs : ∑ i ∈ S, w i < 2 ^ p)
    {orderW : SumTree ℕ} (ho : orderW.leaves.Perm S.toList) :
    (orderW.sum (fun i => (⟨presentWeight w v i⟩ : Rd (nearest p)))).val = ∑ i ∈ present S v, (w i : ℝ) := by
  have hle : ∀ i, presentWeight w v i ≤ w i := fun i => by
    unfold presentWeight
    split <;> omega
  have hF : (orderW.leaves.map (fun i => ((presentWeight w v i : ℕ) : ℤ))).sum = ∑ i ∈ S, (presentWeight w v i : ℤ) := by
    rw [(ho.map _).sum_eq, Finset.sum_map_toList]
  have h := (exact_sum (f := fun i => (⟨presentWeight w v i⟩ : Rd (nearest p)))
    (F := fun i => (presentWeight w v i : ℤ)) (t := orderW) (fun b _ => by push_cast; rfl) (by
      simp only [Nat.abs_cast]
      rw [hF]
      have : ∑ i ∈ S, presentWeight w v i ≤ ∑ i ∈ S, w i := Finset.sum_le_sum (fun i _ => hle i)
      exact_mod_cast this.trans_lt hs)).1
  rw [h, hF]
  have := presentWeight_sum S w v (fun _ => 1)
  simp only [mul_one] at this
  rw [← this]
  push_cast
  rfl

/-- Whole samples: the weighted average is the exact one, rounded once. -/
theorem C127_whole {p : ℕ} {S : Finset ℕ} {w : ℕ → ℕ} {v : ℕ → Fl ℝ} {q : ℝ}
    (hm : IsWeightedMean S w v (fin q)) (hw : ∀ i ∈ S, 0 < w i) {m : ℕ → ℤ} (hv : ∀ i ∈ S, v i = nan ∨ v i = fin (m i : ℝ))
    (hs : ∑ i ∈ S, w i < 2 ^ p) (hb : ∑ i ∈ S, w i * |m i| < 2 ^ p)
    {order orderW : SumTree ℕ} (ho : order.leaves.Perm S.toList) (hoW : orderW.leaves.Perm S.toList) :
    (avgWeighted (fun i => (⟨val0 (v i)⟩ : Rd (nearest p))) (fun i => ⟨presentWeight w v i⟩) order orderW).val
      = nearest p q := by
  have hW := C127_weights (v := v) hs hoW
  obtain ⟨-, h⟩ | ⟨⟨j, hj, hjn⟩, q', hq', h⟩ := hm
  · exact absurd h (by simp)
  obtain rfl : q = q' := by simpa using hq'
  have hWpos : 0 < ∑ i ∈ present S v, (w i : ℝ) := by
    refine Finset.sum_pos (fun i hi => ?_) ⟨j, by simp [present, hj, hjn]⟩
    exact_mod_cast hw i (Finset.mem_filter.1 hi).1
  set F : ℕ → ℤ := fun i => presentWeight w v i * m i
  have hFle : ∀ i, |F i| ≤ w i * |m i| := fun i => by
    simp only [F, abs_mul, Nat.abs_cast]
    refine mul_le_mul_of_nonneg_right ?_ (abs_nonneg _)
    unfold presentWeight
    split <;> simp
  have hprod : ∀ i ∈ S, (presentWeight w v i : ℝ) * val0 (v i) = F i := fun i hi => by
    simp only [F]
    push_cast
    rcases hv i hi with e | e
    · simp [presentWeight, e]
    · rw [e, val0_fin]
  have hmem : ∀ b ∈ order.leaves, b ∈ S := fun b hb => Finset.mem_toList.1 (ho.mem_iff.1 hb)
  have habs : (order.leaves.map (fun b => |F b|)).sum < 2 ^ p := by
    rw [(ho.map _).sum_eq, Finset.sum_map_toList]
    exact (Finset.sum_le_sum (fun i _ => hFle i)).trans_lt hb
  have hone : ∀ i ∈ S, |F i| < 2 ^ p := fun i hi => by
    rw [(ho.map _).sum_eq, Finset.sum_map_toList] at habs
    exact (Finset.single_le_sum (f := fun i => |F i|) (fun i _ => abs_nonneg _) hi).trans_lt habs
  have hsum := (exact_sum (f := fun i => (⟨val0 (v i)⟩ : Rd (nearest p)) * ⟨presentWeight w v i⟩) (F := F) (t := order)
    (fun b hb' => by
      show nearest p (val0 (v b) * presentWeight w v b) = F b
      rw [mul_comm, hprod b (hmem b hb')]
      exact nearest_int (hone b (hmem b hb'))) habs).1
  show nearest p (_ / _) = _
  rw [hsum, hW]
  congr 1
  have e : ((order.leaves.map F).sum : ℝ) = ∑ i ∈ present S v, (w i : ℝ) * val0 (v i) := by
    rw [(ho.map _).sum_eq, Finset.sum_map_toList]
    push_cast
    rw [← presentWeight_sum S w v (fun i => val0 (v i))]
    exact Finset.sum_congr rfl (fun i hi => (hprod i hi).symm)
  rw [e, ← h]
  field_simp

/-! ### The averages of the package -/

theorem monthLength_le (c : Calendar) (y m : Nat) : monthLength c y m ≤ 31 := by
  have key : ∀ l : List Nat, (∀ a ∈ l, a ≤ 31) → ∀ k, l.getD k 0 ≤ 31 := by
    intro l h k
    rw [List.getD_eq_getElem?_getD]
    cases hk : l[k]? with
    | none => simp
    | some a => simpa using h a (List.mem_of_getElem? hk)
  unfold monthLength
  split
  · omega
  · refine key _ (fun a ha => ?_) _
    simp only [List.mem_cons, List.not_mem_nil, or_false] at ha
    have : (if Leap c y then 29 else 28) ≤ 31 := by split <;> omega
    omega

/-- `annual_average` in a format of at least nine binary digits. -/
theorem C127_annual {p : ℕ} (hp : 9 ≤ p) {x r : Timed (DA (Fl ℝ))} {tc : String} {ax : TimeAxis}
    (hx : x.axes.lookup tc = some ax) (g : GoodAxis ax) (hF : ∀ e, FN (x.obj.get e))
    (hr : annualAverage x tc = .ok r) {t : TimeAxis} (ht : r.axes = [("time", t)]) {e : Env} {s : Stamp}
    (hs : t.stamps[e "time"]? = some s) {q : ℝ} (hq : r.obj.get e = fin q) {order orderW : SumTree ℕ}
    (ho : order.leaves.Perm (inYear ax.stamps s.date.year).toList)
    (hoW : orderW.leaves.Perm (inYear ax.stamps s.date.year).toList) :
    let v : ℕ → Fl ℝ := fun i => x.obj.get (Function.update e tc i)
    let w := monthDays ax.cal ax.stamps
    let S := present (inYear ax.stamps s.date.year) v
    |(avgWeighted (fun i => (⟨val0 (v i)⟩ : Rd (nearest p))) (fun i => ⟨presentWeight w v i⟩) order orderW).val - q|
      ≤ ((1 + 2⁻¹ ^ p) ^ (order.depth + 2) - 1) * ((∑ i ∈ S, (w i : ℝ) * |val0 (v i)|) / ∑ i ∈ S, (w i : ℝ)) := by
  intro v w S
  obtain ⟨ys, -, hmem, -, ⟨t', ht', -, hl, hmid⟩, hval⟩ := C38_value hx g hF hr
  obtain rfl : t = t' := by rw [ht] at ht'; simpa using ht'
  have hlt : e "time" < ys.length := by
    rw [← hl]; exact (List.getElem?_eq_some_iff.1 hs).1
  have hy : ys[e "time"]? = some ys[e "time"] := List.getElem?_eq_getElem hlt
  have hyear := (hmid _ _ _ hy hs).2.1
  have hm := hval e _ hy
  rw [← hyear, hq] at hm
  obtain ⟨s', hs', hse⟩ := (hmem ys[e "time"]).1 (List.getElem_mem hlt)
  have hcard : (inYear ax.stamps s.date.year).card = 12 := by
    by_contra hne
    have := (C38_twelve (x := x) hx g.nonempty).2 (fun h => hne (by rw [hyear, ← hse]; exact h s' hs'))
    rw [hr] at this
    exact absurd this (by simp)
  have hle : ∀ i, monthDays ax.cal ax.stamps i ≤ 31 := fun i => by
    unfold monthDays
    cases ax.stamps[i]? with
    | none => simp
    | some s =>
      simp only [Option.map_some, Option.getD_some]
      exact monthLength_le _ _ _
  have hsum : ∑ i ∈ inYear ax.stamps s.date.year, w i < 2 ^ p := by
    have h1 := Finset.sum_le_card_nsmul (inYear ax.stamps s.date.year) w 31 (fun i _ => hle i)
    rw [hcard] at h1
    have h2 : 2 ^ 9 ≤ 2 ^ p := Nat.pow_le_pow_right (by norm_num) hp
    simp only [smul_eq_mul] at h1
    exact lt_of_lt_of_le (lt_of_le_of_lt h1 (by norm_num)) h2
  exact C127_weighted (C91_nearest p) (by positivity) hm (fun i hi => monthDays_pos g hi) ho
    (C127_weights hsum hoW)

/-- `monthly_average`. -/
theorem C127_monthly {p : ℕ} {x r : Timed (DA (Fl ℝ))} {tc : String} {ax : TimeAxis}
    (hx : x.axes.lookup tc = some ax) (g : GoodAxis ax) (hF : ∀ e, FN (x.obj.get e))
    (hr : monthlyAverage x tc = .ok r) {t : TimeAxis} (ht : r.axes = [(tc, t)]) {e : Env} {s : Stamp}
    (hs : t.stamps[e tc]? = some s) {q : ℝ} (hq : r.obj.get e = fin q) {order : SumTree ℕ}
    (ho : order.leaves.Perm (inYearMonth ax.stamps s.date.year s.date.month).toList) :
    let v : ℕ → Fl ℝ := fun i => x.obj.get (Function.update e tc i)
    let S := present (inYearMonth ax.stamps s.date.year s.date.month) v
    |(avgPlain (fun i => (⟨val0 (v i)⟩ : Rd (nearest p))) ⟨S.card⟩ order).val - q|
      ≤ ((1 + 2⁻¹ ^ p) ^ (order.depth + 1) - 1) * ((∑ i ∈ S, |val0 (v i)|) / S.card) := by
  intro v S
  obtain ⟨ys, -, hmem, -, ⟨t', ht', -, hl, hmid⟩, hval⟩ := C41_value hx g hF hr
  obtain rfl : t = t' := by rw [ht] at ht'; simpa using ht'
  have hlt : e tc / 12 < ys.length := by
    have := (List.getElem?_eq_some_iff.1 hs).1
    omega
  have hy : ys[e tc / 12]? = some ys[e tc / 12] := List.getElem?_eq_getElem hlt
  obtain ⟨-, h1, h2, -⟩ := hmid _ _ _ hy hs
  have hm := hval e _ hy
  rw [← h1, ← h2, hq] at hm
  exact C127_mean (C91_nearest p) (by positivity) hm ho

/-- `annual_cycle` with `func="mean"`. -/
theorem C127_cycle {p : ℕ} {x r : Timed (DA (Fl ℝ))} {tc : String} {yr : Option Nat} {ax : TimeAxis}
    (hx : x.axes.lookup tc = some ax) (g : GoodAxis ax) (hF : ∀ e, FN (x.obj.get e))
    (hr : annualCycle x tc "mean" yr = .ok r) {e : Env} (he : e tc < 12) {q : ℝ} (hq : r.obj.get e = fin q)
    {order : SumTree ℕ} (ho : order.leaves.Perm (inMonth ax.stamps (e tc + 1)).toList) :
    let v : ℕ → Fl ℝ := fun i => x.obj.get (Function.update e tc i)
    let S := present (inMonth ax.stamps (e tc + 1)) v
    |(avgPlain (fun i => (⟨val0 (v i)⟩ : Rd (nearest p))) ⟨S.card⟩ order).val - q|
      ≤ ((1 + 2⁻¹ ^ p) ^ (order.depth + 1) - 1) * ((∑ i ∈ S, |val0 (v i)|) / S.card) := by
  intro v S
  have hm := ((C40_value hx g hF hr).2 e he).1 rfl
  rw [hq] at hm
  exact C127_mean (C91_nearest p) (by positivity) hm ho

/-! ### Examples -/

/-- Two samples, 3 with weight 31 and 5 with weight 28; a third is missing. -/
theorem exWeighted : IsWeightedMean {0, 1, 2} (fun i => if i = 0 then 31 else 28)
    (fun i => if i = 0 then fin 3 else if i = 1 then fin (5 : ℝ) else nan) (fin (233 / 59)) := by
  refine Or.inr ⟨⟨0, by simp, by simp⟩, _, rfl, ?_⟩
  have : present {0, 1, 2} (fun i => if i = 0 then fin 3 else if i = 1 then fin (5 : ℝ) else nan) = {0, 1} := by
    ext i
    simp only [present, Finset.mem_filter, Finset.mem_insert, Finset.mem_singleton]
    constructor
    · rintro ⟨rfl | rfl | rfl, h⟩ <;> simp_all
    · rintro (rfl | rfl) <;> simp
  rw [this]
  norm_num

/-- In double precision their average is 233/59, rounded once. -/
example : ∃ order : SumTree ℕ, order.leaves.Perm ({0, 1, 2} : Finset ℕ).toList ∧
    ∀ orderW : SumTree ℕ, orderW.leaves.Perm ({0, 1, 2} : Finset ℕ).toList →
    (avgWeighted (fun i => (⟨val0 (if i = 0 then fin 3 else if i = 1 then fin (5 : ℝ) else nan)⟩ : Rd (nearest 53)))
      (fun i => ⟨presentWeight (fun i => if i = 0 then 31 else 28)
        (fun i => if i = 0 then fin 3 else if i = 1 then fin (5 : ℝ) else nan) i⟩) order orderW).val
      = nearest 53 (233 / 59) := by
  have hP : (SumTree.node (.leaf 1) (.node (.leaf 0) (.leaf 2)) : SumTree ℕ).leaves.Perm
      ({0, 1, 2} : Finset ℕ).toList := by
    refine (List.perm_ext_iff_of_nodup (by decide) (Finset.nodup_toList _)).2 (fun i => ?_)
    simp [SumTree.leaves]
    tauto
  refine ⟨_, hP, fun orderW hW => ?_⟩
  exact C127_whole exWeighted (fun i _ => by positivity) (m := fun i => if i = 0 then 3 else 5)
    (fun i hi => by
      simp only [Finset.mem_insert, Finset.mem_singleton] at hi
      rcases hi with rfl | rfl | rfl <;> simp)
    (by norm_num) (by norm_num) hP hW

theorem exists_tree : ∀ {l : List ℕ}, l ≠ [] → ∃ t : SumTree ℕ, t.leaves = l
  | [a], _ => ⟨.leaf a, rfl⟩
  | a :: b :: l, _ => by
    obtain ⟨t, ht⟩ := exists_tree (l := b :: l) (by simp)
    exact ⟨.node (.leaf a) t, by simp [SumTree.leaves, ht]⟩

/-- The months of 2004 with the values 0, 1, …, 11; the third is missing. -/
def exMonthlyR : Timed (DA (Fl ℝ)) :=
  ⟨⟨[("time", 12)], fun e => if e "time" = 2 then nan else fin (e "time" : ℝ)⟩, [("time", exAxis)]⟩

theorem exMonthlyR_FN (e : Env) : FN (exMonthlyR.obj.get e) := by
  simp only [exMonthlyR]; split <;> simp

/-- The hypotheses of `C127_annual` are met: the annual mean of that series exists, and so do orders of summation. -/
example : ∃ (r : Timed (DA (Fl ℝ))) (t : TimeAxis) (s : Stamp) (q : ℝ) (order : SumTree ℕ),
    annualAverage exMonthlyR "time" = .ok r ∧ r.axes = [("time", t)] ∧ t.stamps[0]? = some s ∧
    r.obj.get (fun _ => 0) = fin q ∧ order.leaves.Perm (inYear exAxis.stamps s.date.year).toList := by
  obtain ⟨r, hr⟩ := (C38_twelve (x := exMonthlyR) (ax := exAxis) (tc := "time") rfl exAxis_good.nonempty).1 (by decide)
  obtain ⟨ys, hp, hm, hd, ⟨t, ht, -, hl, hmid⟩, hv⟩ := C38_value (ax := exAxis) rfl exAxis_good exMonthlyR_FN hr
  have hys : ys = [2004] := eq_of_pairwise_lt hp (by simp) (fun k => by
    rw [hm]
    constructor
    · rintro ⟨s, hs, rfl⟩
      have : ∀ s ∈ exAxis.stamps, s.date.year = 2004 := by decide
      simp [this s hs]
    · intro h
      rw [List.mem_singleton.1 h]
      exact ⟨exAxis.stamps[0]'(by decide), List.getElem_mem _, by decide⟩)
  subst hys
  have h0 : 0 < t.stamps.length := by rw [hl]; decide
  have hs : t.stamps[0]? = some t.stamps[0] := List.getElem?_eq_getElem h0
  have hy : t.stamps[0].date.year = 2004 := (hmid 0 2004 _ rfl hs).2.1
  have hne : (inYear exAxis.stamps t.stamps[0].date.year).toList ≠ [] := by
    rw [hy]
    intro h
    have := Finset.toList_eq_nil.1 h
    exact absurd this (by decide)
  obtain ⟨order, ho⟩ := exists_tree hne
  rcases hv (fun _ => 0) 2004 rfl with ⟨h, -⟩ | ⟨-, q, h, -⟩
  · exact absurd (h 0 (by decide)) (by simp [exMonthlyR])
  · exact ⟨r, t, _, q, order, hr, ht, hs, h, by rw [ho]⟩

/-- Those of `C127_cycle`: January of `exCycle` has the two samples 0 and 12. -/
example : ∃ (r : Timed (DA (Fl ℝ))) (q : ℝ), annualCycle exCycle "time" "mean" none = .ok r ∧
    r.obj.get (fun _ => 0) = fin q := by
  obtain ⟨r, hr⟩ := exCycle_ok "mean" (by decide)
  have h := ((C40_value (x := exCycle) rfl exCycle_good exCycle_FN hr).2 (fun _ => 0) (by decide)).1 rfl
  rcases h with ⟨h, -⟩ | ⟨-, q, h, -⟩
  · exact absurd (h 12 (by decide)) (by simp [exCycle])
  · exact ⟨r, q, hr, h⟩

end Momlevel.Props
