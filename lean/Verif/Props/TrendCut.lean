import Verif.Model.TrendCut
import Verif.Props.TrendSize

/-! # C130: the cut-off of the least-squares solver -/

set_option linter.unusedSectionVars false

namespace Momlevel.Props
open Momlevel Momlevel.Fl

variable {K : Type} [Field K] [LinearOrder K] [IsStrictOrderedRing K]

/-- What `cutActs` decides: for a symmetric two by two matrix with eigenvalues `l ≤ L` (the squares of the singular
values), determinant `l L` and trace `l + L`. -/
theorem cut_iff {l L r : K} (hlL : l ≤ L) (hL : 0 < L) (hr : 0 ≤ r) (hr1 : r < 1) :
    (l * L) * (1 + r * r) ^ 2 ≤ r * r * (l + L) ^ 2 ↔ l ≤ (r * r) * L := by
  have hrr : r * r < 1 := by nlinarith
  have hpos : 0 < L - r * r * l := by nlinarith [mul_nonneg hr hr]
  have e : r * r * (l + L) ^ 2 - (l * L) * (1 + r * r) ^ 2 = (r * r * L - l) * (L - r * r * l) := by ring
  constructor
  · intro h
    have h1 : 0 ≤ (r * r * L - l) * (L - r * r * l) := by rw [← e]; linarith
    have := nonneg_of_mul_nonneg_left h1 hpos
    linarith
  · intro h
    have := mul_nonneg (sub_nonneg.2 h) hpos.le
    linarith

/-- The sum over all pairs of the squared differences. -/
theorem spread_pairs (L : List (K × K)) :
    lsum L (fun p => lsum L (fun q => (p.1 - q.1) ^ 2)) =
      2 * (L.length * lsum L (fun p => p.1 * p.1) - lsum L (fun p => p.1) * lsum L (fun p => p.1)) := by
  have key : ∀ p : K × K, ∀ M : List (K × K), lsum M (fun q => (p.1 - q.1) ^ 2) =
      M.length * (p.1 * p.1) - 2 * p.1 * lsum M (fun q => q.1) + lsum M (fun q => q.1 * q.1) := by
    intro p M
    induction M with
    | nil => simp
    | cons a M ih => simp only [lsum_cons, ih, List.length_cons]; push_cast; ring
  simp only [key]
  have key2 : ∀ (c d e : K) (M : List (K × K)),
      lsum M (fun p => c * (p.1 * p.1) - 2 * p.1 * d + e) =
      c * lsum M (fun p => p.1 * p.1) - 2 * d * lsum M (fun p => p.1) + M.length * e := by
    intro c d e M
    induction M with
    | nil => simp
    | cons a M ih => simp only [lsum_cons, ih, List.length_cons]; push_cast; ring
  rw [key2]
  ring

theorem lsum_ge_mem {α : Type} {L : List α} {f : α → K} (h : ∀ a ∈ L, 0 ≤ f a) {p : α} (hp : p ∈ L) :
    f p ≤ lsum L f := by
  induction L with
  | nil => simp at hp
  | cons a L ih =>
    rw [lsum_cons]
    have h2 := lsum_nonneg (L := L) (f := f) fun b hb => h b (List.mem_cons_of_mem _ hb)
    rcases List.mem_cons.1 hp with rfl | hp
    · linarith
    · have := ih (fun c hc => h c (List.mem_cons_of_mem _ hc)) hp
      linarith [h a (by simp)]

theorem lsum_ge_two {α : Type} {L : List α} {f : α → K} (h : ∀ a ∈ L, 0 ≤ f a) {p q : α} (hp : p ∈ L) (hq : q ∈ L)
    (hne : p ≠ q) : f p + f q ≤ lsum L f := by
  induction L with
  | nil => simp at hp
  | cons a L ih =>
    rw [lsum_cons]
    have h' : ∀ c ∈ L, 0 ≤ f c := fun c hc => h c (List.mem_cons_of_mem _ hc)
    rcases List.mem_cons.1 hp with rfl | hp' <;> rcases List.mem_cons.1 hq with rfl | hq'
    · exact absurd rfl hne
    · linarith [lsum_ge_mem h' hq']
    · linarith [lsum_ge_mem h' hp']
    · linarith [ih h' hp' hq', h a (by simp)]

theorem lsum_eq_sum {α : Type} (L : List α) (f : α → K) : (L.map f).sum = lsum L f := rfl

/-- Well separated times are not cut off. -/
theorem not_cut {times : List K} {pairs : List (K × K)} {r M D : K}
    (hstt : lsum pairs (fun p => p.1 * p.1) ≤ lsum times (fun t => t * t)) (hn : pairs.length ≤ times.length)
    (hM : lsum times (fun t => t * t) ≤ times.length * M ^ 2)
    (hD : 4 * (r * r) * (times.length : K) ^ 2 * M ^ 2 < D)
    (hsp : D ≤ pairs.length * lsum pairs (fun p => p.1 * p.1) -
      lsum pairs (fun p => p.1) * lsum pairs (fun p => p.1)) :
    cutActs r times pairs = false := by
  have hrr : 0 ≤ r * r := mul_self_nonneg r
  have hD0 : 0 < D := lt_of_le_of_lt (by positivity) hD
  have hsq : 0 ≤ lsum pairs (fun p => p.1 * p.1) := lsum_nonneg fun p _ => mul_self_nonneg _
  have hn0 : 0 < (pairs.length : K) := by
    by_contra hc
    have h0 : (pairs.length : K) = 0 := le_antisymm (not_lt.1 hc) (Nat.cast_nonneg _)
    rw [h0] at hsp
    nlinarith [mul_self_nonneg (lsum pairs (fun p => p.1))]
  have hN : (pairs.length : K) ≤ times.length := Nat.cast_le.2 hn
  have hN0 : 0 < (times.length : K) := hn0.trans_le hN
  have hpos : 0 < lsum pairs (fun p => p.1 * p.1) := by
    rcases hsq.lt_or_eq with h | h
    · exact h
    · rw [← h] at hsp
      nlinarith [mul_self_nonneg (lsum pairs (fun p => p.1))]
  have hs1 : 0 < lsum times (fun t => t * t) := hpos.trans_le hstt
  unfold cutActs
  apply decide_eq_false
  rw [not_le]
  unfold gramDetTrace
  simp only [lsum_eq_sum]
  have htr0 : 0 ≤ lsum pairs (fun p => p.1 * p.1) / lsum times (fun t => t * t) +
      (pairs.length : K) / times.length := by positivity
  have htr : lsum pairs (fun p => p.1 * p.1) / lsum times (fun t => t * t) +
      (pairs.length : K) / times.length ≤ 2 := by
    have h1 := (div_le_one hs1).2 hstt
    have h2 := (div_le_one hN0).2 hN
    linarith
  have hdet : 4 * (r * r) < (pairs.length * lsum pairs (fun p => p.1 * p.1) -
      lsum pairs (fun p => p.1) * lsum pairs (fun p => p.1)) / (lsum times (fun t => t * t) * times.length) := by
    rw [lt_div_iff₀ (by positivity)]
    refine lt_of_le_of_lt ?_ (hD.trans_le hsp)
    have : lsum times (fun t => t * t) * times.length ≤ (times.length : K) ^ 2 * M ^ 2 := by
      calc _ ≤ (times.length * M ^ 2) * times.length := mul_le_mul_of_nonneg_right hM hN0.le
        _ = _ := by ring
    calc _ ≤ 4 * (r * r) * ((times.length : K) ^ 2 * M ^ 2) :=
          mul_le_mul_of_nonneg_left this (by positivity)
      _ = _ := by ring
  have hdet0 : 0 < (pairs.length * lsum pairs (fun p => p.1 * p.1) -
      lsum pairs (fun p => p.1) * lsum pairs (fun p => p.1)) / (lsum times (fun t => t * t) * times.length) :=
    lt_of_le_of_lt (by positivity) hdet
  calc r * r * (lsum pairs (fun p => p.1 * p.1) / lsum times (fun t => t * t) +
        (pairs.length : K) / times.length) ^ 2 ≤ r * r * 2 ^ 2 :=
        mul_le_mul_of_nonneg_left (pow_le_pow_left₀ htr0 htr 2) hrr
    _ = 4 * (r * r) := by ring
    _ < _ := hdet
    _ = _ * 1 := (mul_one _).symm
    _ ≤ _ := mul_le_mul_of_nonneg_left (by nlinarith) hdet0.le

/-! ### Axes with well separated points -/

/-- Points at least `d` apart. -/
theorem gap_le {t : Nat → K} {n : Nat} {d : K} (hg : ∀ k, k + 1 < n → d ≤ t (k + 1) - t k) {i j : Nat}
    (hij : i ≤ j) (hj : j < n) : d * ((j : K) - i) ≤ t j - t i := by
  induction j, hij using Nat.le_induction with
  | base => simp
  | succ j hij ih =>
    have h1 := ih (by omega)
    have h2 := hg j hj
    push_cast
    linarith

theorem gap_sq {t : Nat → K} {n : Nat} {d : K} (hd : 0 ≤ d) (hg : ∀ k, k + 1 < n → d ≤ t (k + 1) - t k) {i j : Nat}
    (hi : i < n) (hj : j < n) : d ^ 2 * ((i : K) - j) ^ 2 ≤ (t i - t j) ^ 2 := by
  have key : ∀ i j : Nat, i ≤ j → j < n → d ^ 2 * ((i : K) - j) ^ 2 ≤ (t i - t j) ^ 2 := by
    intro i j hij hj
    have h1 := gap_le hg hij hj
    have h2 : (0 : K) ≤ (j : K) - i := sub_nonneg.2 (Nat.cast_le.2 hij)
    calc d ^ 2 * ((i : K) - j) ^ 2 = (d * ((j : K) - i)) ^ 2 := by ring
      _ ≤ (t j - t i) ^ 2 := pow_le_pow_left₀ (mul_nonneg hd h2) h1 2
      _ = _ := by ring
  rcases le_total i j with h | h
  · exact key i j h hj
  · have := key j i h hi
    calc d ^ 2 * ((i : K) - j) ^ 2 = d ^ 2 * ((j : K) - i) ^ 2 := by ring
      _ ≤ (t j - t i) ^ 2 := this
      _ = _ := by ring

theorem sum_index (n : Nat) : ∑ i ∈ Finset.range n, (i : K) = n * (n - 1) / 2 := by
  induction n with
  | zero => simp
  | succ n ih => rw [Finset.sum_range_succ, ih]; push_cast; ring

theorem sum_index_sq (n : Nat) : ∑ i ∈ Finset.range n, (i : K) ^ 2 = n * (n - 1) * (2 * n - 1) / 6 := by
  induction n with
  | zero => simp
  | succ n ih => rw [Finset.sum_range_succ, ih]; push_cast; ring

theorem sum_index_diff (n : Nat) : ∑ i ∈ Finset.range n, ∑ j ∈ Finset.range n, ((i : K) - j) ^ 2 =
    (n : K) ^ 2 * ((n : K) ^ 2 - 1) / 6 := by
  have h1 : ∀ i : Nat, ∑ j ∈ Finset.range n, ((i : K) - j) ^ 2 =
      n * (i : K) ^ 2 - 2 * (∑ j ∈ Finset.range n, (j : K)) * i + ∑ j ∈ Finset.range n, (j : K) ^ 2 := by
    intro i
    rw [Finset.sum_congr rfl (fun (j : Nat) _ => show ((i : K) - (j : K)) ^ 2 = (i : K) ^ 2 - 2 * i * j + (j : K) ^ 2 by ring),
      Finset.sum_add_distrib, Finset.sum_sub_distrib, ← Finset.mul_sum, Finset.sum_const, Finset.card_range,
      nsmul_eq_mul]
    ring
  rw [Finset.sum_congr rfl (fun i _ => h1 i), Finset.sum_add_distrib, Finset.sum_sub_distrib, ← Finset.mul_sum,
    ← Finset.mul_sum, Finset.sum_const, Finset.card_range, nsmul_eq_mul, sum_index, sum_index_sq]
  ring

section axis
variable {ix : DimIndex K} {n : Nat} {d M eps : K}

theorem times_length (hn : Spec.pointCount ix = n) : ix.numbers.length = n := by rw [numbers_length, hn]

theorem times_sq (hn : Spec.pointCount ix = n) (hM : ∀ k < n, |Spec.position ix k| ≤ M) :
    lsum ix.numbers (fun t => t * t) ≤ ix.numbers.length * M ^ 2 := by
  rw [times_length hn, numbers_eq, hn]
  have : lsum ((List.range n).map (Spec.position ix)) (fun t => t * t) =
      ∑ k ∈ Finset.range n, Spec.position ix k * Spec.position ix k := by
    unfold lsum
    rw [List.map_map]
    rfl
  rw [this]
  calc _ ≤ ∑ _k ∈ Finset.range n, M ^ 2 := Finset.sum_le_sum fun k hk => by
        have := hM k (Finset.mem_range.1 hk)
        rw [← abs_mul_abs_self, ← sq]
        exact pow_le_pow_left₀ (abs_nonneg _) this 2
    _ = _ := by rw [Finset.sum_const, Finset.card_range, nsmul_eq_mul]

theorem pairs_sq (hn : Spec.pointCount ix = n) (s : Nat → Fl K) :
    lsum (fitPairs n (Spec.position ix) s) (fun p => p.1 * p.1) ≤ lsum ix.numbers (fun t => t * t) := by
  rw [lsum_fitPairs, numbers_eq, hn]
  have : lsum ((List.range n).map (Spec.position ix)) (fun t => t * t) =
      ∑ k ∈ Finset.range n, Spec.position ix k * Spec.position ix k := by
    unfold lsum
    rw [List.map_map]
    rfl
  rw [this]
  unfold Spec.overValid
  refine Finset.sum_le_sum fun k _ => ?_
  unfold Spec.ifValid
  split
  · exact le_rfl
  · exact mul_self_nonneg _

theorem pairs_length (hn : Spec.pointCount ix = n) (s : Nat → Fl K) :
    (fitPairs n (Spec.position ix) s).length ≤ ix.numbers.length := by
  rw [times_length hn]
  unfold fitPairs
  have : ∀ l : List (K × Fl K), (validPairs l).length ≤ l.length := by
    intro l
    induction l with
    | nil => simp [validPairs]
    | cons p l ih =>
      obtain ⟨t, v⟩ := p
      cases v <;> simp only [validPairs, List.length_cons] <;> omega
  exact (this _).trans (by simp)

/-- Any gaps: two different times are at least `d` apart. -/
theorem spread_gaps (hd : 0 ≤ d) (hg : ∀ k, k + 1 < n → d ≤ Spec.position ix (k + 1) - Spec.position ix k)
    (s : Nat → Fl K)
    (hne : (fitPairs n (Spec.position ix) s).length * lsum (fitPairs n (Spec.position ix) s) (fun p => p.1 * p.1) -
      lsum (fitPairs n (Spec.position ix) s) (fun p => p.1) *
        lsum (fitPairs n (Spec.position ix) s) (fun p => p.1) ≠ 0) :
    d ^ 2 ≤ (fitPairs n (Spec.position ix) s).length *
        lsum (fitPairs n (Spec.position ix) s) (fun p => p.1 * p.1) -
      lsum (fitPairs n (Spec.position ix) s) (fun p => p.1) *
        lsum (fitPairs n (Spec.position ix) s) (fun p => p.1) := by
  have e := spread_pairs (fitPairs n (Spec.position ix) s)
  have hin : ∀ p : K × K, ∀ q ∈ fitPairs n (Spec.position ix) s, 0 ≤ (p.1 - q.1) ^ 2 := fun p q _ => sq_nonneg _
  obtain ⟨p, hp, q, hq, hpq⟩ : ∃ p ∈ fitPairs n (Spec.position ix) s, ∃ q ∈ fitPairs n (Spec.position ix) s,
      p.1 ≠ q.1 := by
    by_contra hcon
    push Not at hcon
    apply hne
    have h0 : lsum (fitPairs n (Spec.position ix) s)
        (fun p => lsum (fitPairs n (Spec.position ix) s) (fun q => (p.1 - q.1) ^ 2)) = 0 := by
      rw [lsum_congr (g := fun _ => 0) (fun p hp => ?_), lsum_const, mul_zero]
      rw [lsum_congr (g := fun _ => 0) (fun q hq => ?_), lsum_const, mul_zero]
      rw [hcon p hp q hq]; ring
    linarith
  have hdist : d ^ 2 ≤ (p.1 - q.1) ^ 2 := by
    obtain ⟨i, hi, hit, -⟩ := mem_fitPairs.1 hp
    obtain ⟨j, hj, hjt, -⟩ := mem_fitPairs.1 hq
    have hij : i ≠ j := fun h => hpq (by rw [← hit, ← hjt, h])
    rw [← hit, ← hjt]
    refine le_trans ?_ (gap_sq hd hg hi hj)
    have : (1 : K) ≤ ((i : K) - j) ^ 2 := by
      rcases lt_or_gt_of_ne hij with h | h
      · have : (i : K) + 1 ≤ j := by exact_mod_cast h
        nlinarith
      · have : (j : K) + 1 ≤ i := by exact_mod_cast h
        nlinarith
    nlinarith [sq_nonneg d]
  have h1 := lsum_ge_mem (hin p) hq
  have h2 := lsum_ge_mem (hin q) hp
  have h3 := lsum_ge_two (L := fitPairs n (Spec.position ix) s)
    (f := fun p => lsum (fitPairs n (Spec.position ix) s) (fun q => (p.1 - q.1) ^ 2))
    (fun p _ => lsum_nonneg (hin p)) hp hq (fun h => hpq (by rw [h]))
  have h4 : (q.1 - p.1) ^ 2 = (p.1 - q.1) ^ 2 := by ring
  rw [e] at h3
  linarith

/-- No gaps: the spread of `n` points. -/
theorem spread_full (hd : 0 ≤ d) (hg : ∀ k, k + 1 < n → d ≤ Spec.position ix (k + 1) - Spec.position ix k)
    {s : Nat → Fl K} (hv : ∀ k < n, ∃ v, s k = .fin v) :
    d ^ 2 * ((n : K) ^ 2 * ((n : K) ^ 2 - 1) / 12) ≤ (fitPairs n (Spec.position ix) s).length *
        lsum (fitPairs n (Spec.position ix) s) (fun p => p.1 * p.1) -
      lsum (fitPairs n (Spec.position ix) s) (fun p => p.1) *
        lsum (fitPairs n (Spec.position ix) s) (fun p => p.1) := by
  have e := spread_pairs (fitPairs n (Spec.position ix) s)
  have hov : ∀ f : Nat → K, Spec.overValid n s (fun k _ => f k) = ∑ k ∈ Finset.range n, f k := by
    intro f
    unfold Spec.overValid
    refine Finset.sum_congr rfl fun k hk => ?_
    obtain ⟨v, hv⟩ := hv k (Finset.mem_range.1 hk)
    rw [hv]; rfl
  simp only [lsum_fitPairs] at e
  rw [hov] at e
  simp only [hov] at e
  have h1 : d ^ 2 * ((n : K) ^ 2 * ((n : K) ^ 2 - 1) / 6) ≤ ∑ i ∈ Finset.range n, ∑ j ∈ Finset.range n,
      (Spec.position ix i - Spec.position ix j) ^ 2 := by
    rw [← sum_index_diff, Finset.mul_sum]
    refine Finset.sum_le_sum fun i hi => ?_
    rw [Finset.mul_sum]
    exact Finset.sum_le_sum fun j hj => gap_sq hd hg (Finset.mem_range.1 hi) (Finset.mem_range.1 hj)
  simp only [lsum_fitPairs, hov]
  linarith

theorem pairs_eq (hn : Spec.pointCount ix = n) (s : Nat → Fl K) :
    validPairs (ix.numbers.zip ((List.range n).map s)) = fitPairs n (Spec.position ix) s := by
  unfold fitPairs
  rw [numbers_eq, hn, List.zip_map']

theorem polyfitCut_of (hn : Spec.pointCount ix = n) {trunc : List K → List (K × K) → Fl K × Fl K} {s : Nat → Fl K}
    (h : (gramDetTrace ix.numbers (fitPairs n (Spec.position ix) s)).1 ≠ 0 →
      cutActs (ix.numbers.length * eps) ix.numbers (fitPairs n (Spec.position ix) s) = false) :
    polyfitCut eps trunc ix.numbers ((List.range n).map s) = polyfit1 ix.numbers ((List.range n).map s) := by
  unfold polyfitCut polyfit1
  dsimp only
  rw [pairs_eq hn]
  split_ifs with h1 h2 h3 <;> first | rfl | skip
  rw [h h3.1] at h3
  simp at h3

theorem not_cut_gaps (hn : Spec.pointCount ix = n) (heps : 0 ≤ eps) (hM0 : 0 ≤ M)
    (hg : ∀ k, k + 1 < n → d ≤ Spec.position ix (k + 1) - Spec.position ix k)
    (hM : ∀ k < n, |Spec.position ix k| ≤ M) (hc : 2 * (n : K) ^ 2 * eps * M < d)
    {trunc : List K → List (K × K) → Fl K × Fl K} (s : Nat → Fl K) :
    polyfitCut eps trunc ix.numbers ((List.range n).map s) = polyfit1 ix.numbers ((List.range n).map s) := by
  have hd : 0 ≤ d := le_trans (by positivity) hc.le
  refine polyfitCut_of hn fun hne => ?_
  refine not_cut (M := M) (D := d ^ 2) (pairs_sq hn s) (pairs_length hn s) (times_sq hn hM) ?_
    (spread_gaps hd hg s ?_)
  · rw [times_length hn]
    calc 4 * ((n : K) * eps * (n * eps)) * (n : K) ^ 2 * M ^ 2 = (2 * (n : K) ^ 2 * eps * M) ^ 2 := by ring
      _ < d ^ 2 := pow_lt_pow_left₀ hc (by positivity) (by norm_num)
  · intro h0
    apply hne
    unfold gramDetTrace
    simp only [lsum_eq_sum]
    rw [h0, zero_div]

theorem not_cut_full (hn : Spec.pointCount ix = n) (heps : 0 ≤ eps) (hM0 : 0 ≤ M)
    (hg : ∀ k, k + 1 < n → d ≤ Spec.position ix (k + 1) - Spec.position ix k)
    (hM : ∀ k < n, |Spec.position ix k| ≤ M) (hc : 8 * eps * M < d)
    {trunc : List K → List (K × K) → Fl K × Fl K} {s : Nat → Fl K} (hv : ∀ k < n, ∃ v, s k = .fin v) :
    polyfitCut eps trunc ix.numbers ((List.range n).map s) = polyfit1 ix.numbers ((List.range n).map s) := by
  have hd : 0 < d := lt_of_le_of_lt (by positivity) hc
  refine polyfitCut_of hn fun hne => ?_
  have hn2 : 2 ≤ n := by
    by_contra hcon
    apply hne
    unfold gramDetTrace
    simp only [lsum_eq_sum]
    have hl := pairs_length hn s
    rw [times_length hn] at hl
    match hp : fitPairs n (Spec.position ix) s with
    | [] => simp
    | [p] => simp
    | p :: q :: r => rw [hp] at hl; simp at hl; omega
  have hn2' : (2 : K) ≤ n := by exact_mod_cast hn2
  refine not_cut (M := M) (D := d ^ 2 * ((n : K) ^ 2 * ((n : K) ^ 2 - 1) / 12)) (pairs_sq hn s) (pairs_length hn s)
    (times_sq hn hM) ?_ (spread_full hd.le hg hv)
  rw [times_length hn]
  have h1 : (8 * eps * M) ^ 2 < d ^ 2 := pow_lt_pow_left₀ hc (by positivity) (by norm_num)
  have h2 : (n : K) ^ 4 / 16 ≤ (n : K) ^ 2 * ((n : K) ^ 2 - 1) / 12 := by
    have h4 : (0 : K) ≤ (n : K) ^ 2 - 4 := by nlinarith
    linarith [mul_nonneg (sq_nonneg (n : K)) h4]
  have h3 : 0 < (n : K) ^ 4 / 16 := by positivity
  calc 4 * ((n : K) * eps * (n * eps)) * (n : K) ^ 2 * M ^ 2 = (8 * eps * M) ^ 2 * ((n : K) ^ 4 / 16) := by ring
    _ < d ^ 2 * ((n : K) ^ 4 / 16) := mul_lt_mul_of_pos_right h1 h3
    _ ≤ _ := mul_le_mul_of_nonneg_left h2 (by positivity)

end axis

/-- **C130 (any gaps)** On an axis of `n` points that are at least `d` apart and at most `M` from the origin, with
`2 n² ε M < d`, the cut-off of the least-squares solver (singular values below `n ε` times the largest one, with
`ε` the machine epsilon) never changes `calc_linear_trend`, wherever values are missing. -/
theorem C130_same {x : TrendArray K} {dim : String} {ix : DimIndex K} {u : Option String} {d M eps : K}
    (hix : x.indexes.lookup dim = some ix) (heps : 0 ≤ eps) (hM0 : 0 ≤ M)
    (hg : ∀ k, k + 1 < Spec.pointCount ix → d ≤ Spec.position ix (k + 1) - Spec.position ix k)
    (hM : ∀ k < Spec.pointCount ix, |Spec.position ix k| ≤ M)
    (hc : 2 * (Spec.pointCount ix : K) ^ 2 * eps * M < d) (trunc : List K → List (K × K) → Fl K × Fl K) :
    calcLinearTrendCut eps trunc x dim u = calcLinearTrend x dim u := by
  have hd : dictGet x.indexes dim = .ok ix := by unfold dictGet; rw [hix]
  unfold calcLinearTrendCut calcLinearTrend
  rw [hd]
  simp only [ok_bind]
  have : polyfitCoefficientsCut eps trunc x dim ix = polyfitCoefficients x dim ix := by
    unfold polyfitCoefficientsCut polyfitCoefficients
    have hfit : ∀ e, polyfitCut eps trunc ix.numbers (series x.da dim ix.numbers.length e) =
        polyfit1 ix.numbers (series x.da dim ix.numbers.length e) := by
      intro e
      unfold series
      rw [numbers_length]
      exact not_cut_gaps rfl heps hM0 hg hM hc _
    simp only [hfit]
  rw [this]

/-- **C130 (complete series)** If a series has no gaps, `8 ε M < d` suffices, whatever the number of points. -/
theorem C130_complete {x s b : TrendArray K} {dim : String} {ix : DimIndex K} {u : Option String} {d M eps : K}
    (hix : x.indexes.lookup dim = some ix) (heps : 0 ≤ eps) (hM0 : 0 ≤ M)
    (hg : ∀ k, k + 1 < Spec.pointCount ix → d ≤ Spec.position ix (k + 1) - Spec.position ix k)
    (hM : ∀ k < Spec.pointCount ix, |Spec.position ix k| ≤ M)
    (hc : 8 * eps * M < d) (trunc : List K → List (K × K) → Fl K × Fl K)
    (hs : calcLinearTrend x dim u = .ok (s, b)) :
    ∃ s' b', calcLinearTrendCut eps trunc x dim u = .ok (s', b') ∧ s'.da.dims = s.da.dims ∧
      b'.da.dims = b.da.dims ∧ s'.attrs = s.attrs ∧ b'.attrs = b.attrs ∧
      ∀ e, (∀ k < Spec.pointCount ix, ∃ v, Spec.along x dim e k = .fin v) →
        s'.da.get e = s.da.get e ∧ b'.da.get e = b.da.get e := by
  have hd : dictGet x.indexes dim = .ok ix := by unfold dictGet; rw [hix]
  unfold calcLinearTrend at hs
  unfold calcLinearTrendCut
  rw [hd] at hs ⊢
  simp only [ok_bind] at hs ⊢
  unfold polyfitCoefficients at hs
  unfold polyfitCoefficientsCut
  have hfit : ∀ e, (∀ k < Spec.pointCount ix, ∃ v, Spec.along x dim e k = .fin v) →
      polyfitCut eps trunc ix.numbers (series x.da dim ix.numbers.length e) =
        polyfit1 ix.numbers (series x.da dim ix.numbers.length e) := by
    intro e he
    unfold series
    rw [numbers_length]
    exact not_cut_full rfl heps hM0 hg hM hc he
  split at hs
  · rename_i hcont
    rw [if_pos hcont]
    simp only [ok_bind] at hs ⊢
    unfold scaleSlope at hs ⊢
    split at hs
    · rename_i hcf
      rw [if_pos hcf]
      obtain ⟨f, hf, hs⟩ := bind_ok.1 hs
      obtain ⟨f', hf', hf⟩ := bind_ok.1 hf
      simp only [hf', ok_bind]
      have hf := pure_ok.1 hf
      have hs := pure_ok.1 hs
      subst hf
      cases hs
      refine ⟨_, _, rfl, rfl, rfl, rfl, rfl, fun e he => ⟨?_, ?_⟩⟩
      · show (polyfitCut _ _ _ _).1 * _ = (polyfit1 _ _).1 * _
        rw [hfit e he]
      · show (polyfitCut _ _ _ _).2 = (polyfit1 _ _).2
        rw [hfit e he]
    · rename_i hcf
      rw [if_neg hcf]
      simp only [ok_bind] at hs ⊢
      have hs := pure_ok.1 hs
      cases hs
      refine ⟨_, _, rfl, rfl, rfl, rfl, rfl, fun e he => ⟨?_, ?_⟩⟩
      · show (polyfitCut _ _ _ _).1 = (polyfit1 _ _).1
        rw [hfit e he]
      · show (polyfitCut _ _ _ _).2 = (polyfit1 _ _).2
        rw [hfit e he]
  · simp only [error_bind] at hs
    cases hs

/-- **C130 (double precision)** In double precision (`ε = 2⁻⁵²`), within ten thousand years of 1970: the cut-off never
acts on up to 20000 daily values, nor on up to 100000 values that are at least 28 days apart. -/
theorem C130_double {x : TrendArray K} {dim : String} {ax : TimeAxis} {u : Option String}
    (hix : x.indexes.lookup dim = some (.cftime ax))
    (hM : ∀ k < ax.stamps.length, |Spec.position (K := K) (.cftime ax) k| ≤ 10000 * 366 * 86400000000000)
    (hc : (ax.stamps.length ≤ 20000 ∧ ∀ k, k + 1 < ax.stamps.length →
        86400000000000 ≤ Spec.position (K := K) (.cftime ax) (k + 1) - Spec.position (.cftime ax) k) ∨
      (ax.stamps.length ≤ 100000 ∧ ∀ k, k + 1 < ax.stamps.length →
        28 * 86400000000000 ≤ Spec.position (K := K) (.cftime ax) (k + 1) - Spec.position (.cftime ax) k))
    (trunc : List K → List (K × K) → Fl K × Fl K) :
    calcLinearTrendCut (1 / 2 ^ 52) trunc x dim u = calcLinearTrend x dim u := by
  have sq : ∀ N : Nat, ax.stamps.length ≤ N → ((ax.stamps.length : Nat) : K) ^ 2 ≤ (N : K) ^ 2 := fun N h =>
    pow_le_pow_left₀ (Nat.cast_nonneg _) (Nat.cast_le.2 h) 2
  rcases hc with ⟨hn, hg⟩ | ⟨hn, hg⟩
  · refine C130_same hix (by positivity) (by positivity) hg hM ?_ trunc
    have := sq _ hn
    show 2 * ((ax.stamps.length : Nat) : K) ^ 2 * (1 / 2 ^ 52) * (10000 * 366 * 86400000000000) < 86400000000000
    push_cast at this
    norm_num at this ⊢
    linarith
  · refine C130_same hix (by positivity) (by positivity) hg hM ?_ trunc
    have := sq _ hn
    show 2 * ((ax.stamps.length : Nat) : K) ^ 2 * (1 / 2 ^ 52) * (10000 * 366 * 86400000000000) < 28 * 86400000000000
    push_cast at this
    norm_num at this ⊢
    linarith

/-- Two samples, 0 and 2, at the positions 10¹⁶ and 10¹⁶ + 2 (neighbouring doubles): the exact slope is 1. -/
def trFar : TrendArray ℚ :=
  ⟨⟨[("t", 2)], fun e => if e "t" = 0 then .fin 0 else .fin 2⟩,
   [("t", .numeric [10 ^ 16, 10 ^ 16 + 2])], []⟩

/-- **C130 (where it acts)** Points that are close together and far from the origin are cut off: the slope of `trFar`
is not the slope of the least-squares line but whatever the truncated solution gives. -/
theorem C130_acts (trunc : List ℚ → List (ℚ × ℚ) → Fl ℚ × Fl ℚ) :
    ∃ s b s' b', calcLinearTrend trFar "t" none = .ok (s, b) ∧ s.da.get (fun _ => 0) = .fin 1 ∧
      calcLinearTrendCut (1 / 2 ^ 52) trunc trFar "t" none = .ok (s', b') ∧
      s'.da.get (fun _ => 0) = (trunc [10 ^ 16, 10 ^ 16 + 2] [(10 ^ 16, 0), (10 ^ 16 + 2, 2)]).1 := by
  have hax : Spec.HasAxis trFar "t" (.numeric [10 ^ 16, 10 ^ 16 + 2]) 2 := ⟨by decide, rfl, by simp [trFar], rfl⟩
  obtain ⟨s, b, hs, -⟩ := C51_least_squares hax ⟨0, by omega, by simp [Spec.position]⟩ (unitScale_none _)
  have h1 := C51_exact hax (unitScale_none _) hs (e := fun _ => 0) (m := 1) (q := -10 ^ 16)
    (fun k hk => by
      interval_cases k <;> simp [Spec.along, trFar, Spec.position])
    (i := 0) (j := 1) (by omega) (by omega) (by simp [Spec.along, trFar]) (by simp [Spec.along, trFar])
    (by simp [Spec.position])
  refine ⟨s, b, _, _, hs, by simpa using h1.1, rfl, ?_⟩
  show (polyfitCut (1 / 2 ^ 52) trunc [10 ^ 16, 10 ^ 16 + 2] [.fin 0, .fin 2]).1 = _
  have hp : validPairs ([(10 : ℚ) ^ 16, 10 ^ 16 + 2].zip [Fl.fin 0, Fl.fin 2]) = [(10 ^ 16, 0), (10 ^ 16 + 2, 2)] := rfl
  unfold polyfitCut
  rw [hp]
  rw [if_neg (by simp [isInf]), if_neg (by simp), if_pos]
  constructor
  · norm_num [gramDetTrace]
  · norm_num [cutActs, gramDetTrace]

/-- The series of `trA` (positions 1, 2, 4; with a gap) is not affected. -/
example (trunc : List ℚ → List (ℚ × ℚ) → Fl ℚ × Fl ℚ) :
    calcLinearTrendCut (1 / 2 ^ 52) trunc trA "time" none = calcLinearTrend trA "time" none :=
  C130_same (d := 1) (M := 4) rfl (by norm_num) (by norm_num)
    (fun k hk => by
      have hk : k + 1 < 3 := hk
      have : k < 2 := by omega
      interval_cases k <;> norm_num [Spec.position])
    (fun k hk => by
      have hk : k < 3 := hk
      interval_cases k <;> norm_num [Spec.position])
    (by show 2 * ((3 : ℕ) : ℚ) ^ 2 * (1 / 2 ^ 52) * 4 < 1; norm_num) trunc

/-- Two months of a noleap calendar, one value missing. -/
def trMonths : TrendArray ℚ :=
  ⟨⟨[("time", 3)], fun e => if e "time" = 1 then .nan else .fin (e "time")⟩,
   [("time", .cftime ⟨.noleap, [⟨⟨2000, 1, 1⟩, 0⟩, ⟨⟨2000, 2, 1⟩, 0⟩, ⟨⟨2000, 3, 1⟩, 0⟩]⟩)], [("units", "m")]⟩

example (trunc : List ℚ → List (ℚ × ℚ) → Fl ℚ × Fl ℚ) :
    calcLinearTrendCut (1 / 2 ^ 52) trunc trMonths "time" (some "yr") =
      calcLinearTrend trMonths "time" (some "yr") := by
  have pos : ∀ k < 3, Spec.position (K := ℚ)
      (.cftime ⟨.noleap, [⟨⟨2000, 1, 1⟩, 0⟩, ⟨⟨2000, 2, 1⟩, 0⟩, ⟨⟨2000, 3, 1⟩, 0⟩]⟩) k =
      ([946080000000000000, 948758400000000000, 951177600000000000] : List ℚ).getD k 0 := by
    intro k hk
    have e1 : (Stamp.toUs .noleap ⟨⟨2000, 1, 1⟩, 0⟩ - Stamp.toUs .noleap ⟨⟨1970, 1, 1⟩, 0⟩) * 1000 =
        946080000000000000 := by decide +kernel
    have e2 : (Stamp.toUs .noleap ⟨⟨2000, 2, 1⟩, 0⟩ - Stamp.toUs .noleap ⟨⟨1970, 1, 1⟩, 0⟩) * 1000 =
        948758400000000000 := by decide +kernel
    have e3 : (Stamp.toUs .noleap ⟨⟨2000, 3, 1⟩, 0⟩ - Stamp.toUs .noleap ⟨⟨1970, 1, 1⟩, 0⟩) * 1000 =
        951177600000000000 := by decide +kernel
    interval_cases k <;>
      simp only [Spec.position, List.map_cons, List.getD_cons_zero, List.getD_cons_succ, e1, e2, e3] <;> norm_num
  refine C130_double rfl (fun k hk => ?_) (Or.inr ⟨by simp, fun k hk => ?_⟩) trunc
  · have hk : k < 3 := hk
    rw [pos k hk]
    interval_cases k <;> norm_num
  · have hk : k + 1 < 3 := hk
    rw [pos k (by omega), pos (k + 1) hk]
    have : k < 2 := by omega
    interval_cases k <;> norm_num

/-- `C130_complete`: the complete series of `trA` are not affected (the weaker condition on the spacing). -/
example (trunc : List ℚ → List (ℚ × ℚ) → Fl ℚ × Fl ℚ) {s b : TrendArray ℚ}
    (hs : calcLinearTrend trA "time" none = .ok (s, b)) :
    ∃ s' b', calcLinearTrendCut (1 / 2 ^ 52) trunc trA "time" none = .ok (s', b') ∧
      ∀ e, (∀ k < 3, ∃ v, Spec.along trA "time" e k = .fin v) → s'.da.get e = s.da.get e ∧ b'.da.get e = b.da.get e := by
  obtain ⟨s', b', h, -, -, -, -, h'⟩ := C130_complete (d := 1) (M := 4) (eps := 1 / 2 ^ 52) (dim := "time") rfl
    (by norm_num) (by norm_num)
    (fun k hk => by
      have hk : k + 1 < 3 := hk
      have : k < 2 := by omega
      interval_cases k <;> norm_num [Spec.position])
    (fun k hk => by
      have hk : k < 3 := hk
      interval_cases k <;> norm_num [Spec.position])
    (by norm_num) trunc hs
  exact ⟨s', b', h, h'⟩

end Momlevel.Props
