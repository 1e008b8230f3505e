import Verif.Props.Linear

/-!
# C129: how large a trend can be

Bounds on the slope from the samples: it lies between the smallest and the largest rate of change between
two samples, it has the sign of a series that never falls or never rises, and it moves by a bounded amount
when the samples move.
-/

set_option linter.unusedSectionVars false

namespace Momlevel.Props
open Momlevel Momlevel.Fl

variable {K : Type} [Field K] [LinearOrder K] [IsStrictOrderedRing K]

theorem lsum_nonneg {α : Type} {L : List α} {f : α → K} (h : ∀ a ∈ L, 0 ≤ f a) : 0 ≤ lsum L f := by
  induction L with
  | nil => simp
  | cons a L ih =>
    rw [lsum_cons]
    exact add_nonneg (h a (by simp)) (ih fun b hb => h b (List.mem_cons_of_mem _ hb))

theorem lsum_eq_zero_iff {α : Type} {L : List α} {f : α → K} (h : ∀ a ∈ L, 0 ≤ f a) (hz : lsum L f = 0) :
    ∀ a ∈ L, f a = 0 := by
  induction L with
  | nil => simp
  | cons a L ih =>
    rw [lsum_cons] at hz
    have h1 := h a (by simp)
    have h2 := lsum_nonneg (L := L) (f := f) fun b hb => h b (List.mem_cons_of_mem _ hb)
    intro b hb
    rcases List.mem_cons.1 hb with rfl | hb
    · linarith
    · exact ih (fun c hc => h c (List.mem_cons_of_mem _ hc)) (by linarith) b hb

/-- The sum over all pairs of samples of the products of the differences of time and of residual is zero. -/
theorem pair_sum {L : List (K × K)} {m b : K} (h : Normal L m b) :
    lsum L (fun p => lsum L (fun q => (p.1 - q.1) * ((p.2 - q.2) - m * (p.1 - q.1)))) = 0 := by
  have key : ∀ p : K × K, ∀ M : List (K × K),
      lsum M (fun q => (p.1 - q.1) * ((p.2 - q.2) - m * (p.1 - q.1))) =
      (p.1 * (p.2 - (m * p.1 + b))) * M.length - p.1 * lsum M (fun q => q.2 - (m * q.1 + b))
        - (p.2 - (m * p.1 + b)) * lsum M (fun q => q.1) + lsum M (fun q => q.1 * (q.2 - (m * q.1 + b))) := by
    intro p M
    induction M with
    | nil => simp
    | cons a M ih => simp only [lsum_cons, ih, List.length_cons]; push_cast; ring
  simp only [key, h.1, h.2, mul_zero, sub_zero, add_zero]
  have key2 : ∀ (c d : K) (M : List (K × K)),
      lsum M (fun p => (p.1 * (p.2 - (m * p.1 + b))) * c - (p.2 - (m * p.1 + b)) * d) =
      c * lsum M (fun p => p.1 * (p.2 - (m * p.1 + b))) - d * lsum M (fun p => p.2 - (m * p.1 + b)) := by
    intro c d M
    induction M with
    | nil => simp
    | cons a M ih => simp only [lsum_cons, ih]; ring
  rw [key2, h.1, h.2]
  ring

/-- A slope is at least every lower bound of the rates of change between samples. -/
theorem normal_ge {L : List (K × K)} {m b lo : K} (h : Normal L m b)
    (hb : ∀ p ∈ L, ∀ q ∈ L, q.1 < p.1 → lo * (p.1 - q.1) ≤ p.2 - q.2)
    {p q : K × K} (hp : p ∈ L) (hq : q ∈ L) (hne : q.1 < p.1) :
    lo ≤ m ∧ (m = lo → p.2 - q.2 = lo * (p.1 - q.1)) := by
  have hterm : m ≤ lo → ∀ p ∈ L, ∀ q ∈ L, 0 ≤ (p.1 - q.1) * ((p.2 - q.2) - m * (p.1 - q.1)) := by
    intro hm p hp q hq
    rcases lt_trichotomy q.1 p.1 with hlt | heq | hlt
    · have hd : 0 < p.1 - q.1 := sub_pos.2 hlt
      have := hb p hp q hq hlt
      have h2 : m * (p.1 - q.1) ≤ lo * (p.1 - q.1) := mul_le_mul_of_nonneg_right hm hd.le
      exact mul_nonneg hd.le (by linarith)
    · rw [heq]; simp
    · have hd : 0 < q.1 - p.1 := sub_pos.2 hlt
      have := hb q hq p hp hlt
      have h2 : m * (q.1 - p.1) ≤ lo * (q.1 - p.1) := mul_le_mul_of_nonneg_right hm hd.le
      have h3 : 0 ≤ (q.2 - p.2) - m * (q.1 - p.1) := by linarith
      have := mul_nonneg hd.le h3
      linarith [this, show (p.1 - q.1) * ((p.2 - q.2) - m * (p.1 - q.1)) =
        (q.1 - p.1) * ((q.2 - p.2) - m * (q.1 - p.1)) by ring]
  have hall : m ≤ lo → (p.1 - q.1) * ((p.2 - q.2) - m * (p.1 - q.1)) = 0 := by
    intro hm
    have h1 := lsum_eq_zero_iff (fun p hp => lsum_nonneg (fun q hq => hterm hm p hp q hq)) (pair_sum h) p hp
    exact lsum_eq_zero_iff (fun q hq => hterm hm p hp q hq) h1 q hq
  have hd : 0 < p.1 - q.1 := sub_pos.2 hne
  have hz : m ≤ lo → p.2 - q.2 = m * (p.1 - q.1) := fun hm =>
    sub_eq_zero.1 ((mul_eq_zero.1 (hall hm)).resolve_left hd.ne')
  constructor
  · by_contra hcon
    have hcon := not_le.1 hcon
    have h1 := hz hcon.le
    have h2 := hb p hp q hq hne
    have h3 := mul_lt_mul_of_pos_right hcon hd
    linarith
  · intro hm
    rw [hz hm.le, hm]

theorem normal_neg {L : List (K × K)} {m b : K} (h : Normal L m b) :
    Normal (L.map (fun p => (p.1, -p.2))) (-m) (-b) := by
  have e : ∀ (f : K × K → K) (M : List (K × K)), lsum (M.map (fun p => (p.1, -p.2))) f =
      lsum M (fun p => f (p.1, -p.2)) := by
    intro f M
    induction M with
    | nil => simp
    | cons a M ih => simp only [List.map_cons, lsum_cons, ih]
  unfold Normal at *
  rw [e, e]
  constructor
  · rw [show (fun p : K × K => (p.1, -p.2).2 - (-m * (p.1, -p.2).1 + -b)) =
      fun p => (-1) * (p.2 - (m * p.1 + b)) by funext p; ring, lsum_mul, h.1, mul_zero]
  · rw [show (fun p : K × K => (p.1, -p.2).1 * ((p.1, -p.2).2 - (-m * (p.1, -p.2).1 + -b))) =
      fun p => (-1) * (p.1 * (p.2 - (m * p.1 + b))) by funext p; ring, lsum_mul, h.2, mul_zero]

/-- A slope is at most every upper bound of the rates of change between samples. -/
theorem normal_le {L : List (K × K)} {m b hi : K} (h : Normal L m b)
    (hb : ∀ p ∈ L, ∀ q ∈ L, q.1 < p.1 → p.2 - q.2 ≤ hi * (p.1 - q.1))
    {p q : K × K} (hp : p ∈ L) (hq : q ∈ L) (hne : q.1 < p.1) :
    m ≤ hi ∧ (m = hi → p.2 - q.2 = hi * (p.1 - q.1)) := by
  have := normal_ge (lo := -hi) (normal_neg h) (p := (p.1, -p.2)) (q := (q.1, -q.2)) (by
    intro p hp q hq
    obtain ⟨p, hp', rfl⟩ := List.mem_map.1 hp
    obtain ⟨q, hq', rfl⟩ := List.mem_map.1 hq
    intro hlt
    have := hb p hp' q hq' hlt
    dsimp only at *
    linarith) (List.mem_map.2 ⟨p, hp, rfl⟩) (List.mem_map.2 ⟨q, hq, rfl⟩) hne
  dsimp only at this
  refine ⟨by linarith [this.1], fun hm => ?_⟩
  have h2 := this.2 (by rw [hm])
  linarith

/-- Times centred on their mean: the slope is the ratio of two sums. -/
theorem normal_centred {L : List (K × K)} {m b a : K} (h : Normal L m b) (ha : lsum L (fun p => p.1 - a) = 0) :
    m * lsum L (fun p => (p.1 - a) ^ 2) = lsum L (fun p => (p.1 - a) * p.2) := by
  have key : ∀ M : List (K × K), lsum M (fun p => (p.1 - a) * p.2) - m * lsum M (fun p => (p.1 - a) ^ 2) =
      lsum M (fun p => p.1 * (p.2 - (m * p.1 + b))) - a * lsum M (fun p => p.2 - (m * p.1 + b)) +
        (m * a + b) * lsum M (fun p => p.1 - a) := by
    intro M
    induction M with
    | nil => simp
    | cons c M ih =>
      simp only [lsum_cons]
      linear_combination ih
  have := key L
  rw [h.1, h.2, ha] at this
  linarith

theorem lsum_abs_le {α : Type} {L : List α} {f g : α → K} (h : ∀ a ∈ L, |f a| ≤ g a) : |lsum L f| ≤ lsum L g := by
  induction L with
  | nil => simp
  | cons a L ih =>
    rw [lsum_cons, lsum_cons]
    exact (abs_add_le _ _).trans (add_le_add (h a (by simp)) (ih fun b hb => h b (List.mem_cons_of_mem _ hb)))

theorem offOrigin_of {ix : DimIndex K} {n i j : Nat} (hi : i < n) (hj : j < n)
    (hne : Spec.position ix j < Spec.position ix i) : Spec.OffOrigin ix n := by
  by_contra hcon
  have hz : ∀ k < n, Spec.position ix k = 0 := fun k hk => by
    by_contra hk0; exact hcon ⟨k, hk, hk0⟩
  rw [hz i hi, hz j hj] at hne
  exact lt_irrefl _ hne

/-- The fit of a series with two valid samples. -/
theorem fit_of {x s b : TrendArray K} {dim : String} {ix : DimIndex K} {n : Nat} {u : Option String} {c : K}
    (h : Spec.HasAxis x dim ix n) (hc : Spec.unitScale ix u = some c)
    (hs : calcLinearTrend x dim u = .ok (s, b)) {e : Env} (ho : Spec.Ordinary n (Spec.along x dim e))
    {i j : Nat} (hi : i < n) (hj : j < n) {v : K} (hv : Spec.along x dim e i = .fin v)
    (hne : Spec.position ix j < Spec.position ix i) :
    ∃ m q, s.da.get e = .fin (m * c) ∧ b.da.get e = .fin q ∧
      Normal (fitPairs n (Spec.position ix) (Spec.along x dim e)) m q := by
  obtain ⟨s', b', hs', -, -, hsg, hbg, -⟩ := calc_ok h hc
  rw [hs] at hs'
  cases hs'
  rcases fit_cases h ho (offOrigin_of hi hj hne) with ⟨hm, -⟩ | ⟨-, m, q, hfit, hn⟩
  · rw [hm i hi] at hv; cases hv
  · exact ⟨m, q, by rw [hsg, hfit, fin_mul], by rw [hbg, hfit], hn⟩

/-- **C129 (between the extremes)** The slope of a series with valid samples at two positions lies between any
bounds of the rates of change between two of its valid samples. -/
theorem C129_bounds {x s b : TrendArray K} {dim : String} {ix : DimIndex K} {n : Nat} {u : Option String} {c : K}
    (h : Spec.HasAxis x dim ix n) (hc : Spec.unitScale ix u = some c)
    (hs : calcLinearTrend x dim u = .ok (s, b)) {e : Env} (ho : Spec.Ordinary n (Spec.along x dim e))
    {i j : Nat} (hi : i < n) (hj : j < n) {v w : K} (hv : Spec.along x dim e i = .fin v)
    (hw : Spec.along x dim e j = .fin w) (hne : Spec.position ix j < Spec.position ix i) {lo hig : K}
    (hb : ∀ k < n, ∀ l < n, ∀ y z, Spec.along x dim e k = .fin y → Spec.along x dim e l = .fin z →
      Spec.position ix l < Spec.position ix k →
      lo * (Spec.position ix k - Spec.position ix l) ≤ y - z ∧
      y - z ≤ hig * (Spec.position ix k - Spec.position ix l)) :
    ∃ m, s.da.get e = .fin (m * c) ∧ lo ≤ m ∧ m ≤ hig := by
  obtain ⟨m, q, hm, -, hn⟩ := fit_of h hc hs ho hi hj hv hne
  have hp : (Spec.position ix i, v) ∈ fitPairs n (Spec.position ix) (Spec.along x dim e) :=
    mem_fitPairs.2 ⟨i, hi, rfl, hv⟩
  have hq : (Spec.position ix j, w) ∈ fitPairs n (Spec.position ix) (Spec.along x dim e) :=
    mem_fitPairs.2 ⟨j, hj, rfl, hw⟩
  refine ⟨m, hm, (normal_ge hn ?_ hp hq hne).1, (normal_le hn ?_ hp hq hne).1⟩
  · rintro ⟨p1, p2⟩ hp ⟨q1, q2⟩ hq hlt
    obtain ⟨k, hk, rfl, hk'⟩ := mem_fitPairs.1 hp
    obtain ⟨l, hl, rfl, hl'⟩ := mem_fitPairs.1 hq
    exact (hb k hk l hl _ _ hk' hl' hlt).1
  · rintro ⟨p1, p2⟩ hp ⟨q1, q2⟩ hq hlt
    obtain ⟨k, hk, rfl, hk'⟩ := mem_fitPairs.1 hp
    obtain ⟨l, hl, rfl, hl'⟩ := mem_fitPairs.1 hq
    exact (hb k hk l hl _ _ hk' hl' hlt).2

theorem unitScale_pos {ix : DimIndex K} {u : Option String} {c : K} (hc : Spec.unitScale ix u = some c) : 0 < c := by
  unfold Spec.unitScale at hc
  cases ix with
  | numeric _ => simp only [Option.some.injEq] at hc; rw [← hc]; exact one_pos
  | cftime _ =>
    cases u with
    | none => simp only [Option.some.injEq] at hc; rw [← hc]; exact one_pos
    | some u =>
      simp only [Spec.nsPer, Spec.nsIn] at hc
      split_ifs at hc <;> simp only [Option.some.injEq] at hc <;> rw [← hc] <;> norm_num

/-- **C129 (sign)** A series whose valid samples never fall has a slope that is not negative; if it rises between
two of them, the slope is positive. -/
theorem C129_rising {x s b : TrendArray K} {dim : String} {ix : DimIndex K} {n : Nat} {u : Option String} {c : K}
    (h : Spec.HasAxis x dim ix n) (hc : Spec.unitScale ix u = some c)
    (hs : calcLinearTrend x dim u = .ok (s, b)) {e : Env} (ho : Spec.Ordinary n (Spec.along x dim e))
    {i j : Nat} (hi : i < n) (hj : j < n) {v w : K} (hv : Spec.along x dim e i = .fin v)
    (hw : Spec.along x dim e j = .fin w) (hne : Spec.position ix j < Spec.position ix i)
    (hb : ∀ k < n, ∀ l < n, ∀ y z, Spec.along x dim e k = .fin y → Spec.along x dim e l = .fin z →
      Spec.position ix l < Spec.position ix k → z ≤ y) :
    ∃ m, s.da.get e = .fin m ∧ 0 ≤ m ∧ (w < v → 0 < m) := by
  obtain ⟨m, q, hm, -, hn⟩ := fit_of h hc hs ho hi hj hv hne
  have hp : (Spec.position ix i, v) ∈ fitPairs n (Spec.position ix) (Spec.along x dim e) :=
    mem_fitPairs.2 ⟨i, hi, rfl, hv⟩
  have hq : (Spec.position ix j, w) ∈ fitPairs n (Spec.position ix) (Spec.along x dim e) :=
    mem_fitPairs.2 ⟨j, hj, rfl, hw⟩
  have hc0 := unitScale_pos hc
  have hg := normal_ge (lo := 0) hn (by
    rintro ⟨p1, p2⟩ hp ⟨q1, q2⟩ hq hlt
    obtain ⟨k, hk, rfl, hk'⟩ := mem_fitPairs.1 hp
    obtain ⟨l, hl, rfl, hl'⟩ := mem_fitPairs.1 hq
    rw [zero_mul]
    exact sub_nonneg.2 (hb k hk l hl _ _ hk' hl' hlt)) hp hq hne
  refine ⟨m * c, hm, mul_nonneg hg.1 hc0.le, fun hlt => mul_pos (lt_of_le_of_ne hg.1 fun h0 => ?_) hc0⟩
  have := hg.2 h0.symm
  dsimp only at this
  linarith

/-- **C129 (sign, falling)** A series whose valid samples never rise has a slope that is not positive; if it falls
between two of them, the slope is negative. -/
theorem C129_falling {x s b : TrendArray K} {dim : String} {ix : DimIndex K} {n : Nat} {u : Option String} {c : K}
    (h : Spec.HasAxis x dim ix n) (hc : Spec.unitScale ix u = some c)
    (hs : calcLinearTrend x dim u = .ok (s, b)) {e : Env} (ho : Spec.Ordinary n (Spec.along x dim e))
    {i j : Nat} (hi : i < n) (hj : j < n) {v w : K} (hv : Spec.along x dim e i = .fin v)
    (hw : Spec.along x dim e j = .fin w) (hne : Spec.position ix j < Spec.position ix i)
    (hb : ∀ k < n, ∀ l < n, ∀ y z, Spec.along x dim e k = .fin y → Spec.along x dim e l = .fin z →
      Spec.position ix l < Spec.position ix k → y ≤ z) :
    ∃ m, s.da.get e = .fin m ∧ m ≤ 0 ∧ (v < w → m < 0) := by
  obtain ⟨m, q, hm, -, hn⟩ := fit_of h hc hs ho hi hj hv hne
  have hp : (Spec.position ix i, v) ∈ fitPairs n (Spec.position ix) (Spec.along x dim e) :=
    mem_fitPairs.2 ⟨i, hi, rfl, hv⟩
  have hq : (Spec.position ix j, w) ∈ fitPairs n (Spec.position ix) (Spec.along x dim e) :=
    mem_fitPairs.2 ⟨j, hj, rfl, hw⟩
  have hc0 := unitScale_pos hc
  have hg := normal_le (hi := 0) hn (by
    rintro ⟨p1, p2⟩ hp ⟨q1, q2⟩ hq hlt
    obtain ⟨k, hk, rfl, hk'⟩ := mem_fitPairs.1 hp
    obtain ⟨l, hl, rfl, hl'⟩ := mem_fitPairs.1 hq
    rw [zero_mul]
    exact sub_nonpos.2 (hb k hk l hl _ _ hk' hl' hlt)) hp hq hne
  refine ⟨m * c, hm, mul_nonpos_of_nonpos_of_nonneg hg.1 hc0.le,
    fun hlt => mul_neg_of_neg_of_pos (lt_of_le_of_ne hg.1 fun h0 => ?_) hc0⟩
  have := hg.2 h0
  dsimp only at this
  linarith

theorem overValid_same {n : Nat} {r s : Nat → Fl K} (hor : Spec.Ordinary n r) (hos : Spec.Ordinary n s)
    (hsame : ∀ k < n, r k = .nan ↔ s k = .nan) (f : Nat → K) :
    Spec.overValid n r (fun k _ => f k) = Spec.overValid n s (fun k _ => f k) := by
  unfold Spec.overValid
  apply Finset.sum_congr rfl
  intro k hk
  have hk := Finset.mem_range.1 hk
  rcases hor k hk with h | ⟨y, h⟩ <;> rcases hos k hk with h' | ⟨z, h'⟩
  · rw [h, h']
  · rw [(hsame k hk).1 h] at h'; cases h'
  · rw [(hsame k hk).2 h'] at h; cases h
  · rw [h, h']; rfl

/-- **C129 (sensitivity)** When every valid sample of a series moves by at most `ε`, and the gaps stay, the slope
per unit of position moves by at most `ε · Σ|t - t̄| / Σ(t - t̄)²`, with `t̄` the mean position of the valid
samples. -/
theorem C129_sensitivity {x y sx bx sy bY : TrendArray K} {dim : String} {ix : DimIndex K} {n : Nat}
    {u : Option String} {c : K} (hx : Spec.HasAxis x dim ix n) (hy : Spec.HasAxis y dim ix n)
    (hc : Spec.unitScale ix u = some c) (hrx : calcLinearTrend x dim u = .ok (sx, bx))
    (hry : calcLinearTrend y dim u = .ok (sy, bY)) {e : Env}
    (hox : Spec.Ordinary n (Spec.along x dim e)) (hoy : Spec.Ordinary n (Spec.along y dim e))
    (hsame : ∀ k < n, Spec.along x dim e k = .nan ↔ Spec.along y dim e k = .nan)
    {i j : Nat} (hi : i < n) (hj : j < n) {v w : K} (hv : Spec.along x dim e i = .fin v)
    (hw : Spec.along x dim e j = .fin w) (hne : Spec.position ix j < Spec.position ix i) {eps tbar : K}
    (heps : ∀ k < n, ∀ p q, Spec.along x dim e k = .fin p → Spec.along y dim e k = .fin q → |p - q| ≤ eps)
    (hmean : Spec.overValid n (Spec.along x dim e) (fun k _ => Spec.position ix k - tbar) = 0) :
    ∃ m m', sx.da.get e = .fin (m * c) ∧ sy.da.get e = .fin (m' * c) ∧
      0 < Spec.overValid n (Spec.along x dim e) (fun k _ => (Spec.position ix k - tbar) ^ 2) ∧
      |m - m'| ≤ eps * Spec.overValid n (Spec.along x dim e) (fun k _ => |Spec.position ix k - tbar|) /
        Spec.overValid n (Spec.along x dim e) (fun k _ => (Spec.position ix k - tbar) ^ 2) := by
  obtain ⟨m, q, hm, -, hn⟩ := fit_of hx hc hrx hox hi hj hv hne
  obtain ⟨v', hv'⟩ := (hoy i hi).resolve_left (fun h => by rw [(hsame i hi).2 h] at hv; cases hv)
  obtain ⟨m', q', hm', -, hn'⟩ := fit_of hy hc hry hoy hi hj hv' hne
  have hmean' := hmean
  rw [overValid_same hox hoy hsame] at hmean'
  have e1 := normal_centred (a := tbar) hn (by rw [lsum_fitPairs]; exact hmean)
  have e2 := normal_centred (a := tbar) hn' (by rw [lsum_fitPairs]; exact hmean')
  rw [lsum_fitPairs, lsum_fitPairs] at e1 e2
  dsimp only at e1 e2
  rw [← overValid_same hox hoy hsame (fun k => (Spec.position ix k - tbar) ^ 2)] at e2
  have hpos : 0 < Spec.overValid n (Spec.along x dim e) (fun k _ => (Spec.position ix k - tbar) ^ 2) := by
    unfold Spec.overValid
    have hterm : ∀ k, 0 ≤ Spec.ifValid (Spec.along x dim e k) (fun _ => (Spec.position ix k - tbar) ^ 2) := by
      intro k
      unfold Spec.ifValid
      split <;> positivity
    rcases eq_or_ne (Spec.position ix i) tbar with h0 | h0
    · refine Finset.sum_pos' (fun k _ => hterm k) ⟨j, Finset.mem_range.2 hj, ?_⟩
      rw [hw]
      show 0 < (Spec.position ix j - tbar) ^ 2
      have : Spec.position ix j - tbar ≠ 0 := by rw [← h0]; exact (sub_neg.2 hne).ne
      positivity
    · refine Finset.sum_pos' (fun k _ => hterm k) ⟨i, Finset.mem_range.2 hi, ?_⟩
      rw [hv]
      show 0 < (Spec.position ix i - tbar) ^ 2
      have := sub_ne_zero.2 h0
      positivity
  refine ⟨m, m', hm, hm', hpos, ?_⟩
  rw [le_div_iff₀ hpos]
  have hdiff : (m - m') * Spec.overValid n (Spec.along x dim e) (fun k _ => (Spec.position ix k - tbar) ^ 2) =
      Spec.overValid n (Spec.along x dim e) (fun k p => (Spec.position ix k - tbar) * p) -
      Spec.overValid n (Spec.along y dim e) (fun k p => (Spec.position ix k - tbar) * p) := by
    linear_combination e1 - e2
  rw [← abs_of_pos hpos, ← abs_mul, hdiff]
  unfold Spec.overValid
  rw [← Finset.sum_sub_distrib, Finset.mul_sum]
  refine (Finset.abs_sum_le_sum_abs _ _).trans (Finset.sum_le_sum fun k hk => ?_)
  have hk := Finset.mem_range.1 hk
  rcases hox k hk with h | ⟨p, h⟩ <;> rcases hoy k hk with h' | ⟨r, h'⟩
  · rw [h, h']; simp [Spec.ifValid]
  · rw [(hsame k hk).1 h] at h'; cases h'
  · rw [(hsame k hk).2 h'] at h; cases h
  · rw [h, h']
    show |(Spec.position ix k - tbar) * p - (Spec.position ix k - tbar) * r| ≤ eps * |Spec.position ix k - tbar|
    rw [← mul_sub, abs_mul, mul_comm]
    exact mul_le_mul_of_nonneg_right (heps k hk p r h h') (abs_nonneg _)

/-- **C129 (less variance)** Removing the trend never increases the sum of squared departures from a constant:
the squares of the residuals add up to at most those of the departures of the samples from any number. -/
theorem C129_variance {x : TrendArray K} {dim : String} {ix : DimIndex K} {n : Nat}
    (h : Spec.HasAxis x dim ix n) (hi : Spec.Increasing ix n) (ht : Spec.OffOrigin ix n)
    (hp : Spec.PlainUnits ix x) :
    ∃ y, linearDetrend (.array x) dim 1 "remove" = .ok (.array y) ∧
      ∀ e, Spec.Ordinary n (Spec.along x dim e) → ∀ a,
        Spec.overValid n (Spec.along y dim e) (fun _ r => r ^ 2) ≤
        Spec.overValid n (Spec.along x dim e) (fun _ v => (v - a) ^ 2) := by
  obtain ⟨y, hy, -, -, hv⟩ := C52_residual h hi ht hp
  refine ⟨y, hy, fun e ho a => ?_⟩
  obtain ⟨hoy, hmiss, ⟨m, b, hval⟩, h0, h1⟩ := hv e ho
  have hsh : ∀ f : Nat → K → K, Spec.overValid n (Spec.along y dim e) f =
      Spec.overValid n (Spec.along x dim e) (fun k v => f k (v - (m * Spec.position ix k + b))) := fun f =>
    overValid_shift (g := fun k => m * Spec.position ix k + b) (fun k hk => (hmiss k hk).2) ho hval
  rw [hsh] at h0 h1
  rw [hsh]
  have key : Spec.overValid n (Spec.along x dim e) (fun _ v => (v - a) ^ 2) =
      Spec.overValid n (Spec.along x dim e) (fun k v => (v - (m * Spec.position ix k + b)) ^ 2) +
      2 * m * Spec.overValid n (Spec.along x dim e)
        (fun k v => Spec.position ix k * (v - (m * Spec.position ix k + b))) +
      2 * (b - a) * Spec.overValid n (Spec.along x dim e) (fun k v => v - (m * Spec.position ix k + b)) +
      Spec.overValid n (Spec.along x dim e) (fun k _ => (m * Spec.position ix k + b - a) ^ 2) := by
    unfold Spec.overValid
    rw [Finset.mul_sum, Finset.mul_sum, ← Finset.sum_add_distrib, ← Finset.sum_add_distrib,
      ← Finset.sum_add_distrib]
    apply Finset.sum_congr rfl
    intro k hk
    rcases ho k (Finset.mem_range.1 hk) with h | ⟨v, h⟩
    · rw [h]; simp [Spec.ifValid]
    · rw [h]
      simp only [Spec.ifValid]
      ring
  rw [key, h0, h1]
  have hnn : 0 ≤ Spec.overValid n (Spec.along x dim e) (fun k _ => (m * Spec.position ix k + b - a) ^ 2) := by
    unfold Spec.overValid
    refine Finset.sum_nonneg fun k _ => ?_
    unfold Spec.ifValid
    split <;> positivity
  linarith

/-! ### Examples -/

/-- The rates of change of the series 7, missing, 13 at the positions 1, 2, 4 all lie between 1 and 3, and so does
its slope; it rises, so the slope is positive. -/
example : ∃ s b m, calcLinearTrend trA "time" none = .ok (s, b) ∧ s.da.get (fun _ => 0) = .fin (m * 1) ∧
    1 ≤ m ∧ m ≤ 3 := by
  obtain ⟨s, b, hs, -⟩ := C51_least_squares trA_axis trA_off (unitScale_none _)
  obtain ⟨m, hm⟩ := C129_bounds trA_axis (unitScale_none _) hs (trA_ordinary (fun _ => 0)) (i := 2) (j := 0)
    (by omega) (by omega) (v := 13) (w := 7) (by simp [Spec.along, trA]) (by simp [Spec.along, trA])
    (by simp [Spec.position]) (lo := 1) (hig := 3) (by
      intro k hk l hl y z hy hz
      interval_cases k <;> interval_cases l <;> simp [Spec.along, trA] at hy hz <;> subst hy <;> subst hz <;>
        simp [Spec.position] <;> norm_num)
  exact ⟨s, b, m, hs, hm⟩

example : ∃ s b m, calcLinearTrend trA "time" none = .ok (s, b) ∧ s.da.get (fun _ => 0) = .fin m ∧ 0 < m := by
  obtain ⟨s, b, hs, -⟩ := C51_least_squares trA_axis trA_off (unitScale_none _)
  obtain ⟨m, hm, -, h2⟩ := C129_rising trA_axis (unitScale_none _) hs (trA_ordinary (fun _ => 0)) (i := 2) (j := 0)
    (by omega) (by omega) (v := 13) (w := 7) (by simp [Spec.along, trA]) (by simp [Spec.along, trA])
    (by simp [Spec.position]) (by
      intro k hk l hl y z hy hz
      interval_cases k <;> interval_cases l <;> simp [Spec.along, trA] at hy hz <;> subst hy <;> subst hz <;>
        simp [Spec.position] <;> norm_num)
  exact ⟨s, b, m, hs, hm, h2 (by norm_num)⟩

/-- The second series is 7, 0, 13: its mean position is 7/3, and moving its samples by at most 1/10 moves the slope
by at most 1/10 · (10/3) / (14/3). -/
def trMoved : TrendArray ℚ :=
  ⟨⟨[("time", 3), ("x", 2)], fun e =>
      if e "time" = 0 then .fin (71/10) else if e "time" = 1 then (if e "x" = 0 then .nan else .fin (1/10))
      else .fin (129/10)⟩,
   [("time", .numeric [1, 2, 4])], [("units", "m")]⟩

example : ∃ s b s' b' m m', calcLinearTrend trA "time" none = .ok (s, b) ∧
    calcLinearTrend trMoved "time" none = .ok (s', b') ∧ s.da.get (fun _ => 1) = .fin (m * 1) ∧
    s'.da.get (fun _ => 1) = .fin (m' * 1) ∧ |m - m'| ≤ 1/14 := by
  have hB : Spec.HasAxis trMoved "time" (.numeric [1, 2, 4]) 3 := ⟨by decide, rfl, by simp [trMoved], rfl⟩
  obtain ⟨s, b, hs, -⟩ := C51_least_squares trA_axis trA_off (unitScale_none _)
  obtain ⟨s', b', hs', -⟩ := C51_least_squares hB trA_off (unitScale_none _)
  obtain ⟨m, m', h1, h2, -, h4⟩ := C129_sensitivity trA_axis hB (unitScale_none _) hs hs' (e := fun _ => 1)
    (trA_ordinary _) (fun k _ => by unfold Spec.along trMoved; dsimp only; split_ifs <;> simp)
    (fun k hk => by interval_cases k <;> simp [Spec.along, trA, trMoved]) (i := 2) (j := 0) (by omega) (by omega)
    (v := 13) (w := 7) (by simp [Spec.along, trA]) (by simp [Spec.along, trA]) (by simp [Spec.position])
    (eps := 1/10) (tbar := 7/3) (by
      intro k hk p q hp hq
      interval_cases k <;> simp [Spec.along, trA, trMoved] at hp hq <;> subst hp <;> subst hq <;> norm_num [abs_le])
    (by norm_num [Spec.overValid, Finset.sum_range_succ, Spec.along, trA, Spec.ifValid, Spec.position])
  refine ⟨s, b, s', b', m, m', hs, hs', h1, h2, h4.trans (le_of_eq ?_)⟩
  norm_num [Spec.overValid, Finset.sum_range_succ, Spec.along, trA, Spec.ifValid, Spec.position, abs_of_nonneg, abs_of_neg]

/-- `C129_falling`: the falling series 13, missing, 7. -/
def trFall : TrendArray ℚ :=
  ⟨⟨[("time", 3)], fun e => if e "time" = 0 then .fin 13 else if e "time" = 1 then .nan else .fin 7⟩,
   [("time", .numeric [1, 2, 4])], []⟩

example : ∃ s b m, calcLinearTrend trFall "time" none = .ok (s, b) ∧ s.da.get (fun _ => 0) = .fin m ∧ m < 0 := by
  have hA : Spec.HasAxis trFall "time" (.numeric [1, 2, 4]) 3 := ⟨by decide, rfl, by simp [trFall], rfl⟩
  obtain ⟨s, b, hs, -⟩ := C51_least_squares hA trA_off (unitScale_none _)
  obtain ⟨m, hm, -, h2⟩ := C129_falling hA (unitScale_none _) hs (e := fun _ => 0)
    (fun k _ => by unfold Spec.along trFall; dsimp only; split_ifs <;> simp) (i := 2) (j := 0)
    (by omega) (by omega) (v := 7) (w := 13) (by simp [Spec.along, trFall]) (by simp [Spec.along, trFall])
    (by simp [Spec.position]) (by
      intro k hk l hl y z hy hz
      interval_cases k <;> interval_cases l <;> simp [Spec.along, trFall] at hy hz <;> subst hy <;> subst hz <;>
        simp [Spec.position] <;> norm_num)
  exact ⟨s, b, m, hs, hm, h2 (by norm_num)⟩

end Momlevel.Props
