import Verif.Props.TrendSize

/-! # C141: which samples a trend depends on

The order of the samples and missing samples do not matter to slope and intercept as soon as there
are two valid samples at different positions. A single valid sample is different: there the missing
ones matter, and the "trend" is a line that is not flat. -/

set_option linter.unusedSectionVars false

namespace Momlevel.Props
open Momlevel

variable {K : Type} [Field K] [LinearOrder K] [IsStrictOrderedRing K]

/-- The numbers of the valid samples of a series of `n` values. -/
def validAt (n : Nat) (x : Nat → Fl K) : Set Nat := {k | k < n ∧ x k ≠ .nan}

/-- Two series consist of the same valid samples, possibly in another order and with other missing
samples in between. -/
def SameSamples (n : Nat) (t : Nat → K) (x : Nat → Fl K) (n' : Nat) (t' : Nat → K) (x' : Nat → Fl K) :
    Prop :=
  ∃ σ : Nat → Nat, Set.BijOn σ (validAt n x) (validAt n' x') ∧
    ∀ k ∈ validAt n x, t' (σ k) = t k ∧ x' (σ k) = x k

theorem overValid_perm {n n' : Nat} {t t' : Nat → K} {x x' : Nat → Fl K}
    (h : SameSamples n t x n' t' x') (f : K → K → K) :
    Spec.overValid n' x' (fun k v => f (t' k) v) = Spec.overValid n x (fun k v => f (t k) v) := by
  classical
  obtain ⟨σ, hσ, hv⟩ := h
  unfold Spec.overValid
  have red : ∀ (m : Nat) (y : Nat → Fl K) (g : Nat → K → K),
      ∑ k ∈ Finset.range m, Spec.ifValid (y k) (g k)
        = ∑ k ∈ (Finset.range m).filter (fun k => y k ≠ .nan), Spec.ifValid (y k) (g k) := by
    intro m y g
    refine (Finset.sum_filter_of_ne (p := fun k => y k ≠ .nan) fun k _ hk hn => hk ?_).symm
    rw [hn]; rfl
  rw [red, red n]
  symm
  refine Finset.sum_bij (fun k _ => σ k) ?_ ?_ ?_ ?_
  · intro k hk
    rw [Finset.mem_filter, Finset.mem_range] at hk ⊢
    exact hσ.mapsTo hk
  · intro k hk l hl hkl
    rw [Finset.mem_filter, Finset.mem_range] at hk hl
    exact hσ.injOn hk hl hkl
  · intro l hl
    rw [Finset.mem_filter, Finset.mem_range] at hl
    obtain ⟨k, hk, hkl⟩ := hσ.surjOn hl
    exact ⟨k, by rw [Finset.mem_filter, Finset.mem_range]; exact hk, hkl⟩
  · intro k hk
    rw [Finset.mem_filter, Finset.mem_range] at hk
    obtain ⟨h1, h2⟩ := hv k hk
    rw [h1, h2]

/-- Order and missing samples do not matter: same slope, same intercept. -/
theorem C141_samples {x x' s b s' b' : TrendArray K} {dim dim' : String} {ix ix' : DimIndex K}
    {n n' : Nat} {u u' : Option String} {c : K} (h : Spec.HasAxis x dim ix n)
    (h' : Spec.HasAxis x' dim' ix' n') (hc : Spec.unitScale ix u = some c)
    (hc' : Spec.unitScale ix' u' = some c) (hs : calcLinearTrend x dim u = .ok (s, b))
    (hs' : calcLinearTrend x' dim' u' = .ok (s', b')) {e e' : Env}
    (ho : Spec.Ordinary n (Spec.along x dim e)) (ho' : Spec.Ordinary n' (Spec.along x' dim' e'))
    (same : SameSamples n (Spec.position ix) (Spec.along x dim e) n' (Spec.position ix')
      (Spec.along x' dim' e'))
    {i j : Nat} (hi : i < n) (hj : j < n) (hv : Spec.along x dim e i ≠ .nan)
    (hw : Spec.along x dim e j ≠ .nan) (hne : Spec.position ix i ≠ Spec.position ix j) :
    s'.da.get e' = s.da.get e ∧ b'.da.get e' = b.da.get e := by
  have ht : Spec.OffOrigin ix n := by
    by_contra hcon
    have hz : ∀ k < n, Spec.position ix k = 0 := fun k hk => by
      by_contra hk0; exact hcon ⟨k, hk, hk0⟩
    exact hne (by rw [hz i hi, hz j hj])
  obtain ⟨v, hv'⟩ := (ho i hi).resolve_left hv
  obtain ⟨w, hw'⟩ := (ho j hj).resolve_left hw
  obtain ⟨s1, b1, hs1, -, -, hfit⟩ := C51_least_squares h ht hc
  rw [hs] at hs1
  cases hs1
  obtain ⟨m, q, hm, hq, hmin⟩ := hfit e ho ⟨i, hi, v, hv'⟩
  have hmis : ∀ m q, Spec.misfit n' (Spec.position ix') (Spec.along x' dim' e') m q
      = Spec.misfit n (Spec.position ix) (Spec.along x dim e) m q := fun m q => by
    unfold Spec.misfit
    exact overValid_perm same (fun t v => (v - (m * t + q)) ^ 2)
  obtain ⟨σ, hσ, hval⟩ := same
  have mi := hσ.mapsTo (show i ∈ validAt n _ from ⟨hi, hv⟩)
  have mj := hσ.mapsTo (show j ∈ validAt n _ from ⟨hj, hw⟩)
  obtain ⟨pi, vi⟩ := hval i ⟨hi, hv⟩
  obtain ⟨pj, vj⟩ := hval j ⟨hj, hw⟩
  obtain ⟨r1, r2⟩ := C51_unique h' hc' hs' ho' mi.1 mj.1 (vi.trans hv') (vj.trans hw')
    (by rw [pi, pj]; exact hne) (m := m) (q := q) (fun m' q' => by rw [hmis, hmis]; exact hmin m' q')
  exact ⟨r1.trans hm.symm, r2.trans hq.symm⟩

theorem numbers_sum (ix : DimIndex K) {n : Nat} (hn : Spec.pointCount ix = n) (f : K → K) :
    (ix.numbers.map f).sum = ∑ k ∈ Finset.range n, f (Spec.position ix k) := by
  subst hn
  rw [numbers_eq, List.map_map, ← Fl.sum_map_range]
  rfl

theorem fit_one_position {ix : DimIndex K} {n : Nat} (hn : Spec.pointCount ix = n) {s : Nat → Fl K}
    (ho : Spec.Ordinary n s) {t0 : K} (h1 : ∀ k < n, s k ≠ .nan → Spec.position ix k = t0)
    {i : Nat} (hi : i < n) (hv : s i ≠ .nan)
    (hd : t0 ^ 2 * n + ∑ k ∈ Finset.range n, Spec.position ix k ^ 2 ≠ 0) :
    polyfit1 ix.numbers ((List.range n).map s) =
      (.fin (Spec.overValid n s (fun _ v => v) / Spec.overValid n s (fun _ _ => 1) * t0 * n
          / (t0 ^ 2 * n + ∑ k ∈ Finset.range n, Spec.position ix k ^ 2)),
       .fin (Spec.overValid n s (fun _ v => v) / Spec.overValid n s (fun _ _ => 1)
          * (∑ k ∈ Finset.range n, Spec.position ix k ^ 2)
          / (t0 ^ 2 * n + ∑ k ∈ Finset.range n, Spec.position ix k ^ 2))) := by
  rw [polyfit1_eq hn s ho]
  obtain ⟨v, hv'⟩ := (ho i hi).resolve_left hv
  have hmem : (Spec.position ix i, v) ∈ fitPairs n (Spec.position ix) s := mem_fitPairs.2 ⟨i, hi, rfl, hv'⟩
  have hne := List.ne_nil_of_mem hmem
  rw [if_neg (by simpa using hne)]
  have hpos : ((fitPairs n (Spec.position ix) s).length : K) ≠ 0 := by
    rw [Nat.cast_ne_zero]; exact fun h => hne (List.length_eq_zero_iff.1 h)
  have hall : ∀ p ∈ fitPairs n (Spec.position ix) s, p.1 = t0 := by
    intro p hp
    obtain ⟨k, hk, e1, e2⟩ := mem_fitPairs.1 hp
    rw [← e1]; exact h1 k hk (by rw [e2]; simp)
  have hN : Spec.overValid n s (fun _ _ => 1) = ((fitPairs n (Spec.position ix) s).length : K) := by
    rw [← lsum_fitPairs n (Spec.position ix) s (fun _ => 1), lsum_const, mul_one]
  have hS : Spec.overValid n s (fun _ v => v) = ((fitPairs n (Spec.position ix) s).map (fun p => p.2)).sum :=
    (lsum_fitPairs n (Spec.position ix) s (fun p => p.2)).symm
  have hst : ((fitPairs n (Spec.position ix) s).map (fun p => p.1)).sum
      = ((fitPairs n (Spec.position ix) s).length : K) * t0 := by
    rw [List.map_congr_left hall]
    exact lsum_const _ t0
  have hstt : ((fitPairs n (Spec.position ix) s).map (fun p => p.1 * p.1)).sum
      = ((fitPairs n (Spec.position ix) s).length : K) * (t0 * t0) := by
    rw [List.map_congr_left (g := fun _ => t0 * t0) (fun p hp => by rw [hall p hp])]
    exact lsum_const _ (t0 * t0)
  have hl : ix.numbers.length = n := by rw [numbers_length, hn]
  have hsq : (ix.numbers.map (fun t => t * t)).sum = ∑ k ∈ Finset.range n, Spec.position ix k ^ 2 := by
    rw [numbers_sum ix hn]; simp only [pow_two]
  unfold fitLine
  simp only [hst, hstt, hsq, hl, ← hS, hN]
  rw [if_neg (by rw [not_not]; ring), mul_div_cancel_left₀ _ hpos, ← pow_two, if_neg hd]

/-- All valid samples at one position `t₀` (for instance a single one), with the mean `v`: slope and
intercept are `v t₀ n / D` and `v T / D`, where `T` is the sum of the squared positions of all `n`
samples, missing or not, and `D = t₀² n + T`. -/
theorem C141_one_position {x s b : TrendArray K} {dim : String} {ix : DimIndex K} {n : Nat}
    {u : Option String} {c : K} (h : Spec.HasAxis x dim ix n) (hc : Spec.unitScale ix u = some c)
    (hs : calcLinearTrend x dim u = .ok (s, b)) {e : Env}
    (ho : Spec.Ordinary n (Spec.along x dim e)) {t0 : K}
    (h1 : ∀ k < n, Spec.along x dim e k ≠ .nan → Spec.position ix k = t0)
    {i : Nat} (hi : i < n) (hv : Spec.along x dim e i ≠ .nan) (ht : Spec.OffOrigin ix n) :
    let v := Spec.overValid n (Spec.along x dim e) (fun _ v => v)
      / Spec.overValid n (Spec.along x dim e) (fun _ _ => 1)
    let T := ∑ k ∈ Finset.range n, Spec.position ix k ^ 2
    s.da.get e = .fin (v * t0 * n / (t0 ^ 2 * n + T) * c) ∧ b.da.get e = .fin (v * T / (t0 ^ 2 * n + T)) := by
  intro v T
  obtain ⟨s1, b1, hs1, -, -, hsg, hbg, -⟩ := calc_ok h hc
  rw [hs] at hs1
  cases hs1
  have hT : 0 < T := by
    obtain ⟨k, hk, hk0⟩ := ht
    exact Finset.sum_pos' (fun k _ => sq_nonneg _) ⟨k, Finset.mem_range.2 hk, by positivity⟩
  have hd : t0 ^ 2 * n + T ≠ 0 := by positivity
  have hfit : fitAt x dim ix n e = _ := fit_one_position h.count ho h1 hi hv hd
  exact ⟨by rw [hsg, hfit, Fl.fin_mul], by rw [hbg, hfit]⟩

/-- A series of one valid sample `v ≠ 0` away from the origin of the positions has a slope that is
not zero, and `linear_detrend(mode="correct")` changes that sample. -/
theorem C141_lone_sample {x s b : TrendArray K} {dim : String} {ix : DimIndex K} {n : Nat}
    {u : Option String} {c : K} (h : Spec.HasAxis x dim ix n) (hc : Spec.unitScale ix u = some c)
    (hs : calcLinearTrend x dim u = .ok (s, b)) {e : Env} {i : Nat} (hi : i < n) {v : K}
    (hv : Spec.along x dim e i = .fin v) (hm : ∀ k < n, k ≠ i → Spec.along x dim e k = .nan)
    (v0 : v ≠ 0) (t0 : Spec.position ix i ≠ 0) (hcz : c ≠ 0) :
    (∃ m, s.da.get e = .fin m ∧ m ≠ 0) ∧
    (Spec.Increasing ix n → Spec.PlainUnits ix x →
      ∃ y w, linearDetrend (.array x) dim 1 "correct" = .ok (.array y) ∧
        Spec.along y dim e i = .fin w ∧ w ≠ v) := by
  have hone : ∀ f : Nat → K → K, Spec.overValid n (Spec.along x dim e) f = f i v := by
    intro f
    unfold Spec.overValid
    rw [Finset.sum_eq_single i]
    · rw [hv]; rfl
    · intro k hk hki
      rw [hm k (Finset.mem_range.1 hk) hki]; rfl
    · intro hk; exact absurd (Finset.mem_range.2 hi) hk
  have ho : Spec.Ordinary n (Spec.along x dim e) := fun k hk => by
    by_cases hki : k = i
    · subst hki; exact Or.inr ⟨v, hv⟩
    · exact Or.inl (hm k hk hki)
  have h1 : ∀ k < n, Spec.along x dim e k ≠ .nan → Spec.position ix k = Spec.position ix i := by
    intro k hk hkn
    by_cases hki : k = i
    · rw [hki]
    · exact absurd (hm k hk hki) hkn
  have hT : 0 < ∑ k ∈ Finset.range n, Spec.position ix k ^ 2 :=
    Finset.sum_pos' (fun k _ => sq_nonneg _) ⟨i, Finset.mem_range.2 hi, by positivity⟩
  have hn : (n : K) ≠ 0 := by rw [Nat.cast_ne_zero]; omega
  have hd : Spec.position ix i ^ 2 * n + ∑ k ∈ Finset.range n, Spec.position ix k ^ 2 ≠ 0 := by positivity
  constructor
  · refine ⟨_, (C141_one_position h hc hs ho h1 hi (by rw [hv]; simp) ⟨i, hi, t0⟩).1, ?_⟩
    rw [hone, hone, div_one]
    refine mul_ne_zero (div_ne_zero (mul_ne_zero (mul_ne_zero v0 t0) hn) hd) hcz
  · intro hinc hp
    obtain ⟨y, hy, -, -, -, hg⟩ := detrend_ok h hinc hp (mode := "correct") (Or.inr rfl)
    have along_update : Spec.along x dim (Function.update e dim i) = Spec.along x dim e := by
      funext k; unfold Spec.along; rw [Function.update_idem]
    have hfit : fitAt x dim ix n (Function.update e dim i) = _ :=
      fit_one_position (s := Spec.along x dim (Function.update e dim i)) h.count
        (by rw [along_update]; exact ho) (by rw [along_update]; exact h1) hi
        (by rw [along_update, hv]; simp) hd
    have := hg (Function.update e dim i)
    rw [hfit] at this
    simp only [along_update, hone, div_one, Function.update_self, if_neg (show ¬ "correct" = "remove" by decide)] at this
    have hx : x.da.get (Function.update e dim i) = .fin v := hv
    rw [hx, Fl.fin_mul, Fl.fin_sub] at this
    refine ⟨y, _, hy, this, ?_⟩
    intro hw
    have hz : v * Spec.position ix i * n / (Spec.position ix i ^ 2 * n
      + ∑ k ∈ Finset.range n, Spec.position ix k ^ 2) * Spec.position ix i = 0 := by linarith
    exact mul_ne_zero (div_ne_zero (mul_ne_zero (mul_ne_zero v0 t0) hn) hd) t0 hz

/-- Missing samples matter to a lone valid one: the value 1 at position 1 alone has the slope 1/2,
and followed by a missing value at position 2 the slope 2/7. -/
theorem C141_missing_matters :
    (∃ s b, calcLinearTrend (⟨⟨[("t", 1)], fun _ => .fin 1⟩, [("t", .numeric [1])], []⟩ : TrendArray ℚ) "t" none
        = .ok (s, b) ∧ s.da.get (fun _ => 0) = .fin (1 / 2)) ∧
    ∃ s b, calcLinearTrend (⟨⟨[("t", 2)], fun e => if e "t" = 0 then .fin 1 else .nan⟩,
        [("t", .numeric [1, 2])], []⟩ : TrendArray ℚ) "t" none = .ok (s, b) ∧
      s.da.get (fun _ => 0) = .fin (2 / 7) := by
  constructor
  · have hA : Spec.HasAxis (⟨⟨[("t", 1)], fun _ => .fin 1⟩, [("t", .numeric [1])], []⟩ : TrendArray ℚ) "t"
        (.numeric [1]) 1 := ⟨by decide, rfl, by simp, rfl⟩
    have hoff : Spec.OffOrigin (.numeric [(1 : ℚ)]) 1 := ⟨0, by omega, by simp [Spec.position]⟩
    obtain ⟨s, b, hs, -⟩ := C51_least_squares hA hoff (unitScale_none _)
    have := (C141_one_position hA (unitScale_none _) hs (e := fun _ => 0)
      (fun k _ => Or.inr ⟨1, rfl⟩) (t0 := 1) (fun k hk _ => by interval_cases k; rfl) (i := 0) (by omega)
      (by simp [Spec.along]) hoff).1
    refine ⟨s, b, hs, this.trans ?_⟩
    norm_num [Spec.overValid, Spec.along, Spec.ifValid, Spec.position]
  · have hA : Spec.HasAxis (⟨⟨[("t", 2)], fun e => if e "t" = 0 then .fin 1 else .nan⟩,
        [("t", .numeric [1, 2])], []⟩ : TrendArray ℚ) "t" (.numeric [1, 2]) 2 := ⟨by decide, rfl, by simp, rfl⟩
    have hoff : Spec.OffOrigin (.numeric [(1 : ℚ), 2]) 2 := ⟨0, by omega, by simp [Spec.position]⟩
    obtain ⟨s, b, hs, -⟩ := C51_least_squares hA hoff (unitScale_none _)
    have := (C141_one_position hA (unitScale_none _) hs (e := fun _ => 0)
      (fun k _ => by unfold Spec.along; dsimp only; split_ifs <;> simp) (t0 := 1)
      (fun k hk hv => by interval_cases k <;> simp [Spec.along, Spec.position] at hv ⊢) (i := 0) (by omega)
      (by simp [Spec.along]) hoff).1
    refine ⟨s, b, hs, this.trans ?_⟩
    norm_num [Spec.overValid, Spec.along, Spec.ifValid, Spec.position, Finset.sum_range_succ]

/-! ## Examples -/

/-- The samples 7 at 1 and 13 at 4 of `trA`, in the opposite order and without the missing one. -/
def trBack : TrendArray ℚ :=
  ⟨⟨[("when", 2)], fun e => if e "when" = 0 then .fin 13 else .fin 7⟩, [("when", .numeric [4, 1])], []⟩

/-- `C141_samples`: both have the same trend. -/
example : ∃ s b s' b', calcLinearTrend trA "time" none = .ok (s, b) ∧
    calcLinearTrend trBack "when" none = .ok (s', b') ∧
    s'.da.get (fun _ => 0) = s.da.get (fun _ => 0) ∧ b'.da.get (fun _ => 0) = b.da.get (fun _ => 0) := by
  have hB : Spec.HasAxis trBack "when" (.numeric [4, 1]) 2 := ⟨by decide, rfl, by simp [trBack], rfl⟩
  obtain ⟨s, b, hs, -⟩ := C51_least_squares trA_axis trA_off (unitScale_none _)
  obtain ⟨s', b', hs', -⟩ := C51_least_squares hB ⟨0, by omega, by simp [Spec.position]⟩ (unitScale_none _)
  refine ⟨s, b, s', b', hs, hs', ?_⟩
  have hvalid : validAt 3 (Spec.along trA "time" (fun _ => 0)) = {0, 2} := by
    ext k
    simp only [validAt, Set.mem_ofPred_eq, Set.mem_insert_iff, Set.mem_singleton_iff]
    constructor
    · rintro ⟨hk, hv⟩
      interval_cases k <;> simp [Spec.along, trA] at hv ⊢
    · rintro (rfl | rfl) <;> simp [Spec.along, trA]
  have hvalid' : validAt 2 (Spec.along trBack "when" (fun _ => 0)) = {0, 1} := by
    ext k
    simp only [validAt, Set.mem_ofPred_eq, Set.mem_insert_iff, Set.mem_singleton_iff]
    constructor
    · rintro ⟨hk, -⟩; omega
    · rintro (rfl | rfl) <;> simp [Spec.along, trBack]
  refine C141_samples trA_axis hB (unitScale_none _) (unitScale_none _) hs hs' (trA_ordinary _)
    (fun k _ => by unfold Spec.along trBack; dsimp only; split_ifs <;> simp)
    ⟨fun k => if k = 0 then 1 else 0, ?_, ?_⟩ (i := 0) (j := 2) (by omega) (by omega)
    (by simp [Spec.along, trA]) (by simp [Spec.along, trA]) (by simp [Spec.position])
  · rw [hvalid, hvalid']
    refine ⟨?_, ?_, ?_⟩
    · rintro k (rfl | rfl) <;> simp
    · rintro k (rfl | rfl) l (rfl | rfl) <;> simp
    · rintro k (rfl | rfl)
      · exact ⟨2, by simp, by simp⟩
      · exact ⟨0, by simp, by simp⟩
  · rw [hvalid]
    rintro k (rfl | rfl) <;> simp [Spec.along, trA, trBack, Spec.position]

/-- `C141_lone_sample`: 5 at position 1, then two missing values. -/
example : ∃ y w, linearDetrend (.array (⟨⟨[("t", 3)], fun e => if e "t" = 0 then .fin 5 else .nan⟩,
      [("t", .numeric [1, 2, 4])], []⟩ : TrendArray ℚ)) "t" 1 "correct" = .ok (.array y) ∧
    Spec.along y "t" (fun _ => 0) 0 = .fin w ∧ w ≠ 5 := by
  have hA : Spec.HasAxis (⟨⟨[("t", 3)], fun e => if e "t" = 0 then .fin 5 else .nan⟩,
      [("t", .numeric [1, 2, 4])], []⟩ : TrendArray ℚ) "t" (.numeric [1, 2, 4]) 3 := ⟨by decide, rfl, by simp, rfl⟩
  obtain ⟨s, b, hs, -⟩ := C51_least_squares hA trA_off (unitScale_none _)
  refine (C141_lone_sample hA (unitScale_none _) hs (e := fun _ => 0) (i := 0) (by omega) (v := 5)
    (by simp [Spec.along]) (fun k _ hk => by simp [Spec.along, hk]) (by norm_num)
    (by simp [Spec.position]) one_ne_zero).2 ?_ (fun ax hax => by cases hax)
  intro i j hij hj
  interval_cases j <;> interval_cases i <;> simp [Spec.position] <;> norm_num

end Momlevel.Props
