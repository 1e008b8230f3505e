import Verif.Lemmas.AdjustN2

/-! # C12, C13: adjusted buoyancy frequency -/

set_option linter.unusedSectionVars false

namespace Momlevel.Props
open Momlevel Momlevel.Fl

variable {K : Type} [Field K] [LinearOrder K] [IsStrictOrderedRing K]

/-- The column of an array along `z` through the position `e`. -/
def column {V : Type} (a : DA V) (z : String) (e : Env) : Nat → V :=
  fun k => a.get (Function.update e z k)

theorem inBounds_update {V : Type} {a : DA V} {z : String} {e : Env} (he : a.InBounds e) {k : Nat}
    (hk : k ≤ e z) : a.InBounds (Function.update e z k) := by
  intro p hp
  have := he p hp
  by_cases h : p.1 = z
  · rw [h, Function.update_self]; rw [h] at this; omega
  · rw [Function.update_of_ne h]; exact this

/-! ## C12 -/

/-- Vertical dimension first: the complete description of the result. -/
theorem C12_adjust {n2 : DA (Fl K)} {z : String} {n : Nat} {rest : List (String × Nat)}
    (hd : n2.dims = (z, n) :: rest) (hn : n ≠ 0) (hv : ∀ e, n2.InBounds e → FN (n2.get e)) :
    ∃ r, adjustNegativeN2 n2 z = .ok r ∧ r.dims = n2.dims ∧ ∀ e, n2.InBounds e →
      (n2.get e = nan → r.get e = nan) ∧
      (∀ x, n2.get e = fin x → 0 < x → r.get e = fin x) ∧
      (∀ x, n2.get e = fin x → x ≤ 0 →
        Spec.NearestPositiveAbove (column n2 z e) (e z) (r.get e) ∨
        (Spec.NonePositiveAbove (column n2 z e) (e z) ∧ r.get e = fin (1 / 10 ^ 8))) := by
  have hz : z ∈ n2.dimNames := by unfold DA.dimNames; rw [hd]; simp
  obtain ⟨r, h1, h2, h3⟩ := adjust_eval hd hn hz
  refine ⟨r, h1, h2, fun e he => ?_⟩
  have hr := h3 e
  set A : Nat → Fl K := fun k => if k = 0 then fillna (1.0e-8 : Fl K) (pos1 (column n2 z e k))
    else pos1 (column n2 z e k) with hA
  have hr' : r.get e = ffillAt A (e z) * sel (isnull (n2.get e)) nan (1.0 : Fl K) := by
    rw [hr]
    congr 1
    congr 1
    funext k
    simp only [Function.update_self, hA, column]
  have hcol : column n2 z e (e z) = n2.get e := by
    unfold column; rw [Function.update_eq_self]
  have hFN : ∀ k ≤ e z, FN (column n2 z e k) := fun k hk => hv _ (inBounds_update he hk)
  have hA_pos : ∀ k ≤ e z, Spec.Positive (column n2 z e k) → A k = column n2 z e k := by
    intro k hk hp
    have e1 := pos1_of_positive hp
    obtain ⟨y, hy, e2⟩ := hp
    simp only [hA, e1]
    split
    · rw [e2]; rfl
    · rfl
  have hA_nonpos : ∀ k ≤ e z, ¬ Spec.Positive (column n2 z e k) → A k = if k = 0 then (1.0e-8 : Fl K)
      else nan := by
    intro k hk hp
    have e1 : pos1 (column n2 z e k) = nan := by
      by_contra h; exact hp ((pos1_ne_nan (hFN k hk)).1 h)
    simp only [hA, e1, fillna_nan]
  have h8 : (1.0e-8 : Fl K) = fin (1 / 10 ^ 8) := by rw [ofSci]; norm_num
  refine ⟨fun h => ?_, fun x hx hp => ?_, fun x hx hp => ?_⟩
  · rw [hr', h]; simp
  · have hpos : Spec.Positive (column n2 z e (e z)) := by rw [hcol]; exact ⟨x, hp, hx⟩
    have : ffillAt A (e z) = fin x := by
      have e1 := hA_pos _ le_rfl hpos
      rw [hcol, hx] at e1
      cases hk : e z with
      | zero => rw [hk] at e1; exact e1
      | succ k => rw [hk] at e1; unfold ffillAt; rw [e1]; simp
    rw [hr', this, one_mask _ (hv e he), hx]; simp
  · have hnot : ¬ Spec.Positive (column n2 z e (e z)) := by
      rw [hcol, hx]
      rintro ⟨y, hy, h⟩
      rw [Fl.fin.inj h] at hp
      exact absurd hy (not_lt.2 hp)
    have hmask : ∀ w, ffillAt A (e z) = fin w → r.get e = fin w := by
      intro w hw
      rw [hr', hw, one_mask _ (hv e he), hx]; simp
    rcases ffillAt_spec A (e z) with ⟨j, j1, j2, j3, j4⟩ | ⟨_, j2⟩
    · have habove : ∀ i, j < i → i ≤ e z → ¬ Spec.Positive (column n2 z e i) := by
        intro i i1 i2 hp'
        have := j4 i i1 i2
        rw [hA_pos i i2 hp'] at this
        obtain ⟨y, _, hy⟩ := hp'
        rw [hy] at this; cases this
      by_cases hjp : Spec.Positive (column n2 z e j)
      · left
        have hjk : j ≠ e z := fun h => hnot (h ▸ hjp)
        refine ⟨j, by omega, hjp, ?_, fun i i1 i2 => habove i i1 i2.le⟩
        have e1 := hA_pos j j1 hjp
        obtain ⟨y, _, hy⟩ := hjp
        rw [hy]
        exact hmask y (by rw [j3, e1, hy])
      · right
        have e1 := hA_nonpos j j1 hjp
        have hj0 : j = 0 := by
          by_contra h0
          rw [if_neg h0] at e1; exact j2 e1
        subst hj0
        refine ⟨?_, ?_⟩
        · intro i hi hp'
          rcases Nat.eq_zero_or_pos i with rfl | hi0
          · exact hjp hp'
          · exact habove i hi0 hi.le hp'
        · apply hmask
          rw [j3, e1, if_pos rfl, h8]
    · exfalso
      have := j2 0 (Nat.zero_le _)
      by_cases hp0 : Spec.Positive (column n2 z e 0)
      · rw [hA_pos 0 (Nat.zero_le _) hp0] at this
        obtain ⟨y, _, hy⟩ := hp0
        rw [hy] at this; cases this
      · rw [hA_nonpos 0 (Nat.zero_le _) hp0, if_pos rfl, h8] at this; cases this

/-- Consequence: missing exactly where the input is, strictly positive elsewhere. -/
theorem C12_positive {n2 : DA (Fl K)} {z : String} {n : Nat} {rest : List (String × Nat)}
    (hd : n2.dims = (z, n) :: rest) (hn : n ≠ 0) (hv : ∀ e, n2.InBounds e → FN (n2.get e)) :
    ∃ r, adjustNegativeN2 n2 z = .ok r ∧ r.dims = n2.dims ∧ ∀ e, n2.InBounds e →
      (r.get e = nan ↔ n2.get e = nan) ∧ (n2.get e ≠ nan → ∃ y, 0 < y ∧ r.get e = fin y) := by
  obtain ⟨r, h1, h2, h3⟩ := C12_adjust hd hn hv
  have key : ∀ e, n2.InBounds e → n2.get e ≠ nan → ∃ y, 0 < y ∧ r.get e = fin y := by
    intro e he hne
    obtain ⟨_, a2, a3⟩ := h3 e he
    rcases hv e he with h | ⟨x, hx⟩
    · exact absurd h hne
    · rcases lt_or_ge 0 x with hp | hp
      · exact ⟨x, hp, a2 x hx hp⟩
      · rcases a3 x hx hp with ⟨j, _, ⟨y, hy, e1⟩, e2, _⟩ | ⟨_, e2⟩
        · exact ⟨y, hy, by rw [e2, e1]⟩
        · exact ⟨_, by positivity, e2⟩
  refine ⟨r, h1, h2, fun e he => ⟨⟨fun h => ?_, (h3 e he).1⟩, key e he⟩⟩
  by_contra hne
  obtain ⟨y, _, hy⟩ := key e he hne
  rw [hy] at h; cases h

/-- Applying the adjustment twice is the same as applying it once. -/
theorem C12_idempotent {n2 : DA (Fl K)} {z : String} {n : Nat} {rest : List (String × Nat)}
    (hd : n2.dims = (z, n) :: rest) (hn : n ≠ 0) (hv : ∀ e, n2.InBounds e → FN (n2.get e)) :
    ∃ r r', adjustNegativeN2 n2 z = .ok r ∧ adjustNegativeN2 r z = .ok r' ∧ r'.dims = r.dims ∧
      ∀ e, n2.InBounds e → r'.get e = r.get e := by
  obtain ⟨r, h1, h2, h3⟩ := C12_positive hd hn hv
  have hb : ∀ e, r.InBounds e ↔ n2.InBounds e := by
    intro e; unfold DA.InBounds; rw [h2]
  have hv' : ∀ e, r.InBounds e → FN (r.get e) := by
    intro e he
    obtain ⟨a1, a2⟩ := h3 e ((hb e).1 he)
    by_cases h : n2.get e = nan
    · left; exact a1.2 h
    · obtain ⟨y, _, hy⟩ := a2 h
      right; exact ⟨y, hy⟩
  obtain ⟨r', k1, k2, k3⟩ := C12_adjust (n2 := r) (by rw [h2, hd]) hn hv'
  refine ⟨r, r', h1, k1, k2, fun e he => ?_⟩
  obtain ⟨b1, b2, _⟩ := k3 e ((hb e).2 he)
  obtain ⟨a1, a2⟩ := h3 e he
  by_cases h : n2.get e = nan
  · rw [b1 (a1.2 h), a1.2 h]
  · obtain ⟨y, hp, hy⟩ := a2 h
    rw [b2 y hy hp, hy]

/-- Non-vacuity: a z-first column with a missing, a negative and a positive cell. -/
example :
    let n2 : DA (Fl ℚ) := ⟨[("z_l", 3), ("x", 1)], fun e =>
      if e "z_l" = 0 then fin 2 else if e "z_l" = 1 then fin (-1) else nan⟩
    n2.dims = ("z_l", 3) :: [("x", 1)] ∧ (3 ≠ 0) ∧ ∀ e, n2.InBounds e → FN (n2.get e) := by
  refine ⟨rfl, by decide, fun e _ => ?_⟩
  show FN (if e "z_l" = 0 then fin 2 else if e "z_l" = 1 then fin (-1) else nan)
  split
  · exact FN_fin _
  · split
    · exact FN_fin _
    · exact FN_nan

/-- Which arrays are accepted: those whose first dimension exists and is not empty and that have the
vertical dimension.  Any other vertical dimension is a ValueError. -/
theorem C12_defined (n2 : DA (Fl K)) (z : String) :
    ((∃ r, adjustNegativeN2 n2 z = .ok r) ↔
      (∃ d n rest, n2.dims = (d, n) :: rest ∧ n ≠ 0) ∧ z ∈ n2.dimNames) ∧
    ((∃ d n rest, n2.dims = (d, n) :: rest ∧ n ≠ 0) → z ∉ n2.dimNames →
      adjustNegativeN2 n2 z = .error .valueError) := by
  obtain ⟨dims, get⟩ := n2
  cases dims with
  | nil => simp [adjustNegativeN2, fillFirst, DA.map, DA.dimNames]
  | cons p rest =>
    obtain ⟨d, n⟩ := p
    by_cases hn : n = 0
    · subst hn
      simp [adjustNegativeN2, fillFirst, DA.map, DA.dimNames]
    · by_cases hz : z ∈ (DA.mk ((d, n) :: rest) get).dimNames
      · refine ⟨⟨fun _ => ⟨⟨d, n, rest, rfl, hn⟩, hz⟩, fun _ => ?_⟩, fun _ h => absurd hz h⟩
        simp only [adjustNegativeN2, fillFirst, ffill, DA.map, hn, if_false, ok_bind]
        split
        · exact ⟨_, rfl⟩
        · rename_i h; exact absurd hz h
      · have : adjustNegativeN2 (DA.mk ((d, n) :: rest) get) z = .error .valueError := by
          simp only [adjustNegativeN2, fillFirst, ffill, DA.map, hn, if_false, ok_bind]
          split
          · rename_i h; exact absurd h hz
          · rfl
        refine ⟨⟨fun ⟨r, hr⟩ => ?_, fun h => absurd h.2 hz⟩, fun _ _ => this⟩
        rw [this] at hr; cases hr

/-- Non-vacuity: an array without the default vertical dimension. -/
example : adjustNegativeN2 (⟨[("lev", 2)], fun _ => fin 1⟩ : DA (Fl ℚ)) = .error .valueError :=
  (C12_defined _ _).2 ⟨"lev", 2, [], rfl, by decide⟩ (by decide)

/-! ## C13 -/

/-- Some other dimension (time) first: what the code really does.  At the first time every
non-positive cell becomes 1e-8 (the nearest value above is not used); at later times a
non-positive cell gets the nearest positive value above, or is *missing* if there is none. -/
theorem C13_time_first {n2 : DA (Fl K)} {t z : String} {nt : Nat} {rest : List (String × Nat)}
    (hd : n2.dims = (t, nt) :: rest) (hn : nt ≠ 0) (htz : t ≠ z) (hz : z ∈ n2.dimNames)
    (hv : ∀ e, n2.InBounds e → FN (n2.get e)) :
    ∃ r, adjustNegativeN2 n2 z = .ok r ∧ r.dims = n2.dims ∧ ∀ e, n2.InBounds e →
      (n2.get e = nan → r.get e = nan) ∧
      (∀ x, n2.get e = fin x → 0 < x → r.get e = fin x) ∧
      (∀ x, n2.get e = fin x → x ≤ 0 →
        (e t = 0 → r.get e = fin (1 / 10 ^ 8)) ∧
        (e t ≠ 0 → Spec.NearestPositiveAbove (column n2 z e) (e z) (r.get e) ∨
          (Spec.NonePositiveAbove (column n2 z e) (e z) ∧ r.get e = nan))) := by
  obtain ⟨r, h1, h2, h3⟩ := adjust_eval hd hn hz
  refine ⟨r, h1, h2, fun e he => ?_⟩
  set A : Nat → Fl K := fun k => if e t = 0 then fillna (1.0e-8 : Fl K) (pos1 (column n2 z e k))
    else pos1 (column n2 z e k) with hA
  have hr' : r.get e = ffillAt A (e z) * sel (isnull (n2.get e)) nan (1.0 : Fl K) := by
    rw [h3 e]
    congr 1
    congr 1
    funext k
    simp only [Function.update_of_ne htz, hA, column]
  have hcol : column n2 z e (e z) = n2.get e := by
    unfold column; rw [Function.update_eq_self]
  have hFN : ∀ k ≤ e z, FN (column n2 z e k) := fun k hk => hv _ (inBounds_update he hk)
  have h8 : (1.0e-8 : Fl K) = fin (1 / 10 ^ 8) := by rw [ofSci]; norm_num
  have hA_pos : ∀ k ≤ e z, Spec.Positive (column n2 z e k) → A k = column n2 z e k := by
    intro k hk hp
    have e1 := pos1_of_positive hp
    obtain ⟨y, hy, e2⟩ := hp
    simp only [hA, e1]
    split
    · rw [e2]; rfl
    · rfl
  have hA_nonpos : ∀ k ≤ e z, ¬ Spec.Positive (column n2 z e k) →
      A k = if e t = 0 then (1.0e-8 : Fl K) else nan := by
    intro k hk hp
    have e1 : pos1 (column n2 z e k) = nan := by
      by_contra h; exact hp ((pos1_ne_nan (hFN k hk)).1 h)
    simp only [hA, e1, fillna_nan]
  have hself : A (e z) ≠ nan → ffillAt A (e z) = A (e z) := by
    intro h
    cases hk : e z with
    | zero => rfl
    | succ k =>
      rw [hk] at h
      unfold ffillAt
      rw [if_neg (by rw [isnull_iff]; exact h)]
  refine ⟨fun h => ?_, fun x hx hp => ?_, fun x hx hp => ?_⟩
  · rw [hr', h]; simp
  · have hpos : Spec.Positive (column n2 z e (e z)) := by rw [hcol]; exact ⟨x, hp, hx⟩
    have e1 := hA_pos _ le_rfl hpos
    rw [hcol, hx] at e1
    rw [hr', hself (by rw [e1]; intro h; cases h), e1, one_mask _ (hv e he), hx]; simp
  · have hnot : ¬ Spec.Positive (column n2 z e (e z)) := by
      rw [hcol, hx]
      rintro ⟨y, hy, h⟩
      rw [Fl.fin.inj h] at hp
      exact absurd hy (not_lt.2 hp)
    have hmask : ∀ w, ffillAt A (e z) = fin w → r.get e = fin w := by
      intro w hw
      rw [hr', hw, one_mask _ (hv e he), hx]; simp
    constructor
    · intro h0
      have e1 := hA_nonpos _ le_rfl hnot
      rw [if_pos h0, h8] at e1
      apply hmask
      rw [hself (by rw [e1]; intro h; cases h), e1]
    · intro h0
      rcases ffillAt_spec A (e z) with ⟨j, j1, j2, j3, j4⟩ | ⟨j1, j2⟩
      · left
        have hjp : Spec.Positive (column n2 z e j) := by
          by_contra h
          have e1 := hA_nonpos j j1 h
          rw [if_neg h0] at e1
          exact j2 e1
        have hjk : j ≠ e z := fun h => hnot (h ▸ hjp)
        refine ⟨j, by omega, hjp, ?_, fun i i1 i2 hp' => ?_⟩
        · have e1 := hA_pos j j1 hjp
          obtain ⟨y, _, hy⟩ := hjp
          rw [hy]
          exact hmask y (by rw [j3, e1, hy])
        · have := j4 i i1 i2.le
          rw [hA_pos i i2.le hp'] at this
          obtain ⟨y, _, hy⟩ := hp'
          rw [hy] at this; cases this
      · right
        refine ⟨fun j hj hp' => ?_, by rw [hr', j1]; simp⟩
        have := j2 j hj.le
        rw [hA_pos j hj.le hp'] at this
        obtain ⟨y, _, hy⟩ := hp'
        rw [hy] at this; cases this

/-- The claimed positivity is false for time-first input: a non-missing cell of a (time, z, y, x)
array becomes missing. -/
theorem C13_counterexample :
    ∃ n2 r : DA (Fl ℚ), n2.dims = [("time", 2), ("z_l", 2), ("y", 1), ("x", 1)] ∧
      adjustNegativeN2 n2 = .ok r ∧
      ∃ e, n2.InBounds e ∧ n2.get e = fin (-1) ∧ r.get e = nan := by
  let n2 : DA (Fl ℚ) := ⟨[("time", 2), ("z_l", 2), ("y", 1), ("x", 1)], fun _ => fin (-1)⟩
  obtain ⟨r, h1, h2, h3⟩ := C13_time_first (n2 := n2) (t := "time") (z := "z_l") (nt := 2) rfl
    (by decide) (by decide) (by decide) (fun _ _ => FN_fin _)
  refine ⟨n2, r, rfl, h1, fun d => if d = "time" then 1 else 0, ?_, rfl, ?_⟩
  · intro p hp
    simp only [n2, List.mem_cons, List.not_mem_nil, or_false] at hp
    rcases hp with rfl | rfl | rfl | rfl <;> decide
  · obtain ⟨_, _, a3⟩ := h3 (fun d => if d = "time" then 1 else 0) (by
      intro p hp
      simp only [n2, List.mem_cons, List.not_mem_nil, or_false] at hp
      rcases hp with rfl | rfl | rfl | rfl <;> decide)
    rcases (a3 (-1) rfl (by norm_num)).2 (by decide) with ⟨j, _, ⟨y, hy, e1⟩, _⟩ | ⟨_, h⟩
    · have : (-1 : ℚ) = y := Fl.fin.inj e1
      rw [← this] at hy
      norm_num at hy
    · exact h

/-- Positivity where it does hold for time-first input: the first time step, and later cells with
a positive value somewhere at or above them.

Full statement (false, see `C13_counterexample`): every non-missing cell becomes positive.
Missing: cells at later times with no positive value above. -/
theorem C13_positive_partial {n2 : DA (Fl K)} {t z : String} {nt : Nat}
    {rest : List (String × Nat)}
    (hd : n2.dims = (t, nt) :: rest) (hn : nt ≠ 0) (htz : t ≠ z) (hz : z ∈ n2.dimNames)
    (hv : ∀ e, n2.InBounds e → FN (n2.get e)) :
    ∃ r, adjustNegativeN2 n2 z = .ok r ∧ ∀ e, n2.InBounds e → n2.get e ≠ nan →
      (e t = 0 ∨ ∃ j ≤ e z, Spec.Positive (column n2 z e j)) → ∃ y, 0 < y ∧ r.get e = fin y := by
  obtain ⟨r, h1, h2, h3⟩ := C13_time_first hd hn htz hz hv
  refine ⟨r, h1, fun e he hne hor => ?_⟩
  obtain ⟨_, a2, a3⟩ := h3 e he
  rcases hv e he with h | ⟨x, hx⟩
  · exact absurd h hne
  rcases lt_or_ge 0 x with hp | hp
  · exact ⟨x, hp, a2 x hx hp⟩
  · obtain ⟨b1, b2⟩ := a3 x hx hp
    by_cases h0 : e t = 0
    · exact ⟨_, by positivity, b1 h0⟩
    · rcases b2 h0 with ⟨j, _, ⟨y, hy, e1⟩, e2, _⟩ | ⟨hnone, _⟩
      · exact ⟨y, hy, by rw [e2, e1]⟩
      · exfalso
        obtain ⟨j, hj, hjp⟩ := hor.resolve_left h0
        rcases Nat.lt_or_ge j (e z) with h | h
        · exact hnone j h hjp
        · have : j = e z := by omega
          rw [this, column, Function.update_eq_self, hx] at hjp
          obtain ⟨y, hy, e1⟩ := hjp
          rw [Fl.fin.inj e1] at hp
          exact absurd hy (not_lt.2 hp)

/-- The exact condition: with time first, every non-missing cell becomes positive if and only if, at
all times but the first, every non-missing cell has a positive value at or above it. -/
theorem C13_positive_iff {n2 : DA (Fl K)} {t z : String} {nt : Nat} {rest : List (String × Nat)}
    (hd : n2.dims = (t, nt) :: rest) (hn : nt ≠ 0) (htz : t ≠ z) (hz : z ∈ n2.dimNames)
    (hv : ∀ e, n2.InBounds e → FN (n2.get e)) :
    ∃ r, adjustNegativeN2 n2 z = .ok r ∧
      ((∀ e, n2.InBounds e → n2.get e ≠ nan → Spec.Positive (r.get e)) ↔
        ∀ e, n2.InBounds e → n2.get e ≠ nan → e t ≠ 0 →
          ∃ j ≤ e z, Spec.Positive (n2.get (Function.update e z j))) := by
  obtain ⟨r, h1, -, h3⟩ := C13_time_first hd hn htz hz hv
  obtain ⟨r', h1', h4⟩ := C13_positive_partial hd hn htz hz hv
  obtain rfl : r = r' := Except.ok.inj (h1.symm.trans h1')
  refine ⟨r, h1, fun h e he hne ht => ?_, fun h e he hne => ?_⟩
  · obtain ⟨-, -, a3⟩ := h3 e he
    obtain ⟨y, hy, hry⟩ := h e he hne
    rcases hv e he with hx | ⟨x, hx⟩
    · exact absurd hx hne
    rcases lt_or_ge 0 x with hp | hp
    · exact ⟨e z, le_refl _, x, hp, by rw [Function.update_eq_self, hx]⟩
    · rcases (a3 x hx hp).2 ht with ⟨j, hj, hjp, -⟩ | ⟨-, hnan⟩
      · exact ⟨j, hj.le, hjp⟩
      · rw [hnan] at hry
        cases hry
  · refine h4 e he hne ?_
    by_cases ht : e t = 0
    · exact Or.inl ht
    · exact Or.inr (h e he hne ht)

/-- Two times, two levels, positive at the surface: the hypotheses hold and so does positivity. -/
example : ∃ r, adjustNegativeN2 (⟨[("time", 2), ("z_l", 2)],
      fun e => if e "z_l" = 0 then fin 1 else fin (-1)⟩ : DA (Fl ℚ)) "z_l" = .ok r ∧
    Spec.Positive (r.get (fun _ => 1)) := by
  obtain ⟨r, h1, h2⟩ := C13_positive_iff (n2 := (⟨[("time", 2), ("z_l", 2)],
      fun e => if e "z_l" = 0 then fin 1 else fin (-1)⟩ : DA (Fl ℚ))) (t := "time") (z := "z_l") (nt := 2)
    rfl (by decide) (by decide) (by decide) (fun e _ => by dsimp only; split <;> exact FN_fin _)
  refine ⟨r, h1, h2.2 (fun e _ _ _ => ⟨0, Nat.zero_le _, 1, by norm_num, by simp⟩) _ ?_ (by simp)⟩
  intro p hp
  simp only [List.mem_cons, List.not_mem_nil, or_false] at hp
  rcases hp with rfl | rfl <;> decide

end Momlevel.Props
