import Verif.Spec.Trend
import Verif.Lemmas.LeastSquares
import Verif.Lemmas.DA
import Verif.Props.TrendUnits

/-!
# Lemmas about the trend model
-/

set_option linter.unusedSectionVars false

namespace Momlevel
open Momlevel.Props

/-! ### Units strings -/

theorem splitSpace_ne_nil (s : List Char) : splitSpace s ≠ [] := by
  cases s with
  | nil => simp [splitSpace]
  | cons c r =>
    unfold splitSpace
    split
    · simp
    · split <;> simp

theorem splitSpace_cons (c : Char) (r : List Char) : splitSpace (c :: r) =
    if c = ' ' then [] :: splitSpace r
    else match splitSpace r with
      | [] => [[c]]
      | h :: t => (c :: h) :: t := rfl

theorem splitSpace_append (a b : List Char) :
    splitSpace (a ++ ' ' :: b) = splitSpace a ++ splitSpace b := by
  induction a with
  | nil => simp [splitSpace]
  | cons c r ih =>
    rw [List.cons_append, splitSpace_cons, splitSpace_cons]
    split
    · rw [ih]; rfl
    · rw [ih]
      obtain ⟨h, t, e⟩ := List.exists_cons_of_ne_nil (splitSpace_ne_nil r)
      rw [e]; rfl

theorem splitSpace_head {r h : List Char} {t : List (List Char)} (e : splitSpace r = h :: t) :
    (h.head? == some '1') = (r.head? == some '1') := by
  cases r with
  | nil => simp only [splitSpace, List.cons.injEq] at e; rw [← e.1]
  | cons c r =>
    unfold splitSpace at e
    split at e
    · rename_i hc
      simp only [List.cons.injEq] at e
      rw [← e.1, hc]; rfl
    · obtain ⟨h', t', e'⟩ := List.exists_cons_of_ne_nil (splitSpace_ne_nil r)
      rw [e'] at e
      simp only [List.cons.injEq] at e
      rw [← e.1]; rfl

theorem any_hasPer (s : List Char) : (splitSpace s).any hasPer = hasPer s := by
  induction s with
  | nil => rfl
  | cons c r ih =>
    unfold splitSpace
    split
    · rename_i hc
      rw [List.any_cons, ih, hc]
      rfl
    · obtain ⟨h, t, e⟩ := List.exists_cons_of_ne_nil (splitSpace_ne_nil r)
      rw [e]
      rw [e, List.any_cons] at ih
      change (hasPer (c :: h) || t.any hasPer) = _
      unfold hasPer
      rw [splitSpace_head e, ← ih, Bool.or_assoc]

theorem hasPer_iff (s : List Char) : hasPer s = true ↔ ['-', '1'] <:+: s := by
  induction s with
  | nil => simp [hasPer]
  | cons c r ih =>
    unfold hasPer
    rw [Bool.or_eq_true, ih, List.infix_cons_iff]
    apply or_congr_left
    cases r with
    | nil => simp [List.cons_prefix_cons]
    | cons d r =>
      rw [List.cons_prefix_cons, List.cons_prefix_cons, List.head?_cons]
      simp only [Bool.and_eq_true, beq_iff_eq, Option.some.injEq, List.nil_prefix, and_true]
      rw [eq_comm (a := c), eq_comm (a := d)]

/-- The time units found in a units string, none if it does not mention "-1". -/
theorem perUnits_plain {s : String} (h : ¬ Spec.mentionsPer s) : perUnits s = [] := by
  unfold perUnits
  rw [List.map_eq_nil_iff, List.filter_eq_nil_iff]
  intro t ht hp
  apply h
  unfold Spec.mentionsPer
  rw [← hasPer_iff, ← any_hasPer]
  exact List.any_eq_true.2 ⟨t, ht, hp⟩

theorem perUnits_per {s : String} (h : Spec.mentionsPer s) : perUnits s ≠ [] := by
  unfold perUnits
  rw [Ne, List.map_eq_nil_iff, List.filter_eq_nil_iff]
  intro hc
  unfold Spec.mentionsPer at h
  rw [← hasPer_iff, ← any_hasPer] at h
  obtain ⟨t, ht, hp⟩ := List.any_eq_true.1 h
  exact hc t ht hp

theorem perUnits_unit {u : String} (h : Spec.Recognised u) :
    ((splitSpace (u.toList ++ ['-', '1'])).filter hasPer).map (fun t => String.ofList (dropPer t)) =
      [u] := by
  simp only [Spec.Recognised, List.mem_cons, List.not_mem_nil, or_false] at h
  rcases h with rfl | rfl | rfl | rfl | rfl | rfl | rfl <;> decide

/-- The units string of a slope names the time units of the input's units and then its own. -/
theorem perUnits_slope (attrs : List (String × String)) {u : String} (h : Spec.Recognised u) :
    perUnits (slopeUnits attrs u) =
      (match attrs.lookup "units" with | some s => perUnits s | none => []) ++ [u] := by
  have h0 : splitSpace ([] : List Char) = [[]] := rfl
  have h1 : hasPer [] = false := rfl
  unfold slopeUnits
  cases attrs.lookup "units" with
  | none =>
    unfold perUnits
    have e : ("" ++ " " ++ u ++ "-1" : String).toList = [] ++ ' ' :: (u.toList ++ ['-', '1']) := by
      simp [String.toList_append]
    rw [e, splitSpace_append, List.filter_append, List.map_append, perUnits_unit h]
    rfl
  | some s =>
    have e : (s ++ " " ++ " " ++ u ++ "-1" : String).toList =
        s.toList ++ ' ' :: ([] ++ ' ' :: (u.toList ++ ['-', '1'])) := by
      simp [String.toList_append]
    change perUnits (s ++ " " ++ " " ++ u ++ "-1") = perUnits s ++ [u]
    unfold perUnits
    rw [e, splitSpace_append, splitSpace_append, List.filter_append, List.map_append,
      List.filter_append, List.map_append, perUnits_unit h]
    rfl

/-! ### Dictionaries -/

theorem lookup_dictSet_self {α : Type} (d : List (String × α)) (k : String) (v : α) :
    (dictSet d k v).lookup k = some v := by
  unfold dictSet
  split
  · rename_i h
    rw [List.contains_iff_mem] at h
    induction d with
    | nil => simp at h
    | cons p d ih =>
      rw [List.map_cons]
      by_cases hp : p.1 = k
      · rw [if_pos hp]; simp [List.lookup]
      · rw [if_neg hp]
        obtain ⟨a, b⟩ := p
        rw [List.lookup_cons, beq_false_of_ne (Ne.symm hp)]
        apply ih
        simp only [List.map_cons, List.mem_cons] at h
        exact h.resolve_left (Ne.symm hp)
  · rename_i h
    rw [List.contains_iff_mem] at h
    induction d with
    | nil => simp
    | cons p d ih =>
      obtain ⟨a, b⟩ := p
      simp only [List.map_cons, List.mem_cons, not_or] at h
      rw [List.cons_append, List.lookup_cons, beq_false_of_ne h.1]
      exact ih h.2

theorem lookup_dictSet_ne {α : Type} (d : List (String × α)) {k k' : String} (v : α) (hk : k' ≠ k) :
    (dictSet d k v).lookup k' = d.lookup k' := by
  unfold dictSet
  split
  · rename_i h
    clear h
    induction d with
    | nil => rfl
    | cons p d ih =>
      obtain ⟨a, b⟩ := p
      rw [List.map_cons]
      by_cases hp : a = k
      · rw [if_pos hp, List.lookup_cons, beq_false_of_ne hk, List.lookup_cons,
          beq_false_of_ne (hp ▸ hk)]
        exact ih
      · rw [if_neg hp, List.lookup_cons, List.lookup_cons, ih]
  · rename_i h
    clear h
    induction d with
    | nil => simp [List.lookup, beq_false_of_ne hk]
    | cons p d ih =>
      obtain ⟨a, b⟩ := p
      rw [List.cons_append, List.lookup_cons, List.lookup_cons, ih]

variable {K : Type} [Field K] [LinearOrder K] [IsStrictOrderedRing K]

/-! ### Index values -/

theorem numbers_length (ix : DimIndex K) : ix.numbers.length = Spec.pointCount ix := by
  cases ix <;> simp [DimIndex.numbers, Spec.pointCount]

theorem numbers_getD (ix : DimIndex K) (k : Nat) : ix.numbers.getD k 0 = Spec.position ix k := by
  cases ix with
  | numeric vals => rfl
  | cftime ax =>
    simp only [DimIndex.numbers, Spec.position, Stamp.midnight]
    congr 1
    apply List.map_congr_left
    intro s _
    push_cast
    rw [mul_comm]

theorem numbers_eq (ix : DimIndex K) :
    ix.numbers = (List.range (Spec.pointCount ix)).map (Spec.position ix) := by
  apply List.ext_getElem
  · simp [numbers_length]
  · intro i h1 h2
    rw [List.getElem_map, List.getElem_range, ← numbers_getD, List.getD_eq_getElem?_getD,
      List.getElem?_eq_getElem h1]
    rfl

theorem cleanInterpIndex_ok {ix : DimIndex K} (h : Spec.Increasing ix (Spec.pointCount ix)) :
    cleanInterpIndex ix = .ok ix.numbers := by
  unfold cleanInterpIndex
  rw [if_pos]
  rw [List.pairwise_iff_getElem]
  intro i j hi hj hij
  have key : ∀ k (hk : k < ix.numbers.length), ix.numbers[k] = Spec.position ix k := by
    intro k hk
    rw [← numbers_getD, List.getD_eq_getElem?_getD, List.getElem?_eq_getElem hk]
    rfl
  rw [key i hi, key j hj]
  exact h i j hij (numbers_length ix ▸ hj)

/-! ### The fit of one series -/

/-- The pairs the fit uses. -/
def fitPairs (n : Nat) (t : Nat → K) (s : Nat → Fl K) : List (K × K) :=
  validPairs ((List.range n).map (fun k => (t k, s k)))

theorem validPairs_append (a b : List (K × Fl K)) :
    validPairs (a ++ b) = validPairs a ++ validPairs b := by
  induction a with
  | nil => rfl
  | cons p a ih =>
    obtain ⟨t, v⟩ := p
    cases v <;> simp only [List.cons_append, validPairs, ih]

theorem lsum_validPairs {α : Type} (l : List α) (t : α → K) (s : α → Fl K) (f : K × K → K) :
    lsum (validPairs (l.map (fun k => (t k, s k)))) f =
      (l.map (fun k => Spec.ifValid (s k) (fun v => f (t k, v)))).sum := by
  induction l with
  | nil => rfl
  | cons k l ih =>
    rw [List.map_cons, List.map_cons, List.sum_cons, ← ih]
    cases s k <;> simp [validPairs, Spec.ifValid]

theorem lsum_fitPairs (n : Nat) (t : Nat → K) (s : Nat → Fl K) (f : K × K → K) :
    lsum (fitPairs n t s) f = Spec.overValid n s (fun k v => f (t k, v)) := by
  unfold fitPairs Spec.overValid
  rw [lsum_validPairs, Fl.sum_map_range]

theorem mem_validPairs (l : List (K × Fl K)) (p : K × K) :
    p ∈ validPairs l ↔ (p.1, Fl.fin p.2) ∈ l := by
  induction l with
  | nil => simp [validPairs]
  | cons q l ih =>
    obtain ⟨t, v⟩ := q
    cases v with
    | fin v =>
      rw [validPairs, List.mem_cons, List.mem_cons, ih, Prod.ext_iff, Prod.ext_iff]
      simp
    | nan =>
      change p ∈ validPairs l ↔ _
      rw [ih, List.mem_cons, Prod.ext_iff]; simp
    | pinf =>
      change p ∈ validPairs l ↔ _
      rw [ih, List.mem_cons, Prod.ext_iff]; simp
    | ninf =>
      change p ∈ validPairs l ↔ _
      rw [ih, List.mem_cons, Prod.ext_iff]; simp

theorem mem_fitPairs {n : Nat} {t : Nat → K} {s : Nat → Fl K} {p : K × K} :
    p ∈ fitPairs n t s ↔ ∃ k < n, t k = p.1 ∧ s k = .fin p.2 := by
  unfold fitPairs
  rw [mem_validPairs]
  simp [Prod.ext_iff]

theorem polyfit1_eq {ix : DimIndex K} {n : Nat} (hn : Spec.pointCount ix = n) (s : Nat → Fl K)
    (ho : Spec.Ordinary n s) :
    polyfit1 ix.numbers ((List.range n).map s) =
      if (fitPairs n (Spec.position ix) s).isEmpty then (.nan, .nan)
      else fitLine ix.numbers (fitPairs n (Spec.position ix) s) := by
  unfold polyfit1
  have h1 : ((List.range n).map s).any isInf = false := by
    rw [List.any_eq_false]
    intro v hv
    rw [List.mem_map] at hv
    obtain ⟨k, hk, rfl⟩ := hv
    rcases ho k (List.mem_range.1 hk) with h | ⟨v, h⟩ <;> rw [h] <;> simp [isInf]
  rw [h1]
  have h2 : ix.numbers.zip ((List.range n).map s) =
      (List.range n).map (fun k => (Spec.position ix k, s k)) := by
    rw [numbers_eq, hn, List.zip_map']
  rw [h2]
  rfl

/-- Without valid samples the fit is missing. -/
theorem polyfit1_missing {ix : DimIndex K} {n : Nat} (hn : Spec.pointCount ix = n) {s : Nat → Fl K}
    (h : ∀ k < n, s k = .nan) : polyfit1 ix.numbers ((List.range n).map s) = (.nan, .nan) := by
  rw [polyfit1_eq hn s (fun k hk => Or.inl (h k hk))]
  rw [if_pos]
  rw [List.isEmpty_iff, List.eq_nil_iff_forall_not_mem]
  intro p hp
  obtain ⟨k, hk, _, hs⟩ := mem_fitPairs.1 hp
  rw [h k hk] at hs
  cases hs

theorem offOrigin_numbers {ix : DimIndex K} {n : Nat} (hn : Spec.pointCount ix = n)
    (h : Spec.OffOrigin ix n) : ∃ t ∈ ix.numbers, t ≠ 0 := by
  obtain ⟨k, hk, ht⟩ := h
  refine ⟨Spec.position ix k, ?_, ht⟩
  rw [numbers_eq, hn]
  exact List.mem_map_of_mem (List.mem_range.2 hk)

/-- With a valid sample the fit satisfies the normal equations. -/
theorem polyfit1_fit {ix : DimIndex K} {n : Nat} (hn : Spec.pointCount ix = n) {s : Nat → Fl K}
    (ho : Spec.Ordinary n s) (ht : Spec.OffOrigin ix n) (hv : ∃ k < n, ∃ v, s k = .fin v) :
    ∃ m b, polyfit1 ix.numbers ((List.range n).map s) = (.fin m, .fin b) ∧
      Normal (fitPairs n (Spec.position ix) s) m b := by
  rw [polyfit1_eq hn s ho]
  have hne : fitPairs n (Spec.position ix) s ≠ [] := by
    obtain ⟨k, hk, v, hs⟩ := hv
    exact List.ne_nil_of_mem (mem_fitPairs.2 ⟨k, hk, rfl, hs⟩ : (Spec.position ix k, v) ∈ _)
  rw [if_neg (by rwa [List.isEmpty_iff])]
  exact fitLine_normal hne (offOrigin_numbers hn ht)

theorem ordinary_cases {n : Nat} {s : Nat → Fl K} (ho : Spec.Ordinary n s) :
    (∀ k < n, s k = .nan) ∨ ∃ k < n, ∃ v, s k = .fin v := by
  by_cases h : ∃ k < n, ∃ v, s k = .fin v
  · exact Or.inr h
  · left
    intro k hk
    rcases ho k hk with e | ⟨v, e⟩
    · exact e
    · exact absurd ⟨k, hk, v, e⟩ h

/-- Slope and intercept are finite or missing, whatever the data. -/
theorem polyfit1_FN (times : List K) (vals : List (Fl K)) :
    Fl.FN (polyfit1 times vals).1 ∧ Fl.FN (polyfit1 times vals).2 := by
  unfold polyfit1
  split
  · exact ⟨Or.inl rfl, Or.inl rfl⟩
  · split
    · exact ⟨Or.inl rfl, Or.inl rfl⟩
    · unfold fitLine
      dsimp only
      split
      · exact ⟨Or.inr ⟨_, rfl⟩, Or.inr ⟨_, rfl⟩⟩
      · split
        · exact ⟨Or.inl rfl, Or.inl rfl⟩
        · exact ⟨Or.inr ⟨_, rfl⟩, Or.inr ⟨_, rfl⟩⟩

theorem FN_mul_one {x : Fl K} (h : Fl.FN x) : x * .fin 1 = x := by
  rcases h with rfl | ⟨a, rfl⟩ <;> simp

/-! ### The functions -/

/-- The fitted slope and intercept of the series through `e`. -/
def fitAt (x : TrendArray K) (dim : String) (ix : DimIndex K) (n : Nat) (e : Env) : Fl K × Fl K :=
  polyfit1 ix.numbers ((List.range n).map (Spec.along x dim e))

theorem polyfitCoefficients_ok {x : TrendArray K} {dim : String} {ix : DimIndex K} {n : Nat}
    (h : Spec.HasAxis x dim ix n) :
    polyfitCoefficients x dim ix = .ok
      (⟨x.da.dims.filter (fun p => p.1 != dim), fun e => (fitAt x dim ix n e).1⟩,
       ⟨x.da.dims.filter (fun p => p.1 != dim), fun e => (fitAt x dim ix n e).2⟩) := by
  unfold polyfitCoefficients
  have : x.da.dimNames.contains dim = true :=
    List.contains_iff_mem.2 (List.mem_map.2 ⟨_, h.dim_mem, rfl⟩)
  rw [if_pos this]
  have hl : ix.numbers.length = n := by rw [numbers_length, h.count]
  simp only [hl]
  rfl

theorem default_conversion (src dst : String) : timeConversionFactor (K := K) src dst =
    match Spec.nsPer (K := K) src, Spec.nsPer (K := K) dst with
    | some a, some b => .ok (.fin (a / b))
    | _, _ => .error .assertionError := by
  have e1 : (30.417 : Fl K) = .fin (30417 / 1000) := by rw [Fl.ofSci]; norm_num
  have e2 : (365.0 : Fl K) = .fin 365 := by rw [Fl.ofSci]; norm_num
  rw [e1, e2, conversion_eq (by norm_num) (by norm_num)]
  rfl

theorem nsPer_ne_zero {u : String} {a : K} (h : Spec.nsPer u = some a) : a ≠ 0 :=
  nsIn_ne_zero (by norm_num) (by norm_num) h

theorem nsPer_recognised {u : String} {a : K} (h : Spec.nsPer u = some a) : Spec.Recognised u := by
  have := contains_nsIn (30417 / 1000 : K) 365 u
  unfold Spec.nsPer at h
  rw [h] at this
  exact List.contains_iff_mem.1 this

theorem dims_mul_scalar (a : DA (Fl K)) (v : Fl K) : (a * DA.scalar v).dims = a.dims := by
  rw [DA.dims_mul]
  exact DA.bdims_eq_left (fun p hp => by cases hp)

end Momlevel
