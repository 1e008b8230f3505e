import Verif.Model.Fl
import Mathlib.Algebra.BigOperators.Field
import Mathlib.Algebra.Order.BigOperators.Ring.Finset

/-!
# Averages of samples with gaps, stated independently of the model functions
-/

namespace Momlevel.Spec
open Momlevel.Fl

variable {K : Type} [Field K] [LinearOrder K]

/-- The samples of `S` that are not missing. -/
def present (S : Finset Nat) (v : Nat → Fl K) : Finset Nat := S.filter (fun i => v i ≠ nan)

/-- `r` is the average of the samples `v i`, `i ∈ S`, with weights `w i`, leaving out missing samples;
it is missing exactly when all samples are. -/
def IsWeightedMean (S : Finset Nat) (w : Nat → Nat) (v : Nat → Fl K) (r : Fl K) : Prop :=
  ((∀ i ∈ S, v i = nan) ∧ r = nan) ∨
  ((∃ i ∈ S, v i ≠ nan) ∧ ∃ q : K, r = fin q ∧
    q * (∑ i ∈ present S v, (w i : K)) = ∑ i ∈ present S v, (w i : K) * val0 (v i))

/-- `r` is the arithmetic mean of the non-missing samples. -/
def IsMean (S : Finset Nat) (v : Nat → Fl K) (r : Fl K) : Prop :=
  ((∀ i ∈ S, v i = nan) ∧ r = nan) ∨
  ((∃ i ∈ S, v i ≠ nan) ∧ ∃ q : K, r = fin q ∧
    q * ((present S v).card : K) = ∑ i ∈ present S v, val0 (v i))

/-- `r` is the smallest non-missing sample (missing if there is none). -/
def IsMin (S : Finset Nat) (v : Nat → Fl K) (r : Fl K) : Prop :=
  ((∀ i ∈ S, v i = nan) ∧ r = nan) ∨
  (∃ q : K, r = fin q ∧ (∃ i ∈ S, v i = fin q) ∧ ∀ i ∈ S, ∀ a, v i = fin a → q ≤ a)

/-- `r` is the largest non-missing sample (missing if there is none). -/
def IsMax (S : Finset Nat) (v : Nat → Fl K) (r : Fl K) : Prop :=
  ((∀ i ∈ S, v i = nan) ∧ r = nan) ∨
  (∃ q : K, r = fin q ∧ (∃ i ∈ S, v i = fin q) ∧ ∀ i ∈ S, ∀ a, v i = fin a → a ≤ q)

/-- `r` is the population standard deviation of the non-missing samples: non-negative, and its square
times the number of samples is the sum of the squared deviations from their mean `q`. -/
def IsStd (S : Finset Nat) (v : Nat → Fl K) (r : Fl K) : Prop :=
  ((∀ i ∈ S, v i = nan) ∧ r = nan) ∨
  (∃ q s : K, IsMean S v (fin q) ∧ r = fin s ∧ 0 ≤ s ∧ (∃ i ∈ S, v i ≠ nan) ∧
    s * s * ((present S v).card : K) = ∑ i ∈ present S v, (val0 (v i) - q) * (val0 (v i) - q))

end Momlevel.Spec
