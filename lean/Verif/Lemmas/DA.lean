import Verif.Model.DA
import Mathlib.Data.List.Nodup

/-! Helper lemmas about named-dimension arrays. -/

set_option linter.unusedSectionVars false

namespace Momlevel.DA

variable {V W U : Type*}

theorem mem_envs_bounds {ds : List (String × Nat)} {e : Env} (he : e ∈ envs ds)
    (hn : (ds.map Prod.fst).Nodup) : ∀ p ∈ ds, e p.1 < p.2 := by
  induction ds generalizing e with
  | nil => simp
  | cons q ds ih =>
    obtain ⟨d, n⟩ := q
    simp only [List.map_cons, List.nodup_cons] at hn
    simp only [envs, List.mem_flatMap, List.mem_map, List.mem_range] at he
    obtain ⟨e', he', i, hi, rfl⟩ := he
    intro p hp
    rcases List.mem_cons.1 hp with rfl | hp
    · simpa using hi
    · have : p.1 ≠ d := fun h => hn.1 (h ▸ List.mem_map_of_mem hp)
      rw [Function.update_of_ne this]
      exact ih he' hn.2 p hp

theorem exists_mem_envs {ds : List (String × Nat)} {e : Env} (he : ∀ p ∈ ds, e p.1 < p.2)
    (hn : (ds.map Prod.fst).Nodup) :
    ∃ e' ∈ envs ds, ∀ d ∈ ds.map Prod.fst, e' d = e d := by
  induction ds with
  | nil => exact ⟨fun _ => 0, by simp [envs], by simp⟩
  | cons q ds ih =>
    obtain ⟨d, n⟩ := q
    simp only [List.map_cons, List.nodup_cons] at hn
    obtain ⟨e', h1, h2⟩ := ih (fun p hp => he p (by simp [hp])) hn.2
    refine ⟨Function.update e' d (e d), ?_, ?_⟩
    · simp only [envs, List.mem_flatMap, List.mem_map, List.mem_range]
      exact ⟨e', h1, e d, he (d, n) (by simp), rfl⟩
    · intro x hx
      rw [List.map_cons, List.mem_cons] at hx
      by_cases h : x = d
      · subst h; simp
      · rw [Function.update_of_ne h]
        exact h2 x (hx.resolve_left h)

/-- `np.all` is the conjunction over all index positions. -/
theorem all_iff {a : DA V} (hw : a.WF) (hn : a.dimNames.Nodup) (p : V → Bool) :
    a.all p = true ↔ ∀ e, a.InBounds e → p (a.get e) = true := by
  unfold all vals
  rw [List.all_eq_true]
  constructor
  · intro h e he
    obtain ⟨e', h1, h2⟩ := exists_mem_envs he hn
    have := h _ (List.mem_map_of_mem h1)
    rwa [hw e' e h2] at this
  · intro h v hv
    obtain ⟨e, he, rfl⟩ := List.mem_map.1 hv
    exact h e (mem_envs_bounds he hn)

theorem WF_map {a : DA V} (h : a.WF) (f : V → W) : (a.map f).WF := fun e e' he => by
  show f _ = f _
  rw [h e e' he]

theorem mem_bdims {a b : List (String × Nat)} {p : String × Nat} (h : p ∈ bdims a b) :
    p ∈ a ∨ p ∈ b := by
  unfold bdims at h
  rw [List.mem_append, List.mem_filter] at h
  exact h.imp id And.left

/-- Broadcasting against an array whose dimensions are all present changes nothing. -/
theorem bdims_eq_left {a b : List (String × Nat)} (h : ∀ p ∈ b, p ∈ a) : bdims a b = a := by
  unfold bdims
  rw [List.filter_eq_nil_iff.2, List.append_nil]
  intro p hp
  have : p.1 ∈ a.map Prod.fst := List.mem_map_of_mem (h p hp)
  simpa using this

theorem bdims_disjoint {a b : List (String × Nat)} (h : ∀ p ∈ b, p.1 ∉ a.map Prod.fst) :
    bdims a b = a ++ b := by
  unfold bdims
  rw [List.filter_eq_self.2]
  intro p hp
  simpa using h p hp

theorem dims_zip (f : V → W → U) (a : DA V) (b : DA W) : (zip f a b).dims = bdims a.dims b.dims :=
  rfl

@[simp] theorem dims_scalar (v : V) : (scalar v).dims = [] := rfl

variable {K : Type*} [Field K] [LinearOrder K]
theorem dims_add (a b : DA (Fl K)) : (a + b).dims = bdims a.dims b.dims := rfl
theorem dims_sub (a b : DA (Fl K)) : (a - b).dims = bdims a.dims b.dims := rfl
theorem dims_mul (a b : DA (Fl K)) : (a * b).dims = bdims a.dims b.dims := rfl
theorem dims_div (a b : DA (Fl K)) : (a / b).dims = bdims a.dims b.dims := rfl
@[simp] theorem dims_neg (a : DA (Fl K)) : (-a).dims = a.dims := rfl

end Momlevel.DA
