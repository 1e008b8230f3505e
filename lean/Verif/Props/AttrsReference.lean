import Verif.Model.AttrsReference
import Verif.Props.Attrs
import Verif.Props.StericSuccess

/-! # C142: metadata of the reference state -/

set_option linter.unusedSectionVars false

namespace Momlevel.Props
open Momlevel Momlevel.Eos

/-- The described variables are those of every reference state, in the same order. -/
theorem C142_names {d ref : DS (Fl ℝ)} {patm : DA (Fl ℝ)} {eos : String} {cn : DictArg} {i : Int}
    (h : setupReferenceState d patm eos cn i = .ok ref) (dset : List (String × Dict String)) :
    ref.vars.map Prod.fst = (referenceAttrs dset eos).map Prod.fst := by
  simp only [setupReferenceState, bind_ok, pure_ok] at h
  obtain ⟨_, -, _, -, _, -, _, -, _, -, _, -, _, -, _, -, rfl⟩ := h
  rfl

/-- The variables taken from the input carry the attributes they had there. -/
theorem C142_inherited (dset : List (String × Dict String)) (eos : String) {n : String}
    (hn : n = "thetao" ∨ n = "so" ∨ n = "volcello" ∨ n = "areacello") {a : Dict String}
    (ha : dset.lookup n = some a) : (referenceAttrs dset eos).lookup n = some a := by
  rcases hn with rfl | rfl | rfl | rfl <;>
    simp [referenceAttrs, List.lookup, attrsOr, ha]

/-- The calculated ones are named and have units, and the units of mass, volume and mean density fit together; the
equation of state is recorded as it was passed. -/
theorem C142_calculated (dset : List (String × Dict String)) (eos : String) :
    (∀ n, n = "rho" ∨ n = "volo" ∨ n = "masso" ∨ n = "rhoga" →
      ∃ a, (referenceAttrs dset eos).lookup n = some a ∧ Spec.Labelled a) ∧
    (∃ a, (referenceAttrs dset eos).lookup "rho" = some a ∧ a.lookup "units" = some "kg m-3" ∧
      a.lookup "comment" = some ("calculated with the " ++ eos ++ " equation of state")) ∧
    (∃ a, (referenceAttrs dset eos).lookup "masso" = some a ∧ a.lookup "units" = some "kg") ∧
    (∃ a, (referenceAttrs dset eos).lookup "volo" = some a ∧ a.lookup "units" = some "m3") ∧
    ∃ a, (referenceAttrs dset eos).lookup "rhoga" = some a ∧ a.lookup "units" = some "kg m-3" := by
  refine ⟨?_, ⟨_, rfl, rfl, rfl⟩, ⟨_, rfl, rfl⟩, ⟨_, rfl, rfl⟩, ⟨_, rfl, rfl⟩⟩
  rintro n (rfl | rfl | rfl | rfl)
  · exact ⟨_, rfl, by simp [Spec.Labelled, calcAttrs, List.lookup]⟩
  · exact ⟨_, rfl, by simp [Spec.Labelled, calcAttrs, List.lookup]⟩
  · exact ⟨_, rfl, by simp [Spec.Labelled, calcAttrs, List.lookup]⟩
  · exact ⟨_, rfl, by simp [Spec.Labelled, calcAttrs, List.lookup]⟩

theorem lookup_map_rename {α : Type} {l : List (String × α)} {f : String → String} {n : String} {a : α}
    (hd : (l.map (fun p => f p.1)).Nodup) (h : (n, a) ∈ l) :
    (l.map (fun p => (f p.1, p.2))).lookup (f n) = some a := by
  induction l with
  | nil => cases h
  | cons p l ih =>
    obtain ⟨m, b⟩ := p
    rw [List.map_cons, List.nodup_cons] at hd
    rw [List.map_cons, List.lookup_cons]
    rcases List.mem_cons.1 h with h | h
    · cases h
      simp
    · have : ¬ f n = f m := fun hh => hd.1 (by
        rw [List.mem_map]; exact ⟨(n, a), h, hh⟩)
      rw [show (f n == f m) = false by simpa using this]
      exact ih hd.2 h

/-- The name a variable has after `varname_map`. -/
def newName (vm : Option (List (String × String))) (x : String) : String :=
  match vm with
  | none => x
  | some m => match m.lookup x with
    | none => x
    | some y => y

/-- A run of `steric` that makes its own reference returns the variables above, those taken from the input with
the attributes of the variable that `varname_map` renames to them (or of the variable itself). -/
theorem C142_steric {d0 : DS (Fl ℝ)} {cn : DictArg} {vm : Option (List (String × String))} {rhozero : Fl ℝ}
    {patm : DA (Fl ℝ)} {eos variant domain : String} {strict : Bool} {r ref : DS (Fl ℝ)}
    (h : steric d0 .none cn vm rhozero patm eos variant domain strict = .ok (r, ref))
    (dset : List (String × Dict String)) (hd : (dset.map (fun p => newName vm p.1)).Nodup) :
    ref.vars.map Prod.fst = (stericRefAttrs dset vm none eos).map Prod.fst ∧
    ∀ old a, (old, a) ∈ dset →
      newName vm old = "thetao" ∨ newName vm old = "so" ∨ newName vm old = "volcello" ∨
        newName vm old = "areacello" →
      (stericRefAttrs dset vm none eos).lookup (newName vm old) = some a := by
  obtain ⟨d, tc, zc, zb, pres, th, so, rho, -, -, -, -, h5, -⟩ := steric_ok_iff.1 h
  refine ⟨C142_names h5 _, fun old a ha hn => C142_inherited _ _ hn ?_⟩
  have key := lookup_map_rename (f := newName vm) hd ha
  cases vm with
  | none => simpa [renameAttrs, newName] using key
  | some m =>
    have e : newName (some m) = fun x => (m.lookup x).getD x := by
      funext x; simp only [newName]; cases m.lookup x <;> rfl
    rw [e] at key ⊢
    exact key

/-- A reference that is passed is returned with its attributes. -/
theorem C142_given (dset g : List (String × Dict String)) (vm : Option (List (String × String))) (eos : String) :
    stericRefAttrs dset vm (some g) eos = g := rfl

/-- `C142_inherited` and `C142_calculated` on attributes like those of the test data. -/
example : (referenceAttrs [("thetao", [("units", "degC")]), ("areacello", [("units", "m2")])] "wright").lookup "areacello"
      = some [("units", "m2")] ∧
    ∃ a, (referenceAttrs [("thetao", [("units", "degC")])] "wright").lookup "rho" = some a ∧
      a.lookup "comment" = some "calculated with the wright equation of state" := by
  refine ⟨C142_inherited _ _ (by simp) rfl, ?_⟩
  obtain ⟨a, h1, -, h2⟩ := (C142_calculated [("thetao", [("units", "degC")])] "wright").2.1
  exact ⟨a, h1, h2⟩

/-- `C142_steric` for the run `exRun`. -/
example : ∃ r ref, steric exD .none .none none (.fin 1035) (DA.scalar (.fin 101325)) "Wright" "steric" "global" true
      = .ok (r, ref) ∧
    (stericRefAttrs [("so", [("units", "psu")]), ("thetao", [("units", "degC")])] none none "Wright").lookup "thetao"
      = some [("units", "degC")] := by
  obtain ⟨⟨r, ref⟩, h⟩ := exRun "steric" "global" "Wright" (by simp) (Or.inl wright_case)
  exact ⟨r, ref, h, (C142_steric h _ (by simp [newName])).2 "thetao" _ (by simp) (Or.inl rfl)⟩

end Momlevel.Props
