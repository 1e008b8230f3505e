import Verif.Props.StericRun
import Verif.Props.StericSuccess

/-! # C31: inputs that are absent -/

set_option linter.unusedSectionVars false

namespace Momlevel.Props
open Momlevel Momlevel.Fl

variable {d ref : DS (Fl ℝ)} {cn : DictArg} {patm : DA (Fl ℝ)} {eos tc zc zb : String}

theorem lookup_filter_ne {V : Type} {l : List (String × V)} {v n : String} (hn : n ≠ v) :
    (l.filter (fun p => p.1 != v)).lookup n = l.lookup n := by
  induction l with
  | nil => rfl
  | cons p l ih =>
    obtain ⟨a, b⟩ := p
    by_cases ha : a = v
    · subst ha
      rw [List.filter_cons_of_neg (by simp), ih, List.lookup_cons, show (n == a) = false by simpa using hn]
    · rw [List.filter_cons_of_pos (by simpa using ha), List.lookup_cons, List.lookup_cons, ih]

theorem lookup_filter_self {V : Type} {l : List (String × V)} {v : String} :
    (l.filter (fun p => p.1 != v)).lookup v = none := by
  induction l with
  | nil => rfl
  | cons p l ih =>
    obtain ⟨a, b⟩ := p
    by_cases ha : a = v
    · subst ha
      rw [List.filter_cons_of_neg (by simp), ih]
    · rw [List.filter_cons_of_pos (by simpa using ha), List.lookup_cons,
        show (v == a) = false by simpa using fun h => ha h.symm, ih]

/-- **C31 (absent variable)** Without `thetao`, `so` or `volcello` the function raises a KeyError, whatever else would
have succeeded. -/
theorem C31_no_variable {i : Int} (h : setupReferenceState d patm eos cn i = .ok ref)
    (hc : defaultCoords cn = .ok (tc, zc, zb)) {z : DA (Fl ℝ)} (hz : d.getVar zc = .ok z) {v : String}
    (hv : v ∈ ["thetao", "so", "volcello"]) (hzv : zc ≠ v) :
    setupReferenceState ⟨d.vars.filter (fun p => p.1 != v), d.coords⟩ patm eos cn i = .error .keyError := by
  have hlz : d.vars.lookup zc = some z := getVar_lookup.1 hz
  have hp : ∀ q : DA (Fl ℝ), pressureField ⟨d.vars.filter (fun p => p.1 != v), d.coords⟩ zc q
      = pressureField d zc q := by
    intro q
    unfold pressureField DS.getItem
    simp only [lookup_filter_ne hzv, hlz]
  have hs : ∀ n, n ≠ v → refSlice ⟨d.vars.filter (fun p => p.1 != v), d.coords⟩ n tc i = refSlice d n tc i := by
    intro n hn
    unfold refSlice DS.getVar
    simp only [lookup_filter_ne hn]
  have hno : refSlice ⟨d.vars.filter (fun p => p.1 != v), d.coords⟩ v tc i = .error .keyError := by
    unfold refSlice DS.getVar
    simp only [lookup_filter_self, error_bind]
  simp only [setupReferenceState, hc, ok_bind, bind_ok, pure_ok] at h
  obtain ⟨pres, hp', rth, h1, rso, h2, rvol, h3, -⟩ := h
  simp only [List.mem_cons, List.not_mem_nil, or_false] at hv
  rcases hv with rfl | rfl | rfl
  · simp only [setupReferenceState, hc, ok_bind, hp, hp', hno, error_bind]
  · simp only [setupReferenceState, hc, ok_bind, hp, hp', hs "thetao" (by decide), h1, hno, error_bind]
  · simp only [setupReferenceState, hc, ok_bind, hp, hp', hs "thetao" (by decide), hs "so" (by decide), h1, h2, hno,
      error_bind]

/-- **C31 (absent depths)** Without a variable or a dimension of the name of the vertical coordinate the function raises
a KeyError. -/
theorem C31_no_depth {i : Int} (hc : defaultCoords cn = .ok (tc, zc, zb)) (hz : d.vars.lookup zc = none)
    (hd : ∀ p ∈ d.vars, zc ∉ p.2.dimNames) :
    setupReferenceState d patm eos cn i = .error .keyError := by
  have hl : (d.vars.flatMap (fun p => p.2.dims)).lookup zc = none := by
    rw [List.lookup_eq_none_iff]
    intro q hq
    obtain ⟨p, hp, hq⟩ := List.mem_flatMap.1 hq
    have : q.1 ≠ zc := fun h => hd p hp (h ▸ List.mem_map_of_mem hq)
    simpa using fun h => this h.symm
  simp only [setupReferenceState, hc, ok_bind, pressureField, DS.getItem, hz, hl, error_bind]

/-- The dataset `exD` without its salinity, and without its vertical coordinate and the variables on it. -/
example : setupReferenceState ⟨exD.vars.filter (fun p => p.1 != "so"), exD.coords⟩ (DA.scalar (fin 101325)) "linear"
    = .error .keyError := by
  obtain ⟨⟨r, ref⟩, h⟩ := exRun "steric" "local" "linear" (by simp) (Or.inr linear_case)
  obtain ⟨dd, tc', zc', zb', pres, th, so, rho, p1, p2, p3, p4, p5, -⟩ := steric_ok_iff.1 h
  cases p1
  exact C31_no_variable p5 exC (z := exZ) rfl (by simp) (by decide)

example : setupReferenceState ⟨[("areacello", exA)], []⟩ (DA.scalar (fin 101325)) "linear" = .error .keyError :=
  C31_no_depth exC rfl (by simp [exA, DA.dimNames])

end Momlevel.Props
