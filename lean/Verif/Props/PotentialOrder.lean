import Verif.Props.WrightCurvature
import Verif.Props.Mass

/-! # C152: the order of water masses by potential density -/

set_option linter.unusedSectionVars false

namespace Momlevel.Props
open Fl Momlevel.Eos

/-- The value of the potential density at a cell whose water is in the oceanographic range. -/
theorem pdens_at {th so r : DA (Fl ℝ)} {l pa T S : ℝ} {e : Env} {eos : String} (heos : CaseVariant eos "wright")
    (h : calcPdens th so (fin l) (DA.scalar (fin pa)) eos = .ok r)
    (hT : th.get e = fin T) (hS : so.get e = fin S) (ho : Spec.Wright.Ocean T S (l * 10 ^ 4 + pa)) :
    r.get e = fin (Wright.density T S (l * 10 ^ 4 + pa)) := by
  have hl : 0 ≤ l ∧ l ≤ 7500 := by
    by_contra hc
    have := C22_rejects th so (DA.scalar (fin pa)) eos (fin l) (fun x hx => by
      cases hx; by_contra h2; push Not at h2; exact hc h2)
    rw [h] at this; cases this
  have hf : eosFuncFromStr eos "density" = .ok (Wright.density : EosFn (Fl ℝ)) := by
    have hw : pyLower eos = "wright".toList := (pyLower_wright eos).2 heos
    simp only [eosFuncFromStr, hw]; rfl
  obtain ⟨r', k1, -, k2⟩ := C22_value (th := th) (so := so) hf hl.1 hl.2 (DA.scalar (fin pa)) (by simp)
  rw [h] at k1
  cases k1
  rw [k2 e, hT, hS, DA.get_scalar, fin_add, (C01_float_finite _ _ _ (C03_pos ho).1.ne').1,
    ← C01_density_formula]

/-- C152 (deeper levels favour the cold): of two cells let the second be at least as warm and at least as salty.
Going from reference level `l` down to `l'`, the excess of the second cell's potential density shrinks, by at least
`5·10⁻⁶` kg/m³ per metre and degree and `3·10⁻⁶` per metre and salinity unit, and by at most nine and a little over
three times as much. -/
theorem C152_excess {th so r r' : DA (Fl ℝ)} {l l' pa T T' S S' : ℝ} {e e' : Env} {eos : String}
    (heos : CaseVariant eos "wright")
    (h : calcPdens th so (fin l) (DA.scalar (fin pa)) eos = .ok r)
    (h' : calcPdens th so (fin l') (DA.scalar (fin pa)) eos = .ok r')
    (hT : th.get e = fin T) (hS : so.get e = fin S) (hT' : th.get e' = fin T') (hS' : so.get e' = fin S')
    (ho : Spec.Wright.Ocean T S (l * 10 ^ 4 + pa)) (ho' : Spec.Wright.Ocean T' S' (l' * 10 ^ 4 + pa))
    (ht : T ≤ T') (hs : S ≤ S') (hl : l ≤ l') :
    ∃ a b a' b', r.get e = fin a ∧ r.get e' = fin b ∧ r'.get e = fin a' ∧ r'.get e' = fin b' ∧
      0.000005 * (l' - l) * (T' - T) + 0.000003 * (l' - l) * (S' - S) ≤ (b - a) - (b' - a') ∧
      (b - a) - (b' - a') ≤ 0.000045 * (l' - l) * (T' - T) + 0.00001 * (l' - l) * (S' - S) := by
  have hp : l * 10 ^ 4 + pa ≤ l' * 10 ^ 4 + pa := by linarith
  have o1 : Spec.Wright.Ocean T' S' (l * 10 ^ 4 + pa) :=
    ⟨ho'.1, ho'.2.1, ho'.2.2.1, ho'.2.2.2.1, ho.2.2.2.2⟩
  have o2 : Spec.Wright.Ocean T S (l' * 10 ^ 4 + pa) := ⟨ho.1, ho.2.1, ho.2.2.1, ho.2.2.2.1, ho'.2.2.2.2⟩
  have o3 : Spec.Wright.Ocean T S' (l * 10 ^ 4 + pa) := ⟨ho.1, ho.2.1, ho'.2.2.1, ho'.2.2.2.1, ho.2.2.2.2⟩
  refine ⟨_, _, _, _, pdens_at heos h hT hS ho, pdens_at heos h hT' hS' o1, pdens_at heos h' hT hS o2,
    pdens_at heos h' hT' hS' ho', ?_⟩
  have a := (C134_pressure o3 ho' ht le_rfl hp).1
  have b := (C134_pressure ho ho' ht hs hp).2.1
  constructor <;> nlinarith [a.1, a.2, b.1, b.2]

/-- C152 (one way): if the warmer and saltier of two different waters is not the denser one at some reference level,
then it is strictly the lighter one at every deeper level.  So going down the order of two such waters changes at
most once, and only in this direction. -/
theorem C152_once {th so r r' : DA (Fl ℝ)} {l l' pa T T' S S' : ℝ} {e e' : Env} {eos : String}
    (heos : CaseVariant eos "wright")
    (h : calcPdens th so (fin l) (DA.scalar (fin pa)) eos = .ok r)
    (h' : calcPdens th so (fin l') (DA.scalar (fin pa)) eos = .ok r')
    (hT : th.get e = fin T) (hS : so.get e = fin S) (hT' : th.get e' = fin T') (hS' : so.get e' = fin S')
    (ho : Spec.Wright.Ocean T S (l * 10 ^ 4 + pa)) (ho' : Spec.Wright.Ocean T' S' (l' * 10 ^ 4 + pa))
    (ht : T ≤ T') (hs : S ≤ S') (hne : T < T' ∨ S < S') (hl : l < l')
    (hx : Fl.le (r.get e') (r.get e) = true) : Fl.lt (r'.get e') (r'.get e) = true := by
  obtain ⟨a, b, a', b', h1, h2, h3, h4, h5, -⟩ := C152_excess heos h h' hT hS hT' hS' ho ho' ht hs hl.le
  rw [h1, h2] at hx
  rw [h3, h4]
  simp only [le_fin, lt_fin, decide_eq_true_eq] at hx ⊢
  have hd : 0 < l' - l := by linarith
  rcases hne with hn | hn
  · nlinarith [mul_pos hd (sub_pos.2 hn), mul_nonneg hd.le (sub_nonneg.2 hs)]
  · nlinarith [mul_pos hd (sub_pos.2 hn), mul_nonneg hd.le (sub_nonneg.2 ht)]

/-- C152 (always the same): water that is colder and saltier is denser at every reference level (for temperatures
above that of the greatest density, `4.5 - 0.23 S`). -/
theorem C152_always {th so r : DA (Fl ℝ)} {l pa T T' S S' : ℝ} {e e' : Env} {eos : String}
    (heos : CaseVariant eos "wright")
    (h : calcPdens th so (fin l) (DA.scalar (fin pa)) eos = .ok r)
    (hT : th.get e = fin T) (hS : so.get e = fin S) (hT' : th.get e' = fin T') (hS' : so.get e' = fin S')
    (ho : Spec.Wright.Ocean T S (l * 10 ^ 4 + pa)) (ho' : Spec.Wright.Ocean T' S' (l * 10 ^ 4 + pa))
    (hm : 4.5 - 0.23 * S ≤ T) (ht : T ≤ T') (hs : S' ≤ S) (hne : T < T' ∨ S' < S) :
    Fl.lt (r.get e') (r.get e) = true := by
  rw [pdens_at heos h hT hS ho, pdens_at heos h hT' hS' ho']
  simp only [lt_fin, decide_eq_true_eq]
  have o : Spec.Wright.Ocean T' S (l * 10 ^ 4 + pa) := ⟨ho'.1, ho'.2.1, ho.2.2⟩
  have h1 : T < T' → Wright.density T' S (l * 10 ^ 4 + pa) < Wright.density T S (l * 10 ^ 4 + pa) :=
    fun hlt => C04_decreasing_temperature ho o hm hlt
  have h2 : S' < S → Wright.density T' S' (l * 10 ^ 4 + pa) < Wright.density T' S (l * 10 ^ 4 + pa) :=
    fun hlt => C03_increasing_salinity ho' o hlt
  rcases ht.eq_or_lt with rfl | ht
  · rcases hs.eq_or_lt with rfl | hs
    · simp at hne
    · exact h2 hs
  · rcases hs.eq_or_lt with rfl | hs
    · exact h1 ht
    · exact (h2 hs).trans (h1 ht)

/-- Two waters along `x`: 0 °C and 34, then 8 °C and 35.2. -/
def twoTh : DA (Fl ℝ) := ⟨[("x", 2)], fun e => fin (if e "x" = 0 then 0 else 8)⟩
/-- Their salinities. -/
def twoSo : DA (Fl ℝ) := ⟨[("x", 2)], fun e => fin (if e "x" = 0 then 34 else 35.2)⟩

/-- C152 (the order depends on the level): the warm and salty one of these waters is denser at the surface and lighter
at 2000 m, with the default surface pressure. -/
theorem C152_reversal :
    ∃ r r', calcPdens twoTh twoSo (fin 0) = .ok r ∧ calcPdens twoTh twoSo (fin 2000) = .ok r' ∧
      Fl.lt (r.get (fun _ => 0)) (r.get (fun _ => 1)) = true ∧
      Fl.lt (r'.get (fun _ => 1)) (r'.get (fun _ => 0)) = true := by
  have hf : eosFuncFromStr "Wright" "density" = .ok (Wright.density : EosFn (Fl ℝ)) := rfl
  have hd : ∀ l : ℝ, calcPdens twoTh twoSo (fin l) =
      calcPdens twoTh twoSo (fin l) (DA.scalar (fin 101325)) "Wright" := fun l => by unfold calcPdens; rfl
  have hw : CaseVariant "Wright" "wright" := (pyLower_wright _).1 rfl
  obtain ⟨r, k1, -, -⟩ := C22_value (th := twoTh) (so := twoSo) hf (level := 0) le_rfl (by norm_num)
    (DA.scalar (fin 101325)) (by simp)
  obtain ⟨r', k1', -, -⟩ := C22_value (th := twoTh) (so := twoSo) hf (level := 2000) (by norm_num) (by norm_num)
    (DA.scalar (fin 101325)) (by simp)
  refine ⟨r, r', by rw [hd]; exact k1, by rw [hd]; exact k1', ?_, ?_⟩
  · rw [pdens_at (e := fun _ => 0) (T := 0) (S := 34) hw k1 (by simp [twoTh]) (by simp [twoSo])
        (by unfold Spec.Wright.Ocean; norm_num),
      pdens_at (e := fun _ => 1) (T := 8) (S := 35.2) hw k1 (by simp [twoTh]) (by simp [twoSo])
        (by unfold Spec.Wright.Ocean; norm_num)]
    simp only [lt_fin, decide_eq_true_eq]
    simp only [Wright.density, Wright.A0, Wright.A1, Wright.A2, Wright.B0, Wright.B1, Wright.B2, Wright.B3, Wright.B4,
      Wright.B5, Wright.C0, Wright.C1, Wright.C2, Wright.C3, Wright.C4, Wright.C5]
    norm_num
  · rw [pdens_at (e := fun _ => 0) (T := 0) (S := 34) hw k1' (by simp [twoTh]) (by simp [twoSo])
        (by unfold Spec.Wright.Ocean; norm_num),
      pdens_at (e := fun _ => 1) (T := 8) (S := 35.2) hw k1' (by simp [twoTh]) (by simp [twoSo])
        (by unfold Spec.Wright.Ocean; norm_num)]
    simp only [lt_fin, decide_eq_true_eq]
    simp only [Wright.density, Wright.A0, Wright.A1, Wright.A2, Wright.B0, Wright.B1, Wright.B2, Wright.B3, Wright.B4,
      Wright.B5, Wright.C0, Wright.C1, Wright.C2, Wright.C3, Wright.C4, Wright.C5]
    norm_num

/-- These waters meet the hypotheses of `C152_excess` and `C152_once` for the levels 2000 m and 4000 m: at 4000 m the
warm water is lighter because it is at 2000 m. -/
example : ∃ r', calcPdens twoTh twoSo (fin 4000) (DA.scalar (fin 101325)) "Wright" = .ok r' ∧
    Fl.lt (r'.get (fun _ => 1)) (r'.get (fun _ => 0)) = true := by
  obtain ⟨-, r, -, k, -, hx⟩ := C152_reversal
  have hd : calcPdens twoTh twoSo (fin 2000) = calcPdens twoTh twoSo (fin 2000) (DA.scalar (fin 101325)) "Wright" := by
    unfold calcPdens; rfl
  rw [hd] at k
  have hw : CaseVariant "Wright" "wright" := (pyLower_wright _).1 rfl
  obtain ⟨r', k1, -, -⟩ := C22_value (th := twoTh) (so := twoSo) (eos := "Wright")
    (f := (Wright.density : EosFn (Fl ℝ))) rfl (level := 4000) (by norm_num) (by norm_num)
    (DA.scalar (fin 101325)) (by simp)
  refine ⟨r', k1, C152_once (T := 0) (S := 34) (T' := 8) (S' := 35.2) hw k k1 (by simp [twoTh]) (by simp [twoSo])
    (by simp [twoTh]) (by simp [twoSo])
        (by unfold Spec.Wright.Ocean; norm_num)
    (by unfold Spec.Wright.Ocean; norm_num) (by norm_num) (by norm_num) (by norm_num) (by norm_num) ?_⟩
  generalize r.get (fun _ => 1) = x at hx
  generalize r.get (fun _ => 0) = y at hx
  cases x <;> cases y <;> simp_all [Fl.lt, Fl.le, le_of_lt]

/-- Waters for `C152_always`. -/
example : Spec.Wright.Ocean 4 35 (2000 * 10 ^ 4 + 101325) ∧ Spec.Wright.Ocean 12 34 (2000 * 10 ^ 4 + 101325) ∧
    (4.5 - 0.23 * 35 : ℝ) ≤ 4 := by
  unfold Spec.Wright.Ocean; norm_num

end Momlevel.Props
