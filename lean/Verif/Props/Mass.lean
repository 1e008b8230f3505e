import Verif.Lemmas.Sum
import Verif.Props.N2

/-! # C21, C22, C23: mass, volume, mean density; potential density; inverse barometer -/

set_option linter.unusedSectionVars false

namespace Momlevel.Props
open Momlevel Momlevel.Fl Momlevel.Eos

section C21
variable {K : Type} [Field K] [LinearOrder K] [IsStrictOrderedRing K]

theorem FN_mul {a b : Fl K} (ha : FN a) (hb : FN b) :
    FN (a * b) ∧ val0 (a * b) = val0 a * val0 b := by
  rcases ha with rfl | ⟨a, rfl⟩ <;> rcases hb with rfl | ⟨b, rfl⟩ <;> simp

theorem masso_dims_filter (a : DA (Fl K)) (tc : String) :
    a.dims.filter (fun p => (a.dimNames.filter (fun x => x != tc)).contains p.1)
      = a.dims.filter (fun p => p.1 != tc) := by
  refine List.filter_congr (fun p hp => ?_)
  have hm : p.1 ∈ a.dimNames := List.mem_map_of_mem hp
  by_cases h : p.1 = tc <;> simp [h, hm]

/-- `calc_masso` is the sum of density times volume over every dimension except time (missing
products count as zero), keeping only the time dimension. -/
theorem C21_masso {rho vol : DA (Fl K)} {tc : String}
    (hn : (rho * vol).dimNames.Nodup) (hw : (rho * vol).WF) (e : Env)
    (hr : ∀ e, FN (rho.get e)) (hv : ∀ e, FN (vol.get e)) :
    (calcMasso rho vol tc).get e
        = fin (Spec.sumOver ((rho * vol).dims.filter (fun p => p.1 != tc))
            (fun e => val0 (rho.get e) * val0 (vol.get e)) e)
    ∧ ∀ p ∈ (calcMasso rho vol tc).dims, p.1 = tc := by
  constructor
  · unfold calcMasso
    simp only
    rw [DA.get_sumDims hn hw]
    · rw [masso_dims_filter]
      congr 2
      funext e
      exact (FN_mul (hr e) (hv e)).2
    · intro e' _ _
      exact (FN_mul (hr e') (hv e')).1
  · intro p hp
    have hp' := List.mem_filter.1 hp
    by_contra hne
    have hm : p.1 ∈ (rho * vol).dimNames := List.mem_map_of_mem hp'.1
    have := hp'.2
    simp [hm, hne] at this

/-- `calc_volo` is the sum of the volumes; anything but three dimensions is rejected. -/
theorem C21_volo {vol : DA (Fl K)} (hn : vol.dimNames.Nodup) (hw : vol.WF)
    (hv : ∀ e, FN (vol.get e)) :
    (vol.dims.length = 3 → ∃ r, calcVolo vol = .ok r ∧ r.dims = [] ∧
      ∀ e, r.get e = fin (Spec.sumOver vol.dims (fun e => val0 (vol.get e)) e)) ∧
    (vol.dims.length ≠ 3 → calcVolo vol = .error .assertionError) := by
  constructor
  · intro h
    have : (vol.ndim == 3) = true := by simp [DA.ndim, h]
    refine ⟨vol.sumAll, by simp only [calcVolo, this, pyAssert_true, ok_bind]; rfl, rfl,
      fun e => DA.get_sumAll hn hw (fun e _ => hv e) e⟩
  · intro h
    have : (vol.ndim == 3) = false := by simp [DA.ndim, h]
    simp only [calcVolo, this, pyAssert_false, error_bind]

/-- Mean density is a volume-weighted average: with volumes positive or missing (one present), and
density a number in `[lo, hi]` wherever the volume is present, `rhoga` at each time is a number in
`[lo, hi]`, and `rhoga * volo = masso`. `rho` has the dimensions of the volume, with or without
time. -/
theorem C21_bounds {rho vol : DA (Fl K)} {tc : String} {lo hi : K}
    (hn : (rho * vol).dimNames.Nodup) (hwr : (rho * vol).WF) (hwv : vol.WF)
    (hdims : (rho * vol).dims.filter (fun p => p.1 != tc) = vol.dims) (h3 : vol.dims.length = 3)
    (hv : ∀ e, vol.get e = nan ∨ ∃ v, vol.get e = fin v ∧ 0 < v)
    (hr : ∀ e, FN (rho.get e))
    (hb : ∀ e, vol.get e ≠ nan → ∃ r, rho.get e = fin r ∧ lo ≤ r ∧ r ≤ hi)
    {b : Env} (hbb : vol.InBounds b) (hbv : vol.get b ≠ nan) (e : Env) :
    ∃ volo R m V, calcVolo vol = .ok volo ∧
      (calcRhoga (calcMasso rho vol tc) volo).get e = fin R ∧ lo ≤ R ∧ R ≤ hi ∧
      (calcMasso rho vol tc).get e = fin m ∧ volo.get e = fin V ∧ R * V = m ∧ 0 < V := by
  have hvF : ∀ e, FN (vol.get e) := fun e => by
    rcases hv e with h | ⟨v, h, _⟩ <;> rw [h] <;> simp
  have hnv : (vol.dims.map Prod.fst).Nodup := by
    rw [← hdims]; exact hn.sublist (List.filter_sublist.map _)
  obtain ⟨volo, k1, -, k2⟩ := (C21_volo hnv hwv hvF).1 h3
  obtain ⟨m1, -⟩ := C21_masso (tc := tc) hn hwr e hr hvF
  rw [hdims] at m1
  set V := Spec.sumOver vol.dims (fun e => val0 (vol.get e)) e with hV
  set m := Spec.sumOver vol.dims (fun e => val0 (rho.get e) * val0 (vol.get e)) e with hm
  -- the witness environment agreeing with `e` off the dimensions
  let b' : Env := fun d => if d ∈ vol.dims.map Prod.fst then b d else e d
  have hb'1 : ∀ p ∈ vol.dims, b' p.1 < p.2 := fun p hp => by
    have : p.1 ∈ vol.dims.map Prod.fst := List.mem_map_of_mem hp
    simp only [b', if_pos this]; exact hbb p hp
  have hb'2 : ∀ d, d ∉ vol.dims.map Prod.fst → b' d = e d := fun d hd => by
    simp only [b', if_neg hd]
  have hbb' : vol.get b' = vol.get b := hwv _ _ (fun d hd => by
    have hd : d ∈ vol.dims.map Prod.fst := hd
    simp only [b', if_pos hd])
  have hnn : ∀ a, 0 ≤ val0 (vol.get a) := fun a => by
    rcases hv a with h | ⟨v, h, hp⟩ <;> rw [h]
    · exact le_rfl
    · exact hp.le
  have hpos : 0 < V := by
    refine sumOver_pos hnv (fun a _ _ => hnn a) hb'1 hb'2 ?_
    rcases hv b' with h | ⟨v, h, hp⟩
    · exact absurd (hbb' ▸ h) hbv
    · show 0 < val0 (vol.get b')
      rw [h]; exact hp
  have hle : lo * V ≤ m := by
    rw [hV, hm, ← sumOver_mul]
    refine sumOver_le hnv (fun a _ _ => ?_)
    by_cases hx : vol.get a = nan
    · simp [hx]
    · obtain ⟨r, hr', h1, _⟩ := hb a hx
      rw [hr']; exact mul_le_mul_of_nonneg_right h1 (hnn a)
  have hge : m ≤ hi * V := by
    rw [hV, hm, ← sumOver_mul]
    refine sumOver_le hnv (fun a _ _ => ?_)
    by_cases hx : vol.get a = nan
    · simp [hx]
    · obtain ⟨r, hr', _, h2⟩ := hb a hx
      rw [hr']; exact mul_le_mul_of_nonneg_right h2 (hnn a)
  refine ⟨volo, m / V, m, V, k1, ?_, ?_, ?_, m1, k2 e, ?_, hpos⟩
  · show (calcMasso rho vol tc).get e / volo.get e = _
    rw [m1, k2 e, fin_div_of_ne _ hpos.ne']
  · rwa [le_div_iff₀ hpos]
  · rwa [div_le_iff₀ hpos]
  · field_simp

/-- Witness with one missing density: two unit cells of water, density 1000 known in one only. -/
def gRho : DA (Fl ℚ) := ⟨[("z_l", 2), ("yh", 1), ("xh", 1)],
  fun e => if e "z_l" = 0 then fin 1000 else nan⟩
def gVol : DA (Fl ℚ) := ⟨[("z_l", 2), ("yh", 1), ("xh", 1)], fun _ => fin 1⟩

/-- If the density is missing where the volume is not, the "mean" leaves the range of the densities:
the only density present is 1000 and `rhoga` is 500. -/
theorem C21_missing_density_counterexample :
    (∀ e, gRho.get e = nan ∨ gRho.get e = fin 1000) ∧
    ∃ volo, calcVolo gVol = .ok volo ∧
      (calcRhoga (calcMasso gRho gVol) volo).get (fun _ => 0) = fin 500 := by
  refine ⟨fun e => ?_, _, rfl, ?_⟩
  · by_cases h : e "z_l" = 0 <;> simp [gRho, h]
  · decide +kernel

end C21

/-- The hypotheses of `C21_bounds` hold for a 2x2x2 grid with time-dependent density. -/
example : ∃ (rho vol : DA (Fl ℚ)), (rho * vol).dimNames.Nodup ∧
    (rho * vol).dims.filter (fun p => p.1 != "time") = vol.dims ∧ vol.dims.length = 3 ∧
    ∀ e, ∃ volo R m V, calcVolo vol = .ok volo ∧
      (calcRhoga (calcMasso rho vol "time") volo).get e = fin R ∧ (1000 : ℚ) ≤ R ∧ R ≤ 1010 ∧
      (calcMasso rho vol "time").get e = fin m ∧ volo.get e = fin V ∧ R * V = m ∧ 0 < V := by
  refine ⟨⟨[("time", 3), ("z_l", 2), ("yh", 2), ("xh", 2)],
      fun e => fin (if e "time" = 0 then 1000 else 1005 + (if e "z_l" = 0 then 0 else 5))⟩,
    ⟨[("z_l", 2), ("yh", 2), ("xh", 2)], fun e => if e "xh" = 0 then nan else fin 2⟩,
    by decide, by decide, rfl, fun e => ?_⟩
  refine C21_bounds (by decide) ?_ ?_ (by decide) rfl ?_ ?_ ?_ (b := fun _ => 1) ?_ (by simp) e
  · intro a b h
    have h1 := h "time" (by decide)
    have h2 := h "z_l" (by decide)
    have h3 := h "xh" (by decide)
    simp only [DA.get_mul, h1, h2, h3]
  · intro a b h
    have h3 := h "xh" (by decide)
    simp only [h3]
  · intro e
    by_cases h : e "xh" = 0 <;> simp [h]
  · intro e; simp
  · intro e _
    refine ⟨_, rfl, ?_⟩
    split_ifs <;> norm_num
  · intro p hp
    simp only [List.mem_cons, List.not_mem_nil, or_false] at hp
    rcases hp with rfl | rfl | rfl <;> norm_num

/-! ## C22 -/
section C22
variable {K : Type} [Field K] [LinearOrder K] [IsStrictOrderedRing K]

/-- `calc_pdens(level)` is the density at the pressure `level·10⁴ + patm` at every point, for each
known equation of state and each level in [0, 7500]. -/
theorem C22_value {th so : DA (Fl K)} {eos : String} {f : EosFn (Fl K)}
    (hf : eosFuncFromStr eos "density" = .ok f) {level : K} (h0 : 0 ≤ level) (h1 : level ≤ 7500)
    (patm : DA (Fl K)) (hpd : ∀ p ∈ patm.dims, p ∈ th.dims) :
    ∃ r, calcPdens th so (fin level) patm eos = .ok r ∧ r.dims = DA.bdims th.dims so.dims ∧
      ∀ e, r.get e = f (th.get e) (so.get e) (fin (level * 10 ^ 4) + patm.get e) := by
  have e0 : (0.0 : Fl K) = fin 0 := by rw [ofSci]; norm_num
  have e1 : (7500.0 : Fl K) = fin 7500 := by rw [ofSci]; norm_num
  have e2 : (1.0e4 : Fl K) = fin (10 ^ 4) := by rw [ofSci]; norm_num
  have hd : (DA.scalar (fin (level * 10 ^ 4)) + patm).dims = patm.dims := by
    rw [DA.dims_add]; simp [DA.bdims]
  refine ⟨_, by
    simp only [calcPdens, e0, e1, e2, le_fin, h0, h1, decide_true, Bool.and_true, pyAssert_true,
      ok_bind, calcRho, fin_mul]
    exact applyEos_ok hf th so _ (fun p hp => by
      rw [hd] at hp; exact List.mem_map_of_mem (hpd p hp)), ?_, fun e => rfl⟩
  show DA.bdims (DA.bdims th.dims so.dims) (DA.scalar (fin (level * 10 ^ 4)) + patm).dims = _
  rw [hd]
  refine DA.bdims_eq_left (fun p hp => ?_)
  unfold DA.bdims
  exact List.mem_append_left _ (hpd p hp)

/-- Documented defaults: level 0, 101325 Pa, Wright. -/
theorem C22_defaults (th so : DA (Fl K)) :
    calcPdens th so = calcPdens th so (fin 0) (DA.scalar (fin 101325)) "Wright" := by
  have e0 : (0.0 : Fl K) = fin 0 := by rw [ofSci]; norm_num
  unfold calcPdens
  rw [e0]
  rfl

/-- Levels outside [0, 7500], or NaN, or infinite, are rejected for every input. -/
theorem C22_rejects (th so patm : DA (Fl K)) (eos : String) (level : Fl K)
    (h : ∀ l, level = fin l → l < 0 ∨ 7500 < l) :
    calcPdens th so level patm eos = .error .assertionError := by
  have e0 : (0.0 : Fl K) = fin 0 := by rw [ofSci]; norm_num
  have e1 : (7500.0 : Fl K) = fin 7500 := by rw [ofSci]; norm_num
  have : (Fl.le (0.0 : Fl K) level && Fl.le level (7500.0 : Fl K)) = false := by
    rw [e0, e1]
    cases level with
    | nan => rfl
    | ninf => rfl
    | pinf => rfl
    | fin l =>
      rcases h l rfl with h | h
      · simp [not_le.2 h]
      · simp [not_le.2 h]
  simp only [calcPdens, this, pyAssert_false, error_bind]

/-- With the linear equation of state potential density does not depend on the level. -/
theorem C22_linear_level (th so patm : DA (Fl K)) {eos : String} (heos : CaseVariant eos "linear")
    {l l' : K} (h0 : 0 ≤ l) (h1 : l ≤ 7500) (h0' : 0 ≤ l') (h1' : l' ≤ 7500) :
    calcPdens th so (fin l) patm eos = calcPdens th so (fin l') patm eos := by
  have hl : pyLower eos = "linear".toList := (pyLower_linear eos).2 heos
  have hf : eosFuncFromStr eos "density" = .ok (fun T S p : Fl K => Linear.density T S p) := by
    simp only [eosFuncFromStr, hl, if_true]; rfl
  have e0 : (0.0 : Fl K) = fin 0 := by rw [ofSci]; norm_num
  have e1 : (7500.0 : Fl K) = fin 7500 := by rw [ofSci]; norm_num
  have hd : ∀ x : Fl K, (DA.scalar x + patm).dims = patm.dims := by
    intro x; rw [DA.dims_add]; simp [DA.bdims]
  simp only [calcPdens, e0, e1, le_fin, h0, h1, h0', h1', decide_true, Bool.and_true, pyAssert_true,
      ok_bind, calcRho, applyEos, hf, hd]
  rfl

/-- Wright's equation of state in the oceanographic range: potential density strictly increases
with the reference level. -/
theorem C22_wright_increasing {th so : DA (Fl ℝ)} {e : Env} {T S l l' p : ℝ}
    (hT : th.get e = fin T) (hS : so.get e = fin S) (h0 : 0 ≤ l) (hll : l < l') (h1 : l' ≤ 7500)
    (ho : Spec.Wright.Ocean T S (l * 10 ^ 4 + p)) (ho' : Spec.Wright.Ocean T S (l' * 10 ^ 4 + p)) :
    ∃ r r' x y, calcPdens th so (fin l) (DA.scalar (fin p)) "Wright" = .ok r ∧
      calcPdens th so (fin l') (DA.scalar (fin p)) "Wright" = .ok r' ∧
      r.get e = fin x ∧ r'.get e = fin y ∧ 0 < x ∧ x < y := by
  have hf : eosFuncFromStr "Wright" "density" = .ok (Wright.density : EosFn (Fl ℝ)) := rfl
  obtain ⟨r, k1, -, k2⟩ := C22_value (th := th) (so := so) hf h0 (hll.le.trans h1)
    (DA.scalar (fin p)) (by simp)
  obtain ⟨r', k1', -, k2'⟩ := C22_value (th := th) (so := so) hf (h0.trans hll.le) h1
    (DA.scalar (fin p)) (by simp)
  have g1 := (C01_float_finite _ _ _ (C03_pos ho).1.ne').1
  have g2 := (C01_float_finite _ _ _ (C03_pos ho').1.ne').1
  refine ⟨r, r', Spec.Wright.rho T S (l * 10 ^ 4 + p), Spec.Wright.rho T S (l' * 10 ^ 4 + p), k1, k1',
    ?_, ?_, ?_, ?_⟩
  · rw [k2 e, hT, hS, DA.get_scalar, fin_add, g1]
  · rw [k2' e, hT, hS, DA.get_scalar, fin_add, g2]
  · rw [← C01_density_formula]; exact (C03_pos ho).2
  · rw [← C01_density_formula, ← C01_density_formula]
    exact C03_increasing_pressure ho ho' (by linarith)

example : ∃ r r' x y, calcPdens (DA.scalar (fin 10)) (DA.scalar (fin 35)) (fin 0)
      (DA.scalar (fin 101325)) "Wright" = .ok r ∧
    calcPdens (DA.scalar (fin 10)) (DA.scalar (fin 35)) (fin (2000 : ℝ))
      (DA.scalar (fin 101325)) "Wright" = .ok r' ∧
    r.get (fun _ => 0) = fin x ∧ r'.get (fun _ => 0) = fin y ∧ 0 < x ∧ x < y :=
  C22_wright_increasing rfl rfl le_rfl (by norm_num) (by norm_num)
    (by unfold Spec.Wright.Ocean; norm_num) (by unfold Spec.Wright.Ocean; norm_num)

end C22

/-! ## C23 -/
section C23
variable {K : Type} [Field K] [LinearOrder K] [IsStrictOrderedRing K]

theorem inverseBarometer_eq {tos sos pso : DA (Fl K)} {eos : String} {f : EosFn (Fl K)}
    (hf : eosFuncFromStr eos "density" = .ok f) (hpd : ∀ p ∈ pso.dims, p.1 ∈ tos.dimNames)
    (g : Fl K) :
    ∃ r, inverseBarometer tos sos pso g eos = .ok r ∧
      ∀ e, r.get e = pso.get e * (fin (-1) / (f (tos.get e) (sos.get e) (pso.get e) * g)) := by
  have e1 : (-1.0 : Fl K) = fin (-1) := by rw [ofSci, fin_neg]; norm_num
  refine ⟨_, by
    simp only [inverseBarometer, calcRho, applyEos_ok hf tos sos pso hpd, ok_bind]; rfl, fun e => ?_⟩
  simp only [DA.get_mul, DA.get_map, DA.get_zip3, DA.get_scalar, e1]

/-- Hydrostatic balance: wherever pressure `p` and density `ρ` are numbers with `ρ g ≠ 0`, the
inverse barometer height `h` satisfies `h ρ g + p = 0`; it is negative for positive pressure,
density and gravity. -/
theorem C23_balance {tos sos pso : DA (Fl K)} {eos : String} {f : EosFn (Fl K)}
    (hf : eosFuncFromStr eos "density" = .ok f) (hpd : ∀ p ∈ pso.dims, p.1 ∈ tos.dimNames)
    {e : Env} {p ρ g : K} (hp : pso.get e = fin p)
    (hρ : f (tos.get e) (sos.get e) (pso.get e) = fin ρ) (h0 : ρ * g ≠ 0) :
    ∃ r h, inverseBarometer tos sos pso (fin g) eos = .ok r ∧ r.get e = fin h ∧
      h * ρ * g + p = 0 ∧ (0 < p → 0 < ρ → 0 < g → h < 0) := by
  obtain ⟨r, k1, k2⟩ := inverseBarometer_eq (sos := sos) hf hpd (fin g)
  refine ⟨r, p * (-1 / (ρ * g)), k1, ?_, ?_, ?_⟩
  · rw [k2, hρ, hp, fin_mul, fin_div_of_ne _ h0, fin_mul]
  · have := left_ne_zero_of_mul h0
    have := right_ne_zero_of_mul h0
    field_simp
    ring
  · intro h1 h2 h3
    have := div_pos one_pos (mul_pos h2 h3)
    have : -1 / (ρ * g) < 0 := by rw [neg_div]; linarith
    exact mul_neg_of_pos_of_neg h1 this

/-- The default gravity is 9.8 and the default equation of state Wright. -/
theorem C23_defaults (tos sos pso : DA (Fl K)) :
    inverseBarometer tos sos pso = inverseBarometer tos sos pso (fin (49 / 5)) "Wright" := by
  have h1 : (9.8 : Fl K) = fin (49 / 5) := by rw [ofSci]; norm_num
  rw [← h1]

/-- Missing exactly when an input is missing (Wright, inputs numbers in the oceanographic range or
missing, default gravity). -/
theorem C23_missing {tos sos pso : DA (Fl ℝ)} (hpd : ∀ p ∈ pso.dims, p.1 ∈ tos.dimNames) {e : Env}
    (hT : FN (tos.get e)) (hS : FN (sos.get e)) (hP : FN (pso.get e))
    (ho : ∀ T S p, tos.get e = fin T → sos.get e = fin S → pso.get e = fin p →
      Spec.Wright.Ocean T S p) :
    ∃ r, inverseBarometer tos sos pso = .ok r ∧
      (r.get e = nan ↔ tos.get e = nan ∨ sos.get e = nan ∨ pso.get e = nan) := by
  have hf : eosFuncFromStr "Wright" "density" = .ok (Wright.density : EosFn (Fl ℝ)) := rfl
  rw [C23_defaults]
  obtain ⟨r, k1, k2⟩ := inverseBarometer_eq (sos := sos) hf hpd (fin (49 / 5))
  refine ⟨r, k1, ?_, ?_⟩
  · intro h
    by_contra hc
    simp only [not_or] at hc
    obtain ⟨T, hT⟩ := hT.resolve_left hc.1
    obtain ⟨S, hS⟩ := hS.resolve_left hc.2.1
    obtain ⟨p, hP⟩ := hP.resolve_left hc.2.2
    have o := C03_pos (ho T S p hT hS hP)
    have g1 := (C01_float_finite T S p o.1.ne').1
    obtain ⟨r', x, q1, q2, -⟩ := C23_balance (sos := sos) (g := 49 / 5) hf hpd hP (by rw [hT, hS, hP, g1])
      (by rw [← C01_density_formula]; exact mul_ne_zero o.2.ne' (by norm_num))
    rw [k1] at q1
    cases q1
    rw [h] at q2
    cases q2
  · rw [k2]
    intro h
    rcases h with h | h | h
    · rw [h, (C01_float_nan _ _).1]; simp
    · rw [h, (C01_float_nan _ _).2.1]; simp
    · rw [h]; simp

example : ∃ r h, inverseBarometer (DA.scalar (fin 10)) (DA.scalar (fin 35))
    (DA.scalar (fin (101325 : ℝ))) = .ok r ∧ r.get (fun _ => 0) = fin h ∧ h < 0 := by
  have hf : eosFuncFromStr "Wright" "density" = .ok (Wright.density : EosFn (Fl ℝ)) := rfl
  have o := C03_pos (show Spec.Wright.Ocean 10 35 101325 by unfold Spec.Wright.Ocean; norm_num)
  have g1 := (C01_float_finite _ _ _ o.1.ne').1
  rw [C01_density_formula] at o
  obtain ⟨r, h, k1, k2, -, k3⟩ := C23_balance (tos := DA.scalar (fin 10)) (sos := DA.scalar (fin 35))
    (pso := DA.scalar (fin (101325 : ℝ))) hf (by simp) (e := fun _ => 0) rfl g1 (g := 49 / 5)
    (mul_ne_zero o.2.ne' (by norm_num))
  exact ⟨r, h, by rw [C23_defaults]; exact k1, k2, k3 (by norm_num) o.2 (by norm_num)⟩

/-- `C22_defaults` for one parcel. -/
example : calcPdens (DA.scalar (fin (10 : ℝ))) (DA.scalar (fin 35))
    = calcPdens (DA.scalar (fin 10)) (DA.scalar (fin 35)) (fin 0) (DA.scalar (fin 101325)) "Wright" := C22_defaults _ _

end C23

end Momlevel.Props
