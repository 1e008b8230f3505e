import Verif.Lemmas.Gradient
import Verif.Props.Eos

/-! # C19, C20: buoyancy frequency and stability angle -/

set_option linter.unusedSectionVars false

namespace Momlevel.Props
open Momlevel Momlevel.Fl Momlevel.Eos

variable {K : Type} [Field K] [LinearOrder K] [IsStrictOrderedRing K]

/-- A column through position `e`: temperature `T`, salinity `S` at heights `x`, `n ≥ 3` levels at
distinct heights, all finite; `th` and `so` have the vertical dimension `zc`. -/
structure TSColumn (th so : DA (Fl K)) (z : Nat → Fl K) (zc : String) (e : Env) (n : Nat)
    (x T S : Nat → K) : Prop where
  hn : 3 ≤ n
  inj : Set.InjOn x (Set.Iio n)
  hz : z = fun k => fin (x k)
  tz : zc ∈ th.dimNames
  sz : zc ∈ so.dimNames
  tn : th.size zc = n
  sn : so.size zc = n
  hT : ∀ k < n, th.get (Function.update e zc k) = fin (T k)
  hS : ∀ k < n, so.get (Function.update e zc k) = fin (S k)
  he : e zc < n

theorem differentiate_eq {a : DA (Fl K)} {zc : String} {e : Env} {n : Nat} {x f : Nat → K}
    (hn : 3 ≤ n) (inj : Set.InjOn x (Set.Iio n)) (hz : zc ∈ a.dimNames) (hs : a.size zc = n)
    (hf : ∀ k < n, a.get (Function.update e zc k) = fin (f k)) (he : e zc < n) :
    ∃ r, differentiate a zc (fun k => fin (x k)) = .ok r ∧ r.dims = a.dims ∧
      r.get e = fin (Spec.derivAt n x f (e zc)) := by
  have h3 : ¬ a.size zc < 3 := by rw [hs]; omega
  refine ⟨⟨a.dims, fun e => npGradient (a.size zc) (fun k => fin (x k))
    (fun k => a.get (Function.update e zc k)) (e zc)⟩, by
      simp only [differentiate, if_pos hz, if_neg h3], rfl, ?_⟩
  simp only [hs]
  rw [npGradient_congr hn _ hf he]
  exact npGradient_eq hn inj f he

theorem applyEos_ok {eos fn : String} {f : EosFn (Fl K)} (hf : eosFuncFromStr eos fn = .ok f)
    (th so pres : DA (Fl K)) (hp : ∀ p ∈ pres.dims, p.1 ∈ th.dimNames) :
    applyEos eos fn th so pres = .ok (DA.zip3 f th so pres) := by
  have : pres.dims.any (fun p =>
      !th.dimNames.contains p.1 && !so.dimNames.contains p.1
        && (p.2 != 1 || (th.dims.isEmpty && so.dims.isEmpty))) = false := by
    rw [List.any_eq_false]
    intro p hp'
    have := hp p hp'
    simp [this]
  simp only [applyEos, hf, ok_bind, this, Bool.false_eq_true, and_false, if_false]
  rfl

/-! ## C19 -/

/-- For any known equation of state: `N² = g (α T_z - β S_z)`, with `α`, `β` the coefficients of that
equation of state at the pressure `z·10⁴ + patm` and `T_z`, `S_z` the second-order discrete
derivatives.  The result is a field over the dimensions of `thetao`. -/
theorem C19_formula {th so : DA (Fl K)} {z : Nat → Fl K} {zc : String} {e : Env} {n : Nat}
    {x T S : Nat → K} (c : TSColumn th so z zc e n x T S) {eos : String} {fa fb : EosFn (Fl K)}
    (ha : eosFuncFromStr eos "alpha" = .ok fa) (hb : eosFuncFromStr eos "beta" = .ok fb)
    (g : K) (patm : DA (Fl K)) (hpd : ∀ p ∈ patm.dims, p.1 ∈ th.dimNames) (p0 : K)
    (hp : patm.get e = fin p0) :
    ∃ r, calcN2 th so z eos (fin g) patm zc = .ok r ∧
      r.get e = fin g *
        (fa (fin (T (e zc))) (fin (S (e zc))) (fin (x (e zc) * 10 ^ 4 + p0))
            * fin (Spec.derivAt n x T (e zc))
        - fb (fin (T (e zc))) (fin (S (e zc))) (fin (x (e zc) * 10 ^ 4 + p0))
            * fin (Spec.derivAt n x S (e zc))) := by
  obtain ⟨dt, h1, -, h1g⟩ := differentiate_eq c.hn c.inj c.tz c.tn c.hT c.he
  obtain ⟨ds, h2, -, h2g⟩ := differentiate_eq c.hn c.inj c.sz c.sn c.hS c.he
  rw [← c.hz] at h1 h2
  have hc : coordArray th zc z = .ok ⟨[(zc, th.size zc)], fun e => z (e zc)⟩ := by
    simp only [coordArray, if_pos c.tz]
  have hpres : ∀ p ∈ ((⟨[(zc, th.size zc)], fun e => z (e zc)⟩ : DA (Fl K))
      * DA.scalar (1.0e4 : Fl K) + patm).dims, p.1 ∈ th.dimNames := by
    intro p hp
    rcases DA.mem_bdims hp with h | h
    · rcases DA.mem_bdims h with h | h
      · simp only [List.mem_singleton] at h
        subst h; exact c.tz
      · simp at h
    · exact hpd p h
  refine ⟨_, by
    simp only [calcN2, hc, ok_bind, calcAlpha, calcBeta, applyEos_ok ha th so _ hpres,
      applyEos_ok hb th so _ hpres, h1, h2, Bool.false_eq_true, if_false]
    rfl, ?_⟩
  have h4 : (1.0e4 : Fl K) = fin (10 ^ 4) := by rw [ofSci]; norm_num
  have hTe := c.hT (e zc) c.he
  have hSe := c.hS (e zc) c.he
  rw [Function.update_eq_self] at hTe hSe
  simp only [DA.get_map, DA.get_sub, DA.get_mul, DA.get_zip3, DA.get_add, DA.get_scalar, h1g, h2g,
    hTe, hSe, hp, h4]
  rw [c.hz]
  simp only [fin_mul, fin_add]

/-- Documented defaults: gravity -9.8, 101325 Pa, Wright, `z_l`, no adjustment. -/
theorem C19_defaults (th so : DA (Fl K)) (z : Nat → Fl K) :
    calcN2 th so z = calcN2 th so z "Wright" (fin (-(49 / 5))) (DA.scalar (fin 101325)) "z_l" false := by
  have h1 : (-9.8 : Fl K) = fin (-(49 / 5)) := by rw [ofSci, fin_neg]; norm_num
  have h2 : (101325.0 : Fl K) = fin 101325 := by rw [ofSci]; norm_num
  rw [← h1, ← h2]

/-- `adjust_negative=True` applies `adjust_negative_n2` (with its default `z_l`) to the same field. -/
theorem C19_adjusted (th so : DA (Fl K)) (z : Nat → Fl K) (eos : String) (g : Fl K)
    (patm : DA (Fl K)) (zc : String) {r : DA (Fl K)} (h : calcN2 th so z eos g patm zc = .ok r) :
    calcN2 th so z eos g patm zc true = adjustNegativeN2 r := by
  unfold calcN2 at h ⊢
  cases h1 : coordArray th zc z with
  | error x => rw [h1] at h; cases h
  | ok zarr =>
    rw [h1] at h
    simp only [ok_bind] at h ⊢
    cases h2 : calcAlpha th so (zarr * DA.scalar (1.0e4 : Fl K) + patm) eos with
    | error x => rw [h2] at h; cases h
    | ok a =>
      rw [h2] at h
      simp only [ok_bind] at h ⊢
      cases h3 : calcBeta th so (zarr * DA.scalar (1.0e4 : Fl K) + patm) eos with
      | error x => rw [h3] at h; cases h
      | ok b =>
        rw [h3] at h
        simp only [ok_bind] at h ⊢
        cases h4 : differentiate th zc z with
        | error x => rw [h4] at h; cases h
        | ok dt =>
          rw [h4] at h
          simp only [ok_bind] at h ⊢
          cases h5 : differentiate so zc z with
          | error x => rw [h5] at h; cases h
          | ok ds =>
            rw [h5] at h
            simp only [ok_bind, Bool.false_eq_true, if_false] at h
            simp only [ok_bind, if_true]
            rw [← Except.ok.inj h]

/-- The linear equation of state's density, written independently. -/
def linRho (T S : K) : K := 1000 - T / 5 + 4 * S / 5

theorem linear_coeffs (T S p : K) (h : linRho T S ≠ 0) :
    Linear.alpha (fin T) (fin S) (fin p) = fin (1 / 5 / linRho T S)
    ∧ Linear.beta (fin T) (fin S) (fin p) = fin (4 / 5 / linRho T S) := by
  have hd : Linear.density (fin T) (fin S) (fin p) = fin (linRho T S) := by
    unfold Linear.density Linear.RHO_T0_S0 Linear.DRHO_DT Linear.DRHO_DS
    simp only [ofSci, fin_neg, fin_mul, fin_add, linRho]
    congr 1
    norm_num
    ring
  unfold Linear.alpha Linear.beta
  rw [hd]
  simp only [Linear.fullLike, Linear.DRHO_DT, Linear.DRHO_DS, ofSci, fin_neg, fin_div_of_ne _ h,
    fin_mul]
  constructor <;>
  · congr 1
    norm_num
    try ring

/-- Linear equation of state: `N² = -(g/ρ) D_z ρ`, the discrete vertical density gradient times
`9.8/ρ` for the default gravity. -/
theorem C19_linear {th so : DA (Fl K)} {z : Nat → Fl K} {zc : String} {e : Env} {n : Nat}
    {x T S : Nat → K} (c : TSColumn th so z zc e n x T S) {eos : String}
    (heos : CaseVariant eos "linear")
    (g : K) (patm : DA (Fl K)) (hpd : ∀ p ∈ patm.dims, p.1 ∈ th.dimNames) (p0 : K)
    (hp : patm.get e = fin p0) (hρ : linRho (T (e zc)) (S (e zc)) ≠ 0) :
    ∃ r, calcN2 th so z eos (fin g) patm zc = .ok r ∧
      r.get e = fin (-(g / linRho (T (e zc)) (S (e zc)))
        * Spec.derivAt n x (fun k => linRho (T k) (S k)) (e zc)) := by
  have hl : pyLower eos = "linear".toList := (pyLower_linear eos).2 heos
  have ha : eosFuncFromStr eos "alpha" = .ok (fun T S p : Fl K => Linear.alpha T S p) := by
    simp only [eosFuncFromStr, hl, if_true]; rfl
  have hb : eosFuncFromStr eos "beta" = .ok (fun T S p : Fl K => Linear.beta T S p) := by
    simp only [eosFuncFromStr, hl, if_true]; rfl
  obtain ⟨r, h1, h2⟩ := C19_formula c ha hb g patm hpd p0 hp
  refine ⟨r, h1, ?_⟩
  rw [h2, (linear_coeffs _ _ _ hρ).1, (linear_coeffs _ _ _ hρ).2]
  simp only [fin_mul, fin_sub]
  congr 1
  have e1 : (fun k => linRho (T k) (S k))
      = (fun k => 1 * (1000 : K) + 1 * ((-(1 / 5)) * T k + 4 / 5 * S k)) := by
    funext k; unfold linRho; ring
  rw [e1, derivAt_linear n x (fun _ => (1000 : K)) (fun k => (-(1 / 5)) * T k + 4 / 5 * S k) 1 1,
    derivAt_linear n x T S, derivAt_const c.hn c.inj c.he]
  field_simp
  ring

/-- Linear equation of state, default gravity, positive density: `N²` is positive exactly where the
density gradient (along the coordinate, i.e. downwards for a depth coordinate) is positive, zero
exactly where it is zero. -/
theorem C19_linear_sign {th so : DA (Fl K)} {z : Nat → Fl K} {e : Env} {n : Nat}
    {x T S : Nat → K} (c : TSColumn th so z "z_l" e n x T S)
    (hρ : 0 < linRho (T (e "z_l")) (S (e "z_l"))) :
    ∃ r N, calcN2 th so z "linear" = .ok r ∧ r.get e = fin N ∧
      (0 < N ↔ 0 < Spec.derivAt n x (fun k => linRho (T k) (S k)) (e "z_l")) ∧
      (N = 0 ↔ Spec.derivAt n x (fun k => linRho (T k) (S k)) (e "z_l") = 0) := by
  have h1 : (-9.8 : Fl K) = fin (-(49 / 5)) := by rw [ofSci, fin_neg]; norm_num
  have h2 : (101325.0 : Fl K) = fin 101325 := by rw [ofSci]; norm_num
  obtain ⟨r, k1, k2⟩ := C19_linear c (eos := "linear") ((pyLower_linear _).1 rfl) (-(49 / 5))
    (DA.scalar (fin 101325)) (by simp) 101325 rfl hρ.ne'
  have hq : 0 < -(-(49 / 5) / linRho (T (e "z_l")) (S (e "z_l"))) := by
    rw [neg_div, neg_neg]; exact div_pos (by norm_num) hρ
  refine ⟨r, _, by rw [← k1, ← h1, ← h2], k2, ?_, ?_⟩
  · exact mul_pos_iff_of_pos_left hq
  · rw [mul_eq_zero, or_iff_right hq.ne']

/-- Any equation of state: a column with uniform temperature and salinity gives exactly 0 (as long
as the coefficients are finite numbers there). -/
theorem C19_uniform {th so : DA (Fl K)} {z : Nat → Fl K} {zc : String} {e : Env} {n : Nat}
    {x T S : Nat → K} (c : TSColumn th so z zc e n x T S) {eos : String} {fa fb : EosFn (Fl K)}
    (ha : eosFuncFromStr eos "alpha" = .ok fa) (hb : eosFuncFromStr eos "beta" = .ok fb)
    (g : K) (patm : DA (Fl K)) (hpd : ∀ p ∈ patm.dims, p.1 ∈ th.dimNames) (p0 : K)
    (hp : patm.get e = fin p0) (T0 S0 a b : K) (hT : ∀ k, T k = T0) (hS : ∀ k, S k = S0)
    (hfa : fa (fin T0) (fin S0) (fin (x (e zc) * 10 ^ 4 + p0)) = fin a)
    (hfb : fb (fin T0) (fin S0) (fin (x (e zc) * 10 ^ 4 + p0)) = fin b) :
    ∃ r, calcN2 th so z eos (fin g) patm zc = .ok r ∧ r.get e = fin 0 := by
  obtain ⟨r, h1, h2⟩ := C19_formula c ha hb g patm hpd p0 hp
  refine ⟨r, h1, ?_⟩
  have eT : T = fun _ => T0 := funext hT
  have eS : S = fun _ => S0 := funext hS
  rw [h2, eT, eS, hfa, hfb, derivAt_const c.hn c.inj c.he, derivAt_const c.hn c.inj c.he]
  simp

/-- The finite difference used is exact for quadratic profiles on any grid, including the ends. -/
theorem C19_gradient_exact {a : DA (Fl K)} {zc : String} {e : Env} {n : Nat} {x : Nat → K}
    (hn : 3 ≤ n) (inj : Set.InjOn x (Set.Iio n)) (hz : zc ∈ a.dimNames) (hs : a.size zc = n)
    (p q r : K) (hf : ∀ k < n, a.get (Function.update e zc k) = fin (p + q * x k + r * x k ^ 2))
    (he : e zc < n) :
    ∃ d, differentiate a zc (fun k => fin (x k)) = .ok d ∧ d.get e = fin (q + 2 * r * x (e zc)) := by
  obtain ⟨d, h1, -, h2⟩ := differentiate_eq hn inj hz hs hf he
  exact ⟨d, h1, by rw [h2, derivAt_quadratic hn inj he]⟩

/-- Fewer than three levels: ValueError. -/
theorem C19_too_few_levels {th so : DA (Fl K)} {z : Nat → Fl K} {zc : String} {eos : String}
    {fa fb : EosFn (Fl K)}
    (ha : eosFuncFromStr eos "alpha" = .ok fa) (hb : eosFuncFromStr eos "beta" = .ok fb)
    (g : Fl K) (patm : DA (Fl K)) (hpd : ∀ p ∈ patm.dims, p.1 ∈ th.dimNames)
    (hz : zc ∈ th.dimNames) (hs : th.size zc < 3) (adj : Bool) :
    calcN2 th so z eos g patm zc adj = .error .valueError := by
  have hc : coordArray th zc z = .ok ⟨[(zc, th.size zc)], fun e => z (e zc)⟩ := by
    simp only [coordArray, if_pos hz]
  have hpres : ∀ p ∈ ((⟨[(zc, th.size zc)], fun e => z (e zc)⟩ : DA (Fl K))
      * DA.scalar (1.0e4 : Fl K) + patm).dims, p.1 ∈ th.dimNames := by
    intro p hp
    rcases DA.mem_bdims hp with h | h
    · rcases DA.mem_bdims h with h | h
      · simp only [List.mem_singleton] at h
        subst h; exact hz
      · simp at h
    · exact hpd p h
  have hd : differentiate th zc z = .error .valueError := by
    simp only [differentiate, if_pos hz, if_pos hs]
  simp only [calcN2, hc, ok_bind, calcAlpha, calcBeta, applyEos_ok ha th so _ hpres,
      applyEos_ok hb th so _ hpres, hd, error_bind]

/-- Non-vacuity: a stably stratified 3-level column on a non-uniform grid. -/
def exTh : DA (Fl ℚ) := ⟨[("z_l", 3), ("x", 1)], fun e => fin (20 - 5 * (e "z_l"))⟩
def exSo : DA (Fl ℚ) := ⟨[("z_l", 3), ("x", 1)], fun _ => fin 35⟩
def exX : Nat → ℚ := fun k => 5 * k * k + 5

example : TSColumn exTh exSo (fun k => fin (exX k)) "z_l" (fun _ => 0) 3 exX
    (fun k => 20 - 5 * k) (fun _ => 35) ∧ 0 < linRho (20 - 5 * (0 : ℚ)) 35 := by
  refine ⟨⟨le_rfl, ?_, rfl, by simp [exTh, DA.dimNames], by simp [exSo, DA.dimNames], rfl, rfl,
    fun k _ => by simp [exTh], fun k _ => rfl, by norm_num⟩, by norm_num [linRho]⟩
  intro a ha b hb h
  simp only [Set.mem_Iio] at ha hb
  unfold exX at h
  have h2 : (a : ℚ) * a = b * b := by linarith
  have h3 : a * a = b * b := by exact_mod_cast h2
  exact Nat.mul_self_inj.1 h3

/-- `C19_defaults` and `C19_adjusted` on the example column. -/
example {r : DA (Fl ℚ)} (h : calcN2 exTh exSo (fun k => fin (exX k)) = .ok r) :
    calcN2 exTh exSo (fun k => fin (exX k)) "Wright" (fin (-(49 / 5))) (DA.scalar (fin 101325)) "z_l" true
      = adjustNegativeN2 r :=
  C19_adjusted _ _ _ _ _ _ _ (by rw [← C19_defaults]; exact h)

end Momlevel.Props
