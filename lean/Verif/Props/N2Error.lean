import Verif.Lemmas.MidpointRule
import Verif.Props.N2
import Verif.Props.WrightCurvature

/-! # C155: accuracy of vertical derivatives and of the buoyancy frequency -/

set_option linter.unusedSectionVars false

namespace Momlevel.Props
open Momlevel Momlevel.Fl Momlevel.Eos

/-- The product of the distances from level `i` to the two other levels whose values enter the derivative: the
neighbours, or at either end the two nearest levels. -/
def spacing (n : Nat) (x : Nat → ℝ) (i : Nat) : ℝ :=
  if i = 0 then (x 1 - x 0) * (x 2 - x 0)
  else if i + 1 = n then (x (n - 1) - x (n - 2)) * (x (n - 1) - x (n - 3))
  else (x i - x (i - 1)) * (x (i + 1) - x i)

theorem spacing_nonneg {n : Nat} {x : Nat → ℝ} (hn : 3 ≤ n) (hx : ∀ i j, i < j → j < n → x i < x j) {i : Nat}
    (hi : i < n) : 0 ≤ spacing n x i := by
  unfold spacing
  split_ifs with h1 h2
  · exact mul_nonneg (sub_nonneg.2 (hx 0 1 (by omega) (by omega)).le) (sub_nonneg.2 (hx 0 2 (by omega) (by omega)).le)
  · exact mul_nonneg (sub_nonneg.2 (hx _ _ (by omega) (by omega)).le)
      (sub_nonneg.2 (hx _ _ (by omega) (by omega)).le)
  · exact mul_nonneg (sub_nonneg.2 (hx _ _ (by omega) (by omega)).le)
      (sub_nonneg.2 (hx _ _ (by omega) (by omega)).le)

theorem nodal_spacing {n : Nat} {x : Nat → ℝ} (hn : 3 ≤ n) (hx : ∀ i j, i < j → j < n → x i < x j) {i : Nat}
    (hi : i < n) : |nodal' (x (Spec.stencil n i)) (x (Spec.stencil n i + 1)) (x (Spec.stencil n i + 2)) (x i)|
      = spacing n x i := by
  rw [← abs_of_nonneg (spacing_nonneg hn hx hi)]
  unfold spacing Spec.stencil nodal'
  split_ifs with h1 h2
  · subst h1
    congr 1; simp only [Nat.zero_add]; ring
  · obtain ⟨m, rfl⟩ : ∃ m, n = m + 3 := ⟨n - 3, by omega⟩
    obtain rfl : i = m + 2 := by omega
    congr 1
    simp only [Nat.add_sub_cancel, show m + 3 - 1 = m + 2 by omega, show m + 3 - 2 = m + 1 by omega]
    ring
  · obtain ⟨k, rfl⟩ : ∃ k, i = k + 1 := ⟨i - 1, by omega⟩
    simp only [Nat.add_sub_cancel]
    rw [← abs_neg]
    congr 1
    ring

theorem stencil_has {n i : Nat} (hn : 3 ≤ n) :
    i = Spec.stencil n i ∨ i = Spec.stencil n i + 1 ∨ i = Spec.stencil n i + 2 := by
  unfold Spec.stencil
  split_ifs <;> omega

theorem derivAt_third {n : Nat} {x : Nat → ℝ} (hn : 3 ≤ n) (hx : ∀ i j, i < j → j < n → x i < x j) {i : Nat}
    (hi : i < n) {f f1 f2 f3 : ℝ → ℝ} {M : ℝ} (hf : Smooth f f1 f2 f3 (x 0) (x (n - 1)) M) :
    ∃ r, x 0 ≤ r ∧ r ≤ x (n - 1) ∧
      |Spec.derivAt n x (fun k => f (x k)) i - f1 (x i)| = |f3 r| / 6 * spacing n x i := by
  have hs := stencil_lt hn hi
  set s := Spec.stencil n i with hsd
  have mono : ∀ i j, i ≤ j → j < n → x i ≤ x j := fun i j hij hj => by
    rcases hij.eq_or_lt with rfl | h
    · exact le_rfl
    · exact (hx i j h hj).le
  have lo : ∀ t, x s ≤ t → x 0 ≤ t := fun t h => (mono 0 s (by omega) (by omega)).trans h
  have hi' : ∀ t, t ≤ x (s + 2) → t ≤ x (n - 1) := fun t h => h.trans (mono _ _ (by omega) (by omega))
  obtain ⟨r, hr, e⟩ := parabola_error (f := f) (f1 := f1) (f2 := f2) (f3 := f3) (t := x i)
    (hx s (s + 1) (by omega) (by omega)) (hx (s + 1) (s + 2) (by omega) (by omega))
    (fun t ht => hf.d1 t (lo t ht.1) (hi' t ht.2)) (fun t ht => hf.d2 t (lo t ht.1) (hi' t ht.2))
    (fun t ht => hf.d3 t (lo t ht.1) (hi' t ht.2))
    (by rcases stencil_has hn with h | h | h
        · exact Or.inl (congrArg x h)
        · exact Or.inr (Or.inl (congrArg x h))
        · exact Or.inr (Or.inr (congrArg x h)))
  have e' : Spec.derivAt n x (fun k => f (x k)) i
      = Spec.parabolaDeriv (x s) (x (s + 1)) (x (s + 2)) (f (x s)) (f (x (s + 1))) (f (x (s + 2))) (x i) := rfl
  refine ⟨r, lo r hr.1, hi' r hr.2, ?_⟩
  rw [e', abs_sub_comm, e, abs_mul, nodal_spacing hn hx hi, abs_div, abs_of_pos (by norm_num : (0 : ℝ) < 6)]

theorem derivAt_error {n : Nat} {x : Nat → ℝ} (hn : 3 ≤ n) (hx : ∀ i j, i < j → j < n → x i < x j) {i : Nat}
    (hi : i < n) {f f1 f2 f3 : ℝ → ℝ} {M : ℝ} (hf : Smooth f f1 f2 f3 (x 0) (x (n - 1)) M) :
    |Spec.derivAt n x (fun k => f (x k)) i - f1 (x i)| ≤ M / 6 * spacing n x i := by
  obtain ⟨r, h1, h2, h3⟩ := derivAt_third hn hx hi hf
  rw [h3]
  exact mul_le_mul_of_nonneg_right (by linarith [hf.bound r h1 h2]) (spacing_nonneg hn hx hi)

theorem injOn_of_lt {n : Nat} {x : Nat → ℝ} (hx : ∀ i j, i < j → j < n → x i < x j) : Set.InjOn x (Set.Iio n) :=
  fun i hi j hj hij => by
    rcases lt_trichotomy i j with h | h | h
    · exact absurd hij (hx i j h hj).ne
    · exact h
    · exact absurd hij (hx j i h hi).ne'

theorem cubic_smooth (p q r t lo hi : ℝ) : Smooth (fun s => p + q * s + r * s ^ 2 + t * s ^ 3)
    (fun s => q + 2 * r * s + 3 * t * s ^ 2) (fun s => 2 * r + 6 * t * s) (fun _ => 6 * t) lo hi |6 * t| := by
  refine ⟨fun s _ _ => ?_, fun s _ _ => ?_, fun s _ _ => ?_, fun _ _ _ => le_rfl⟩
  · have := ((((hasDerivAt_const s p).add ((hasDerivAt_id s).const_mul q))).add
      (((hasDerivAt_id s).pow 2).const_mul r)).add (((hasDerivAt_id s).pow 3).const_mul t)
    refine this.congr_deriv ?_
    simp only [id]; push_cast; ring
  · have := ((hasDerivAt_const s q).add ((hasDerivAt_id s).const_mul (2 * r))).add
      (((hasDerivAt_id s).pow 2).const_mul (3 * t))
    refine this.congr_deriv ?_
    simp only [id]; push_cast; ring
  · have := (hasDerivAt_const s (2 * r)).add ((hasDerivAt_id s).const_mul (6 * t))
    refine this.congr_deriv ?_
    ring

/-- C155 (derivatives): if the values of an array along `zc` are those of a function with third derivative at most `M`
at increasing heights, then `differentiate` differs from the function's derivative by at most `M/6` times the product of
the distances to the two other levels used. -/
theorem C155_derivative {a : DA (Fl ℝ)} {zc : String} {e : Env} {n : Nat} {x : Nat → ℝ} {f f1 f2 f3 : ℝ → ℝ} {M : ℝ}
    (hn : 3 ≤ n) (hx : ∀ i j, i < j → j < n → x i < x j) (hz : zc ∈ a.dimNames) (hs : a.size zc = n)
    (hf : Smooth f f1 f2 f3 (x 0) (x (n - 1)) M)
    (ha : ∀ k < n, a.get (Function.update e zc k) = fin (f (x k))) (he : e zc < n) :
    ∃ d y, differentiate a zc (fun k => fin (x k)) = .ok d ∧ d.get e = fin y ∧
      |y - f1 (x (e zc))| ≤ M / 6 * spacing n x (e zc) := by
  obtain ⟨d, h1, -, h2⟩ := differentiate_eq hn (injOn_of_lt hx) hz hs ha he
  exact ⟨d, _, h1, h2, derivAt_error hn hx he hf⟩

/-- C155 (sharp): for a cubic profile the error is exactly that bound, at every level. -/
theorem C155_sharp {a : DA (Fl ℝ)} {zc : String} {e : Env} {n : Nat} {x : Nat → ℝ} (p q r t : ℝ)
    (hn : 3 ≤ n) (hx : ∀ i j, i < j → j < n → x i < x j) (hz : zc ∈ a.dimNames) (hs : a.size zc = n)
    (ha : ∀ k < n, a.get (Function.update e zc k) = fin (p + q * x k + r * x k ^ 2 + t * x k ^ 3)) (he : e zc < n) :
    ∃ d y, differentiate a zc (fun k => fin (x k)) = .ok d ∧ d.get e = fin y ∧
      |y - (q + 2 * r * x (e zc) + 3 * t * x (e zc) ^ 2)| = |6 * t| / 6 * spacing n x (e zc) := by
  obtain ⟨d, h1, -, h2⟩ := differentiate_eq hn (injOn_of_lt hx) hz hs ha he
  obtain ⟨s, -, -, h3⟩ := derivAt_third hn hx he (cubic_smooth p q r t (x 0) (x (n - 1)))
  exact ⟨d, _, h1, h2, h3⟩

/-- C155 (buoyancy frequency): for temperature and salinity profiles with third derivatives at most `MT` and `MS`,
`calc_n2` differs from `g (α dT/dz - β dS/dz)`, with the true derivatives, by at most
`|g| (|α| MT + |β| MS)/6` times the product of the distances to the two other levels used. -/
theorem C155_n2 {th so : DA (Fl ℝ)} {zc : String} {e : Env} {n : Nat} {x : Nat → ℝ}
    {T T1 T2 T3 S S1 S2 S3 : ℝ → ℝ} {MT MS : ℝ}
    (c : TSColumn th so (fun k => fin (x k)) zc e n x (fun k => T (x k)) (fun k => S (x k)))
    (hx : ∀ i j, i < j → j < n → x i < x j)
    (hT : Smooth T T1 T2 T3 (x 0) (x (n - 1)) MT) (hS : Smooth S S1 S2 S3 (x 0) (x (n - 1)) MS)
    {eos : String} {fa fb : EosFn (Fl ℝ)}
    (ha : eosFuncFromStr eos "alpha" = .ok fa) (hb : eosFuncFromStr eos "beta" = .ok fb)
    (g : ℝ) (patm : DA (Fl ℝ)) (hpd : ∀ p ∈ patm.dims, p.1 ∈ th.dimNames) {p0 α β : ℝ} (hp : patm.get e = fin p0)
    (hα : fa (fin (T (x (e zc)))) (fin (S (x (e zc)))) (fin (x (e zc) * 10 ^ 4 + p0)) = fin α)
    (hβ : fb (fin (T (x (e zc)))) (fin (S (x (e zc)))) (fin (x (e zc) * 10 ^ 4 + p0)) = fin β) :
    ∃ r y, calcN2 th so (fun k => fin (x k)) eos (fin g) patm zc = .ok r ∧ r.get e = fin y ∧
      |y - g * (α * T1 (x (e zc)) - β * S1 (x (e zc)))|
        ≤ |g| * (|α| * MT + |β| * MS) / 6 * spacing n x (e zc) := by
  obtain ⟨r, h1, h2⟩ := C19_formula c ha hb g patm hpd p0 hp
  rw [hα, hβ] at h2
  simp only [fin_mul, fin_sub] at h2
  refine ⟨r, _, h1, h2, ?_⟩
  have eT := derivAt_error c.hn hx c.he hT
  have eS := derivAt_error c.hn hx c.he hS
  set u := Spec.derivAt n x (fun k => T (x k)) (e zc)
  set v := Spec.derivAt n x (fun k => S (x k)) (e zc)
  have e1 : g * (α * u - β * v) - g * (α * T1 (x (e zc)) - β * S1 (x (e zc)))
      = g * (α * (u - T1 (x (e zc))) - β * (v - S1 (x (e zc)))) := by ring
  rw [e1, abs_mul]
  have e2 : |α * (u - T1 (x (e zc))) - β * (v - S1 (x (e zc)))|
      ≤ |α| * (MT / 6 * spacing n x (e zc)) + |β| * (MS / 6 * spacing n x (e zc)) := by
    refine (abs_sub _ _).trans ?_
    rw [abs_mul, abs_mul]
    exact add_le_add (mul_le_mul_of_nonneg_left eT (abs_nonneg _)) (mul_le_mul_of_nonneg_left eS (abs_nonneg _))
  calc |g| * |α * (u - T1 (x (e zc))) - β * (v - S1 (x (e zc)))|
      ≤ |g| * (|α| * (MT / 6 * spacing n x (e zc)) + |β| * (MS / 6 * spacing n x (e zc))) :=
        mul_le_mul_of_nonneg_left e2 (abs_nonneg _)
    _ = _ := by ring

/-- C155 (default call): with Wright's equation of state and water in the oceanographic range at the cell, `calc_n2`
is within `0.00081 MT + 0.0014 MS` times that product of `-9.8 (α dT/dz - β dS/dz)`. -/
theorem C155_wright {th so : DA (Fl ℝ)} {e : Env} {n : Nat} {x : Nat → ℝ}
    {T T1 T2 T3 S S1 S2 S3 : ℝ → ℝ} {MT MS : ℝ}
    (c : TSColumn th so (fun k => fin (x k)) "z_l" e n x (fun k => T (x k)) (fun k => S (x k)))
    (hx : ∀ i j, i < j → j < n → x i < x j)
    (hT : Smooth T T1 T2 T3 (x 0) (x (n - 1)) MT) (hS : Smooth S S1 S2 S3 (x 0) (x (n - 1)) MS)
    (ho : Spec.Wright.Ocean (T (x (e "z_l"))) (S (x (e "z_l"))) (x (e "z_l") * 10 ^ 4 + 101325)) :
    ∃ r y, calcN2 th so (fun k => fin (x k)) = .ok r ∧ r.get e = fin y ∧
      |y - -9.8 * (Wright.alpha (T (x (e "z_l"))) (S (x (e "z_l"))) (x (e "z_l") * 10 ^ 4 + 101325) * T1 (x (e "z_l"))
          - Wright.beta (T (x (e "z_l"))) (S (x (e "z_l"))) (x (e "z_l") * 10 ^ 4 + 101325) * S1 (x (e "z_l")))|
        ≤ (0.00081 * MT + 0.0014 * MS) * spacing n x (e "z_l") := by
  set Ti := T (x (e "z_l"))
  set Si := S (x (e "z_l"))
  set pi := x (e "z_l") * 10 ^ 4 + 101325 with hpi
  have hpos := C03_pos ho
  have hlin : Linear.density Ti Si pi ≠ 0 := by
    rw [C02_linear_density]
    obtain ⟨h1, h2, h3, h4, -⟩ := ho
    have : 0 < 1000 - Ti / 5 + 4 / 5 * Si := by linarith
    exact this.ne'
  obtain ⟨e1, e2, -⟩ := C02_float_finite _ _ _ hpos.1.ne' hpos.2.ne' hlin
  have fa : eosFuncFromStr "Wright" "alpha" = .ok (fun T S p : Fl ℝ => Wright.alpha T S p) := rfl
  have fb : eosFuncFromStr "Wright" "beta" = .ok (fun T S p : Fl ℝ => Wright.beta T S p) := rfl
  obtain ⟨r, y, h1, h2, h3⟩ := C155_n2 c hx hT hS fa fb (-(49 / 5)) (DA.scalar (fin 101325)) (by simp) rfl e1 e2
  refine ⟨r, y, by rw [C19_defaults]; exact h1, h2, ?_⟩
  have n98 : (-9.8 : ℝ) = -(49 / 5) := by norm_num
  rw [n98]
  refine h3.trans ?_
  have hρ := Wright.rho_lo ho
  have hρ0 : 0 < Spec.Wright.rho Ti Si pi := by linarith
  have bT := Wright.dT_bounds ho
  have bS := Wright.dS_bounds ho
  have ba : |Wright.alpha Ti Si pi| ≤ 0.00049 := by
    rw [alpha_eq, abs_neg, abs_div, abs_of_pos hρ0, div_le_iff₀ hρ0]
    refine (abs_le.2 ⟨bT.1, bT.2.trans (by norm_num)⟩ : |_| ≤ (0.48 : ℝ)).trans ?_
    linarith
  have bb : |Wright.beta Ti Si pi| ≤ 0.00084 := by
    rw [beta_eq, abs_div, abs_of_pos hρ0, div_le_iff₀ hρ0, abs_of_nonneg (by linarith [bS.1])]
    linarith [bS.2]
  have mT : 0 ≤ MT := (abs_nonneg _).trans (hT.bound (x 0) le_rfl (by
    have := hx 0 (n - 1) (by have := c.hn; omega) (by have := c.hn; omega); exact this.le))
  have mS : 0 ≤ MS := (abs_nonneg _).trans (hS.bound (x 0) le_rfl (by
    have := hx 0 (n - 1) (by have := c.hn; omega) (by have := c.hn; omega); exact this.le))
  refine mul_le_mul_of_nonneg_right ?_ (spacing_nonneg c.hn hx c.he)
  have g : |(-(49 / 5) : ℝ)| = 49 / 5 := by norm_num [abs_of_pos]
  rw [g]
  have k1 := mul_le_mul_of_nonneg_right ba mT
  have k2 := mul_le_mul_of_nonneg_right bb mS
  norm_num at k1 k2 ⊢
  linarith

/-- A column with cubic temperature and linear salinity at uneven depths. -/
noncomputable def cubTh : DA (Fl ℝ) := ⟨[("z_l", 4)], fun e => fin (20 + (-(1 / 50)) * ((e "z_l" : ℝ) ^ 2 * 10) + 0 *
  ((e "z_l" : ℝ) ^ 2 * 10) ^ 2 + 1 / 10 ^ 6 * ((e "z_l" : ℝ) ^ 2 * 10) ^ 3)⟩
/-- Its salinity. -/
noncomputable def cubSo : DA (Fl ℝ) := ⟨[("z_l", 4)], fun e => fin (35 + 1 / 100 * ((e "z_l" : ℝ) ^ 2 * 10) + 0 *
  ((e "z_l" : ℝ) ^ 2 * 10) ^ 2 + 0 * ((e "z_l" : ℝ) ^ 2 * 10) ^ 3)⟩

/-- The hypotheses of `C155_wright` (hence of the others) at the third level, 40 m, where the error of `calc_n2` is at
most `0.00081 · 6·10⁻⁶ · 30 · 50`. -/
example : ∃ r y d, calcN2 cubTh cubSo (fun k => fin ((k : ℝ) ^ 2 * 10)) = .ok r ∧ r.get (fun _ => 2) = fin y ∧
    |y - d| ≤ 0.0000073 := by
  have hx : ∀ i j : ℕ, i < j → j < 4 → (i : ℝ) ^ 2 * 10 < (j : ℝ) ^ 2 * 10 := by
    intro i j h _
    have : (i : ℝ) < j := by exact_mod_cast h
    have h0 : (0 : ℝ) ≤ i := Nat.cast_nonneg i
    nlinarith
  have c : TSColumn cubTh cubSo (fun k => fin ((k : ℝ) ^ 2 * 10)) "z_l" (fun _ => 2) 4 (fun k => (k : ℝ) ^ 2 * 10)
      (fun k => (fun s : ℝ => 20 + (-(1 / 50)) * s + 0 * s ^ 2 + 1 / 10 ^ 6 * s ^ 3) ((k : ℝ) ^ 2 * 10))
      (fun k => (fun s : ℝ => 35 + 1 / 100 * s + 0 * s ^ 2 + 0 * s ^ 3) ((k : ℝ) ^ 2 * 10)) :=
    ⟨by norm_num, injOn_of_lt hx, rfl, by simp [cubTh, DA.dimNames], by simp [cubSo, DA.dimNames], rfl, rfl,
      fun k _ => by simp [cubTh], fun k _ => by simp [cubSo], by norm_num⟩
  obtain ⟨r, y, h1, h2, h3⟩ := C155_wright c hx (cubic_smooth _ _ _ _ _ _) (cubic_smooth _ _ _ _ _ _)
    (by unfold Spec.Wright.Ocean; norm_num)
  refine ⟨r, y, _, h1, h2, h3.trans ?_⟩
  norm_num [spacing]

end Momlevel.Props
