import Verif.Props.StericErrors
import Verif.Props.MeanHeight

/-! # C164: errors in temperature and salinity, global height -/

set_option linter.unusedSectionVars false

namespace Momlevel.Props
open Momlevel Momlevel.Fl Momlevel.Eos

/-- On the whole oceanographic range the density is at least 987 kg m⁻³. -/
theorem rho_lower {T S p : ℝ} (h : Spec.Wright.Ocean T S p) : 987 ≤ Spec.Wright.rho T S p := by
  obtain ⟨h1, h2, h3, h4, h5, h6⟩ := h
  have o0 : Spec.Wright.Ocean T 0 0 := ⟨h1, h2, le_refl _, by norm_num, le_refl _, by norm_num⟩
  have o1 : Spec.Wright.Ocean T 0 p := ⟨h1, h2, le_refl _, by norm_num, h5, h6⟩
  have o2 : Spec.Wright.Ocean 40 0 0 := ⟨by norm_num, by norm_num, le_refl _, by norm_num, le_refl _, by norm_num⟩
  have a1 := (Wright.diff_S o1 ⟨h1, h2, h3, h4, h5, h6⟩ h3).1
  have a2 : Spec.Wright.rho T 0 0 ≤ Spec.Wright.rho T 0 p := by
    rcases h5.eq_or_lt with h | h
    · rw [← h]
    · have := C03_increasing_pressure o0 o1 h
      rw [Wright.density_eq, Wright.density_eq] at this
      exact this.le
  have a3 := (Wright.diff_T o0 o2 h2).2
  have a4 : (992 : ℝ) ≤ Spec.Wright.rho 40 0 0 := by
    have := Wright.denom_pos o2
    unfold Spec.Wright.rho
    rw [le_div_iff₀ this]
    unfold Spec.Wright.denom
    simp only [Spec.Wright.p0, Spec.Wright.lam, Spec.Wright.al0]
    norm_num
  nlinarith

theorem abs_log_sub {a b L : ℝ} (hL : 0 < L) (ha : L ≤ a) (hb : L ≤ b) : |Real.log a - Real.log b| ≤ |a - b| / L := by
  have key : ∀ {a b : ℝ}, L ≤ a → L ≤ b → Real.log a - Real.log b ≤ |a - b| / L := fun {a b} ha hb => by
    have pa := hL.trans_le ha
    have pb := hL.trans_le hb
    rw [← Real.log_div pa.ne' pb.ne']
    refine (Real.log_le_sub_one_of_pos (div_pos pa pb)).trans ?_
    rw [div_sub_one pb.ne', div_le_div_iff₀ pb hL]
    calc (a - b) * L ≤ |a - b| * L := mul_le_mul_of_nonneg_right (le_abs_self _) hL.le
      _ ≤ _ := mul_le_mul_of_nonneg_left hb (abs_nonneg _)
  rw [abs_le]
  constructor
  · have := key hb ha
    rw [abs_sub_comm] at this
    linarith
  · exact key ha hb

theorem sumOver_shift {D : List (String × Nat)} (c : ℝ) (v x : Env → ℝ) (e : Env) :
    Spec.sumOver D (fun a => v a * (x a + c)) e = Spec.sumOver D (fun a => v a * x a) e + c * Spec.sumOver D v e := by
  induction D generalizing e with
  | nil => simp only [Spec.sumOver]; ring
  | cons q D ih =>
    obtain ⟨d, n⟩ := q
    simp only [Spec.sumOver, ih, Finset.sum_add_distrib, Finset.mul_sum]

section
variable {d d' r r' ref ref' : DS (Fl ℝ)} {cn : DictArg} {tc zc zb zid yc xc : String} {nt n ny nx : Nat}
    {lev ifc : Nat → ℝ} {th so th' so' vol area depth zi : DA (Fl ℝ)} {eos : String}
    {rhozero : Fl ℝ} {strict : Bool} {pa : ℝ}

theorem filled_le (names : [tc, zc, yc, xc].Nodup) (aread : area.dims = [(yc, ny), (xc, nx)])
    (C : FilledCells tc zc n ifc vol area depth) {e : Env} {y z : Env → ℝ}
    (hy : ∀ i, i tc = e tc → i zc < n → i yc < ny → i xc < nx → vol.get (Function.update i tc 0) ≠ nan → y i ≤ z i) :
    Spec.sumOver [(zc, n), (yc, ny), (xc, nx)] (fun a => val0 (vol.get (Function.update a tc 0)) * y a) e ≤
      Spec.sumOver [(zc, n), (yc, ny), (xc, nx)] (fun a => val0 (vol.get (Function.update a tc 0)) * z a) e := by
  have nd := names
  simp only [List.nodup_cons, List.mem_cons, not_or, List.not_mem_nil, or_false] at nd
  obtain ⟨⟨n1, n2, n3⟩, ⟨n4, n5⟩, n6, -⟩ := nd
  refine sumOver_le (by simp [n4, n5, n6]) (fun i h1 h2 => ?_)
  have i1 : i zc < n := h1 (zc, n) (by simp)
  have i2 : i yc < ny := h1 (yc, ny) (by simp)
  have i3 : i xc < nx := h1 (xc, nx) (by simp)
  rcases filled_vol names aread C i1 i2 i3 with h | ⟨v, h, hv⟩
  · rw [h]; simp
  · rw [h, val0_fin]
    exact mul_le_mul_of_nonneg_left (hy i (h2 tc (by simp [n1, n2, n3])) i1 i2 i3 (by rw [h]; simp)) hv

/-- C164 (global): temperatures to `εT` degrees and salinities to `εS` give the global steric height to
`(0.96 εT + 1.64 εS)/987` times the mean depth. -/
theorem C164_global
    (g : GoodData d tc zc zb zid yc xc nt n ny nx lev ifc th so vol area depth zi (DA.scalar (fin pa)))
    (g' : GoodData d' tc zc zb zid yc xc nt n ny nx lev ifc th' so' vol area depth zi (DA.scalar (fin pa)))
    (hc : defaultCoords cn = .ok (tc, zc, zb)) (heos : CaseVariant eos "wright")
    (h : steric d .none cn none rhozero (DA.scalar (fin pa)) eos "steric" "global" strict = .ok (r, ref))
    (h' : steric d' .none cn none rhozero (DA.scalar (fin pa)) eos "steric" "global" strict = .ok (r', ref'))
    (wth : th.WF) (wso : so.WF) (wth' : th'.WF) (wso' : so'.WF) (wvol : vol.WF) (warea : area.WF)
    (C : FilledCells tc zc n ifc vol area depth) {T S T' S' : Env → ℝ} {εT εS : ℝ}
    (hT : ∀ e, e tc < nt → e zc < n → e yc < ny → e xc < nx → vol.get (Function.update e tc 0) ≠ nan →
      th.get e = fin (T e) ∧ so.get e = fin (S e) ∧ th'.get e = fin (T' e) ∧ so'.get e = fin (S' e) ∧
      Spec.Wright.Ocean (T e) (S e) (lev (e zc) * 10 ^ 4 + pa) ∧ Spec.Wright.Ocean (T' e) (S' e) (lev (e zc) * 10 ^ 4 + pa) ∧
      |T' e - T e| ≤ εT ∧ |S' e - S e| ≤ εS) :
    ∃ b b', r.getVar "steric" = .ok b ∧ r'.getVar "steric" = .ok b' ∧ ∀ e, e tc < nt →
      ∃ G G', b.get e = fin G ∧ b'.get e = fin G' ∧
        |G' - G| ≤ (0.96 * εT + 1.64 * εS) / 987 *
          (Spec.sumOver [(zc, n), (yc, ny), (xc, nx)] (fun a => val0 (vol.get (Function.update a tc 0))) e /
            Spec.sumOver [(yc, ny), (xc, nx)] (fun a => val0 (area.get a)) e) := by
  have nd := g.names
  simp only [List.nodup_cons, List.mem_cons, not_or, List.not_mem_nil, or_false] at nd
  obtain ⟨⟨n1, n2, n3⟩, ⟨n4, n5⟩, n6, -⟩ := nd
  have h0 : ∀ e : Env, e tc < nt → e zc < n → e yc < ny → e xc < nx → vol.get (Function.update e tc 0) ≠ nan → _ :=
    fun e _ h2 h3 h4 h5 => hT (Function.update e tc 0) (by simp [g.hnt]) (by simpa [Ne.symm n1] using h2)
      (by simpa [Ne.symm n2] using h3) (by simpa [Ne.symm n3] using h4) (by simpa using h5)
  have zz : ∀ e : Env, Function.update e tc 0 zc = e zc := fun e => by simp [Ne.symm n1]
  simp only [zz] at h0
  have P : ∀ {T S p : ℝ}, Spec.Wright.Ocean T S p → 0 < Spec.Wright.rho T S p := fun u => by linarith [rho_lower u]
  obtain ⟨b, rg, b1, -, b2⟩ := global_value g hc h wth wso wvol warea (fun _ _ _ => rfl) C (wright_eos heos)
    (x := fun e => Spec.Wright.rho (T e) (S e) (lev (e zc) * 10 ^ 4 + pa))
    (x0 := fun e => Spec.Wright.rho (T (Function.update e tc 0)) (S (Function.update e tc 0)) (lev (e zc) * 10 ^ 4 + pa))
    (fun e h1 h2 h3 h4 h5 => by
      obtain ⟨q1, q2, -, -, q5, -⟩ := hT e h1 h2 h3 h4 h5
      refine ⟨?_, P q5⟩
      rw [if_neg (by decide), if_neg (by decide), DA.get_scalar, fin_add, q1, q2]; exact wright_float q5)
    (fun e h1 h2 h3 h4 h5 => by
      obtain ⟨q1, q2, -, -, q5, -⟩ := h0 e h1 h2 h3 h4 h5
      refine ⟨?_, P q5⟩
      rw [DA.get_scalar, fin_add, q1, q2]; exact wright_float q5)
  obtain ⟨b', rg', b1', -, b2'⟩ := global_value g' hc h' wth' wso' wvol warea (fun _ _ _ => rfl) C (wright_eos heos)
    (x := fun e => Spec.Wright.rho (T' e) (S' e) (lev (e zc) * 10 ^ 4 + pa))
    (x0 := fun e => Spec.Wright.rho (T' (Function.update e tc 0)) (S' (Function.update e tc 0)) (lev (e zc) * 10 ^ 4 + pa))
    (fun e h1 h2 h3 h4 h5 => by
      obtain ⟨-, -, q1, q2, -, q5, -⟩ := hT e h1 h2 h3 h4 h5
      refine ⟨?_, P q5⟩
      rw [if_neg (by decide), if_neg (by decide), DA.get_scalar, fin_add, q1, q2]; exact wright_float q5)
    (fun e h1 h2 h3 h4 h5 => by
      obtain ⟨-, -, q1, q2, -, q5, -⟩ := h0 e h1 h2 h3 h4 h5
      refine ⟨?_, P q5⟩
      rw [DA.get_scalar, fin_add, q1, q2]; exact wright_float q5)
  refine ⟨b, b', b1, b1', fun e het => ?_⟩
  have pV : 0 < Spec.sumOver [(zc, n), (yc, ny), (xc, nx)] (fun a => val0 (vol.get (Function.update a tc 0))) e := by
    have := filled_pos g.names g.aread C g.vold wvol (e := e) (y := fun _ => 1) (fun _ _ _ _ _ _ => one_pos)
    simpa using this
  have pA : 0 < Spec.sumOver [(yc, ny), (xc, nx)] (fun a => val0 (area.get a)) e :=
    filled_area_pos g.names g.aread C
  -- the masses are at least 987 V
  have low : ∀ {y : Env → ℝ}, (∀ i, i tc = e tc → i zc < n → i yc < ny → i xc < nx →
      vol.get (Function.update i tc 0) ≠ nan → 987 ≤ y i) →
      987 * Spec.sumOver [(zc, n), (yc, ny), (xc, nx)] (fun a => val0 (vol.get (Function.update a tc 0))) e ≤
      Spec.sumOver [(zc, n), (yc, ny), (xc, nx)] (fun a => val0 (vol.get (Function.update a tc 0)) * y a) e := fun hy => by
    have := filled_le g.names g.aread C (y := fun _ => 987) hy
    rw [← sumOver_mul]
    simpa only [mul_comm] using this
  -- and those of the two data sets close
  have near : ∀ {y z : Env → ℝ}, (∀ i, i tc = e tc → i zc < n → i yc < ny → i xc < nx →
      vol.get (Function.update i tc 0) ≠ nan → |z i - y i| ≤ 0.48 * εT + 0.82 * εS) →
      |Spec.sumOver [(zc, n), (yc, ny), (xc, nx)] (fun a => val0 (vol.get (Function.update a tc 0)) * z a) e -
        Spec.sumOver [(zc, n), (yc, ny), (xc, nx)] (fun a => val0 (vol.get (Function.update a tc 0)) * y a) e| ≤
      (0.48 * εT + 0.82 * εS) *
        Spec.sumOver [(zc, n), (yc, ny), (xc, nx)] (fun a => val0 (vol.get (Function.update a tc 0))) e := fun {y z} hy => by
    have u1 := filled_le g.names g.aread C (e := e) (y := z) (z := fun a => y a + (0.48 * εT + 0.82 * εS))
      (fun i i0 i1 i2 i3 i4 => by have := (abs_le.1 (hy i i0 i1 i2 i3 i4)).2; linarith)
    have u2 := filled_le g.names g.aread C (e := e) (y := y) (z := fun a => z a + (0.48 * εT + 0.82 * εS))
      (fun i i0 i1 i2 i3 i4 => by have := (abs_le.1 (hy i i0 i1 i2 i3 i4)).1; linarith)
    rw [sumOver_shift] at u1 u2
    rw [abs_le]
    constructor <;> linarith
  have one : ∀ {x y x' y' p : ℝ}, Spec.Wright.Ocean x y p → Spec.Wright.Ocean x' y' p → |x' - x| ≤ εT → |y' - y| ≤ εS →
      |Spec.Wright.rho x' y' p - Spec.Wright.rho x y p| ≤ 0.48 * εT + 0.82 * εS := fun u w hx hy => by
    have m : Spec.Wright.Ocean _ _ _ := ⟨w.1, w.2.1, u.2.2⟩
    refine (abs_sub_le _ _ _).trans ((add_le_add (Wright.abs_diff_S m w) (Wright.abs_diff_T u m)).trans ?_)
    linarith
  have l1 := low (y := fun e => Spec.Wright.rho (T e) (S e) (lev (e zc) * 10 ^ 4 + pa))
    (fun i i0 i1 i2 i3 i4 => rho_lower (hT i (i0 ▸ het) i1 i2 i3 i4).2.2.2.2.1)
  have l2 := low (y := fun e => Spec.Wright.rho (T' e) (S' e) (lev (e zc) * 10 ^ 4 + pa))
    (fun i i0 i1 i2 i3 i4 => rho_lower (hT i (i0 ▸ het) i1 i2 i3 i4).2.2.2.2.2.1)
  have l3 := low
    (y := fun e => Spec.Wright.rho (T (Function.update e tc 0)) (S (Function.update e tc 0)) (lev (e zc) * 10 ^ 4 + pa))
    (fun i i0 i1 i2 i3 i4 => rho_lower (h0 i (i0 ▸ het) i1 i2 i3 i4).2.2.2.2.1)
  have l4 := low
    (y := fun e => Spec.Wright.rho (T' (Function.update e tc 0)) (S' (Function.update e tc 0)) (lev (e zc) * 10 ^ 4 + pa))
    (fun i i0 i1 i2 i3 i4 => rho_lower (h0 i (i0 ▸ het) i1 i2 i3 i4).2.2.2.2.2.1)
  have e1 := near (y := fun e => Spec.Wright.rho (T e) (S e) (lev (e zc) * 10 ^ 4 + pa))
    (z := fun e => Spec.Wright.rho (T' e) (S' e) (lev (e zc) * 10 ^ 4 + pa)) (fun i i0 i1 i2 i3 i4 => by
      obtain ⟨-, -, -, -, q5, q6, q7, q8⟩ := hT i (i0 ▸ het) i1 i2 i3 i4
      exact one q5 q6 q7 q8)
  have e2 := near
    (y := fun e => Spec.Wright.rho (T (Function.update e tc 0)) (S (Function.update e tc 0)) (lev (e zc) * 10 ^ 4 + pa))
    (z := fun e => Spec.Wright.rho (T' (Function.update e tc 0)) (S' (Function.update e tc 0)) (lev (e zc) * 10 ^ 4 + pa))
    (fun i i0 i1 i2 i3 i4 => by
      obtain ⟨-, -, -, -, q5, q6, q7, q8⟩ := h0 i (i0 ▸ het) i1 i2 i3 i4
      exact one q5 q6 q7 q8)
  have L : (0 : ℝ) < 987 * Spec.sumOver [(zc, n), (yc, ny), (xc, nx)] (fun a => val0 (vol.get (Function.update a tc 0))) e := by
    positivity
  have v := (b2 e het _ _ _ _ rfl rfl rfl rfl pA pV (L.trans_le l1) (L.trans_le l3)).2
  have v' := (b2' e het _ _ _ _ rfl rfl rfl rfl pA pV (L.trans_le l2) (L.trans_le l4)).2
  refine ⟨_, _, v, v', ?_⟩
  clear v v' b2 b2' low near
  generalize Spec.sumOver [(zc, n), (yc, ny), (xc, nx)] (fun a => val0 (vol.get (Function.update a tc 0))) e = V at *
  generalize Spec.sumOver [(yc, ny), (xc, nx)] (fun a => val0 (area.get a)) e = A at *
  generalize Spec.sumOver [(zc, n), (yc, ny), (xc, nx)] (fun a => val0 (vol.get (Function.update a tc 0)) *
    Spec.Wright.rho (T a) (S a) (lev (a zc) * 10 ^ 4 + pa)) e = m at *
  generalize Spec.sumOver [(zc, n), (yc, ny), (xc, nx)] (fun a => val0 (vol.get (Function.update a tc 0)) *
    Spec.Wright.rho (T' a) (S' a) (lev (a zc) * 10 ^ 4 + pa)) e = m' at *
  generalize Spec.sumOver [(zc, n), (yc, ny), (xc, nx)] (fun a => val0 (vol.get (Function.update a tc 0)) *
    Spec.Wright.rho (T (Function.update a tc 0)) (S (Function.update a tc 0)) (lev (a zc) * 10 ^ 4 + pa)) e = m0 at *
  generalize Spec.sumOver [(zc, n), (yc, ny), (xc, nx)] (fun a => val0 (vol.get (Function.update a tc 0)) *
    Spec.Wright.rho (T' (Function.update a tc 0)) (S' (Function.update a tc 0)) (lev (a zc) * 10 ^ 4 + pa)) e = m0' at *
  rw [Real.log_div (L.trans_le l4).ne' (L.trans_le l2).ne', Real.log_div (L.trans_le l3).ne' (L.trans_le l1).ne', ← mul_sub,
    abs_mul, abs_of_pos (div_pos pV pA), mul_comm]
  refine mul_le_mul_of_nonneg_right ?_ (div_pos pV pA).le
  have f1 := abs_log_sub L l2 l1
  have f2 := abs_log_sub L l4 l3
  have k : ∀ {x : ℝ}, x ≤ (0.48 * εT + 0.82 * εS) * V → x / (987 * V) ≤ (0.48 * εT + 0.82 * εS) / 987 := fun hx => by
    rw [div_le_div_iff₀ L (by norm_num)]
    nlinarith
  have k1 := k e1
  have k2 := k e2
  rw [show Real.log m0' - Real.log m' - (Real.log m0 - Real.log m) =
    (Real.log m0' - Real.log m0) - (Real.log m' - Real.log m) by ring]
  refine (abs_sub _ _).trans ?_
  have : (0.96 * εT + 1.64 * εS) / 987 = (0.48 * εT + 0.82 * εS) / 987 + (0.48 * εT + 0.82 * εS) / 987 := by ring
  rw [this]
  linarith

end

/-- The example ocean with errors, with volumes that are area times thickness. -/
noncomputable def errM : DS (Fl ℝ) := ⟨[("thetao", errT), ("so", errS), ("volcello", mhV), ("areacello", exA),
  ("deptho", exDepth), ("z_l", exZ), ("z_i", exZi)], ["z_l", "z_i"]⟩

theorem errMGood : GoodData errM "time" "z_l" "z_i" "z_i" "yh" "xh" 2 2 2 2 (fun k => 500 + 1000 * (k : ℝ))
    (fun k => 1000 * (k : ℝ)) errT errS mhV exA exDepth exZi (DA.scalar (fin 101325)) where
  names := by decide
  hnt := by norm_num
  hn := by norm_num
  hny := by norm_num
  hnx := by norm_num
  hth := rfl
  hso := rfl
  hvol := rfl
  harea := rfl
  hzb := rfl
  thd := rfl
  sod := rfl
  vold := rfl
  aread := rfl
  depthd := rfl
  grid :=
    { grid := exGrid.grid
      hdepth := rfl
      bathy := exGrid.bathy
      hz := exGrid.hz
      coord := by simp [errM, DS.names] }
  alone := by simp [errM, exZ, exZi, DA.dimNames]
  patmd := by simp

/-- Example for C164 (global): errors of 0.002 degrees and 0.01 in salinity change the global height of this ocean, of
mean depth 1000 m, by at most 19 mm. -/
example : ∃ r ref r' ref' b b',
    steric mhD .none .none none (fin 1035) (DA.scalar (fin 101325)) "Wright" "steric" "global" true = .ok (r, ref) ∧
    steric errM .none .none none (fin 1035) (DA.scalar (fin 101325)) "Wright" "steric" "global" true = .ok (r', ref') ∧
    r.getVar "steric" = .ok b ∧ r'.getVar "steric" = .ok b' ∧
    ∀ e, e "time" < 2 → ∃ G G', b.get e = fin G ∧ b'.get e = fin G' ∧ |G' - G| ≤ 0.019 := by
  obtain ⟨⟨r, ref⟩, h⟩ := C30_success (domain := "global") (variant := "steric") (eos := "Wright")
    (rhozero := fin 1035) (strict := true) mhGood exC (by simp) (Or.inl wright_case) (by simp) (fun _ => exArea)
  obtain ⟨⟨r', ref'⟩, h'⟩ := C30_success (domain := "global") (variant := "steric") (eos := "Wright")
    (rhozero := fin 1035) (strict := true) errMGood exC (by simp) (Or.inl wright_case) (by simp) (fun _ => exArea)
  have tm : ∀ x : DA (Fl ℝ), x.dims = exDims → ∀ e e' : Env, (∀ q ∈ x.dimNames, e q = e' q) → e "time" = e' "time" :=
    fun x hx e e' h => h "time" (by simp [DA.dimNames, hx, exDims])
  obtain ⟨b, b', b1, b2, b3⟩ := C164_global mhGood errMGood exC wright_case h h'
    (fun e e' h => by simp [exT, tm exT rfl e e' h]) (fun e e' h => by simp [exS, tm exS rfl e e' h])
    (fun e e' h => by simp [errT, tm errT rfl e e' h]) (fun e e' h => by simp [errS, tm errS rfl e e' h])
    (fun e e' h => by have := h "xh" (by simp [mhV, exDims, DA.dimNames]); simp [mhV, this]) (fun _ _ _ => rfl) mhFilled
    (T := fun e => 10 + 5 * (e "time" : ℝ)) (S := fun e => 34 + (e "time" : ℝ)) (T' := fun e => 10 + 4.998 * (e "time" : ℝ))
    (S' := fun e => 34 + 0.99 * (e "time" : ℝ)) (εT := 0.002) (εS := 0.01) (fun c h1 h2 _ _ _ => by
      have t0 : (0 : ℝ) ≤ c "time" := Nat.cast_nonneg _
      have t1 : (c "time" : ℝ) ≤ 1 := by exact_mod_cast Nat.le_of_lt_succ h1
      refine ⟨rfl, rfl, rfl, rfl, exOcean (by linarith) (by linarith) (by linarith) (by linarith) h2,
        exOcean (by linarith) (by linarith) (by linarith) (by linarith) h2, ?_, ?_⟩ <;>
      · rw [abs_le]; constructor <;> linarith)
  refine ⟨r, ref, r', ref', b, b', h, h', b1, b2, fun e he => ?_⟩
  obtain ⟨G, G', w1, w2, w3⟩ := b3 e he
  refine ⟨G, G', w1, w2, w3.trans ?_⟩
  have hA : Spec.sumOver [("yh", 2), ("xh", 2)] (fun a => val0 (exA.get a)) e = 4 * 90277730000000 := by
    simp [Spec.sumOver, exA]; norm_num
  have hV : Spec.sumOver [("z_l", 2), ("yh", 2), ("xh", 2)] (fun a => val0 (mhV.get (Function.update a "time" 0))) e
      = 4 * (90277730000000 * 1000) := by
    simp [Spec.sumOver, mhV, Finset.sum_range_succ]; norm_num
  rw [hA, hV]
  norm_num

end Momlevel.Props
