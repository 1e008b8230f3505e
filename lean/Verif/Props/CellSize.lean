import Verif.Spec.Cells
import Verif.Props.Steric
import Verif.Props.StericSuccess
import Verif.Props.MeanHeight

/-!
# C121: only relative cell sizes matter
-/

set_option linter.unusedSectionVars false

namespace Momlevel.Props
open Momlevel Momlevel.Fl Momlevel.Eos Momlevel.Spec

section scale
variable {c q : ℝ}

theorem infOfSign_scale (hc : 0 < c) (x : ℝ) : (infOfSign (c * x) : Fl ℝ) = infOfSign x := by
  unfold infOfSign
  rcases lt_trichotomy x 0 with h | rfl | h
  · rw [if_neg (by nlinarith), if_pos (by nlinarith), if_neg (by linarith), if_pos h]
  · simp
  · rw [if_pos (by positivity), if_pos h]

theorem scale_pinf (hc : 0 < c) : (fin c * pinf : Fl ℝ) = pinf := if_pos hc

theorem scale_ninf (hc : 0 < c) : (fin c * ninf : Fl ℝ) = ninf := by
  show infOfSign (-c) = ninf
  unfold infOfSign
  rw [if_neg (by linarith), if_pos (by linarith)]

theorem scale_infOfSign (hc : 0 < c) (x : ℝ) : (fin c * infOfSign x : Fl ℝ) = infOfSign x := by
  unfold infOfSign
  split
  · exact scale_pinf hc
  · split
    · exact scale_ninf hc
    · rfl

theorem scale_add (hc : 0 < c) (x y : Fl ℝ) : fin c * (x + y) = fin c * x + fin c * y := by
  cases x <;> cases y <;> first
    | rfl
    | (rw [fin_add, fin_mul, fin_mul, fin_mul, fin_add, mul_add])
    | (simp only [scale_pinf hc, scale_ninf hc, fin_mul]
       first
        | exact scale_pinf hc
        | exact scale_ninf hc
        | rfl)

theorem scale_mul (hc : 0 < c) (x y : Fl ℝ) : x * (fin c * y) = fin c * (x * y) := by
  cases x with
  | nan => cases y <;> rfl
  | fin a =>
    cases y with
    | nan => rfl
    | fin b => rw [fin_mul, fin_mul, fin_mul, fin_mul]; congr 1; ring
    | pinf => rw [scale_pinf hc]; exact (scale_infOfSign hc a).symm
    | ninf => rw [scale_ninf hc]; exact (scale_infOfSign hc (-a)).symm
  | pinf =>
    cases y with
    | nan => rfl
    | fin b => exact (infOfSign_scale hc b).trans (scale_infOfSign hc b).symm
    | pinf => rw [scale_pinf hc]; exact (scale_pinf hc).symm
    | ninf => rw [scale_ninf hc]; exact (scale_ninf hc).symm
  | ninf =>
    cases y with
    | nan => rfl
    | fin b =>
      show infOfSign (-(c * b)) = fin c * infOfSign (-b)
      rw [← mul_neg, infOfSign_scale hc, scale_infOfSign hc]
    | pinf => rw [scale_pinf hc]; exact (scale_ninf hc).symm
    | ninf => rw [scale_ninf hc]; exact (scale_pinf hc).symm

theorem scale_mul_left (hc : 0 < c) (x y : Fl ℝ) : fin c * x * y = fin c * (x * y) := by
  cases y with
  | nan => cases x <;> first
    | rfl
    | (rw [scale_pinf hc]; rfl)
    | (rw [scale_ninf hc]; rfl)
  | fin a =>
    cases x with
    | nan => rfl
    | fin b => rw [fin_mul, fin_mul, fin_mul, fin_mul, mul_assoc]
    | pinf => rw [scale_pinf hc]; exact (scale_infOfSign hc a).symm
    | ninf => rw [scale_ninf hc]; exact (scale_infOfSign hc (-a)).symm
  | pinf =>
    cases x with
    | nan => rfl
    | fin b => exact (infOfSign_scale hc b).trans (scale_infOfSign hc b).symm
    | pinf => rw [scale_pinf hc]; exact (scale_pinf hc).symm
    | ninf => rw [scale_ninf hc]; exact (scale_ninf hc).symm
  | ninf =>
    cases x with
    | nan => rfl
    | fin b =>
      show infOfSign (-(c * b)) = fin c * infOfSign (-b)
      rw [← mul_neg, infOfSign_scale hc, scale_infOfSign hc]
    | pinf => rw [scale_pinf hc]; exact (scale_ninf hc).symm
    | ninf => rw [scale_ninf hc]; exact (scale_pinf hc).symm

theorem scale_div (hc : 0 < c) (hq : 0 < q) (x y : Fl ℝ) :
    fin c * x / (fin q * y) = fin (c / q) * (x / y) := by
  have hcq : 0 < c / q := by positivity
  cases x with
  | nan => rfl
  | fin a =>
    cases y with
    | nan => rfl
    | fin b =>
      by_cases hb : b = 0
      · subst hb
        show (if q * 0 = 0 then infOfSign (c * a) else fin (c * a / (q * 0)))
          = fin (c / q) * (if (0 : ℝ) = 0 then infOfSign a else fin (a / 0))
        rw [if_pos (mul_zero q), if_pos rfl, infOfSign_scale hc, scale_infOfSign hcq]
      · rw [fin_mul, fin_mul, fin_div_of_ne _ hb, fin_div_of_ne _ (mul_ne_zero hq.ne' hb), fin_mul]
        congr 1
        field_simp
    | pinf =>
      rw [scale_pinf hq]
      show fin 0 = fin (c / q) * fin 0
      rw [fin_mul, mul_zero]
    | ninf =>
      rw [scale_ninf hq]
      show fin 0 = fin (c / q) * fin 0
      rw [fin_mul, mul_zero]
  | pinf =>
    rw [scale_pinf hc]
    cases y with
    | nan => rfl
    | fin b =>
      show (if q * b < 0 then ninf else pinf) = fin (c / q) * (if b < 0 then ninf else pinf)
      by_cases hb : b < 0
      · rw [if_pos (by nlinarith), if_pos hb, scale_ninf hcq]
      · rw [if_neg (by have := not_lt.1 hb; have := mul_nonneg hq.le this; linarith), if_neg hb,
          scale_pinf hcq]
    | pinf => rw [scale_pinf hq]; rfl
    | ninf => rw [scale_ninf hq]; rfl
  | ninf =>
    rw [scale_ninf hc]
    cases y with
    | nan => rfl
    | fin b =>
      show (if q * b < 0 then pinf else ninf) = fin (c / q) * (if b < 0 then pinf else ninf)
      by_cases hb : b < 0
      · rw [if_pos (by nlinarith), if_pos hb, scale_pinf hcq]
      · rw [if_neg (by have := not_lt.1 hb; have := mul_nonneg hq.le this; linarith), if_neg hb,
          scale_ninf hcq]
    | pinf => rw [scale_pinf hq]; rfl
    | ninf => rw [scale_ninf hq]; rfl

theorem scale_fillna (hc : 0 < c) (x : Fl ℝ) : fillna (fin 0) (fin c * x) = fin c * fillna (fin 0) x := by
  cases x with
  | nan => show fin 0 = fin c * fin 0; rw [fin_mul, mul_zero]
  | fin a => rfl
  | pinf =>
    show fillna (fin 0) (fin c * pinf) = fin c * pinf
    rw [scale_pinf hc]; rfl
  | ninf =>
    show fillna (fin 0) (fin c * ninf) = fin c * ninf
    rw [scale_ninf hc]; rfl

theorem scale_nansum (hc : 0 < c) {α : Type} (l : List α) (f g : α → Fl ℝ)
    (h : ∀ a, g a = fin c * f a) : nansum (l.map g) = fin c * nansum (l.map f) := by
  unfold nansum
  induction l with
  | nil => show fin 0 = fin c * fin 0; rw [fin_mul, mul_zero]
  | cons a l ih =>
    simp only [List.map_cons, List.foldr_cons] at ih ⊢
    rw [ih, h, scale_fillna hc, scale_add hc]

theorem scale_masso (hc : 0 < c) {rho u v : DA (Fl ℝ)} (h : Times c u v) (tc : String) (e : Env) :
    (calcMasso rho v tc).get e = fin c * (calcMasso rho u tc).get e := by
  have hd : (rho * v).dims = (rho * u).dims := by
    show DA.bdims rho.dims v.dims = DA.bdims rho.dims u.dims
    rw [h.dims]
  have hn : (rho * v).dimNames = (rho * u).dimNames := by unfold DA.dimNames; rw [hd]
  show nansum _ = fin c * nansum _
  simp only [hd, hn]
  refine scale_nansum hc _ _ _ (fun a => ?_)
  rw [DA.get_mul, DA.get_mul, h.get, scale_mul hc]

theorem scale_sumAll (hc : 0 < c) {u v : DA (Fl ℝ)} (h : Times c u v) (e : Env) :
    v.sumAll.get e = fin c * u.sumAll.get e := by
  show nansum v.vals = fin c * nansum u.vals
  unfold DA.vals
  rw [h.dims]
  exact scale_nansum hc _ _ _ (fun a => h.get a)

end scale

variable {d r ref d' r' ref' : DS (Fl ℝ)} {cn : DictArg} {rhozero : Fl ℝ} {patm : DA (Fl ℝ)}
  {eos variant domain : String} {strict strict' : Bool} {tc zc zb : String} {c q : ℝ}

theorem DA_ext {u v : DA (Fl ℝ)} (h1 : u.dims = v.dims) (h2 : ∀ e, u.get e = v.get e) : u = v := by
  obtain ⟨_, _⟩ := u
  obtain ⟨_, _⟩ := v
  obtain rfl : _ = _ := h1
  congr
  exact funext h2

/-- C121: when all cell volumes are multiplied by `c` and all cell areas by `q`, the total volume and the
mass are multiplied by `c`, the mean density stays, and the global heights are multiplied by `c / q`.  In
particular they stay when `c = q`. -/
theorem C121_global
    (h : steric d .none cn none rhozero patm eos variant "global" strict = .ok (r, ref))
    (h' : steric d' .none cn none rhozero patm eos variant "global" strict' = .ok (r', ref'))
    (hc : 0 < c) (hq : 0 < q) (hd : OtherCells d d')
    (hcoord : defaultCoords cn = .ok (tc, zc, zb)) (hz : zc ≠ "volcello" ∧ zc ≠ "areacello")
    {vol vol' area area' : DA (Fl ℝ)} (hvol : d.getVar "volcello" = .ok vol)
    (hvol' : d'.getVar "volcello" = .ok vol') (harea : d.getVar "areacello" = .ok area)
    (harea' : d'.getVar "areacello" = .ok area') (hv : Times c vol vol') (ha : Times q area area') :
    ∃ a a' H H' V V' m m' g g', r.getVar variant = .ok a ∧ r'.getVar variant = .ok a' ∧
      r.getVar "reference_height" = .ok H ∧ r'.getVar "reference_height" = .ok H' ∧
      ref.getVar "volo" = .ok V ∧ ref'.getVar "volo" = .ok V' ∧
      ref.getVar "masso" = .ok m ∧ ref'.getVar "masso" = .ok m' ∧
      ref.getVar "rhoga" = .ok g ∧ ref'.getVar "rhoga" = .ok g' ∧
      ∀ e, V'.get e = fin c * V.get e ∧ m'.get e = fin c * m.get e ∧ g'.get e = g.get e ∧
        H'.get e = fin (c / q) * H.get e ∧ a'.get e = fin (c / q) * a.get e := by
  obtain ⟨dd, tc1, zc1, zb1, pres, th, so, rho, h1, h2, h3, h4, h5, h6, h7, h8, h9⟩ := steric_ok_iff.1 h
  obtain ⟨dd', tc2, zc2, zb2, pres', th', so', rho', k1, k2, k3, k4, k5, k6, k7, k8, k9⟩ :=
    steric_ok_iff.1 h'
  rw [hcoord] at h2 k2
  cases h2; cases k2
  obtain rfl : d = dd := Except.ok.inj h1
  obtain rfl : d' = dd' := Except.ok.inj k1
  obtain ⟨f, hf, ⟨D⟩⟩ := refData_of hcoord h3 h4 h5 h6
  obtain ⟨f', hf', ⟨D'⟩⟩ := refData_of hcoord k3 k4 k5 k6
  obtain rfl : f = f' := Except.ok.inj (hf.symm.trans hf')
  have hp : pres' = pres := by
    unfold pressureField at h4 k4
    rw [hd.items zc hz.1 hz.2] at k4
    exact Except.ok.inj (k4.symm.trans h4)
  subst hp
  have eth : D'.th = D.th := Except.ok.inj (D'.hth.symm.trans ((hd.vars _ (by decide) (by decide)).trans D.hth))
  have eso : D'.so = D.so := Except.ok.inj (D'.hso.symm.trans ((hd.vars _ (by decide) (by decide)).trans D.hso))
  have erth : D'.rth = D.rth := DA_ext (by rw [D'.th_dims, D.th_dims, eth]) (fun e => by
    rw [D'.th_get, D.th_get, eth])
  have erso : D'.rso = D.rso := DA_ext (by rw [D'.so_dims, D.so_dims, eso]) (fun e => by
    rw [D'.so_get, D.so_get, eso])
  have errho : D'.rrho = D.rrho := by rw [D'.rho_eq, D.rho_eq, erth, erso]
  have ev : D.vol = vol := Except.ok.inj (D.hvol.symm.trans hvol)
  have ev' : D'.vol = vol' := Except.ok.inj (D'.hvol.symm.trans hvol')
  have ea : D.area = area := Except.ok.inj (D.harea.symm.trans harea)
  have ea' : D'.area = area' := Except.ok.inj (D'.harea.symm.trans harea')
  have hrv : Times c D.rvol D'.rvol :=
    ⟨by rw [D'.vol_dims, D.vol_dims, ev, ev', hv.dims], fun e => by
      rw [D'.vol_get, D.vol_get, ev, ev', hv.get]⟩
  have hfields : th' = th ∧ so' = so := by
    have hx : stericFields d' ref' variant = stericFields d ref variant := by
      unfold stericFields
      rw [hd.vars "thetao" (by decide) (by decide), hd.vars "so" (by decide) (by decide), D'.rhth, D'.rhso,
        D.rhth, D.rhso, erth, erso]
    rw [hx, h7] at k7
    cases k7
    exact ⟨rfl, rfl⟩
  obtain ⟨rfl, rfl⟩ := hfields
  obtain rfl : rho' = rho := Except.ok.inj (k8.symm.trans h8)
  simp only [stericResult, if_true] at h9 k9
  obtain ⟨L⟩ := globalRun_of h9
  obtain ⟨L'⟩ := globalRun_of k9
  have hne : variant ≠ "reference_height" := by
    have := variant_mem h7
    rintro rfl; simp at this
  have hV : ∀ e, D'.volo.get e = fin c * D.volo.get e := by
    intro e
    have q1 := D.hvolo
    have q2 := D'.hvolo
    simp only [calcVolo, bind_ok, pure_ok] at q1 q2
    obtain ⟨-, -, q1⟩ := q1
    obtain ⟨-, -, q2⟩ := q2
    rw [← q1, ← q2]
    exact scale_sumAll hc hrv e
  have lv : L.rvol = D.rvol := Except.ok.inj (L.hrvol.symm.trans D.rhvol)
  have lv' : L'.rvol = D'.rvol := Except.ok.inj (L'.hrvol.symm.trans D'.rhvol)
  have lo : L.volo = D.volo := Except.ok.inj (L.hvolo.symm.trans D.rhvolo)
  have lo' : L'.volo = D'.volo := Except.ok.inj (L'.hvolo.symm.trans D'.rhvolo)
  have lg : L.rhoga = calcMasso D.rrho D.rvol tc / D.volo := Except.ok.inj (L.hrhoga.symm.trans D.rhrhoga)
  have lg' : L'.rhoga = calcMasso D'.rrho D'.rvol tc / D'.volo :=
    Except.ok.inj (L'.hrhoga.symm.trans D'.rhrhoga)
  have la : L.area = area := (Except.ok.inj (L.harea.symm.trans D.rharea)).trans ea
  have la' : L'.area = area' := (Except.ok.inj (L'.harea.symm.trans D'.rharea)).trans ea'
  have hM : ∀ (ρ : DA (Fl ℝ)) e, (calcMasso ρ D'.rvol tc).get e = fin c * (calcMasso ρ D.rvol tc).get e :=
    fun ρ e => scale_masso hc hrv tc e
  have hone : ∀ x : Fl ℝ, fin (c / c) * x = x := by
    intro x
    rw [div_self hc.ne']
    cases x with
    | nan => rfl
    | fin a => rw [fin_mul, one_mul]
    | pinf => exact scale_pinf one_pos
    | ninf => exact scale_ninf one_pos
  have hG : ∀ e, L'.rhoga.get e = L.rhoga.get e := by
    intro e
    rw [lg, lg', DA.get_div, DA.get_div, errho, hM, hV, scale_div hc hc, hone]
  have hH : ∀ e, L'.height.get e = fin (c / q) * L.height.get e := by
    intro e
    rw [L'.height_get, L.height_get, lo, lo', la, la', hV, scale_sumAll hq ha, scale_div hc hq]
  refine ⟨L.res, L'.res, L.height, L'.height, D.volo, D'.volo, _, _, L.rhoga, L'.rhoga,
    getVar_lookup.2 (L.hres hne), getVar_lookup.2 (L'.hres hne), getVar_lookup.2 L.hheight,
    getVar_lookup.2 L'.hheight, D.rhvolo, D'.rhvolo, D.rhmasso, D'.rhmasso, L.hrhoga, L'.hrhoga,
    fun e => ⟨hV e, by rw [errho]; exact hM _ e, hG e, hH e, ?_⟩⟩
  rw [L'.res_get, L.res_get, hG, hH, lv, lv', lo, lo', hM, hV, scale_div hc hc, hone, scale_mul_left]
  positivity

/-- C121: local heights do not depend on the cell areas, and on the cell volumes only through the cells
without a volume. -/
theorem C121_local
    (h : steric d .none cn none rhozero patm eos variant domain strict = .ok (r, ref))
    (h' : steric d' .none cn none rhozero patm eos variant domain strict' = .ok (r', ref'))
    (hdom : domain ≠ "global") (hd : OtherCells d d')
    (hcoord : defaultCoords cn = .ok (tc, zc, zb)) (hz : zc ≠ "volcello" ∧ zc ≠ "areacello")
    (hzb : zb ≠ "volcello" ∧ zb ≠ "areacello")
    {vol vol' : DA (Fl ℝ)} (hvol : d.getVar "volcello" = .ok vol)
    (hvol' : d'.getVar "volcello" = .ok vol') (hv : SameMask vol vol') :
    ∃ a a' b b', r.getVar variant = .ok a ∧ r'.getVar variant = .ok a' ∧
      r.getVar "delta_rho" = .ok b ∧ r'.getVar "delta_rho" = .ok b' ∧
      ∀ e, a'.get e = a.get e ∧ b'.get e = b.get e := by
  obtain ⟨dd, tc1, zc1, zb1, pres, th, so, rho, h1, h2, h3, h4, h5, h6, h7, h8, h9⟩ := steric_ok_iff.1 h
  obtain ⟨dd', tc2, zc2, zb2, pres', th', so', rho', k1, k2, k3, k4, k5, k6, k7, k8, k9⟩ :=
    steric_ok_iff.1 h'
  rw [hcoord] at h2 k2
  cases h2; cases k2
  obtain rfl : d = dd := Except.ok.inj h1
  obtain rfl : d' = dd' := Except.ok.inj k1
  obtain ⟨f, hf, ⟨D⟩⟩ := refData_of hcoord h3 h4 h5 h6
  obtain ⟨f', hf', ⟨D'⟩⟩ := refData_of hcoord k3 k4 k5 k6
  obtain rfl : f = f' := Except.ok.inj (hf.symm.trans hf')
  have hp : pres' = pres := by
    unfold pressureField at h4 k4
    rw [hd.items zc hz.1 hz.2] at k4
    exact Except.ok.inj (k4.symm.trans h4)
  subst hp
  have eth : D'.th = D.th := Except.ok.inj (D'.hth.symm.trans ((hd.vars _ (by decide) (by decide)).trans D.hth))
  have eso : D'.so = D.so := Except.ok.inj (D'.hso.symm.trans ((hd.vars _ (by decide) (by decide)).trans D.hso))
  have erth : D'.rth = D.rth := DA_ext (by rw [D'.th_dims, D.th_dims, eth]) (fun e => by
    rw [D'.th_get, D.th_get, eth])
  have erso : D'.rso = D.rso := DA_ext (by rw [D'.so_dims, D.so_dims, eso]) (fun e => by
    rw [D'.so_get, D.so_get, eso])
  have errho : D'.rrho = D.rrho := by rw [D'.rho_eq, D.rho_eq, erth, erso]
  have ev : D.vol = vol := Except.ok.inj (D.hvol.symm.trans hvol)
  have ev' : D'.vol = vol' := Except.ok.inj (D'.hvol.symm.trans hvol')
  have hfields : th' = th ∧ so' = so := by
    have hx : stericFields d' ref' variant = stericFields d ref variant := by
      unfold stericFields
      rw [hd.vars "thetao" (by decide) (by decide), hd.vars "so" (by decide) (by decide), D'.rhth, D'.rhso,
        D.rhth, D.rhso, erth, erso]
    rw [hx, h7] at k7
    cases k7
    exact ⟨rfl, rfl⟩
  obtain ⟨rfl, rfl⟩ := hfields
  obtain rfl : rho' = rho := Except.ok.inj (k8.symm.trans h8)
  simp only [stericResult, if_neg hdom] at h9 k9
  obtain ⟨L⟩ := localRun_of h9
  obtain ⟨L'⟩ := localRun_of k9
  have hne : variant ≠ "delta_rho" := by
    have := variant_mem h7
    rintro rfl; simp at this
  have lv : L.rvol = D.rvol := Except.ok.inj (L.hrvol.symm.trans D.rhvol)
  have lv' : L'.rvol = D'.rvol := Except.ok.inj (L'.hrvol.symm.trans D'.rhvol)
  have lr : L.rrho = D.rrho := Except.ok.inj (L.hrrho.symm.trans D.rhrho)
  have lr' : L'.rrho = D'.rrho := Except.ok.inj (L'.hrrho.symm.trans D'.rhrho)
  have ez : L'.z = L.z := Except.ok.inj (L'.hz.symm.trans ((hd.items _ hz.1 hz.2).trans L.hz))
  have ezi : L'.zi = L.zi := Except.ok.inj (L'.hzi.symm.trans ((hd.items _ hzb.1 hzb.2).trans L.hzi))
  have edp : L'.depth = L.depth :=
    Except.ok.inj (L'.hdepth.symm.trans ((hd.vars _ (by decide) (by decide)).trans L.hdepth))
  have edz : L'.dz = L.dz := by
    have := L'.hdz
    rw [ez, ezi, edp, L.hdz] at this
    exact (Except.ok.inj this).symm
  have ecoef : L'.coef = L.coef := Except.ok.inj (L'.hcoef.symm.trans L.hcoef)
  have hmask : ∀ e, Fl.notnull (L'.rvol.get e) = Fl.notnull (L.rvol.get e) := by
    intro e
    rw [lv, lv', D.vol_get, D'.vol_get, ev, ev']
    have := hv.missing (Function.update e tc 0)
    cases hx : vol.get (Function.update e tc 0) <;> cases hy : vol'.get (Function.update e tc 0) <;>
      first
      | rfl
      | (exfalso; rw [hx, hy] at this; simp at this)
  have hdr : ∀ e, L'.dr.get e = L.dr.get e := by
    intro e
    rw [L'.dr_get, L.dr_get, hmask, lr, lr', errho]
  have hdims : L'.dr.dims = L.dr.dims := by
    rw [L'.dr_dims, L.dr_dims, lr, lr', errho, lv, lv', D'.vol_dims, D.vol_dims, ev, ev', hv.dims]
  have hn : L'.n = L.n := by
    rw [L'.hn, L.hn, edz]
    unfold DA.size
    rw [show (L.dz * L'.dr).dims = (L.dz * L.dr).dims by
      show DA.bdims L.dz.dims L'.dr.dims = DA.bdims L.dz.dims L.dr.dims
      rw [hdims]]
  refine ⟨L.res, L'.res, L.dr, L'.dr, getVar_lookup.2 (L.hres hne), getVar_lookup.2 (L'.hres hne),
    getVar_lookup.2 L.hdr, getVar_lookup.2 L'.hdr, fun e => ⟨?_, hdr e⟩⟩
  rw [L'.res_get, L.res_get, hmask, ecoef, hn, edz]
  simp only [hdr]

noncomputable section

/-- The ocean `exD` with all volumes and areas doubled. -/
def twiceV : DA (Fl ℝ) := ⟨exDims, fun e => fin 2 * exV.get e⟩
def twiceA : DA (Fl ℝ) := ⟨[("yh", 2), ("xh", 2)], fun e => fin 2 * exA.get e⟩
def twiceD : DS (Fl ℝ) := ⟨[("thetao", exT), ("so", exS), ("volcello", twiceV), ("areacello", twiceA),
  ("deptho", exDepth), ("z_l", exZ), ("z_i", exZi)], ["z_l", "z_i"]⟩

theorem twiceGood : GoodData twiceD "time" "z_l" "z_i" "z_i" "yh" "xh" 2 2 2 2
    (fun k => 500 + 1000 * (k : ℝ)) (fun k => 1000 * (k : ℝ)) exT exS twiceV twiceA exDepth exZi
    (DA.scalar (fin 101325)) where
  names := by decide
  hnt := by norm_num
  hn := by norm_num
  hny := by norm_num
  hnx := by norm_num
  hth := rfl
  hso := rfl
  hvol := rfl
  harea := rfl
  hzb := rfl
  thd := rfl
  sod := rfl
  vold := rfl
  aread := rfl
  depthd := rfl
  grid :=
    { grid := exGrid.grid
      hdepth := rfl
      bathy := exGrid.bathy
      hz := exGrid.hz
      coord := by simp [twiceD, DS.names] }
  alone := by simp [twiceD, exZ, exZi, DA.dimNames]
  patmd := by simp

theorem twiceOther : OtherCells exD twiceD where
  vars := by
    intro x h1 h2
    simp only [DS.getVar, exD, twiceD, List.lookup_cons, beq_eq_false_iff_ne.2 h1, beq_eq_false_iff_ne.2 h2]
  items := by
    intro x h1 h2
    simp only [DS.getItem, exD, twiceD, List.lookup_cons, beq_eq_false_iff_ne.2 h1, beq_eq_false_iff_ne.2 h2]
    rfl

/-- C121 on this pair (the doubled area is no longer that of the Earth, so `strict=False`): global heights
agree. -/
example (variant : String) (hv : variant ∈ ["thermosteric", "halosteric", "steric"]) :
    ∃ r r' ref ref' a a',
      steric exD .none .none none (fin 1035) (DA.scalar (fin 101325)) "Wright" variant "global" true
        = .ok (r, ref) ∧
      steric twiceD .none .none none (fin 1035) (DA.scalar (fin 101325)) "Wright" variant "global" false
        = .ok (r', ref') ∧ r.getVar variant = .ok a ∧ r'.getVar variant = .ok a' ∧
      ∀ e, a'.get e = fin (2 / 2) * a.get e := by
  obtain ⟨⟨r, ref⟩, h⟩ := exRun variant "global" "Wright" hv (Or.inl wright_case)
  obtain ⟨⟨r', ref'⟩, h'⟩ := C30_success (domain := "global") (variant := variant) (eos := "Wright")
    (rhozero := fin 1035) (strict := false) twiceGood exC hv (Or.inl wright_case) (by simp)
    (fun h => absurd h (by decide))
  obtain ⟨a, a', _, _, _, _, _, _, _, _, h1, h2, -, -, -, -, -, -, -, -, h3⟩ := C121_global h h'
    (c := 2) (q := 2) two_pos two_pos twiceOther exC (by decide) exGood.hvol twiceGood.hvol exGood.harea
    twiceGood.harea ⟨rfl, fun _ => rfl⟩ ⟨rfl, fun _ => rfl⟩
  exact ⟨r, r', ref, ref', a, a', h, h', h1, h2, fun e => (h3 e).2.2.2.2⟩

/-- … and local heights agree. -/
example (variant : String) (hv : variant ∈ ["thermosteric", "halosteric", "steric"]) :
    ∃ r r' ref ref' a a',
      steric exD .none .none none (fin 1035) (DA.scalar (fin 101325)) "Wright" variant "local" true
        = .ok (r, ref) ∧
      steric twiceD .none .none none (fin 1035) (DA.scalar (fin 101325)) "Wright" variant "local" false
        = .ok (r', ref') ∧ r.getVar variant = .ok a ∧ r'.getVar variant = .ok a' ∧
      ∀ e, a'.get e = a.get e := by
  obtain ⟨⟨r, ref⟩, h⟩ := exRun variant "local" "Wright" hv (Or.inl wright_case)
  obtain ⟨⟨r', ref'⟩, h'⟩ := C30_success (domain := "local") (variant := variant) (eos := "Wright")
    (rhozero := fin 1035) (strict := false) twiceGood exC hv (Or.inl wright_case) (by simp)
    (fun h => absurd h (by decide))
  obtain ⟨a, a', _, _, h1, h2, -, -, h3⟩ := C121_local h h' (by decide) twiceOther exC (by decide) (by decide)
    exGood.hvol twiceGood.hvol ⟨rfl, fun e => by
      show fin 2 * (if e "xh" = 0 then fin 1 else nan) = nan ↔ (if e "xh" = 0 then fin 1 else nan) = (nan : Fl ℝ)
      split
      · simp
      · exact ⟨fun _ => rfl, fun _ => rfl⟩⟩
  exact ⟨r, r', ref, ref', a, a', h, h', h1, h2, fun e => (h3 e).1⟩

end

end Momlevel.Props
