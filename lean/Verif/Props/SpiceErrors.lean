import Verif.Props.SpiceSign

/-! # C167: errors in temperature and salinity, and spiciness -/

set_option linter.unusedSectionVars false

namespace Momlevel.Props
open Momlevel Momlevel.Spice Momlevel.Fl

/-! Bounds of the derivatives over -2 to 35 °C and salinities 33 to 37: distance from the bound in Bernstein form, as
in `SpiceSign.lean`. -/

theorem spiceT_open_lo_form {p q r s : ℝ} (hp : 0 ≤ p) (hq : 0 ≤ q) (hr : 0 ≤ r) (hs : 0 ≤ s) :
    0 ≤ 6345547520*(p^0*q^4*r^0*s^4) + 123464077440*(p^0*q^4*r^1*s^3) + 362530252160*(p^0*q^4*r^2*s^2)
      + 430431646080*(p^0*q^4*r^3*s^1) + 101663088000*(p^0*q^4*r^4*s^0) + 5291966736640*(p^1*q^3*r^0*s^4)
      + 21923912144640*(p^1*q^3*r^1*s^3) + 33945964547840*(p^1*q^3*r^2*s^2) + 20145407223040*(p^1*q^3*r^3*s^1)
      + 5451406115840*(p^1*q^3*r^4*s^0) + 14862278072400*(p^2*q^2*r^0*s^4) + 55757395910400*(p^2*q^2*r^1*s^3)
      + 76309723322400*(p^2*q^2*r^2*s^2) + 56159016566400*(p^2*q^2*r^3*s^1) + 13448664368400*(p^2*q^2*r^4*s^0)
      + 11106544608000*(p^3*q^1*r^0*s^4) + 46266347168000*(p^3*q^1*r^1*s^3) + 74749534048000*(p^3*q^1*r^2*s^2)
      + 46123103008000*(p^3*q^1*r^3*s^1) + 11658410368000*(p^3*q^1*r^4*s^0) + 3836942432500*(p^4*q^0*r^0*s^4)
      + 14854884795000*(p^4*q^0*r^1*s^3) + 21125973370000*(p^4*q^0*r^2*s^2) + 14664405245000*(p^4*q^0*r^3*s^1)
      + 3665304157500*(p^4*q^0*r^4*s^0) := by
  positivity

theorem spiceT_open_hi_form {p q r s : ℝ} (hp : 0 ≤ p) (hq : 0 ≤ q) (hr : 0 ≤ r) (hs : 0 ≤ s) :
    0 ≤ 3913654452480*(p^0*q^4*r^0*s^4) + 15556535922560*(p^0*q^4*r^1*s^3) + 23157469747840*(p^0*q^4*r^2*s^2)
      + 15249568353920*(p^0*q^4*r^3*s^1) + 3818336912000*(p^0*q^4*r^4*s^0) + 10388033263360*(p^1*q^3*r^0*s^4)
      + 40796087855360*(p^1*q^3*r^1*s^3) + 60134035452160*(p^1*q^3*r^2*s^2) + 42574592776960*(p^1*q^3*r^3*s^1)
      + 10228593884160*(p^1*q^3*r^4*s^0) + 8657721927600*(p^2*q^2*r^0*s^4) + 38322604089600*(p^2*q^2*r^1*s^3)
      + 64810276677600*(p^2*q^2*r^2*s^2) + 37920983433600*(p^2*q^2*r^3*s^1) + 10071335631600*(p^2*q^2*r^4*s^0)
      + 4573455392000*(p^3*q^1*r^0*s^4) + 16453652832000*(p^3*q^1*r^1*s^3) + 19330465952000*(p^3*q^1*r^2*s^2)
      + 16596896992000*(p^3*q^1*r^3*s^1) + 4021589632000*(p^3*q^1*r^4*s^0) + 83057567500*(p^4*q^0*r^0*s^4)
      + 825115205000*(p^4*q^0*r^1*s^3) + 2394026630000*(p^4*q^0*r^2*s^2) + 1015594755000*(p^4*q^0*r^3*s^1)
      + 254695842500*(p^4*q^0*r^4*s^0) := by
  positivity

theorem spiceT_open_range {x y : ℝ} (hx : -2 ≤ x ∧ x ≤ 35) (hy : -2 ≤ y ∧ y ≤ 2) :
    180000000000 ≤ val2 x y spiceT ∧ val2 x y spiceT ≤ 4100000000000 := by
  have hp : 0 ≤ (x - -2) / 37 := by linarith [hx.1]
  have hq : 0 ≤ 1 - (x - -2) / 37 := by linarith [hx.2]
  have hr : 0 ≤ (y - -2) / 4 := by linarith [hy.1]
  have hs : 0 ≤ 1 - (y - -2) / 4 := by linarith [hy.2]
  constructor
  · rw [← sub_nonneg]
    refine (spiceT_open_lo_form hp hq hr hs).trans_eq ?_
    simp only [val2, val1, spiceT]
    push_cast
    ring
  · rw [← sub_nonneg]
    refine (spiceT_open_hi_form hp hq hr hs).trans_eq ?_
    simp only [val2, val1, spiceT]
    push_cast
    ring

theorem spiceS_open_lo_form {p q r s : ℝ} (hp : 0 ≤ p) (hq : 0 ≤ q) (hr : 0 ≤ r) (hs : 0 ≤ s) :
    0 ≤ 1174486241792*(p^0*q^5*r^0*s^3) + 3108440280576*(p^0*q^5*r^1*s^2) + 3043714747392*(p^0*q^5*r^2*s^1)
      + 617815470080*(p^0*q^5*r^3*s^0) + 6779688667040*(p^1*q^4*r^0*s^3) + 18822882918880*(p^1*q^4*r^1*s^2)
      + 20456242250720*(p^1*q^4*r^2*s^1) + 2869118880160*(p^1*q^4*r^3*s^0) + 17056086375200*(p^2*q^3*r^0*s^3)
      + 47451656898400*(p^2*q^3*r^1*s^2) + 6429837653600*(p^2*q^3*r^2*s^1) + 13416742496800*(p^2*q^3*r^3*s^0)
      + 5673294206000*(p^3*q^2*r^0*s^3) + 2272371882000*(p^3*q^2*r^1*s^2) + 55324113738000*(p^3*q^2*r^2*s^1)
      + 6126635294000*(p^3*q^2*r^3*s^0) + 7092037305000*(p^4*q^1*r^0*s^3) + 25879997435000*(p^4*q^1*r^1*s^2)
      + 1924489015000*(p^4*q^1*r^2*s^1) + 4243937845000*(p^4*q^1*r^3*s^0) + 506570331250*(p^5*q^0*r^0*s^3)
      + 897490343750*(p^5*q^0*r^1*s^2) + 3606245443750*(p^5*q^0*r^2*s^1) + 842888631250*(p^5*q^0*r^3*s^0) := by
  positivity

theorem spiceS_open_hi_form {p q r s : ℝ} (hp : 0 ≤ p) (hq : 0 ≤ q) (hr : 0 ≤ r) (hs : 0 ≤ s) :
    0 ≤ 725513758208*(p^0*q^5*r^0*s^3) + 2591559719424*(p^0*q^5*r^1*s^2) + 2656285252608*(p^0*q^5*r^2*s^1)
      + 1282184529920*(p^0*q^5*r^3*s^0) + 2720311332960*(p^1*q^4*r^0*s^3) + 9677117081120*(p^1*q^4*r^1*s^2)
      + 8043757749280*(p^1*q^4*r^2*s^1) + 6630881119840*(p^1*q^4*r^3*s^0) + 1943913624800*(p^2*q^3*r^0*s^3)
      + 9548343101600*(p^2*q^3*r^1*s^2) + 50570162346400*(p^2*q^3*r^2*s^1) + 5583257503200*(p^2*q^3*r^3*s^0)
      + 13326705794000*(p^3*q^2*r^0*s^3) + 54727628118000*(p^3*q^2*r^1*s^2) + 1675886262000*(p^3*q^2*r^2*s^1)
      + 12873364706000*(p^3*q^2*r^3*s^0) + 2407962695000*(p^4*q^1*r^0*s^3) + 2620002565000*(p^4*q^1*r^1*s^2)
      + 26575510985000*(p^4*q^1*r^2*s^1) + 5256062155000*(p^4*q^1*r^3*s^0) + 1393429668750*(p^5*q^0*r^0*s^3)
      + 4802509656250*(p^5*q^0*r^1*s^2) + 2093754556250*(p^5*q^0*r^2*s^1) + 1057111368750*(p^5*q^0*r^3*s^0) := by
  positivity

theorem spiceS_open_range {x y : ℝ} (hx : -2 ≤ x ∧ x ≤ 35) (hy : -2 ≤ y ∧ y ≤ 2) :
    6700000000000 ≤ val2 x y spiceS ∧ val2 x y spiceS ≤ 8600000000000 := by
  have hp : 0 ≤ (x - -2) / 37 := by linarith [hx.1]
  have hq : 0 ≤ 1 - (x - -2) / 37 := by linarith [hx.2]
  have hr : 0 ≤ (y - -2) / 4 := by linarith [hy.1]
  have hs : 0 ≤ 1 - (y - -2) / 4 := by linarith [hy.2]
  constructor
  · rw [← sub_nonneg]
    refine (spiceS_open_lo_form hp hq hr hs).trans_eq ?_
    simp only [val2, val1, spiceS]
    push_cast
    ring
  · rw [← sub_nonneg]
    refine (spiceS_open_hi_form hp hq hr hs).trans_eq ?_
    simp only [val2, val1, spiceS]
    push_cast
    ring

theorem poly_slope_T {t t' s : ℝ} (h : t ≤ t') (h1 : -2 ≤ t) (h2 : t' ≤ 35) (hs : 33 ≤ s ∧ s ≤ 37) :
    0.018 * (t' - t) ≤ Spec.Flament.poly t' s - Spec.Flament.poly t s ∧
      Spec.Flament.poly t' s - Spec.Flament.poly t s ≤ 0.41 * (t' - t) := by
  have hc : ContinuousOn (fun t => Spec.Flament.poly t s) (Set.Icc (-2) 35) :=
    fun x _ => (poly_deriv_T x s).continuousAt.continuousWithinAt
  have hd : DifferentiableOn ℝ (fun t => Spec.Flament.poly t s) (interior (Set.Icc (-2) 35)) :=
    fun x _ => (poly_deriv_T x s).differentiableAt.differentiableWithinAt
  have b : ∀ x ∈ interior (Set.Icc (-2 : ℝ) 35), _ := fun x hx =>
    spiceT_open_range (x := x) (y := s - 35) (by rw [interior_Icc] at hx; exact ⟨hx.1.le, hx.2.le⟩)
      ⟨by linarith [hs.1], by linarith [hs.2]⟩
  exact ⟨(convex_Icc (-2 : ℝ) 35).mul_sub_le_image_sub_of_le_deriv hc hd
      (fun x hx => by rw [(poly_deriv_T x s).deriv]; linarith [(b x hx).1]) t ⟨h1, by linarith⟩ t' ⟨by linarith, h2⟩ h,
    (convex_Icc (-2 : ℝ) 35).image_sub_le_mul_sub_of_deriv_le hc hd
      (fun x hx => by rw [(poly_deriv_T x s).deriv]; linarith [(b x hx).2]) t ⟨h1, by linarith⟩ t' ⟨by linarith, h2⟩ h⟩

theorem poly_slope_S {t s s' : ℝ} (h : s ≤ s') (h1 : 33 ≤ s) (h2 : s' ≤ 37) (ht : -2 ≤ t ∧ t ≤ 35) :
    0.67 * (s' - s) ≤ Spec.Flament.poly t s' - Spec.Flament.poly t s ∧
      Spec.Flament.poly t s' - Spec.Flament.poly t s ≤ 0.86 * (s' - s) := by
  have hc : ContinuousOn (fun s => Spec.Flament.poly t s) (Set.Icc 33 37) :=
    fun x _ => (poly_deriv_S t x).continuousAt.continuousWithinAt
  have hd : DifferentiableOn ℝ (fun s => Spec.Flament.poly t s) (interior (Set.Icc 33 37)) :=
    fun x _ => (poly_deriv_S t x).differentiableAt.differentiableWithinAt
  have b : ∀ x ∈ interior (Set.Icc (33 : ℝ) 37), _ := fun x hx =>
    spiceS_open_range (x := t) (y := x - 35) ht
      (by rw [interior_Icc] at hx; exact ⟨by linarith [hx.1], by linarith [hx.2]⟩)
  exact ⟨(convex_Icc (33 : ℝ) 37).mul_sub_le_image_sub_of_le_deriv hc hd
      (fun x hx => by rw [(poly_deriv_S t x).deriv]; linarith [(b x hx).1]) s ⟨h1, by linarith⟩ s' ⟨by linarith, h2⟩ h,
    (convex_Icc (33 : ℝ) 37).image_sub_le_mul_sub_of_deriv_le hc hd
      (fun x hx => by rw [(poly_deriv_S t x).deriv]; linarith [(b x hx).2]) s ⟨h1, by linarith⟩ s' ⟨by linarith, h2⟩ h⟩

theorem poly_abs_T {t t' s : ℝ} (h1 : -2 ≤ t ∧ t ≤ 35) (h2 : -2 ≤ t' ∧ t' ≤ 35) (hs : 33 ≤ s ∧ s ≤ 37) :
    |Spec.Flament.poly t' s - Spec.Flament.poly t s| ≤ 0.41 * |t' - t| := by
  rcases le_total t t' with h | h
  · have b := poly_slope_T h h1.1 h2.2 hs
    rw [abs_of_nonneg (a := t' - t) (by linarith), abs_le]
    constructor <;> linarith [b.1, b.2]
  · have b := poly_slope_T h h2.1 h1.2 hs
    rw [abs_of_nonpos (a := t' - t) (by linarith), abs_le]
    constructor <;> linarith [b.1, b.2]

theorem poly_abs_S {t s s' : ℝ} (h1 : 33 ≤ s ∧ s ≤ 37) (h2 : 33 ≤ s' ∧ s' ≤ 37) (ht : -2 ≤ t ∧ t ≤ 35) :
    |Spec.Flament.poly t s' - Spec.Flament.poly t s| ≤ 0.86 * |s' - s| := by
  rcases le_total s s' with h | h
  · have b := poly_slope_S h h1.1 h2.2 ht
    rw [abs_of_nonneg (a := s' - s) (by linarith), abs_le]
    constructor <;> linarith [b.1, b.2]
  · have b := poly_slope_S h h2.1 h1.2 ht
    rw [abs_of_nonpos (a := s' - s) (by linarith), abs_le]
    constructor <;> linarith [b.1, b.2]

/-- **C167 (errors)** At -2 to 35 °C and salinities 33 to 37, differences in temperature and salinity change the
spiciness by at most 0.41 per degree and 0.86 per unit of salinity. -/
theorem C167_errors {th th' so so' r r' : DA (Fl ℝ)} (hp : th.dims.Perm so.dims) (hp' : th'.dims.Perm so'.dims)
    (hn : th.dimNames.Nodup) (hn' : th'.dimNames.Nodup) (ht : th.WF) (ht' : th'.WF) (hs : so.WF) (hs' : so'.WF)
    (hr : calcSpice th so = .ok r) (hr' : calcSpice th' so' = .ok r') {e : Env} (he : th.InBounds e)
    (he' : th'.InBounds e) {t t' s s' : ℝ} (h1 : th.get e = fin t) (h2 : th'.get e = fin t') (h3 : so.get e = fin s)
    (h4 : so'.get e = fin s') (b1 : -2 ≤ t ∧ t ≤ 35) (b2 : -2 ≤ t' ∧ t' ≤ 35) (b3 : 33 ≤ s ∧ s ≤ 37)
    (b4 : 33 ≤ s' ∧ s' ≤ 37) :
    ∃ x y, r.get e = fin x ∧ r'.get e = fin y ∧ |y - x| ≤ 0.41 * |t' - t| + 0.86 * |s' - s| := by
  refine ⟨_, _, spice_fin hp hn ht hs hr he h1 h3, spice_fin hp' hn' ht' hs' hr' he' h2 h4, ?_⟩
  have e1 := abs_le.1 (poly_abs_T b1 b2 b4)
  have e2 := abs_le.1 (poly_abs_S b3 b4 b1)
  rw [abs_le]
  constructor <;> linarith [e1.1, e1.2, e2.1, e2.2]

/-- **C167 (warming and salt)** Warming at fixed salinity raises the spiciness by 0.018 to 0.41 per degree, salt at
fixed temperature by 0.67 to 0.86 per unit. -/
theorem C167_slopes {th th' so so' r rT rS : DA (Fl ℝ)} (hp : th.dims.Perm so.dims) (hp' : th'.dims.Perm so.dims)
    (hq : th.dims.Perm so'.dims) (hn : th.dimNames.Nodup) (hn' : th'.dimNames.Nodup) (ht : th.WF) (ht' : th'.WF)
    (hs : so.WF) (hs' : so'.WF)
    (hr : calcSpice th so = .ok r) (hT : calcSpice th' so = .ok rT) (hS : calcSpice th so' = .ok rS)
    {e : Env} (he : th.InBounds e) (he' : th'.InBounds e)
    {t t' s s' : ℝ} (h1 : th.get e = fin t) (h2 : th'.get e = fin t') (h3 : so.get e = fin s)
    (h4 : so'.get e = fin s') (b1 : -2 ≤ t) (b2 : t ≤ t') (b3 : t' ≤ 35) (c1 : 33 ≤ s) (c2 : s ≤ s') (c3 : s' ≤ 37) :
    ∃ x y z, r.get e = fin x ∧ rT.get e = fin y ∧ rS.get e = fin z ∧
      (0.018 * (t' - t) ≤ y - x ∧ y - x ≤ 0.41 * (t' - t)) ∧ (0.67 * (s' - s) ≤ z - x ∧ z - x ≤ 0.86 * (s' - s)) :=
  ⟨_, _, _, spice_fin hp hn ht hs hr he h1 h3, spice_fin hp' hn' ht' hs hT he' h2 h3, spice_fin hq hn ht hs' hS he h1 h4,
    poly_slope_T b2 b1 b3 ⟨c1, by linarith⟩, poly_slope_S c2 c1 c3 ⟨b1, by linarith⟩⟩

/-- **C167 (equal spiciness)** Two waters of the same spiciness: the warmer one is fresher, by between 0.02 and 0.62 per
degree. -/
theorem C167_compensated {th th' so so' r r' : DA (Fl ℝ)} (hp : th.dims.Perm so.dims) (hp' : th'.dims.Perm so'.dims)
    (hn : th.dimNames.Nodup) (hn' : th'.dimNames.Nodup) (ht : th.WF) (ht' : th'.WF) (hs : so.WF) (hs' : so'.WF)
    (hr : calcSpice th so = .ok r) (hr' : calcSpice th' so' = .ok r') {e : Env} (he : th.InBounds e)
    (he' : th'.InBounds e) {t t' s s' : ℝ} (h1 : th.get e = fin t) (h2 : th'.get e = fin t') (h3 : so.get e = fin s)
    (h4 : so'.get e = fin s') (b1 : -2 ≤ t) (b2 : t ≤ t') (b3 : t' ≤ 35) (c1 : 33 ≤ s ∧ s ≤ 37)
    (c2 : 33 ≤ s' ∧ s' ≤ 37) (heq : r.get e = r'.get e) :
    0.02 * (t' - t) ≤ s - s' ∧ s - s' ≤ 0.62 * (t' - t) := by
  rw [spice_fin hp hn ht hs hr he h1 h3, spice_fin hp' hn' ht' hs' hr' he' h2 h4] at heq
  injection heq with heq
  have w := poly_slope_T b2 b1 b3 c2
  rcases le_total s' s with h | h
  · have v := poly_slope_S h c2.1 c1.2 (t := t) ⟨b1, by linarith⟩
    constructor <;> linarith [w.1, w.2, v.1, v.2]
  · have v := poly_slope_S h c1.1 c2.2 (t := t) ⟨b1, by linarith⟩
    constructor <;> linarith [w.1, w.2, v.1, v.2]

/-- A 2×2 field at 10 °C and salinity 35, and one with errors of 0.1 degrees and 0.05 in salinity. -/
example : let f : ℝ → DA (Fl ℝ) := fun c => ⟨[("yh", 2), ("xh", 2)], fun _ => fin c⟩
    ∃ r r', calcSpice (f 10) (f 35) = .ok r ∧ calcSpice (f 10.1) (f 34.95) = .ok r' ∧
      ∃ x y, r.get (fun _ => 0) = fin x ∧ r'.get (fun _ => 0) = fin y ∧ |y - x| ≤ 0.084 := by
  intro f
  have wf : ∀ c, (f c).WF := fun c e e' h => rfl
  have pm : ∀ c c', (f c).dims.Perm (f c').dims := fun c c' => List.Perm.refl _
  have gv : ∀ c, (f c).get (fun _ => 0) = fin c := fun c => rfl
  have nd : ∀ c, (f c).dimNames.Nodup := fun c => by simp [f, DA.dimNames]
  have ib : ∀ c, (f c).InBounds (fun _ => 0) := fun c p hp => by
    simp only [f, List.mem_cons, List.not_mem_nil, or_false] at hp
    rcases hp with rfl | rfl <;> norm_num
  obtain ⟨r, hr, -⟩ := C07_calc_spice (f 10) (f 35) (wf _) (wf _) (nd _) (pm _ _)
  obtain ⟨r', hr', -⟩ := C07_calc_spice (f 10.1) (f 34.95) (wf _) (wf _) (nd _) (pm _ _)
  obtain ⟨x, y, hx, hy, h⟩ := C167_errors (pm _ _) (pm _ _) (nd _) (nd _) (wf _) (wf _) (wf _) (wf _) hr hr'
    (ib _) (ib _) (gv _) (gv _) (gv _) (gv _) (by norm_num) (by norm_num) (by norm_num) (by norm_num)
  refine ⟨r, r', hr, hr', x, y, hx, hy, h.trans ?_⟩
  norm_num [abs_of_pos, abs_of_neg]

/-- Warming from 10 to 12 °C, and salt from 35 to 36. -/
example : let f : ℝ → DA (Fl ℝ) := fun c => ⟨[("yh", 2), ("xh", 2)], fun _ => fin c⟩
    ∃ r rT rS, calcSpice (f 10) (f 35) = .ok r ∧ calcSpice (f 12) (f 35) = .ok rT ∧ calcSpice (f 10) (f 36) = .ok rS ∧
      ∃ x y z, r.get (fun _ => 0) = fin x ∧ rT.get (fun _ => 0) = fin y ∧ rS.get (fun _ => 0) = fin z ∧
        0.036 ≤ y - x ∧ 0.67 ≤ z - x := by
  intro f
  have wf : ∀ c, (f c).WF := fun c e e' h => rfl
  have pm : ∀ c c', (f c).dims.Perm (f c').dims := fun c c' => List.Perm.refl _
  have gv : ∀ c, (f c).get (fun _ => 0) = fin c := fun c => rfl
  have nd : ∀ c, (f c).dimNames.Nodup := fun c => by simp [f, DA.dimNames]
  have ib : ∀ c, (f c).InBounds (fun _ => 0) := fun c p hp => by
    simp only [f, List.mem_cons, List.not_mem_nil, or_false] at hp
    rcases hp with rfl | rfl <;> norm_num
  obtain ⟨r, hr, -⟩ := C07_calc_spice (f 10) (f 35) (wf _) (wf _) (nd _) (pm _ _)
  obtain ⟨rT, hT, -⟩ := C07_calc_spice (f 12) (f 35) (wf _) (wf _) (nd _) (pm _ _)
  obtain ⟨rS, hS, -⟩ := C07_calc_spice (f 10) (f 36) (wf _) (wf _) (nd _) (pm _ _)
  obtain ⟨x, y, z, hx, hy, hz, h⟩ := C167_slopes (pm _ _) (pm _ _) (pm _ _) (nd _) (nd _) (wf _)
    (wf _) (wf _) (wf _) hr hT hS (ib _) (ib _) (gv _) (gv _) (gv _) (gv _) (by norm_num) (by norm_num) (by norm_num) (by norm_num)
    (by norm_num) (by norm_num)
  exact ⟨r, rT, rS, hr, hT, hS, x, y, z, hx, hy, hz, by linarith [h.1.1], by linarith [h.2.1]⟩

/-- Waters of equal spiciness exist at 10 and 12 °C (by the intermediate value theorem), and the warmer is fresher. -/
example : ∃ s ∈ Set.Icc (33 : ℝ) 37, Spec.Flament.poly 12 s = Spec.Flament.poly 10 35 ∧ 0.04 ≤ 35 - s ∧ 35 - s ≤ 1.24 := by
  have hc : ContinuousOn (fun s => Spec.Flament.poly 12 s) (Set.Icc 33 35) :=
    fun x _ => (poly_deriv_S 12 x).continuousAt.continuousWithinAt
  have w := poly_slope_T (t := 10) (t' := 12) (s := 35) (by norm_num) (by norm_num) (by norm_num) (by norm_num)
  have v := poly_slope_S (t := 12) (s := 33) (s' := 35) (by norm_num) (by norm_num) (by norm_num) (by norm_num)
  obtain ⟨s, hs, he⟩ := intermediate_value_Icc (by norm_num) hc
    (show Spec.Flament.poly 10 35 ∈ Set.Icc _ _ from ⟨by linarith [w.1, v.1], by linarith [w.1]⟩)
  let f : ℝ → DA (Fl ℝ) := fun c => ⟨[("yh", 2), ("xh", 2)], fun _ => fin c⟩
  have wf : ∀ c, (f c).WF := fun c e e' h => rfl
  have pm : ∀ c c', (f c).dims.Perm (f c').dims := fun c c' => List.Perm.refl _
  have gv : ∀ c, (f c).get (fun _ => 0) = fin c := fun c => rfl
  have nd : ∀ c, (f c).dimNames.Nodup := fun c => by simp [f, DA.dimNames]
  have ib : ∀ c, (f c).InBounds (fun _ => 0) := fun c p hp => by
    simp only [f, List.mem_cons, List.not_mem_nil, or_false] at hp
    rcases hp with rfl | rfl <;> norm_num
  obtain ⟨r, hr, -⟩ := C07_calc_spice (f 10) (f 35) (wf _) (wf _) (nd _) (pm _ _)
  obtain ⟨r', hr', -⟩ := C07_calc_spice (f 12) (f s) (wf _) (wf _) (nd _) (pm _ _)
  have eq : r.get (fun _ => 0) = r'.get (fun _ => 0) := by
    rw [spice_fin (pm _ _) (nd _) (wf _) (wf _) hr (ib _) (gv _) (gv _),
      spice_fin (pm _ _) (nd _) (wf _) (wf _) hr' (ib _) (gv _) (gv _)]
    exact congrArg fin he.symm
  have b := C167_compensated (pm _ _) (pm _ _) (nd _) (nd _) (wf _) (wf _) (wf _) (wf _) hr hr'
    (ib _) (ib _) (gv _) (gv _) (gv _) (gv _) (by norm_num) (by norm_num) (by norm_num) (by norm_num) ⟨hs.1, by linarith [hs.2]⟩ eq
  exact ⟨s, ⟨hs.1, by linarith [hs.2]⟩, he, by linarith [b.1], by linarith [b.2]⟩

end Momlevel.Props
