import Verif.Props.Spice
import Mathlib.Analysis.Calculus.Deriv.Pow
import Mathlib.Analysis.Calculus.Deriv.Add
import Mathlib.Analysis.Calculus.Deriv.Mul
import Mathlib.Analysis.Calculus.Deriv.MeanValue

/-! # C128: spiciness and the temperature and salinity of sea water -/

set_option linter.unusedSectionVars false

namespace Momlevel.Props
open Momlevel Momlevel.Spice Momlevel.Fl

/-- The value of a polynomial given by its coefficients. -/
noncomputable def val1 (x : ℝ) : List ℤ → ℝ
  | [] => 0
  | c :: cs => val1 x cs * x + c

/-- The value of a polynomial in two variables, one row of coefficients for each power of the first. -/
noncomputable def val2 (x y : ℝ) : List (List ℤ) → ℝ
  | [] => 0
  | r :: rs => val2 x y rs * x + val1 y r

/-- `10¹³ ∂π/∂θ` as a polynomial in `θ` and `S - 35`. -/
def spiceT : List (List ℤ) :=
  [[516550000000, 20340000000, -2742000000, -85000000, 136000000],
    [2 * 66478300000, 2 * -2468100000, 2 * -142800000, 2 * 333700000, 2 * 78940000],
    [3 * -540230000, 3 * 73260000, 3 * 70036000, 3 * -30412000, 3 * -10853000],
    [4 * 3949000, 4 * -302900, 4 * -3820900, 4 * 1001200, 4 * 471330],
    [5 * -6360, 5 * -13090, 5 * 60480, 5 * -11409, 5 * -6676]]

/-- `10¹³ ∂π/∂S` -/
def spiceS : List (List ℤ) :=
  [[7744200000000, 2 * -58500000000, 3 * -9840000000, 4 * -2060000000],
    [20340000000, 2 * -2742000000, 3 * -85000000, 4 * 136000000],
    [-2468100000, 2 * -142800000, 3 * 333700000, 4 * 78940000],
    [73260000, 2 * 70036000, 3 * -30412000, 4 * -10853000],
    [-302900, 2 * -3820900, 3 * 1001200, 4 * 471330],
    [-13090, 2 * 60480, 3 * -11409, 4 * -6676]]

/-! Positivity on a rectangle: in the variables that run from 0 to 1 over it, the polynomial is a positive
number plus a sum of products of `p`, `1 - p`, `r`, `1 - r` with positive coefficients (its Bernstein form). -/

theorem spiceT_box1_form {p q r s : ℝ} (hp : 0 ≤ p) (hq : 0 ≤ q) (hr : 0 ≤ r) (hs : 0 ≤ s) :
    0 < ((10000000000 : ℝ)) + (72148805200*(p^0*q^4*r^0*s^4) + 601849039000*(p^0*q^4*r^1*s^3) + 911364753300*(p^0*q^4*r^2*s^2)
       + 733569178990*(p^0*q^4*r^3*s^1) + 218383126300*(p^0*q^4*r^4*s^0) + 8495083312000*(p^1*q^3*r^0*s^4)
       + 22499734945600*(p^1*q^3*r^1*s^3) + 39534036216000*(p^1*q^3*r^2*s^2)
       + 27534977196400*(p^1*q^3*r^3*s^1) + 6841658737240*(p^1*q^3*r^4*s^0)
       + 10132915740000*(p^2*q^2*r^0*s^4) + 89331787824000*(p^2*q^2*r^1*s^3)
       + 113156480718000*(p^2*q^2*r^2*s^2) + 67107280524000*(p^2*q^2*r^3*s^1)
       + 16145468156850*(p^2*q^2*r^4*s^0) + 22074282400000*(p^3*q^1*r^0*s^4)
       + 33139100320000*(p^3*q^1*r^1*s^3) + 65445559980000*(p^3*q^1*r^2*s^2)
       + 51536089330000*(p^3*q^1*r^3*s^1) + 13494881353000*(p^3*q^1*r^4*s^0)
       + 2078653000000*(p^4*q^0*r^0*s^4) + 23097591700000*(p^4*q^0*r^1*s^3)
       + 30274957950000*(p^4*q^0*r^2*s^2) + 17761742575000*(p^4*q^0*r^3*s^1)
       + 4226507905000*(p^4*q^0*r^4*s^0)) := by
  positivity

theorem spiceT_box1 {x y : ℝ} (hx : -2 ≤ x ∧ x ≤ 40) (hy : -5 ≤ y ∧ y ≤ (-1/2)) :
    0 < val2 x y spiceT := by
  have h := spiceT_box1_form (p := (x - -2) / 42) (q := 1 - (x - -2) / 42)
    (r := (y - -5) / (9/2)) (s := 1 - (y - -5) / (9/2))
    (by linarith [hx.1]) (by linarith [hx.2]) (by linarith [hy.1]) (by linarith [hy.2])
  refine lt_of_lt_of_eq h ?_
  simp only [val2, val1, spiceT]
  push_cast
  ring

theorem spiceT_box2_form {p q r s : ℝ} (hp : 0 ≤ p) (hq : 0 ≤ q) (hr : 0 ≤ r) (hs : 0 ≤ s) :
    0 < ((100000000000 : ℝ)) + (128383126300*(p^0*q^4*r^0*s^4) + 653495831410*(p^0*q^4*r^1*s^3) + 1211144710560*(p^0*q^4*r^2*s^2)
       + 869039867920*(p^0*q^4*r^3*s^1) + 49486329280*(p^0*q^4*r^4*s^0) + 6481658737240*(p^1*q^3*r^0*s^4)
       + 25758292701520*(p^1*q^3*r^1*s^3) + 36363982731360*(p^1*q^3*r^2*s^2)
       + 22709763153280*(p^1*q^3*r^3*s^1) + 10458480509440*(p^1*q^3*r^4*s^0)
       + 15605468156850*(p^2*q^2*r^0*s^4) + 59896464730800*(p^2*q^2*r^1*s^3)
       + 94764033338400*(p^2*q^2*r^2*s^2) + 72501749779200*(p^2*q^2*r^3*s^1)
       + 5024509281600*(p^2*q^2*r^4*s^0) + 13134881353000*(p^3*q^1*r^0*s^4)
       + 54982961494000*(p^3*q^1*r^1*s^3) + 77946176472000*(p^3*q^1*r^2*s^2)
       + 40606270936000*(p^3*q^1*r^3*s^1) + 20847708688000*(p^3*q^1*r^4*s^0)
       + 4136507905000*(p^4*q^0*r^0*s^4) + 15690320665000*(p^4*q^0*r^1*s^3)
       + 24600692220000*(p^4*q^0*r^2*s^2) + 19749582160000*(p^4*q^0*r^3*s^1)
       + 2423487280000*(p^4*q^0*r^4*s^0)) := by
  positivity

theorem spiceT_box2 {x y : ℝ} (hx : -2 ≤ x ∧ x ≤ 40) (hy : (-1/2) ≤ y ∧ y ≤ 4) :
    0 < val2 x y spiceT := by
  have h := spiceT_box2_form (p := (x - -2) / 42) (q := 1 - (x - -2) / 42)
    (r := (y - (-1/2)) / (9/2)) (s := 1 - (y - (-1/2)) / (9/2))
    (by linarith [hx.1]) (by linarith [hx.2]) (by linarith [hy.1]) (by linarith [hy.2])
  refine lt_of_lt_of_eq h ?_
  simp only [val2, val1, spiceT]
  push_cast
  ring

theorem spiceS_box1_form {p q r s : ℝ} (hp : 0 ≤ p) (hq : 0 ≤ q) (hr : 0 ≤ r) (hs : 0 ≤ s) :
    0 < ((1000000000000 : ℝ)) + (7590329235680*(p^0*q^5*r^0*s^3) + 18344449201440*(p^0*q^5*r^1*s^2) + 23025221310240*(p^0*q^5*r^2*s^1)
       + 4584456992480*(p^0*q^5*r^3*s^0) + 39239467431000*(p^1*q^4*r^0*s^3)
       + 87157209665000*(p^1*q^4*r^1*s^2) + 128187365233000*(p^1*q^4*r^2*s^1)
       + 17741065879000*(p^1*q^4*r^3*s^0) + 69525267192300*(p^2*q^3*r^0*s^3)
       + 230597356634900*(p^2*q^3*r^1*s^2) + 183321164998900*(p^2*q^3*r^2*s^1)
       + 62433866596300*(p^2*q^3*r^3*s^0) + 71674230832175*(p^3*q^2*r^0*s^3)
       + 224236706231025*(p^3*q^2*r^1*s^2) + 178927508336025*(p^3*q^2*r^2*s^1)
       + 68095498237175*(p^3*q^2*r^3*s^0) + (297809178097775/8)*(p^4*q^1*r^0*s^3)
       + (827659050885825/8)*(p^4*q^1*r^1*s^2) + (767428895541825/8)*(p^4*q^1*r^2*s^1)
       + (264318013813775/8)*(p^4*q^1*r^3*s^0) + (238984754134155/32)*(p^5*q^0*r^0*s^3)
       + (632431824256365/32)*(p^5*q^0*r^1*s^2) + (638086353657165/32)*(p^5*q^0*r^2*s^1)
       + (205313852302955/32)*(p^5*q^0*r^3*s^0)) := by
  positivity

theorem spiceS_box1 {x y : ℝ} (hx : -2 ≤ x ∧ x ≤ (33/2)) (hy : -5 ≤ y ∧ y ≤ 5) :
    0 < val2 x y spiceS := by
  have h := spiceS_box1_form (p := (x - -2) / (37/2)) (q := 1 - (x - -2) / (37/2))
    (r := (y - -5) / 10) (s := 1 - (y - -5) / 10)
    (by linarith [hx.1]) (by linarith [hx.2]) (by linarith [hy.1]) (by linarith [hy.2])
  refine lt_of_lt_of_eq h ?_
  simp only [val2, val1, spiceS]
  push_cast
  ring

theorem spiceS_box2_form {p q r s : ℝ} (hp : 0 ≤ p) (hq : 0 ≤ q) (hr : 0 ≤ r) (hs : 0 ≤ s) :
    0 < ((1000000000000 : ℝ)) + ((238984754134155/32)*(p^0*q^5*r^0*s^3) + (632431824256365/32)*(p^0*q^5*r^1*s^2)
       + (638086353657165/32)*(p^0*q^5*r^2*s^1) + (205313852302955/32)*(p^0*q^5*r^3*s^0)
       + (599305414475225/16)*(p^1*q^4*r^0*s^3) + (1506841019510175/16)*(p^1*q^4*r^1*s^2)
       + (1655573977202175/16)*(p^1*q^4*r^2*s^1) + (497933233887225/16)*(p^1*q^4*r^3*s^0)
       + (290383981608375/4)*(p^2*q^3*r^0*s^3) + (748469742662625/4)*(p^2*q^3*r^1*s^2)
       + (836426219462625/4)*(p^2*q^3*r^2*s^1) + (241679199208375/4)*(p^2*q^3*r^3*s^0)
       + (129108937685625/2)*(p^3*q^2*r^0*s^3) + (425850577469375/2)*(p^3*q^2*r^1*s^2)
       + (366346165069375/2)*(p^3*q^2*r^2*s^1) + (132939424285625/2)*(p^3*q^2*r^3*s^0)
       + (54908683184375/2)*(p^4*q^1*r^0*s^3) + (252103229990625/2)*(p^4*q^1*r^1*s^2)
       + (135066214490625/2)*(p^4*q^1*r^2*s^1) + (82328307684375/2)*(p^4*q^1*r^3*s^0)
       + 9547781453125*(p^5*q^0*r^0*s^3) + 4587915921875*(p^5*q^0*r^1*s^2) + 34713478421875*(p^5*q^0*r^2*s^1)
       + 2604018953125*(p^5*q^0*r^3*s^0)) := by
  positivity

theorem spiceS_box2 {x y : ℝ} (hx : (33/2) ≤ x ∧ x ≤ 35) (hy : -5 ≤ y ∧ y ≤ 5) :
    0 < val2 x y spiceS := by
  have h := spiceS_box2_form (p := (x - (33/2)) / (37/2)) (q := 1 - (x - (33/2)) / (37/2))
    (r := (y - -5) / 10) (s := 1 - (y - -5) / 10)
    (by linarith [hx.1]) (by linarith [hx.2]) (by linarith [hy.1]) (by linarith [hy.2])
  refine lt_of_lt_of_eq h ?_
  simp only [val2, val1, spiceS]
  push_cast
  ring


theorem spiceT_pos {t s : ℝ} (ht : -2 ≤ t ∧ t ≤ 40) (hs : 30 ≤ s ∧ s ≤ 39) : 0 < val2 t (s - 35) spiceT := by
  rcases le_total (s - 35) (-1/2) with h | h
  · exact spiceT_box1 ht ⟨by linarith [hs.1], by linarith⟩
  · exact spiceT_box2 ht ⟨by linarith, by linarith [hs.2]⟩

theorem spiceS_pos {t s : ℝ} (ht : -2 ≤ t ∧ t ≤ 35) (hs : 30 ≤ s ∧ s ≤ 40) : 0 < val2 t (s - 35) spiceS := by
  rcases le_total t (33/2) with h | h
  · exact spiceS_box1 ⟨ht.1, h⟩ ⟨by linarith [hs.1], by linarith [hs.2]⟩
  · exact spiceS_box2 ⟨h, ht.2⟩ ⟨by linarith [hs.1], by linarith [hs.2]⟩

theorem poly_deriv_T (t s : ℝ) :
    HasDerivAt (fun t => Spec.Flament.poly t s) (val2 t (s - 35) spiceT / 10 ^ 13) t := by
  unfold Spec.Flament.poly
  have h : HasDerivAt (fun t => ∑ i ∈ Finset.range 6, ∑ j ∈ Finset.range 5,
      (((Spec.Flament.b.getD i []).getD j 0 : ℤ) : ℝ) / 10 ^ 13 * t ^ i * (s - 35) ^ j)
      (∑ i ∈ Finset.range 6, ∑ j ∈ Finset.range 5,
      (((Spec.Flament.b.getD i []).getD j 0 : ℤ) : ℝ) / 10 ^ 13 * (i * t ^ (i - 1)) * (s - 35) ^ j) t :=
    HasDerivAt.fun_sum (fun i _ => HasDerivAt.fun_sum (fun j _ =>
      ((hasDerivAt_pow i t).const_mul _).mul_const _))
  refine h.congr_deriv ?_
  simp only [Finset.sum_range_succ, Finset.sum_range_zero, Spec.Flament.b, List.getD_cons_zero, List.getD_cons_succ,
    spiceT, val2, val1]
  push_cast
  ring

theorem poly_deriv_S (t s : ℝ) :
    HasDerivAt (fun s => Spec.Flament.poly t s) (val2 t (s - 35) spiceS / 10 ^ 13) s := by
  unfold Spec.Flament.poly
  have h : HasDerivAt (fun s => ∑ i ∈ Finset.range 6, ∑ j ∈ Finset.range 5,
      (((Spec.Flament.b.getD i []).getD j 0 : ℤ) : ℝ) / 10 ^ 13 * t ^ i * (s - 35) ^ j)
      (∑ i ∈ Finset.range 6, ∑ j ∈ Finset.range 5,
      (((Spec.Flament.b.getD i []).getD j 0 : ℤ) : ℝ) / 10 ^ 13 * t ^ i * (j * (s - 35) ^ (j - 1) * 1)) s :=
    HasDerivAt.fun_sum (fun i _ => HasDerivAt.fun_sum (fun j _ =>
      (((hasDerivAt_id s).sub_const 35).pow j).const_mul _))
  refine h.congr_deriv ?_
  simp only [Finset.sum_range_succ, Finset.sum_range_zero, Spec.Flament.b, List.getD_cons_zero, List.getD_cons_succ,
    spiceS, val2, val1]
  push_cast
  ring

/-- At fixed salinity between 30 and 39, spiciness rises with temperature between -2 °C and 40 °C. -/
theorem poly_lt_T {t t' s : ℝ} (h : t < t') (h1 : -2 ≤ t) (h2 : t' ≤ 40) (hs : 30 ≤ s ∧ s ≤ 39) :
    Spec.Flament.poly t s < Spec.Flament.poly t' s := by
  have hm : StrictMonoOn (fun t => Spec.Flament.poly t s) (Set.Icc (-2) 40) := by
    refine strictMonoOn_of_deriv_pos (convex_Icc _ _)
      (fun x _ => (poly_deriv_T x s).continuousAt.continuousWithinAt) (fun x hx => ?_)
    rw [interior_Icc] at hx
    rw [(poly_deriv_T x s).deriv]
    exact div_pos (spiceT_pos ⟨hx.1.le, hx.2.le⟩ hs) (by positivity)
  exact hm ⟨h1, by linarith⟩ ⟨by linarith, h2⟩ h

/-- At fixed temperature between -2 °C and 35 °C, spiciness rises with salinity between 30 and 40. -/
theorem poly_lt_S {t s s' : ℝ} (h : s < s') (h1 : 30 ≤ s) (h2 : s' ≤ 40) (ht : -2 ≤ t ∧ t ≤ 35) :
    Spec.Flament.poly t s < Spec.Flament.poly t s' := by
  have hm : StrictMonoOn (fun s => Spec.Flament.poly t s) (Set.Icc 30 40) := by
    refine strictMonoOn_of_deriv_pos (convex_Icc _ _)
      (fun x _ => (poly_deriv_S t x).continuousAt.continuousWithinAt) (fun x hx => ?_)
    rw [interior_Icc] at hx
    rw [(poly_deriv_S t x).deriv]
    exact div_pos (spiceS_pos ht ⟨hx.1.le, hx.2.le⟩) (by positivity)
  exact hm ⟨h1, by linarith⟩ ⟨by linarith, h2⟩ h

/-- The values of `calc_spice`. -/
theorem spice_fin {th so r : DA (Fl ℝ)} (hp : th.dims.Perm so.dims) (hn : th.dimNames.Nodup) (ht : th.WF) (hs : so.WF)
    (hr : calcSpice th so = .ok r) {e : Env} (he : th.InBounds e) {t s : ℝ} (h1 : th.get e = fin t)
    (h2 : so.get e = fin s) : r.get e = fin (Spec.Flament.poly t s) := by
  obtain ⟨r', hr', -, hv⟩ := C07_calc_spice th so ht hs hn hp
  rw [hr] at hr'
  injection hr' with hr'
  subst hr'
  exact (hv e he).1 t s h1 h2

/-- **C128 (temperature)** Of two fields with the same salinity, the warmer one is spicier wherever the
salinity lies between 30 and 39 and the temperatures between -2 °C and 40 °C. -/
theorem C128_warmer_partial {th th' so r r' : DA (Fl ℝ)} (hp : th.dims.Perm so.dims) (hp' : th'.dims.Perm so.dims)
    (hn : th.dimNames.Nodup) (hn' : th'.dimNames.Nodup) (ht : th.WF) (ht' : th'.WF) (hs : so.WF)
    (hr : calcSpice th so = .ok r) (hr' : calcSpice th' so = .ok r') {e : Env} (he : th.InBounds e)
    (he' : th'.InBounds e) {t t' s : ℝ} (h1 : th.get e = fin t) (h2 : th'.get e = fin t') (h3 : so.get e = fin s)
    (hlt : t < t') (hlo : -2 ≤ t) (hhi : t' ≤ 40) (hso : 30 ≤ s ∧ s ≤ 39) :
    ∃ x y, r.get e = fin x ∧ r'.get e = fin y ∧ x < y :=
  ⟨_, _, spice_fin hp hn ht hs hr he h1 h3, spice_fin hp' hn' ht' hs hr' he' h2 h3, poly_lt_T hlt hlo hhi hso⟩

/-- **C128 (salinity)** Of two fields with the same temperature, the saltier one is spicier wherever the
salinities lie between 30 and 40 and the temperature between -2 °C and 35 °C. -/
theorem C128_saltier_partial {th so so' r r' : DA (Fl ℝ)} (hp : th.dims.Perm so.dims) (hp' : th.dims.Perm so'.dims)
    (hn : th.dimNames.Nodup) (ht : th.WF) (hs : so.WF) (hs' : so'.WF)
    (hr : calcSpice th so = .ok r) (hr' : calcSpice th so' = .ok r') {e : Env} (he : th.InBounds e)
    {t s s' : ℝ} (h1 : th.get e = fin t) (h2 : so.get e = fin s) (h3 : so'.get e = fin s')
    (hlt : s < s') (hlo : 30 ≤ s) (hhi : s' ≤ 40) (htr : -2 ≤ t ∧ t ≤ 35) :
    ∃ x y, r.get e = fin x ∧ r'.get e = fin y ∧ x < y :=
  ⟨_, _, spice_fin hp hn ht hs hr he h1 h2, spice_fin hp' hn ht hs' hr' he h1 h3, poly_lt_S hlt hlo hhi htr⟩

/-- In brackish water (salinity 10) warming from 10 °C to 15 °C lowers the spiciness by 20 units, more than its
whole range in the open ocean: the polynomial is used far outside the range it was fitted for, without warning. -/
theorem C128_brackish :
    ∃ x y : ℝ, spice (.num (fin (10 : ℝ))) (.num (fin 10)) = .ok ⟨[1], [fin x]⟩ ∧
      spice (.num (fin (15 : ℝ))) (.num (fin 10)) = .ok ⟨[1], [fin y]⟩ ∧ y < x - 19 := by
  refine ⟨_, _, C07_scalar 10 10, C07_scalar 15 10, ?_⟩
  unfold Spec.Flament.poly
  simp only [Finset.sum_range_succ, Finset.sum_range_zero, Spec.Flament.b, List.getD_cons_zero, List.getD_cons_succ]
  norm_num

/-- At 10 °C water of salinity 15 is less spicy than water of salinity 5. -/
theorem C128_fresher :
    ∃ x y : ℝ, spice (.num (fin (10 : ℝ))) (.num (fin 5)) = .ok ⟨[1], [fin x]⟩ ∧
      spice (.num (fin (10 : ℝ))) (.num (fin 15)) = .ok ⟨[1], [fin y]⟩ ∧ y < x - 12 := by
  refine ⟨_, _, C07_scalar 10 5, C07_scalar 10 15, ?_⟩
  unfold Spec.Flament.poly
  simp only [Finset.sum_range_succ, Finset.sum_range_zero, Spec.Flament.b, List.getD_cons_zero, List.getD_cons_succ]
  norm_num

/-- So spiciness does not rise with temperature and salinity over the whole range of oceanic conditions. -/
theorem C128_counterexample :
    (¬ ∀ t t' s x y : ℝ, -2 ≤ t → t < t' → t' ≤ 40 → 0 ≤ s → s ≤ 42 →
      spice (.num (fin t)) (.num (fin s)) = .ok ⟨[1], [fin x]⟩ →
      spice (.num (fin t')) (.num (fin s)) = .ok ⟨[1], [fin y]⟩ → x < y) ∧
    (¬ ∀ t s s' x y : ℝ, -2 ≤ t → t ≤ 40 → 0 ≤ s → s < s' → s' ≤ 42 →
      spice (.num (fin t)) (.num (fin s)) = .ok ⟨[1], [fin x]⟩ →
      spice (.num (fin t)) (.num (fin s')) = .ok ⟨[1], [fin y]⟩ → x < y) := by
  constructor
  · intro h
    obtain ⟨x, y, h1, h2, h3⟩ := C128_brackish
    have := h 10 15 10 x y (by norm_num) (by norm_num) (by norm_num) (by norm_num) (by norm_num) h1 h2
    linarith
  · intro h
    obtain ⟨x, y, h1, h2, h3⟩ := C128_fresher
    have := h 10 5 15 x y (by norm_num) (by norm_num) (by norm_num) (by norm_num) (by norm_num) h1 h2
    linarith

/-- Two points of an ocean section: 10 °C and 12 °C at salinity 35, and 10 °C at salinities 34 and 35. -/
example : (∃ x y : ℝ, spice (.num (fin (10 : ℝ))) (.num (fin 35)) = .ok ⟨[1], [fin x]⟩ ∧
      spice (.num (fin (12 : ℝ))) (.num (fin 35)) = .ok ⟨[1], [fin y]⟩ ∧ x < y) ∧
    (∃ x y : ℝ, spice (.num (fin (10 : ℝ))) (.num (fin 34)) = .ok ⟨[1], [fin x]⟩ ∧
      spice (.num (fin (10 : ℝ))) (.num (fin 35)) = .ok ⟨[1], [fin y]⟩ ∧ x < y) :=
  ⟨⟨_, _, C07_scalar _ _, C07_scalar _ _, poly_lt_T (by norm_num) (by norm_num) (by norm_num) ⟨by norm_num, by norm_num⟩⟩,
    ⟨_, _, C07_scalar _ _, C07_scalar _ _, poly_lt_S (by norm_num) (by norm_num) (by norm_num) ⟨by norm_num, by norm_num⟩⟩⟩

/-- The hypotheses of `C128_warmer_partial` are met by one-point fields of 10 °C and 12 °C. -/
example : ∃ r r' : DA (Fl ℝ), calcSpice ⟨[("x", 1)], fun _ => fin 10⟩ ⟨[("x", 1)], fun _ => fin 35⟩ = .ok r ∧
    calcSpice ⟨[("x", 1)], fun _ => fin 12⟩ ⟨[("x", 1)], fun _ => fin 35⟩ = .ok r' ∧
    ∃ x y, r.get (fun _ => 0) = fin x ∧ r'.get (fun _ => 0) = fin y ∧ x < y := by
  have hw : ∀ a : ℝ, (⟨[("x", 1)], fun _ => fin a⟩ : DA (Fl ℝ)).WF := fun a _ _ _ => rfl
  have hi : ∀ a : ℝ, (⟨[("x", 1)], fun _ => fin a⟩ : DA (Fl ℝ)).InBounds (fun _ => 0) := by
    intro a p hp
    simp only [List.mem_singleton] at hp
    subst hp
    simp
  obtain ⟨r, hr, -⟩ := C07_calc_spice (⟨[("x", 1)], fun _ => fin 10⟩ : DA (Fl ℝ)) ⟨[("x", 1)], fun _ => fin 35⟩
    (hw _) (hw _) (by simp [DA.dimNames]) (List.Perm.refl _)
  obtain ⟨r', hr', -⟩ := C07_calc_spice (⟨[("x", 1)], fun _ => fin 12⟩ : DA (Fl ℝ)) ⟨[("x", 1)], fun _ => fin 35⟩
    (hw _) (hw _) (by simp [DA.dimNames]) (List.Perm.refl _)
  exact ⟨r, r', hr, hr', C128_warmer_partial (th := ⟨[("x", 1)], fun _ => fin 10⟩) (th' := ⟨[("x", 1)], fun _ => fin 12⟩)
    (so := ⟨[("x", 1)], fun _ => fin 35⟩) (t := 10) (t' := 12) (s := 35) (List.Perm.refl _) (List.Perm.refl _) (by simp [DA.dimNames])
    (by simp [DA.dimNames]) (hw 10) (hw 12) (hw 35) hr hr' (hi 10) (hi 12) rfl rfl rfl (by norm_num) (by norm_num)
    (by norm_num) ⟨by norm_num, by norm_num⟩⟩

/-- The hypotheses of `C128_saltier_partial` are met by one-point fields of salinity 34 and 35. -/
example : ∃ r r' : DA (Fl ℝ), calcSpice ⟨[("x", 1)], fun _ => fin 10⟩ ⟨[("x", 1)], fun _ => fin 34⟩ = .ok r ∧
    calcSpice ⟨[("x", 1)], fun _ => fin 10⟩ ⟨[("x", 1)], fun _ => fin 35⟩ = .ok r' ∧
    ∃ x y, r.get (fun _ => 0) = fin x ∧ r'.get (fun _ => 0) = fin y ∧ x < y := by
  have hw : ∀ a : ℝ, (⟨[("x", 1)], fun _ => fin a⟩ : DA (Fl ℝ)).WF := fun a _ _ _ => rfl
  have hi : ∀ a : ℝ, (⟨[("x", 1)], fun _ => fin a⟩ : DA (Fl ℝ)).InBounds (fun _ => 0) := by
    intro a p hp
    simp only [List.mem_singleton] at hp
    subst hp
    simp
  obtain ⟨r, hr, -⟩ := C07_calc_spice (⟨[("x", 1)], fun _ => fin 10⟩ : DA (Fl ℝ)) ⟨[("x", 1)], fun _ => fin 34⟩
    (hw _) (hw _) (by simp [DA.dimNames]) (List.Perm.refl _)
  obtain ⟨r', hr', -⟩ := C07_calc_spice (⟨[("x", 1)], fun _ => fin 10⟩ : DA (Fl ℝ)) ⟨[("x", 1)], fun _ => fin 35⟩
    (hw _) (hw _) (by simp [DA.dimNames]) (List.Perm.refl _)
  exact ⟨r, r', hr, hr', C128_saltier_partial (th := ⟨[("x", 1)], fun _ => fin 10⟩) (so := ⟨[("x", 1)], fun _ => fin 34⟩)
    (so' := ⟨[("x", 1)], fun _ => fin 35⟩) (t := 10) (s := 34) (s' := 35) (List.Perm.refl _) (List.Perm.refl _)
    (by simp [DA.dimNames]) (hw 10) (hw 34) (hw 35) hr hr' (hi 10) rfl rfl rfl (by norm_num) (by norm_num)
    (by norm_num) ⟨by norm_num, by norm_num⟩⟩

end Momlevel.Props
