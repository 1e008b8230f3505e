import Verif.Lemmas.Near
import Verif.Model.RoundingGlobal
import Verif.Props.Rounding
import Verif.Props.MeanHeight

/-!
# C122: the global steric height in rounded arithmetic
-/

set_option linter.unusedSectionVars false

namespace Momlevel.Props
open Momlevel Momlevel.Spec Momlevel.Eos

variable {ρ : ℝ → ℝ} {u w : ℝ} {β γ : Type*}

/-- The cells as numbers of the format. -/
def VolCell.toRd (ρ : ℝ → ℝ) (c : VolCell ℝ) : VolCell (Rd ρ) :=
  ⟨⟨c.vol⟩, ⟨c.z⟩, ⟨c.T⟩, ⟨c.S⟩, ⟨c.Tref⟩, ⟨c.Sref⟩⟩

/-- A cell of the ocean: at least 1 m³, at most 9900 m deep, with temperature and salinity in the
oceanographic range at both times. -/
structure OceanVol (c : VolCell ℝ) : Prop where
  vol : 1 ≤ c.vol
  z : 0 ≤ c.z ∧ c.z ≤ 9900
  T : -2 ≤ c.T ∧ c.T ≤ 40
  S : 0 ≤ c.S ∧ c.S ≤ 42
  Tref : -2 ≤ c.Tref ∧ c.Tref ≤ 40
  Sref : 0 ≤ c.Sref ∧ c.Sref ≤ 42

theorem column_density_lo (F : Format u w ρ) {T S z pa : ℝ} (hT : -2 ≤ T ∧ T ≤ 40)
    (hS : 0 ≤ S ∧ S ≤ 42) (hz : 0 ≤ z ∧ z ≤ 9900) (hp : 0 ≤ pa ∧ pa ≤ 10 ^ 6) :
    700 ≤ Wright.density T S (colPressure pa z) ∧ Wright.density T S (colPressure pa z) ≤ 2000 := by
  have h := (Ex.check_sound F.rounds F.u0 (U := 1 / 10 ^ 6) (by push_cast; exact F.u1) F.w0
    (W := 1 / 10 ^ 30) (by push_cast; exact F.w1) (column_box hT hS hz hp)
    (Wright.density (.var 0) (.var 1) (colPressure (.var 3) (.var 2))) (lo := 700) (hi := 2000)
    (err := 30200) (by decide +kernel))
  push_cast at h
  exact ⟨h.1, h.2.1⟩

theorem density_near (F : Format u w ρ) {T S z pa : ℝ} (hT : -2 ≤ T ∧ T ≤ 40)
    (hS : 0 ≤ S ∧ S ≤ 42) (hz : 0 ≤ z ∧ z ≤ 9900) (hp : 0 ≤ pa ∧ pa ≤ 10 ^ 6) :
    Near (1.01 * (44 * u)) (Wright.density T S (colPressure pa z))
      (Wright.density (⟨T⟩ : Rd ρ) ⟨S⟩ (colPressure ⟨pa⟩ ⟨z⟩)).val := by
  have h1 := column_density F hT hS hz hp
  have h2 := (column_density_lo F hT hS hz hp).1
  have hu := F.u0
  refine Near.of_abs (by linarith) (by linarith) (by have := F.u1; linarith) (h1.trans ?_)
  have := mul_le_mul_of_nonneg_left h2 (show (0 : ℝ) ≤ 44 * u by linarith)
  linarith

/-- The mass, added up in any order. -/
theorem mass_near (F : Format u w ρ) {pa : ℝ} (hp : 0 ≤ pa ∧ pa ≤ 10 ^ 6) (cell : β → VolCell ℝ)
    (t : SumTree β) (hc : ∀ b ∈ t.leaves, OceanVol (cell b)) (hd : t.depth * u ≤ 1 / 1000) :
    (Near (u * (45.5 + 1.01 * t.depth)) (cellsMass Wright.density pa cell t)
      (cellsMass Wright.density ⟨pa⟩ (fun b => VolCell.toRd ρ (cell b)) t).val ∧
     Near (u * (45.5 + 1.01 * t.depth)) (cellsMassRef Wright.density pa cell t)
      (cellsMassRef Wright.density ⟨pa⟩ (fun b => VolCell.toRd ρ (cell b)) t).val) := by
  have hu := F.u0
  have hu1 := F.u1
  have hw := F.w1
  have key : ∀ {T S z v : ℝ}, -2 ≤ T ∧ T ≤ 40 → 0 ≤ S ∧ S ≤ 42 → 0 ≤ z ∧ z ≤ 9900 → 1 ≤ v →
      Near (1.01 * (45 * u)) (Wright.density T S (colPressure pa z) * v)
        (Wright.density (⟨T⟩ : Rd ρ) ⟨S⟩ (colPressure ⟨pa⟩ ⟨z⟩) * (⟨v⟩ : Rd ρ)).val ∧
      2 * w ≤ Wright.density T S (colPressure pa z) * v := by
    intro T S z v h1 h2 h3 h4
    have hlo := (column_density_lo F h1 h2 h3 hp).1
    have hw2 : 2 * w ≤ Wright.density T S (colPressure pa z) * v := by nlinarith
    refine ⟨?_, hw2⟩
    have := ((density_near F h1 h2 h3 hp).mul (Near.refl (show 0 < v by linarith))).round F.rounds hu hu1
      (by linarith) hw2
    exact this.mono (by linarith)
  have he : 1.01 * (45 * u) + 1.01 * u * t.depth ≤ 1 / 2 := by nlinarith
  constructor
  · refine (Near.sum F.rounds hu hu1 _ _ t (fun b hb => ?_) (fun b hb => ?_) he).1.mono (by linarith)
    · exact (key (hc b hb).T (hc b hb).S (hc b hb).z (hc b hb).vol).1
    · exact (key (hc b hb).T (hc b hb).S (hc b hb).z (hc b hb).vol).2
  · refine (Near.sum F.rounds hu hu1 _ _ t (fun b hb => ?_) (fun b hb => ?_) he).1.mono (by linarith)
    · exact (key (hc b hb).Tref (hc b hb).Sref (hc b hb).z (hc b hb).vol).1
    · exact (key (hc b hb).Tref (hc b hb).Sref (hc b hb).z (hc b hb).vol).2

theorem volume_near (F : Format u w ρ) (f : β → ℝ) (t : SumTree β) (hf : ∀ b ∈ t.leaves, 1 ≤ f b)
    (hd : t.depth * u ≤ 1 / 1000) :
    Near (1.01 * u * t.depth) (t.sum f) (t.sum (fun b => (⟨f b⟩ : Rd ρ))).val := by
  have hu := F.u0
  have hw := F.w1
  have := (Near.sum F.rounds hu F.u1 f (fun b => (⟨f b⟩ : Rd ρ)) t (e := 0)
    (fun b hb => Near.refl (show 0 < f b by have := hf b hb; linarith))
    (fun b hb => by have := hf b hb; linarith) (by nlinarith)).1
  simpa using this

/-- A mean density lies between the bounds for the density. -/
theorem mass_bounds (F : Format u w ρ) {pa : ℝ} (hp : 0 ≤ pa ∧ pa ≤ 10 ^ 6) (cell : β → VolCell ℝ)
    (t : SumTree β) (hc : ∀ b ∈ t.leaves, OceanVol (cell b)) :
    700 * cellsVolume cell t ≤ cellsMass Wright.density pa cell t ∧
    cellsMass Wright.density pa cell t ≤ 2000 * cellsVolume cell t ∧
    700 * cellsVolume cell t ≤ cellsMassRef Wright.density pa cell t ∧
    cellsMassRef Wright.density pa cell t ≤ 2000 * cellsVolume cell t ∧ 1 ≤ cellsVolume cell t := by
  unfold cellsVolume cellsMass cellsMassRef
  induction t with
  | leaf b =>
    have h := hc b (by simp [SumTree.leaves])
    obtain ⟨h1, h2⟩ := column_density_lo F h.T h.S h.z hp
    obtain ⟨h3, h4⟩ := column_density_lo F h.Tref h.Sref h.z hp
    have hv := h.vol
    simp only [SumTree.sum]
    exact ⟨by nlinarith, by nlinarith, by nlinarith, by nlinarith, hv⟩
  | node l r ihl ihr =>
    obtain ⟨a1, a2, a3, a4, a5⟩ := ihl (fun b hb => hc b (by simp [SumTree.leaves, hb]))
    obtain ⟨b1, b2, b3, b4, b5⟩ := ihr (fun b hb => hc b (by simp [SumTree.leaves, hb]))
    simp only [SumTree.sum]
    exact ⟨by linarith, by linarith, by linarith, by linarith, by linarith⟩

theorem volume_lo (f : β → ℝ) (t : SumTree β) (hf : ∀ b ∈ t.leaves, 1 ≤ f b) : 1 ≤ t.sum f := by
  induction t with
  | leaf b => exact hf b (by simp [SumTree.leaves])
  | node l r ihl ihr =>
    have a := ihl (fun b hb => hf b (by simp [SumTree.leaves, hb]))
    have b := ihr (fun b hb => hf b (by simp [SumTree.leaves, hb]))
    simp only [SumTree.sum]
    linarith

theorem sum_perm (f : β → ℝ) {s t : SumTree β} (h : s.leaves.Perm t.leaves) : s.sum f = t.sum f := by
  rw [SumTree.sum_leaves, SumTree.sum_leaves, (h.map f).sum_eq]

/-- The argument of the logarithm. -/
theorem ratio_near (F : Format u w ρ) {pa : ℝ} (hp : 0 ≤ pa ∧ pa ≤ 10 ^ 6) (cell : β → VolCell ℝ)
    {om or ov : SumTree β} (hc : ∀ b ∈ om.leaves, OceanVol (cell b)) (h1 : or.leaves.Perm om.leaves)
    (h2 : ov.leaves.Perm om.leaves) (hm : om.depth * u ≤ 1 / 1000) (hr : or.depth * u ≤ 1 / 1000)
    (hv : ov.depth * u ≤ 1 / 1000) :
    Near (u * (94.1 + 1.01 * (om.depth + or.depth)))
      (cellsMassRef Wright.density pa cell or / cellsVolume cell ov
        / (cellsMass Wright.density pa cell om / cellsVolume cell ov))
      (cellsMassRef Wright.density ⟨pa⟩ (fun b => VolCell.toRd ρ (cell b)) or
          / cellsVolume (fun b => VolCell.toRd ρ (cell b)) ov
        / (cellsMass Wright.density ⟨pa⟩ (fun b => VolCell.toRd ρ (cell b)) om
          / cellsVolume (fun b => VolCell.toRd ρ (cell b)) ov)).val := by
  have hu := F.u0
  have hu1 := F.u1
  have hw := F.w1
  have hcr : ∀ b ∈ or.leaves, OceanVol (cell b) := fun b hb => hc b (h1.subset hb)
  have hcv : ∀ b ∈ ov.leaves, OceanVol (cell b) := fun b hb => hc b (h2.subset hb)
  have nm := (mass_near F hp cell om hc hm).1
  have nr := (mass_near F hp cell or hcr hr).2
  have nv := volume_near F (fun b => (cell b).vol) ov (fun b hb => (hcv b hb).vol) hv
  obtain ⟨m1, m2, -, -, m5⟩ := mass_bounds F hp cell om hc
  obtain ⟨-, -, r3, r4, r5⟩ := mass_bounds F hp cell or hcr
  have ev : cellsVolume cell ov = cellsVolume cell om := sum_perm _ h2
  have er : cellsVolume cell or = cellsVolume cell om := sum_perm _ h1
  rw [er] at r3 r4
  rw [ev]
  have nv' : Near (1.01 * u * ov.depth) (cellsVolume cell om)
      (cellsVolume (fun b => VolCell.toRd ρ (cell b)) ov).val := by rw [← ev]; exact nv
  generalize cellsVolume cell om = V at *
  generalize hM : cellsMass Wright.density pa cell om = m at *
  generalize hR : cellsMassRef Wright.density pa cell or = m0 at *
  generalize (cellsVolume (fun b => VolCell.toRd ρ (cell b)) ov) = V' at *
  generalize (cellsMass Wright.density ⟨pa⟩ (fun b => VolCell.toRd ρ (cell b)) om) = m' at *
  generalize (cellsMassRef Wright.density ⟨pa⟩ (fun b => VolCell.toRd ρ (cell b)) or) = m0' at *
  have V0 : 0 < V := by linarith
  have a1 : 700 ≤ m / V := by rw [le_div_iff₀ V0]; exact m1
  have a2 : 700 ≤ m0 / V := by rw [le_div_iff₀ V0]; exact r3
  have e1 : (m0 / V) / (m / V) = m0 / m := by
    have := nm.pos
    field_simp
  have a3 : (1 : ℝ) / 10 ≤ m0 / m := by
    rw [div_le_div_iff₀ (by norm_num) nm.pos]; linarith
  have b1 := (nm.div nv').half (by nlinarith)
  have b2 := (nr.div nv').half (by nlinarith)
  have V0' := nv'.pos'
  have c1 := (Near.refl (div_pos nm.pos' V0')).round F.rounds hu hu1 (by norm_num) (by linarith)
  have c2 := (Near.refl (div_pos nr.pos' V0')).round F.rounds hu hu1 (by norm_num) (by linarith)
  have c3 := c2.div c1
  have e2 : (m0'.val / V'.val) / (m'.val / V'.val) = m0'.val / m'.val := by
    have := nm.pos'
    field_simp
  rw [e2] at c3
  have c4 := (nr.div nm).trans c3
  have c5 := c4.round F.rounds hu hu1 (by nlinarith) (by linarith)
  rw [e1]
  refine c5.mono ?_
  linarith

/-- The last product: a computed height scale `H'` times a computed logarithm `c'`. -/
theorem product_error (F : Format u w ρ) {κ H H' c lq c' dm dr dv da : ℝ} (hH1 : 1 ≤ H)
    (hm0 : 0 ≤ dm) (hr0 : 0 ≤ dr) (hv0 : 0 ≤ dv) (ha0 : 0 ≤ da)
    (hm : dm * u ≤ 1 / 1000) (hr : dr * u ≤ 1 / 1000) (hv : dv * u ≤ 1 / 1000) (ha : da * u ≤ 1 / 1000)
    (hκ0 : 0 ≤ κ) (hκ : κ * u ≤ 1 / 1000)
    (nH : Near (1.01 * u * dv + 1.01 * u * da + 1.01 * u) H H')
    (hl : |lq - c| ≤ u * (94.1 + 1.01 * (dm + dr))) (hl' : |c' - lq| ≤ κ * u * |lq|) :
    |ρ (H' * c') - H * c| ≤ u * (H * (97 + 1.05 * (dm + dr))
      + (1.05 * (dv + da + κ) + 2.1) * |H * c| + w) := by
  have hu := F.u0
  have hw0 := F.w0
  have hu1 := F.u1
  set E := u * (94.1 + 1.01 * (dm + dr)) with hE
  set G := 1.01 * u * dv + 1.01 * u * da + 1.01 * u with hG
  have hE0 : 0 ≤ E := by rw [hE]; positivity
  have hE1 : E ≤ 1 / 300 := by rw [hE]; nlinarith
  have hG0 : 0 ≤ G := by rw [hG]; positivity
  have hG1 : G ≤ 1 / 400 := by rw [hG]; nlinarith
  have hH0 : 0 < H := by linarith
  have f1 : |H' - H| ≤ 1.02 * G * H := nH.error hG0 (by linarith)
  have hH' : |H'| ≤ 1.003 * H := by
    rw [abs_of_pos nH.pos']
    have := (abs_le.1 f1).2
    nlinarith
  -- the coefficient
  have hlq : |lq| ≤ |c| + E := by
    have := abs_sub_abs_le_abs_sub lq c
    linarith
  have hκu : 0 ≤ κ * u := by positivity
  have f2 : |c' - c| ≤ κ * u * |c| + 1.001 * E := by
    have t := abs_sub_le c' lq c
    have s := mul_le_mul_of_nonneg_left hlq hκu
    nlinarith
  -- the product
  have hc0 := abs_nonneg c
  have f3 : |H' * c' - H * c| ≤ 1.003 * H * (κ * u * |c| + 1.001 * E) + 1.02 * G * H * |c| := by
    have : H' * c' - H * c = H' * (c' - c) + (H' - H) * c := by ring
    rw [this]
    refine (abs_add_le _ _).trans ?_
    rw [abs_mul, abs_mul]
    exact add_le_add (mul_le_mul hH' f2 (abs_nonneg _) (by positivity))
      (mul_le_mul_of_nonneg_right f1 hc0)
  have f4 := F.rounds (H' * c')
  have f5 : max |H' * c'| w ≤ |H' * c' - H * c| + H * |c| + w := by
    have g1 := abs_sub_abs_le_abs_sub (H' * c') (H * c)
    have g2 := abs_nonneg (H' * c' - H * c)
    rw [abs_mul H c, abs_of_pos hH0] at g1
    have g3 : 0 ≤ H * |c| := by positivity
    exact max_le (by linarith) (by linarith)
  have f6 := abs_sub_le (ρ (H' * c')) (H' * c') (H * c)
  have f7 := mul_le_mul_of_nonneg_left f5 hu
  have f8 : |ρ (H' * c') - H * c| ≤ (1 + u) * |H' * c' - H * c| + u * (H * |c| + w) := by linarith
  rw [abs_mul H c, abs_of_pos hH0]
  refine f8.trans ?_
  have f9 : (1 + u) * |H' * c' - H * c|
      ≤ 1.000001 * (1.003 * H * (κ * u * |c| + 1.001 * E) + 1.02 * G * H * |c|) :=
    mul_le_mul (by norm_num at hu1 ⊢; linarith) f3 (abs_nonneg _) (by norm_num)
  refine (add_le_add_left f9 _).trans ?_
  rw [hE, hG]
  have p1 : 0 ≤ u * H := by positivity
  have p2 : 0 ≤ u * H * |c| := by positivity
  have p3 : 0 ≤ u * H * |c| * κ := by positivity
  have p4 : 0 ≤ u * H * |c| * dv := by positivity
  have p5 : 0 ≤ u * H * |c| * da := by positivity
  have p6 : 0 ≤ u * H * dm := by positivity
  have p7 : 0 ≤ u * H * dr := by positivity
  nlinarith

/-- C122: error of the global steric height, for every order of summation.  `ℓ` is the computed
logarithm, with relative error at most `κ u`; `H` is the volume divided by the area. -/
theorem C122_error (F : Format u w ρ) {pa κ : ℝ} (hp : 0 ≤ pa ∧ pa ≤ 10 ^ 6) (cell : β → VolCell ℝ)
    (area : γ → ℝ) {om or ov : SumTree β} {oa : SumTree γ} (hc : ∀ b ∈ om.leaves, OceanVol (cell b))
    (h1 : or.leaves.Perm om.leaves) (h2 : ov.leaves.Perm om.leaves)
    (hm : om.depth * u ≤ 1 / 1000) (hr : or.depth * u ≤ 1 / 1000) (hv : ov.depth * u ≤ 1 / 1000)
    (ha : oa.depth * u ≤ 1 / 1000) (hA : ∀ c ∈ oa.leaves, 1 ≤ area c)
    {H : ℝ} (hH : cellsVolume cell ov = H * oa.sum area) (hH1 : 1 ≤ H)
    {ℓ : ℝ → ℝ} (hκ0 : 0 ≤ κ) (hκ : κ * u ≤ 1 / 1000)
    (hℓ : ∀ x, 0 < x → |ℓ x - Real.log x| ≤ κ * u * |Real.log x|) :
    |(globalHeight Wright.density (fun x => (⟨ℓ x.val⟩ : Rd ρ)) ⟨pa⟩ (fun b => VolCell.toRd ρ (cell b))
        (fun c => ⟨area c⟩) om or ov oa).val
      - globalHeight Wright.density Real.log pa cell area om or ov oa|
      ≤ u * (H * (97 + 1.05 * (om.depth + or.depth))
        + (1.05 * (ov.depth + oa.depth + κ) + 2.1)
          * |globalHeight Wright.density Real.log pa cell area om or ov oa| + w) := by
  have hu := F.u0
  have hu1 := F.u1
  have hw := F.w1
  have hw0 := F.w0
  have hcv : ∀ b ∈ ov.leaves, OceanVol (cell b) := fun b hb => hc b (h2.subset hb)
  have nq := ratio_near F hp cell hc h1 h2 hm hr hv
  have nv := volume_near F (fun b => (cell b).vol) ov (fun b hb => (hcv b hb).vol) hv
  have na := volume_near F area oa hA ha
  have nH := (nv.div na).round F.rounds hu hu1 (by nlinarith) (by
    have : ov.sum (fun b => (cell b).vol) / oa.sum area = H := by
      rw [div_eq_iff na.pos.ne']; exact hH
    rw [this]; linarith)
  have eH : cellsVolume cell ov / oa.sum area = H := by rw [div_eq_iff na.pos.ne']; exact hH
  unfold globalHeight
  change Near _ (cellsVolume cell ov / oa.sum area)
    (cellsVolume (fun b => VolCell.toRd ρ (cell b)) ov / oa.sum (fun c => (⟨area c⟩ : Rd ρ))).val at nH
  rw [eH] at nH ⊢
  show |ρ ((cellsVolume (fun b => VolCell.toRd ρ (cell b)) ov / oa.sum (fun c => (⟨area c⟩ : Rd ρ))).val
    * ℓ (cellsMassRef Wright.density ⟨pa⟩ (fun b => VolCell.toRd ρ (cell b)) or
          / cellsVolume (fun b => VolCell.toRd ρ (cell b)) ov
        / (cellsMass Wright.density ⟨pa⟩ (fun b => VolCell.toRd ρ (cell b)) om
          / cellsVolume (fun b => VolCell.toRd ρ (cell b)) ov)).val) - _| ≤ _
  exact product_error F hH1 (Nat.cast_nonneg _) (Nat.cast_nonneg _) (Nat.cast_nonneg _)
    (Nat.cast_nonneg _) hm hr hv ha hκ0 hκ nH nq.log (hℓ _ nq.pos')

/-- C122: double precision with up to 10000 additions per cell: at most 3·10⁻⁸ m.  Single precision
with up to 100 additions per cell: at most 21 cm.  For an ocean with at most 11000 m of water on
average and heights up to 100 m, and a logarithm good to two units in the last place. -/
theorem C122_precision {pa : ℝ} (hp : 0 ≤ pa ∧ pa ≤ 10 ^ 6) (cell : β → VolCell ℝ) (area : γ → ℝ)
    {om or ov : SumTree β} {oa : SumTree γ} (hc : ∀ b ∈ om.leaves, OceanVol (cell b))
    (h1 : or.leaves.Perm om.leaves) (h2 : ov.leaves.Perm om.leaves)
    (hA : ∀ c ∈ oa.leaves, 1 ≤ area c) (hH1 : oa.sum area ≤ cellsVolume cell ov)
    (hH2 : cellsVolume cell ov ≤ 11000 * oa.sum area)
    (hh : |globalHeight Wright.density Real.log pa cell area om or ov oa| ≤ 100) (ℓ : ℝ → ℝ) :
    (om.depth ≤ 10000 → or.depth ≤ 10000 → ov.depth ≤ 10000 → oa.depth ≤ 10000 →
      (∀ x, 0 < x → |ℓ x - Real.log x| ≤ 4 * 2⁻¹ ^ 53 * |Real.log x|) →
      |(globalHeight Wright.density (fun x => (⟨ℓ x.val⟩ : Rd (nearest 53))) ⟨pa⟩
          (fun b => VolCell.toRd (nearest 53) (cell b)) (fun c => ⟨area c⟩) om or ov oa).val
        - globalHeight Wright.density Real.log pa cell area om or ov oa| ≤ 3 / 10 ^ 8) ∧
    (om.depth ≤ 100 → or.depth ≤ 100 → ov.depth ≤ 100 → oa.depth ≤ 100 →
      (∀ x, 0 < x → |ℓ x - Real.log x| ≤ 4 * 2⁻¹ ^ 24 * |Real.log x|) →
      |(globalHeight Wright.density (fun x => (⟨ℓ x.val⟩ : Rd (nearest 24))) ⟨pa⟩
          (fun b => VolCell.toRd (nearest 24) (cell b)) (fun c => ⟨area c⟩) om or ov oa).val
        - globalHeight Wright.density Real.log pa cell area om or ov oa| ≤ 21 / 100) := by
  have hA0 : 0 < oa.sum area := lt_of_lt_of_le one_pos (volume_lo area oa hA)
  have eH : cellsVolume cell ov = cellsVolume cell ov / oa.sum area * oa.sum area := by
    field_simp
  have l1 : 1 ≤ cellsVolume cell ov / oa.sum area := by rw [le_div_iff₀ hA0]; linarith
  have l2 : cellsVolume cell ov / oa.sum area ≤ 11000 := by rw [div_le_iff₀ hA0]; exact hH2
  constructor
  · intro a1 a2 a3 a4 hℓ
    have b1 : (om.depth : ℝ) ≤ 10000 := by exact_mod_cast a1
    have b2 : (or.depth : ℝ) ≤ 10000 := by exact_mod_cast a2
    have b3 : (ov.depth : ℝ) ≤ 10000 := by exact_mod_cast a3
    have b4 : (oa.depth : ℝ) ≤ 10000 := by exact_mod_cast a4
    have F := nearest_format (p := 53) (by norm_num)
    have small : ∀ {x : ℝ}, x ≤ 10000 → x * 2⁻¹ ^ 53 ≤ 1 / 1000 := fun {x} hx => by
      have := mul_le_mul_of_nonneg_right hx F.u0
      refine this.trans (by norm_num)
    refine (C122_error F hp cell area hc h1 h2 (small b1) (small b2) (small b3) (small b4) hA eH l1
      (by norm_num) (by norm_num) hℓ).trans ?_
    have t1 : cellsVolume cell ov / oa.sum area * (97 + 1.05 * (om.depth + or.depth))
        ≤ 11000 * (97 + 1.05 * 20000) :=
      mul_le_mul l2 (by linarith) (by positivity) (by norm_num)
    have t2 : (1.05 * ((ov.depth : ℝ) + oa.depth + 4) + 2.1)
        * |globalHeight Wright.density Real.log pa cell area om or ov oa|
        ≤ (1.05 * 20004 + 2.1) * 100 :=
      mul_le_mul (by linarith) hh (abs_nonneg _) (by norm_num)
    refine (mul_le_mul_of_nonneg_left (add_le_add (add_le_add t1 t2) le_rfl) F.u0).trans ?_
    norm_num
  · intro a1 a2 a3 a4 hℓ
    have b1 : (om.depth : ℝ) ≤ 100 := by exact_mod_cast a1
    have b2 : (or.depth : ℝ) ≤ 100 := by exact_mod_cast a2
    have b3 : (ov.depth : ℝ) ≤ 100 := by exact_mod_cast a3
    have b4 : (oa.depth : ℝ) ≤ 100 := by exact_mod_cast a4
    have F := nearest_format (p := 24) (by norm_num)
    have small : ∀ {x : ℝ}, x ≤ 100 → x * 2⁻¹ ^ 24 ≤ 1 / 1000 := fun {x} hx => by
      have := mul_le_mul_of_nonneg_right hx F.u0
      refine this.trans (by norm_num)
    refine (C122_error F hp cell area hc h1 h2 (small b1) (small b2) (small b3) (small b4) hA eH l1
      (by norm_num) (by norm_num) hℓ).trans ?_
    have t1 : cellsVolume cell ov / oa.sum area * (97 + 1.05 * (om.depth + or.depth))
        ≤ 11000 * (97 + 1.05 * 200) :=
      mul_le_mul l2 (by linarith) (by positivity) (by norm_num)
    have t2 : (1.05 * ((ov.depth : ℝ) + oa.depth + 4) + 2.1)
        * |globalHeight Wright.density Real.log pa cell area om or ov oa|
        ≤ (1.05 * 204 + 2.1) * 100 :=
      mul_le_mul (by linarith) hh (abs_nonneg _) (by norm_num)
    refine (mul_le_mul_of_nonneg_left (add_le_add (add_le_add t1 t2) le_rfl) F.u0).trans ?_
    norm_num

/-- C122: where temperature and salinity are those of the reference state and the two masses are
added up in the same order, the computed height is exactly 0. -/
theorem C122_zero (h0 : ρ 0 = 0) (h1 : ρ 1 = 1) (eos : EosFn (Rd ρ)) {ℓ : Rd ρ → Rd ρ} (hℓ : (ℓ ⟨1⟩).val = 0)
    (pa : Rd ρ) (cell : β → VolCell (Rd ρ)) (area : γ → Rd ρ) (om ov : SumTree β) (oa : SumTree γ)
    (hc : ∀ b ∈ om.leaves, (cell b).T = (cell b).Tref ∧ (cell b).S = (cell b).Sref)
    (hm : (cellsMass eos pa cell om / cellsVolume cell ov).val ≠ 0) :
    (globalHeight eos ℓ pa cell area om om ov oa).val = 0 := by
  have e : cellsMassRef eos pa cell om = cellsMass eos pa cell om := by
    unfold cellsMassRef cellsMass
    induction om with
    | leaf b =>
      obtain ⟨h1, h2⟩ := hc b (by simp [SumTree.leaves])
      simp only [SumTree.sum, h1, h2]
    | node l r ihl ihr =>
      simp only [SumTree.sum]
      have tl : ∀ t : SumTree β, (∀ b ∈ t.leaves, (cell b).T = (cell b).Tref ∧ (cell b).S = (cell b).Sref) →
          t.sum (fun b => eos (cell b).Tref (cell b).Sref (colPressure pa (cell b).z) * (cell b).vol)
            = t.sum (fun b => eos (cell b).T (cell b).S (colPressure pa (cell b).z) * (cell b).vol) := by
        intro t ht
        induction t with
        | leaf b =>
          obtain ⟨h1, h2⟩ := ht b (by simp [SumTree.leaves])
          simp only [SumTree.sum, h1, h2]
        | node l r ihl ihr =>
          simp only [SumTree.sum]
          rw [ihl (fun b hb => ht b (by simp [SumTree.leaves, hb])),
            ihr (fun b hb => ht b (by simp [SumTree.leaves, hb]))]
      rw [tl l (fun b hb => hc b (by simp [SumTree.leaves, hb])),
        tl r (fun b hb => hc b (by simp [SumTree.leaves, hb]))]
  unfold globalHeight
  rw [e]
  have q : cellsMass eos pa cell om / cellsVolume cell ov / (cellsMass eos pa cell om / cellsVolume cell ov)
      = (⟨1⟩ : Rd ρ) := by
    generalize cellsMass eos pa cell om / cellsVolume cell ov = x at *
    show (⟨ρ (x.val / x.val)⟩ : Rd ρ) = _
    rw [div_self hm, h1]
  rw [q]
  show ρ (_ * (ℓ ⟨1⟩).val) = 0
  rw [hℓ, mul_zero, h0]

/-- No number of `p` binary digits lies closer to 1 than `2⁻ᵖ`, except 1. -/
theorem nearest_gap {p : ℕ} (hp : 2 ≤ p) (x : ℝ) :
    nearest p x = 1 ∨ 2⁻¹ ^ p ≤ |nearest p x - 1| := by
  by_cases hL : -1 ≤ Int.log 2 |x|
  · have e : (2 : ℝ) ^ (Int.log 2 |x| + 1 - p) = 2 ^ (Int.log 2 |x| + 1).toNat * 2⁻¹ ^ p := by
      rw [zpow_sub₀ (by norm_num), zpow_natCast, inv_pow, ← zpow_natCast (2 : ℝ) (Int.log 2 |x| + 1).toNat,
        Int.toNat_of_nonneg (by omega)]
      rfl
    unfold nearest
    rw [e]
    set k := round (x / (2 ^ (Int.log 2 |x| + 1).toNat * 2⁻¹ ^ p))
    set m := (Int.log 2 |x| + 1).toNat
    have hz : (k : ℝ) * (2 ^ m * 2⁻¹ ^ p) - 1 = ((k * 2 ^ m - 2 ^ p : ℤ) : ℝ) * 2⁻¹ ^ p := by
      push_cast
      rw [sub_mul, ← mul_pow, mul_inv_cancel₀ (by norm_num), one_pow]
      ring
    by_cases h : k * 2 ^ m - 2 ^ p = 0
    · left
      rw [h] at hz
      simp only [Int.cast_zero, zero_mul] at hz
      linarith
    · right
      rw [hz, abs_mul, abs_of_pos (show (0 : ℝ) < 2⁻¹ ^ p by positivity)]
      have : (1 : ℝ) ≤ |((k * 2 ^ m - 2 ^ p : ℤ) : ℝ)| := by
        rw [← Int.cast_abs]
        exact_mod_cast Int.one_le_abs h
      have hq : (0 : ℝ) < 2⁻¹ ^ p := by positivity
      nlinarith
  · right
    have hx2 : |x| < 2⁻¹ := by
      have h1 := Int.lt_zpow_succ_log_self (b := 2) (by norm_num) |x|
      refine h1.trans_le ?_
      have : (2 : ℝ) ^ (Int.log 2 |x| + 1) ≤ 2 ^ (-1 : ℤ) :=
        zpow_le_zpow_right₀ (by norm_num) (by omega)
      simpa using this
    have h2 := C91_nearest p x
    rw [max_eq_left (abs_nonneg _)] at h2
    have hq : (2⁻¹ : ℝ) ^ p ≤ 2⁻¹ ^ 2 := pow_le_pow_of_le_one (by norm_num) (by norm_num) hp
    have h3 := (abs_le.1 h2).2
    have h4 : nearest p x ≤ |x| + 2⁻¹ ^ p * 2⁻¹ := by
      have : (2⁻¹ : ℝ) ^ p * |x| ≤ 2⁻¹ ^ p * 2⁻¹ := mul_le_mul_of_nonneg_left hx2.le (by positivity)
      have := le_abs_self x
      linarith
    rw [le_abs]
    right
    norm_num at hq hx2 h4 ⊢
    linarith

theorem log_gap {t q : ℝ} (ht : 0 < t) (ht1 : t ≤ 1 / 10 ^ 6) (hq : 0 < q) (h : t ≤ |q - 1|) :
    0.999 * t ≤ |Real.log q| := by
  rcases le_abs.1 h with h | h
  · have h1 : 1 - (1 + t)⁻¹ ≤ Real.log (1 + t) := Real.one_sub_inv_le_log_of_pos (by linarith)
    have h2 : Real.log (1 + t) ≤ Real.log q := Real.log_le_log (by linarith) (by linarith)
    have h3 : 0.999 * t ≤ 1 - (1 + t)⁻¹ := by
      have : 1 - (1 + t)⁻¹ = t / (1 + t) := by field_simp; ring
      rw [this, le_div_iff₀ (by linarith)]
      norm_num at ht1 ⊢
      nlinarith
    exact (h3.trans (h1.trans h2)).trans (le_abs_self _)
  · have h1 := Real.log_le_sub_one_of_pos hq
    have := neg_abs_le (Real.log q)
    norm_num
    linarith

/-- C122: the resolution.  With `p` binary digits the computed height is 0 or at least
`0.99 · 2⁻ᵖ · H`: the argument of the logarithm is close to 1, where the numbers are `2⁻ᵖ` apart. -/
theorem C122_resolution {p : ℕ} (h20 : 20 ≤ p) {pa κ : ℝ} (hp : 0 ≤ pa ∧ pa ≤ 10 ^ 6)
    (cell : β → VolCell ℝ) (area : γ → ℝ) {om or ov : SumTree β} {oa : SumTree γ}
    (hc : ∀ b ∈ om.leaves, OceanVol (cell b))
    (h1 : or.leaves.Perm om.leaves) (h2 : ov.leaves.Perm om.leaves)
    (hm : om.depth * 2⁻¹ ^ p ≤ (1 : ℝ) / 1000) (hr : or.depth * 2⁻¹ ^ p ≤ (1 : ℝ) / 1000)
    (hv : ov.depth * 2⁻¹ ^ p ≤ (1 : ℝ) / 1000)
    (ha : oa.depth * 2⁻¹ ^ p ≤ (1 : ℝ) / 1000) (hA : ∀ c ∈ oa.leaves, 1 ≤ area c)
    {H : ℝ} (hH : cellsVolume cell ov = H * oa.sum area) (hH1 : 1 ≤ H)
    {ℓ : ℝ → ℝ} (hκ : κ * 2⁻¹ ^ p ≤ 1 / 1000)
    (hℓ : ∀ x, 0 < x → |ℓ x - Real.log x| ≤ κ * 2⁻¹ ^ p * |Real.log x|) :
    (globalHeight Wright.density (fun x => (⟨ℓ x.val⟩ : Rd (nearest p))) ⟨pa⟩
        (fun b => VolCell.toRd (nearest p) (cell b)) (fun c => ⟨area c⟩) om or ov oa).val = 0 ∨
    0.99 * 2⁻¹ ^ p * H ≤ |(globalHeight Wright.density (fun x => (⟨ℓ x.val⟩ : Rd (nearest p))) ⟨pa⟩
        (fun b => VolCell.toRd (nearest p) (cell b)) (fun c => ⟨area c⟩) om or ov oa).val| := by
  have F := nearest_format h20
  have hu := F.u0
  have hu1 := F.u1
  have hcv : ∀ b ∈ ov.leaves, OceanVol (cell b) := fun b hb => hc b (h2.subset hb)
  have nq := ratio_near F hp cell hc h1 h2 hm hr hv
  have nv := volume_near F (fun b => (cell b).vol) ov (fun b hb => (hcv b hb).vol) hv
  have na := volume_near F area oa hA ha
  have eH : ov.sum (fun b => (cell b).vol) / oa.sum area = H := by
    rw [div_eq_iff na.pos.ne']; exact hH
  have nH := (nv.div na).round F.rounds hu hu1 (by nlinarith) (by rw [eH]; linarith)
  rw [eH] at nH
  have gap := nearest_gap (p := p) (by omega)
    ((cellsMassRef Wright.density ⟨pa⟩ (fun b => VolCell.toRd (nearest p) (cell b)) or
          / cellsVolume (fun b => VolCell.toRd (nearest p) (cell b)) ov).val
        / (cellsMass Wright.density ⟨pa⟩ (fun b => VolCell.toRd (nearest p) (cell b)) om
          / cellsVolume (fun b => VolCell.toRd (nearest p) (cell b)) ov).val)
  have hpos := nq.pos'
  have hl := hℓ _ hpos
  have hl1 := hℓ 1 one_pos
  unfold globalHeight
  change Near _ H
    (cellsVolume (fun b => VolCell.toRd (nearest p) (cell b)) ov
      / oa.sum (fun c => (⟨area c⟩ : Rd (nearest p)))).val at nH
  show nearest p ((cellsVolume (fun b => VolCell.toRd (nearest p) (cell b)) ov
        / oa.sum (fun c => (⟨area c⟩ : Rd (nearest p)))).val
    * ℓ (cellsMassRef Wright.density ⟨pa⟩ (fun b => VolCell.toRd (nearest p) (cell b)) or
          / cellsVolume (fun b => VolCell.toRd (nearest p) (cell b)) ov
        / (cellsMass Wright.density ⟨pa⟩ (fun b => VolCell.toRd (nearest p) (cell b)) om
          / cellsVolume (fun b => VolCell.toRd (nearest p) (cell b)) ov)).val) = 0 ∨
    0.99 * 2⁻¹ ^ p * H ≤ |nearest p ((cellsVolume (fun b => VolCell.toRd (nearest p) (cell b)) ov
        / oa.sum (fun c => (⟨area c⟩ : Rd (nearest p)))).val
    * ℓ (cellsMassRef Wright.density ⟨pa⟩ (fun b => VolCell.toRd (nearest p) (cell b)) or
          / cellsVolume (fun b => VolCell.toRd (nearest p) (cell b)) ov
        / (cellsMass Wright.density ⟨pa⟩ (fun b => VolCell.toRd (nearest p) (cell b)) om
          / cellsVolume (fun b => VolCell.toRd (nearest p) (cell b)) ov)).val)|
  change (cellsMassRef Wright.density ⟨pa⟩ (fun b => VolCell.toRd (nearest p) (cell b)) or
          / cellsVolume (fun b => VolCell.toRd (nearest p) (cell b)) ov
        / (cellsMass Wright.density ⟨pa⟩ (fun b => VolCell.toRd (nearest p) (cell b)) om
          / cellsVolume (fun b => VolCell.toRd (nearest p) (cell b)) ov)).val = 1 ∨ 2⁻¹ ^ p ≤
      |(cellsMassRef Wright.density ⟨pa⟩ (fun b => VolCell.toRd (nearest p) (cell b)) or
          / cellsVolume (fun b => VolCell.toRd (nearest p) (cell b)) ov
        / (cellsMass Wright.density ⟨pa⟩ (fun b => VolCell.toRd (nearest p) (cell b)) om
          / cellsVolume (fun b => VolCell.toRd (nearest p) (cell b)) ov)).val - 1| at gap
  clear nq
  generalize (cellsMassRef Wright.density ⟨pa⟩ (fun b => VolCell.toRd (nearest p) (cell b)) or
          / cellsVolume (fun b => VolCell.toRd (nearest p) (cell b)) ov
        / (cellsMass Wright.density ⟨pa⟩ (fun b => VolCell.toRd (nearest p) (cell b)) om
          / cellsVolume (fun b => VolCell.toRd (nearest p) (cell b)) ov)).val = q at *
  generalize (cellsVolume (fun b => VolCell.toRd (nearest p) (cell b)) ov
      / oa.sum (fun c => (⟨area c⟩ : Rd (nearest p)))).val = H' at *
  rcases gap with rfl | gap
  · left
    rw [Real.log_one, abs_zero, mul_zero, sub_zero] at hl1
    rw [abs_eq_zero.1 (le_antisymm hl1 (abs_nonneg _)), mul_zero]
    simp [nearest]
  · right
    have g1 := log_gap (by positivity) hu1 hpos gap
    have hr := C91_nearest p (H' * ℓ q)
    rw [max_eq_left (abs_nonneg _)] at hr
    have hHe := nH.error (by positivity) (by nlinarith)
    have hH' : 0.997 * H ≤ H' := by
      have := (abs_le.1 hHe).1
      have : 1.02 * (1.01 * 2⁻¹ ^ p * (ov.depth : ℝ) + 1.01 * 2⁻¹ ^ p * (oa.depth : ℝ) + 1.01 * 2⁻¹ ^ p) ≤ 0.003 := by
        norm_num at hu1 hv ha ⊢; linarith
      nlinarith
    have hc' : 0.998 * 2⁻¹ ^ p ≤ |ℓ q| := by
      have t := abs_sub_abs_le_abs_sub (Real.log q) (ℓ q)
      rw [abs_sub_comm] at t
      have s := mul_le_mul_of_nonneg_right hκ (abs_nonneg (Real.log q))
      norm_num at g1 ⊢
      linarith
    have hx : 0.995 * 2⁻¹ ^ p * H ≤ |H' * ℓ q| := by
      rw [abs_mul, abs_of_pos nH.pos']
      have := mul_le_mul hH' hc' (by positivity) nH.pos'.le
      have h0 : (0 : ℝ) ≤ 2⁻¹ ^ p * H := by positivity
      norm_num at this ⊢
      linarith
    have t := abs_sub_abs_le_abs_sub (H' * ℓ q) (nearest p (H' * ℓ q))
    rw [abs_sub_comm] at t
    have h0 : (0 : ℝ) ≤ 2⁻¹ ^ p * H := by positivity
    have s := mul_le_mul_of_nonneg_right hu1 (abs_nonneg (H' * ℓ q))
    norm_num at hx s ⊢
    norm_num at hr t
    linarith

/-- The place of a cell. -/
def place (zc yc xc : String) (e : Env) (b : ℕ × ℕ × ℕ) : Env :=
  Function.update (Function.update (Function.update e zc b.1) yc b.2.1) xc b.2.2

/-- The cells of a run of `steric` at the time of `e` (reference: the first time level); `b` is the
index of the cell in the dimensions `zc`, `yc`, `xc`. -/
noncomputable def runCell (th so vol : DA (Fl ℝ)) (lev : ℕ → ℝ) (variant tc zc yc xc : String) (e : Env)
    (b : ℕ × ℕ × ℕ) : VolCell ℝ where
  vol := Fl.val0 (vol.get (Function.update (place zc yc xc e b) tc 0))
  z := lev b.1
  T := Fl.val0 (th.get (if variant = "halosteric" then Function.update (place zc yc xc e b) tc 0
    else place zc yc xc e b))
  S := Fl.val0 (so.get (if variant = "thermosteric" then Function.update (place zc yc xc e b) tc 0
    else place zc yc xc e b))
  Tref := Fl.val0 (th.get (Function.update (place zc yc xc e b) tc 0))
  Sref := Fl.val0 (so.get (Function.update (place zc yc xc e b) tc 0))

theorem tree_sum3 {n ny nx : ℕ} {P : ℕ × ℕ × ℕ → Prop} (F : ℕ × ℕ × ℕ → ℝ) {t : SumTree (ℕ × ℕ × ℕ)}
    (hn : t.leaves.Nodup) (ht : ∀ k j i, (k, j, i) ∈ t.leaves ↔ (k < n ∧ j < ny ∧ i < nx) ∧ P (k, j, i))
    (hF : ∀ b, ¬ P b → F b = 0) :
    t.sum F = ∑ k ∈ Finset.range n, ∑ j ∈ Finset.range ny, ∑ i ∈ Finset.range nx, F (k, j, i) := by
  classical
  rw [SumTree.sum_leaves, ← List.sum_toFinset F hn]
  have : t.leaves.toFinset = (Finset.range n ×ˢ Finset.range ny ×ˢ Finset.range nx).filter P := by
    ext ⟨k, j, i⟩
    simp [ht]
  rw [this, Finset.sum_filter_of_ne (fun b _ h => by by_contra h'; exact h (hF b h')), Finset.sum_product]
  refine Finset.sum_congr rfl (fun k _ => ?_)
  rw [Finset.sum_product]

theorem tree_sum2 {ny nx : ℕ} (F : ℕ × ℕ → ℝ) {t : SumTree (ℕ × ℕ)}
    (hn : t.leaves.Nodup) (ht : ∀ j i, (j, i) ∈ t.leaves ↔ j < ny ∧ i < nx) :
    t.sum F = ∑ j ∈ Finset.range ny, ∑ i ∈ Finset.range nx, F (j, i) := by
  classical
  rw [SumTree.sum_leaves, ← List.sum_toFinset F hn]
  have : t.leaves.toFinset = Finset.range ny ×ˢ Finset.range nx := by
    ext ⟨j, i⟩
    simp [ht]
  rw [this, Finset.sum_product]

/-- What the cells stand for: a successful global run of `steric` (reference: the first time level)
has at every time the exact height `globalHeight` of its wet cells, whatever the orders of summation. -/
theorem C122_steric {d rg refg : DS (Fl ℝ)} {cn : DictArg} {tc zc zb zid yc xc : String} {nt n ny nx : Nat}
    {lev ifc : Nat → ℝ} {th so vol area depth zi : DA (Fl ℝ)} {eos variant : String}
    {rhozero : Fl ℝ} {strict : Bool} {pa : ℝ}
    (g : GoodData d tc zc zb zid yc xc nt n ny nx lev ifc th so vol area depth zi (DA.scalar (.fin pa)))
    (hc : defaultCoords cn = .ok (tc, zc, zb))
    (hG : steric d .none cn none rhozero (DA.scalar (.fin pa)) eos variant "global" strict = .ok (rg, refg))
    (wth : th.WF) (wso : so.WF) (wvol : vol.WF) (warea : area.WF)
    (C : FilledCells tc zc n ifc vol area depth) (heos : CaseVariant eos "wright")
    (hO : ∀ e, e tc < nt → e zc < n → e yc < ny → e xc < nx → vol.get (Function.update e tc 0) ≠ .nan →
      ∃ T S Tref Sref,
        th.get (if variant = "halosteric" then Function.update e tc 0 else e) = .fin T ∧
        so.get (if variant = "thermosteric" then Function.update e tc 0 else e) = .fin S ∧
        th.get (Function.update e tc 0) = .fin Tref ∧ so.get (Function.update e tc 0) = .fin Sref ∧
        Spec.Wright.Ocean T S (lev (e zc) * 10 ^ 4 + pa) ∧
        Spec.Wright.Ocean Tref Sref (lev (e zc) * 10 ^ 4 + pa)) :
    ∃ b, rg.getVar variant = .ok b ∧ ∀ e, e tc < nt →
      ∀ (om or ov : SumTree (ℕ × ℕ × ℕ)) (oa : SumTree (ℕ × ℕ)),
        om.leaves.Nodup →
        (∀ k j i, (k, j, i) ∈ om.leaves ↔ (k < n ∧ j < ny ∧ i < nx) ∧
          vol.get (Function.update (place zc yc xc e (k, j, i)) tc 0) ≠ .nan) →
        or.leaves.Perm om.leaves → ov.leaves.Perm om.leaves →
        oa.leaves.Nodup → (∀ j i, (j, i) ∈ oa.leaves ↔ j < ny ∧ i < nx) →
        b.get e = .fin (globalHeight Wright.density Real.log pa
          (runCell th so vol lev variant tc zc yc xc e)
          (fun c => Fl.val0 (area.get (Function.update (Function.update e yc c.1) xc c.2))) om or ov oa) := by
  have pos : ∀ {T S p : ℝ}, Spec.Wright.Ocean T S p → 0 < Spec.Wright.rho T S p := by
    intro T S p h
    have := (C03_pos h).2
    rwa [C01_density_formula] at this
  let x : Env → ℝ := fun e => Spec.Wright.rho
    (Fl.val0 (th.get (if variant = "halosteric" then Function.update e tc 0 else e)))
    (Fl.val0 (so.get (if variant = "thermosteric" then Function.update e tc 0 else e))) (lev (e zc) * 10 ^ 4 + pa)
  let x0 : Env → ℝ := fun e => Spec.Wright.rho
    (Fl.val0 (th.get (Function.update e tc 0))) (Fl.val0 (so.get (Function.update e tc 0)))
    (lev (e zc) * 10 ^ 4 + pa)
  have hx : ∀ e, e tc < nt → e zc < n → e yc < ny → e xc < nx → vol.get (Function.update e tc 0) ≠ .nan →
      Wright.density (th.get (if variant = "halosteric" then Function.update e tc 0 else e))
        (so.get (if variant = "thermosteric" then Function.update e tc 0 else e))
        (.fin (lev (e zc) * 10 ^ 4) + (DA.scalar (.fin pa)).get e) = .fin (x e) ∧ 0 < x e := by
    intro e a1 a2 a3 a4 a5
    obtain ⟨T, S, Tr, Sr, q1, q2, q3, q4, q5, q6⟩ := hO e a1 a2 a3 a4 a5
    simp only [x, q1, q2, Fl.val0_fin]
    rw [DA.get_scalar, Fl.fin_add]
    exact ⟨wright_float q5, pos q5⟩
  have hx0 : ∀ e, e tc < nt → e zc < n → e yc < ny → e xc < nx → vol.get (Function.update e tc 0) ≠ .nan →
      Wright.density (th.get (Function.update e tc 0)) (so.get (Function.update e tc 0))
        (.fin (lev (e zc) * 10 ^ 4) + (DA.scalar (.fin pa)).get e) = .fin (x0 e) ∧ 0 < x0 e := by
    intro e a1 a2 a3 a4 a5
    obtain ⟨T, S, Tr, Sr, q1, q2, q3, q4, q5, q6⟩ := hO e a1 a2 a3 a4 a5
    simp only [x0, q3, q4, Fl.val0_fin]
    rw [DA.get_scalar, Fl.fin_add]
    exact ⟨wright_float q6, pos q6⟩
  obtain ⟨b, rhoga, b1, -, b3⟩ := global_value g hc hG wth wso wvol warea (fun _ _ _ => rfl) C (wright_eos heos) hx hx0
  refine ⟨b, b1, fun e het om or ov oa k1 k2 k3 k4 k5 k6 => ?_⟩
  have pm := filled_pos g.names g.aread C g.vold wvol (e := e) (y := x)
    (fun i h0 h1 h2 h3 h4 => (hx i (h0 ▸ het) h1 h2 h3 h4).2)
  have pm0 := filled_pos g.names g.aread C g.vold wvol (e := e) (y := x0)
    (fun i h0 h1 h2 h3 h4 => (hx0 i (h0 ▸ het) h1 h2 h3 h4).2)
  have pV : 0 < Spec.sumOver [(zc, n), (yc, ny), (xc, nx)]
      (fun a => Fl.val0 (vol.get (Function.update a tc 0))) e := by
    have := filled_pos g.names g.aread C g.vold wvol (e := e) (y := fun _ => 1) (fun _ _ _ _ _ _ => one_pos)
    simpa using this
  have pA := filled_area_pos g.names g.aread C (e := e)
  have v := (b3 e het _ _ _ _ rfl rfl rfl rfl pA pV pm pm0).2
  rw [v]
  have nd := g.names
  simp only [List.nodup_cons, List.mem_cons, not_or, List.not_mem_nil, or_false] at nd
  obtain ⟨⟨n1, n2, n3⟩, ⟨n4, n5⟩, n6, -⟩ := nd
  have hz : ∀ b, place zc yc xc e b zc = b.1 := by
    intro b
    simp [place, Function.update_of_ne n4, Function.update_of_ne n5]
  have sV : Spec.sumOver [(zc, n), (yc, ny), (xc, nx)] (fun a => Fl.val0 (vol.get (Function.update a tc 0))) e
      = cellsVolume (runCell th so vol lev variant tc zc yc xc e) ov := by
    unfold cellsVolume
    rw [sum_perm _ k4, tree_sum3 (P := fun b => vol.get (Function.update (place zc yc xc e b) tc 0) ≠ .nan) 
      _ k1 k2 (fun b hb => by
      simp only [not_not] at hb
      simp [runCell, hb, Fl.val0])]
    rfl
  have sm : Spec.sumOver [(zc, n), (yc, ny), (xc, nx)]
      (fun a => Fl.val0 (vol.get (Function.update a tc 0)) * x a) e
      = cellsMass Wright.density pa (runCell th so vol lev variant tc zc yc xc e) om := by
    unfold cellsMass
    rw [tree_sum3 (P := fun b => vol.get (Function.update (place zc yc xc e b) tc 0) ≠ .nan) 
      _ k1 k2 (fun b hb => by
      simp only [not_not] at hb
      simp [runCell, hb, Fl.val0])]
    refine Finset.sum_congr rfl (fun k _ => Finset.sum_congr rfl (fun j _ => Finset.sum_congr rfl (fun i _ => ?_)))
    have := hz (k, j, i)
    show Fl.val0 (vol.get (Function.update (place zc yc xc e (k, j, i)) tc 0)) * x (place zc yc xc e (k, j, i)) = _
    rw [Wright.density_eq, mul_comm]
    simp only [x, this, runCell, colPressure]
    norm_num
  have sm0 : Spec.sumOver [(zc, n), (yc, ny), (xc, nx)]
      (fun a => Fl.val0 (vol.get (Function.update a tc 0)) * x0 a) e
      = cellsMassRef Wright.density pa (runCell th so vol lev variant tc zc yc xc e) or := by
    unfold cellsMassRef
    rw [sum_perm _ k3, tree_sum3 (P := fun b => vol.get (Function.update (place zc yc xc e b) tc 0) ≠ .nan) 
      _ k1 k2 (fun b hb => by
      simp only [not_not] at hb
      simp [runCell, hb, Fl.val0])]
    refine Finset.sum_congr rfl (fun k _ => Finset.sum_congr rfl (fun j _ => Finset.sum_congr rfl (fun i _ => ?_)))
    have := hz (k, j, i)
    show Fl.val0 (vol.get (Function.update (place zc yc xc e (k, j, i)) tc 0)) * x0 (place zc yc xc e (k, j, i)) = _
    rw [Wright.density_eq, mul_comm]
    simp only [x0, this, runCell, colPressure]
    norm_num
  have sA : Spec.sumOver [(yc, ny), (xc, nx)] (fun a => Fl.val0 (area.get a)) e
      = oa.sum (fun c => Fl.val0 (area.get (Function.update (Function.update e yc c.1) xc c.2))) := by
    rw [tree_sum2 _ k5 k6]
    rfl
  unfold globalHeight
  rw [← sV, ← sm, ← sm0, ← sA]
  congr 3
  field_simp

/-- The dataset `mhD`: at both times the height computed in double precision, with the sums added up
in the order of the indices, is within 3·10⁻⁸ m of the result of the run. -/
example : ∃ rg refg b, steric mhD .none .none none (.fin 1035) (DA.scalar (.fin 101325)) "Wright" "steric" "global" true
      = .ok (rg, refg) ∧ rg.getVar "steric" = .ok b ∧
    ∀ e, e "time" < 2 → ∀ ℓ : ℝ → ℝ, (∀ x, 0 < x → |ℓ x - Real.log x| ≤ 4 * 2⁻¹ ^ 53 * |Real.log x|) →
    ∃ om oa h h', b.get e = .fin h ∧
      h' = (globalHeight Wright.density (fun x => (⟨ℓ x.val⟩ : Rd (nearest 53))) ⟨101325⟩
          (fun b => VolCell.toRd (nearest 53)
            (runCell exT exS mhV (fun k => 500 + 1000 * (k : ℝ)) "steric" "time" "z_l" "yh" "xh" e b))
          (fun c => ⟨Fl.val0 (exA.get (Function.update (Function.update e "yh" c.1) "xh" c.2))⟩) om om om oa).val ∧
      om.leaves = [(0, 0, 0), (0, 1, 0), (1, 0, 0), (1, 1, 0)] ∧ oa.leaves = [(0, 0), (0, 1), (1, 0), (1, 1)] ∧
      |h' - h| ≤ 3 / 10 ^ 8 := by
  obtain ⟨⟨rg, refg⟩, hG⟩ := C30_success (domain := "global") (variant := "steric") (eos := "Wright")
    (rhozero := .fin 1035) (strict := true) mhGood exC (by simp) (Or.inl wright_case) (by simp) (fun _ => exArea)
  have ocean : ∀ t k : Nat, t < 2 → k < 2 → Spec.Wright.Ocean (10 + 5 * (t : ℝ)) (34 + (t : ℝ))
      ((500 + 1000 * (k : ℝ)) * 10 ^ 4 + 101325) := by
    intro t k ht hk
    have h1 : t = 0 ∨ t = 1 := by omega
    have h2 : k = 0 ∨ k = 1 := by omega
    rcases h1 with rfl | rfl <;> rcases h2 with rfl | rfl <;> norm_num [Spec.Wright.Ocean]
  obtain ⟨b, b1, b2⟩ := C122_steric mhGood exC hG (fun e e' h => by
      have := h "time" (by simp [exT, exDims, DA.dimNames]); simp [exT, this]) (fun e e' h => by
      have := h "time" (by simp [exS, exDims, DA.dimNames]); simp [exS, this]) (fun e e' h => by
      have := h "xh" (by simp [mhV, exDims, DA.dimNames]); simp [mhV, this]) (fun _ _ _ => rfl)
      mhFilled wright_case
      (fun e h1 h2 _ _ _ => ⟨10 + 5 * (e "time" : ℝ), 34 + (e "time" : ℝ), 10, 34, by
        rw [if_neg (by decide)]; rfl, by rw [if_neg (by decide)]; rfl, by simp [exT], by simp [exS],
        ocean _ _ h1 h2, by have := ocean 0 _ (by norm_num) h2; simpa using this⟩)
  refine ⟨rg, refg, b, hG, b1, fun e he ℓ hℓ => ?_⟩
  let om : SumTree (ℕ × ℕ × ℕ) := .node (.node (.node (.leaf (0, 0, 0)) (.leaf (0, 1, 0))) (.leaf (1, 0, 0))) (.leaf (1, 1, 0))
  let oa : SumTree (ℕ × ℕ) := .node (.node (.node (.leaf (0, 0)) (.leaf (0, 1))) (.leaf (1, 0))) (.leaf (1, 1))
  have lm : om.leaves = [(0, 0, 0), (0, 1, 0), (1, 0, 0), (1, 1, 0)] := rfl
  have la : oa.leaves = [(0, 0), (0, 1), (1, 0), (1, 1)] := rfl
  have hb := b2 e he om om om oa (by rw [lm]; decide) (fun k j i => by
    rw [lm]
    simp only [List.mem_cons, Prod.mk.injEq, List.not_mem_nil, or_false]
    by_cases hi : i = 0
    · simp [mhV, place, hi]; omega
    · simp [mhV, place, hi]) List.Perm.rfl List.Perm.rfl (by rw [la]; decide) (fun j i => by
    rw [la]
    simp only [List.mem_cons, Prod.mk.injEq, List.not_mem_nil, or_false]
    omega)
  have hcell : ∀ b ∈ om.leaves,
      runCell exT exS mhV (fun k => 500 + 1000 * (k : ℝ)) "steric" "time" "z_l" "yh" "xh" e b
        = ⟨90277730000000 * 1000, 500 + 1000 * (b.1 : ℝ), 10 + 5 * (e "time" : ℝ), 34 + (e "time" : ℝ), 10, 34⟩ := by
    intro b hb
    rw [lm] at hb
    simp only [List.mem_cons, List.not_mem_nil, or_false] at hb
    rcases hb with rfl | rfl | rfl | rfl <;> simp [runCell, place, exT, exS, mhV]
  have harea : ∀ c : ℕ × ℕ, Fl.val0 (exA.get (Function.update (Function.update e "yh" c.1) "xh" c.2))
      = 90277730000000 := fun c => rfl
  have ht : e "time" = 0 ∨ e "time" = 1 := by omega
  have hbox : ∀ k : ℕ, k < 2 → (1000 : ℝ) ≤ Spec.Wright.rho (10 + 5 * (e "time" : ℝ)) (34 + (e "time" : ℝ))
        ((500 + 1000 * (k : ℝ)) * 10 ^ 4 + 101325) ∧ Spec.Wright.rho (10 + 5 * (e "time" : ℝ)) (34 + (e "time" : ℝ))
        ((500 + 1000 * (k : ℝ)) * 10 ^ 4 + 101325) ≤ 1040 ∧
      (1000 : ℝ) ≤ Spec.Wright.rho 10 34 ((500 + 1000 * (k : ℝ)) * 10 ^ 4 + 101325) ∧
      Spec.Wright.rho 10 34 ((500 + 1000 * (k : ℝ)) * 10 ^ 4 + 101325) ≤ 1040 := by
    intro k hk
    have h2 : k = 0 ∨ k = 1 := by omega
    rcases ht with h | h <;> rw [h] <;> rcases h2 with rfl | rfl <;>
      norm_num [Spec.Wright.rho, Spec.Wright.denom, Spec.Wright.p0, Spec.Wright.lam, Spec.Wright.al0]
  refine ⟨om, oa, _, _, hb, rfl, rfl, rfl, ?_⟩
  have hsum : ∀ F : ℕ × ℕ × ℕ → ℝ, om.sum F = F (0, 0, 0) + F (0, 1, 0) + F (1, 0, 0) + F (1, 1, 0) := fun _ => rfl
  have c0 := hcell (0, 0, 0) (by simp [lm])
  have c1 := hcell (0, 1, 0) (by simp [lm])
  have c2 := hcell (1, 0, 0) (by simp [lm])
  have c3 := hcell (1, 1, 0) (by simp [lm])
  have hV : cellsVolume (runCell exT exS mhV (fun k => 500 + 1000 * (k : ℝ)) "steric" "time" "z_l" "yh" "xh" e) om
      = 4 * (90277730000000 * 1000) := by
    unfold cellsVolume
    rw [hsum, c0, c1, c2, c3]
    norm_num
  have hA : oa.sum (fun c => Fl.val0 (exA.get (Function.update (Function.update e "yh" c.1) "xh" c.2)))
      = 4 * 90277730000000 := by
    simp [oa, SumTree.sum, exA]
    norm_num
  refine (C122_precision (by norm_num) _ _ (fun b hb => ?_) List.Perm.rfl List.Perm.rfl (fun c _ => ?_) ?_ ?_ ?_ ℓ).1
    (by simp [om, SumTree.depth]) (by simp [om, SumTree.depth]) (by simp [om, SumTree.depth])
    (by simp [oa, SumTree.depth]) hℓ
  · rw [hcell b hb]
    have hk : b.1 < 2 := by
      rw [lm] at hb
      simp only [List.mem_cons, List.not_mem_nil, or_false] at hb
      rcases hb with rfl | rfl | rfl | rfl <;> simp
    have hk' : (b.1 : ℝ) ≤ 1 := by exact_mod_cast Nat.le_of_lt_succ hk
    have hk0 : (0 : ℝ) ≤ b.1 := Nat.cast_nonneg _
    constructor <;> simp only
    · norm_num
    · constructor <;> linarith
    · rcases ht with h | h <;> rw [h] <;> norm_num
    · rcases ht with h | h <;> rw [h] <;> norm_num
    · norm_num
    · norm_num
  · rw [harea]; norm_num
  · rw [hV, hA]; norm_num
  · rw [hV, hA]; norm_num
  · unfold globalHeight
    rw [hV, hA]
    have hm : ∀ k : ℕ, colPressure (101325 : ℝ) (500 + 1000 * (k : ℝ)) = (500 + 1000 * (k : ℝ)) * 10 ^ 4 + 101325 := by
      intro k; unfold colPressure; norm_num
    unfold cellsMass cellsMassRef
    rw [hsum, hsum, c0, c1, c2, c3]
    simp only [Wright.density_eq, hm]
    obtain ⟨a1, a2, a3, a4⟩ := hbox 0 (by norm_num)
    obtain ⟨b1, b2, b3, b4⟩ := hbox 1 (by norm_num)
    generalize Spec.Wright.rho (10 + 5 * (e "time" : ℝ)) (34 + (e "time" : ℝ))
        ((500 + 1000 * ((0 : ℕ) : ℝ)) * 10 ^ 4 + 101325) = r0 at *
    generalize Spec.Wright.rho (10 + 5 * (e "time" : ℝ)) (34 + (e "time" : ℝ))
        ((500 + 1000 * ((1 : ℕ) : ℝ)) * 10 ^ 4 + 101325) = r1 at *
    generalize Spec.Wright.rho 10 34 ((500 + 1000 * ((0 : ℕ) : ℝ)) * 10 ^ 4 + 101325) = s0 at *
    generalize Spec.Wright.rho 10 34 ((500 + 1000 * ((1 : ℕ) : ℝ)) * 10 ^ 4 + 101325) = s1 at *
    set q := (s0 * (90277730000000 * 1000) + s0 * (90277730000000 * 1000) + s1 * (90277730000000 * 1000) +
      s1 * (90277730000000 * 1000)) / (4 * (90277730000000 * 1000)) /
      ((r0 * (90277730000000 * 1000) + r0 * (90277730000000 * 1000) + r1 * (90277730000000 * 1000) +
      r1 * (90277730000000 * 1000)) / (4 * (90277730000000 * 1000))) with hq
    have eq : q = (s0 + s1) / (r0 + r1) := by
      rw [hq]
      have : r0 + r1 ≠ 0 := by linarith
      field_simp
      ring
    have q1 : q ≤ 1.04 := by
      rw [eq, div_le_iff₀ (by linarith)]; linarith
    have q2 : 1 / 1.04 ≤ q := by
      rw [eq, div_le_div_iff₀ (by norm_num) (by linarith)]; linarith
    have q0 : 0 < q := by
      refine lt_of_lt_of_le ?_ q2
      norm_num
    have l1 := Real.log_le_sub_one_of_pos q0
    have l2 := Real.one_sub_inv_le_log_of_pos q0
    have l3 : q⁻¹ ≤ 1.04 := by
      rw [inv_le_comm₀ q0 (by norm_num)]
      simpa using q2
    rw [abs_mul, abs_of_pos (by norm_num)]
    have : |Real.log q| ≤ 0.04 := by rw [abs_le]; constructor <;> linarith
    norm_num at this ⊢
    linarith

end Momlevel.Props
