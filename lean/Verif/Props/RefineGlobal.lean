import Verif.Props.Refine
import Verif.Props.MeanHeight

/-!
# C120: the global height and cut layers
-/

set_option linter.unusedSectionVars false

namespace Momlevel.Props
open Momlevel Momlevel.Fl Momlevel.Eos Momlevel.Spec

variable {d d' r ref r' ref' : DS (Fl ℝ)} {cn : DictArg} {tc zc zb zid zid' yc xc : String}
  {nt n n' ny nx : Nat} {lev ifc lev' ifc' : Nat → ℝ}
  {th so vol area depth zi patm th' so' vol' zi' : DA (Fl ℝ)} {eos variant : String} {rhozero : Fl ℝ}
  {strict : Bool} {b : Nat → Nat}

/-- A wet cell has a temperature and a salinity of positive density (of the linear equation of state), at
its own time, at the first time, and with the two mixed. -/
def LinearPositive (th so : DA (Fl ℝ)) (e e0 : Env) : Prop :=
  ∃ T S T0 S0 : ℝ, th.get e = fin T ∧ so.get e = fin S ∧ th.get e0 = fin T0 ∧ so.get e0 = fin S0 ∧
    0 < linRho T S ∧ 0 < linRho T0 S0 ∧ 0 < linRho T0 S ∧ 0 < linRho T S0

theorem linear_pair (h : LinearPositive th so e e0) (f1 f2 : Bool) (p : Fl ℝ) :
    Linear.density (th.get (if f1 then e0 else e)) (so.get (if f2 then e0 else e)) p
      = fin (linRho (val0 (th.get (if f1 then e0 else e))) (val0 (so.get (if f2 then e0 else e)))) ∧
    0 < linRho (val0 (th.get (if f1 then e0 else e))) (val0 (so.get (if f2 then e0 else e))) := by
  obtain ⟨T, S, T0, S0, h1, h2, h3, h4, p1, p2, p3, p4⟩ := h
  cases f1 <;> cases f2 <;> simp only [Bool.false_eq_true, if_true, if_false, h1, h2, h3, h4, val0_fin] <;>
    exact ⟨linear_float _ _ _, by assumption⟩

/-- C120: with the linear equation of state the global heights do not change when layers are cut into
thinner ones with the same temperature and salinity and the volume shared out by thickness. -/
theorem C120_global
    (g : GoodData d tc zc zb zid yc xc nt n ny nx lev ifc th so vol area depth zi patm)
    (g' : GoodData d' tc zc zb zid' yc xc nt n' ny nx lev' ifc' th' so' vol' area depth zi' patm)
    (hc : defaultCoords cn = .ok (tc, zc, zb)) (heos : CaseVariant eos "linear")
    (h : steric d .none cn none rhozero patm eos variant "global" strict = .ok (r, ref))
    (h' : steric d' .none cn none rhozero patm eos variant "global" strict = .ok (r', ref'))
    (wth : th.WF) (wso : so.WF) (wvol : vol.WF) (wth' : th'.WF) (wso' : so'.WF) (wvol' : vol'.WF)
    (warea : area.WF) (wpat : patm.WF)
    (C : FilledCells tc zc n ifc vol area depth) (C' : FilledCells tc zc n' ifc' vol' area depth)
    (R : Refines ifc ifc' n n' b)
    (hp : ∀ e, e tc < nt → e yc < ny → e xc < nx → ∀ k < n, vol.get (cell0 tc zc e k) ≠ nan →
      LinearPositive th so (cell zc e k) (cell0 tc zc e k))
    (hm : ∀ e, e tc < nt → e yc < ny → e xc < nx → ∀ k < n, ∀ i, b k ≤ i → i < b (k + 1) →
      (vol.get (cell0 tc zc e k) = nan → vol'.get (cell0 tc zc e i) = nan) ∧
      (vol.get (cell0 tc zc e k) ≠ nan →
        vol'.get (cell0 tc zc e i) ≠ nan ∨ val0 (depth.get e) ≤ ifc' i) ∧
      (vol'.get (cell0 tc zc e i) ≠ nan →
        th'.get (cell zc e i) = th.get (cell zc e k) ∧ so'.get (cell zc e i) = so.get (cell zc e k) ∧
        th'.get (cell0 tc zc e i) = th.get (cell0 tc zc e k) ∧
        so'.get (cell0 tc zc e i) = so.get (cell0 tc zc e k))) :
    ∃ a a', r.getVar variant = .ok a ∧ r'.getVar variant = .ok a' ∧
      ∀ e, e tc < nt → a'.get e = a.get e := by
  have hf := linear_eos heos
  have nd := g.names
  simp only [List.nodup_cons, List.mem_cons, not_or, List.not_mem_nil, or_false] at nd
  obtain ⟨⟨n1, n2, n3⟩, ⟨n4, n5⟩, n6, -⟩ := nd
  obtain ⟨z, zi2, -, -, gz⟩ := g'.grid.grid
  let fT : Bool := decide (variant = "halosteric")
  let fS : Bool := decide (variant = "thermosteric")
  let ρ : DA (Fl ℝ) → DA (Fl ℝ) → Bool → Bool → Env → ℝ := fun th so f1 f2 e =>
    linRho (val0 (th.get (if f1 then Function.update e tc 0 else e)))
      (val0 (so.get (if f2 then Function.update e tc 0 else e)))
  have hsame : ∀ (e : Env) (k : Nat), e zc = k → cell zc e k = e := by
    rintro e k rfl; simp [cell]
  have hlay : ∀ i < n', ∃ k < n, b k ≤ i ∧ i < b (k + 1) := by
    intro i hi
    by_contra hcon
    push Not at hcon
    have : ∀ j ≤ n, b j ≤ i := by
      intro j hj
      induction j with
      | zero => rw [R.first]; omega
      | succ j ih => exact hcon j (by omega) (ih (by omega))
    have := this n le_rfl
    rw [R.last] at this
    omega
  have hp' : ∀ e, e tc < nt → e yc < ny → e xc < nx → ∀ i < n', vol'.get (cell0 tc zc e i) ≠ nan →
      LinearPositive th' so' (cell zc e i) (cell0 tc zc e i) := by
    intro e e1 e2 e3 i hi hv
    obtain ⟨k, hk, h1, h2⟩ := hlay i hi
    obtain ⟨m1, -, m3⟩ := hm e e1 e2 e3 k hk i h1 h2
    obtain ⟨q1, q2, q3, q4⟩ := m3 hv
    have := hp e e1 e2 e3 k hk (fun hn => hv (m1 hn))
    unfold LinearPositive at this ⊢
    rw [q1, q2, q3, q4]
    exact this
  have cond : ∀ {th so vol : DA (Fl ℝ)} {n : Nat}, (∀ e, e tc < nt → e yc < ny → e xc < nx → ∀ k < n,
      vol.get (cell0 tc zc e k) ≠ nan → LinearPositive th so (cell zc e k) (cell0 tc zc e k)) →
      ∀ (f1 f2 : Bool) (p : Env → Fl ℝ) (e : Env), e tc < nt → e zc < n → e yc < ny → e xc < nx →
        vol.get (Function.update e tc 0) ≠ nan →
        Linear.density (th.get (if f1 then Function.update e tc 0 else e))
          (so.get (if f2 then Function.update e tc 0 else e)) (p e) = fin (ρ th so f1 f2 e) ∧
        0 < ρ th so f1 f2 e := by
    intro th so vol n hp f1 f2 p e e1 e2 e3 e4 hv
    have := hp e e1 e3 e4 (e zc) e2 (by
      rwa [show cell0 tc zc e (e zc) = Function.update e tc 0 by simp [cell0, cell]])
    rw [show cell0 tc zc e (e zc) = Function.update e tc 0 by simp [cell0, cell], hsame _ _ rfl] at this
    exact linear_pair this f1 f2 _
  have hif : ∀ (P : Prop) [Decidable P] (x y : Env), (if P then x else y) = if decide P then x else y := by
    intro P _ x y; by_cases hP : P <;> simp [hP]
  obtain ⟨a, rg, a1, -, a3⟩ := global_value g hc h wth wso wvol warea wpat C hf
    (x := ρ th so fT fS) (x0 := ρ th so true true)
    (fun e e1 e2 e3 e4 hv => by
      rw [hif (variant = "halosteric"), hif (variant = "thermosteric")]
      exact cond hp fT fS (fun e => fin (lev (e zc) * 10 ^ 4) + patm.get e) e e1 e2 e3 e4 hv)
    (fun e e1 e2 e3 e4 hv =>
      cond hp true true (fun e => fin (lev (e zc) * 10 ^ 4) + patm.get e) e e1 e2 e3 e4 hv)
  obtain ⟨a', rg', a1', -, a3'⟩ := global_value g' hc h' wth' wso' wvol' warea wpat C' hf
    (x := ρ th' so' fT fS) (x0 := ρ th' so' true true)
    (fun e e1 e2 e3 e4 hv => by
      rw [hif (variant = "halosteric"), hif (variant = "thermosteric")]
      exact cond hp' fT fS (fun e => fin (lev' (e zc) * 10 ^ 4) + patm.get e) e e1 e2 e3 e4 hv)
    (fun e e1 e2 e3 e4 hv =>
      cond hp' true true (fun e => fin (lev' (e zc) * 10 ^ 4) + patm.get e) e e1 e2 e3 e4 hv)
  refine ⟨a, a', a1, a1', fun e het => ?_⟩
  -- a sum over the fine cells is the sum over the coarse cells
  have key : ∀ y y' : Env → ℝ, (∀ i, i tc = e tc → i yc < ny → i xc < nx → ∀ k < n, ∀ j, b k ≤ j →
      j < b (k + 1) → vol'.get (cell0 tc zc i j) ≠ nan → y' (cell zc i j) = y (cell zc i k)) →
      Spec.sumOver [(zc, n'), (yc, ny), (xc, nx)]
        (fun a => val0 (vol'.get (Function.update a tc 0)) * y' a) e
      = Spec.sumOver [(zc, n), (yc, ny), (xc, nx)]
        (fun a => val0 (vol.get (Function.update a tc 0)) * y a) e := by
    intro y y' hy
    rw [sumOver_levels (by simp [n4, n5]), sumOver_levels (by simp [n4, n5])]
    refine sumOver_congr (by simp [n6]) (fun i h1 h2 => ?_)
    have iy : i yc < ny := h1 (yc, ny) (by simp)
    have ix : i xc < nx := h1 (xc, nx) (by simp)
    have it : i tc = e tc := h2 tc (by simp [n2, n3])
    have hb := filled_area g.names g.aread C iy ix
    rw [refines_sum R]
    refine Finset.sum_congr rfl (fun k hk => ?_)
    have hk := Finset.mem_range.1 hk
    show ∑ j ∈ Finset.Ico (b k) (b (k + 1)), val0 (vol'.get (cell0 tc zc i j)) * y' (cell zc i j)
      = val0 (vol.get (cell0 tc zc i k)) * y (cell zc i k)
    have hmk := fun j h1 h2 => hm i (it ▸ het) iy ix k hk j h1 h2
    have hin : ∀ j, j < b (k + 1) → j < n' := fun j hj => lt_of_lt_of_le hj (refines_mono R (by omega))
    rcases C.cells i hb k hk with hv | hv
    · rw [hv]
      refine (Finset.sum_eq_zero (fun j hj => ?_)).trans (by simp)
      obtain ⟨h1, h2⟩ := Finset.mem_Ico.1 hj
      rw [(hmk j h1 h2).1 hv]
      simp
    · rw [hv, val0_fin, ← thickness_refines R gz.imono _ hk, Finset.mul_sum, Finset.sum_mul]
      refine Finset.sum_congr rfl (fun j hj => ?_)
      obtain ⟨h1, h2⟩ := Finset.mem_Ico.1 hj
      rcases C'.cells i hb j (hin j h2) with hw | hw
      · have hle := ((hmk j h1 h2).2.1 (by rw [hv]; simp)).resolve_left (not_not.2 hw)
        have hz : thickness ifc' (val0 (depth.get i)) j = 0 := by
          unfold thickness overlap
          refine max_eq_left ?_
          have e1 := min_le_right (ifc' (j + 1)) (val0 (depth.get i))
          have e2 := le_max_left (ifc' j) (ifc' 0)
          linarith
        rw [hw, hz]
        simp
      · rw [hy i it iy ix k hk j h1 h2 (by rw [hw]; simp), hw, val0_fin]
  have hρ : ∀ f1 f2 : Bool, ∀ i, i tc = e tc → i yc < ny → i xc < nx → ∀ k < n, ∀ j, b k ≤ j →
      j < b (k + 1) → vol'.get (cell0 tc zc i j) ≠ nan →
      ρ th' so' f1 f2 (cell zc i j) = ρ th so f1 f2 (cell zc i k) := by
    intro f1 f2 i it iy ix k hk j h1 h2 hv
    obtain ⟨q1, q2, q3, q4⟩ := (hm i (it ▸ het) iy ix k hk j h1 h2).2.2 hv
    have q3' : th'.get (Function.update (cell zc i j) tc 0) = th.get (Function.update (cell zc i k) tc 0) := q3
    have q4' : so'.get (Function.update (cell zc i j) tc 0) = so.get (Function.update (cell zc i k) tc 0) := q4
    cases f1 <;> cases f2 <;> simp only [ρ, Bool.false_eq_true, if_true, if_false, q1, q2, q3', q4']
  have pos : ∀ {th so vol : DA (Fl ℝ)} {n : Nat} {ifc : Nat → ℝ} (_ : FilledCells tc zc n ifc vol area depth)
      (_ : vol.dims = [(tc, nt), (zc, n), (yc, ny), (xc, nx)]) (_ : vol.WF),
      (∀ e, e tc < nt → e yc < ny → e xc < nx → ∀ k < n,
        vol.get (cell0 tc zc e k) ≠ nan → LinearPositive th so (cell zc e k) (cell0 tc zc e k)) →
      ∀ f1 f2, 0 < Spec.sumOver [(zc, n), (yc, ny), (xc, nx)]
        (fun a => val0 (vol.get (Function.update a tc 0)) * ρ th so f1 f2 a) e := by
    intro th so vol n ifc C vd w hp f1 f2
    exact filled_pos g.names g.aread C vd w (fun i h0 h1 h2 h3 h4 =>
      (cond hp f1 f2 (fun _ => nan) i (h0 ▸ het) h1 h2 h3 h4).2)
  have pV : 0 < Spec.sumOver [(zc, n), (yc, ny), (xc, nx)]
      (fun a => val0 (vol.get (Function.update a tc 0))) e := by
    have := filled_pos g.names g.aread C g.vold wvol (e := e) (y := fun _ => 1) (fun _ _ _ _ _ _ => one_pos)
    simpa using this
  have pA : 0 < Spec.sumOver [(yc, ny), (xc, nx)] (fun a => val0 (area.get a)) e :=
    filled_area_pos g.names g.aread C
  have eV := key (fun _ => 1) (fun _ => 1) (fun _ _ _ _ _ _ _ _ _ _ => rfl)
  simp only [mul_one] at eV
  have em := key _ _ (hρ fT fS)
  have em0 := key _ _ (hρ true true)
  have v := (a3 e het _ _ _ _ rfl rfl rfl rfl pA pV (pos C g.vold wvol hp fT fS)
    (pos C g.vold wvol hp true true)).2
  have v' := (a3' e het _ _ _ _ rfl rfl rfl rfl pA (eV ▸ pV) (pos C' g'.vold wvol' hp' fT fS)
    (pos C' g'.vold wvol' hp' true true)).2
  rw [v, v', eV, em, em0]

noncomputable section

/-- The oceans `mhD` (of `Props/MeanHeight`) with every layer cut in two. -/
def fineMV : DA (Fl ℝ) := ⟨fineDims, fun e => if e "xh" = 0 then fin (90277730000000 * 500) else nan⟩
def fineMD : DS (Fl ℝ) := ⟨[("thetao", fineT), ("so", fineS), ("volcello", fineMV), ("areacello", exA),
  ("deptho", exDepth), ("z_l", fineZ), ("z_i", fineZi)], ["z_l", "z_i"]⟩

theorem fineMGood : GoodData fineMD "time" "z_l" "z_i" "z_i" "yh" "xh" 2 4 2 2
    (fun k => 250 + 500 * (k : ℝ)) (fun k => 500 * (k : ℝ)) fineT fineS fineMV exA exDepth fineZi
    (DA.scalar (fin 101325)) where
  names := by decide
  hnt := by norm_num
  hn := by norm_num
  hny := by norm_num
  hnx := by norm_num
  hth := rfl
  hso := rfl
  hvol := rfl
  harea := rfl
  hzb := rfl
  thd := rfl
  sod := rfl
  vold := rfl
  aread := rfl
  depthd := rfl
  grid :=
    { grid := fineGrid.grid
      hdepth := rfl
      bathy := exGrid.bathy
      hz := exGrid.hz
      coord := by simp [fineMD, DS.names] }
  alone := by simp [fineMD, fineZ, fineZi, DA.dimNames]
  patmd := by simp

theorem fineFilled : FilledCells "time" "z_l" 4 (fun k => 500 * (k : ℝ)) fineMV exA exDepth where
  area_pos := fun e _ => ⟨90277730000000, by norm_num, rfl⟩
  cells := by
    intro e _ k hk
    by_cases h : e "xh" = 0
    · right
      have hv : fineMV.get (cell0 "time" "z_l" e k) = fin (90277730000000 * 500) := by simp [fineMV, h]
      rw [hv]
      interval_cases k <;> norm_num [exA, exDepth, h, thickness, Spec.overlap]
    · left
      simp [fineMV, h]
  top := by
    intro e _ h k _
    by_cases h' : e "xh" = 0
    · simp [fineMV, h'] at h
    · simp [fineMV, h']
  some_wet := ⟨fun _ => 0, by simp [DA.InBounds, exA], 0, by norm_num, by simp [fineMV]⟩

/-- C120 for the global heights of this ocean. -/
example (variant : String) (hv : variant ∈ ["thermosteric", "halosteric", "steric"]) :
    ∃ r r' ref ref' a a',
      steric mhD .none .none none (fin 1035) (DA.scalar (fin 101325)) "linear" variant "global" true
        = .ok (r, ref) ∧
      steric fineMD .none .none none (fin 1035) (DA.scalar (fin 101325)) "linear" variant "global" true
        = .ok (r', ref') ∧ r.getVar variant = .ok a ∧ r'.getVar variant = .ok a' ∧
      ∀ e, e "time" < 2 → a'.get e = a.get e := by
  obtain ⟨⟨r, ref⟩, h⟩ := C30_success (domain := "global") (variant := variant) (eos := "linear")
    (rhozero := fin 1035) (strict := true) mhGood exC hv (Or.inr linear_case) (by simp) (fun _ => exArea)
  obtain ⟨⟨r', ref'⟩, h'⟩ := C30_success (domain := "global") (variant := variant) (eos := "linear")
    (rhozero := fin 1035) (strict := true) fineMGood exC hv (Or.inr linear_case) (by simp) (fun _ => exArea)
  obtain ⟨a, a', h1, h2, h3⟩ := C120_global mhGood fineMGood exC linear_case h h'
    (fun e e' h => by have := h "time" (by simp [exT, exDims, DA.dimNames]); simp [exT, this])
    (fun e e' h => by have := h "time" (by simp [exS, exDims, DA.dimNames]); simp [exS, this])
    (fun e e' h => by have := h "xh" (by simp [mhV, exDims, DA.dimNames]); simp [mhV, this])
    (fun e e' h => by have := h "time" (by simp [fineT, fineDims, DA.dimNames]); simp [fineT, this])
    (fun e e' h => by have := h "time" (by simp [fineS, fineDims, DA.dimNames]); simp [fineS, this])
    (fun e e' h => by have := h "xh" (by simp [fineMV, fineDims, DA.dimNames]); simp [fineMV, this])
    (fun _ _ _ => rfl) (fun _ _ _ => rfl) mhFilled fineFilled fineRefines
    (fun e ht _ _ k _ _ => by
      have e1 : (e "time" : ℝ) ≤ 1 := by exact_mod_cast Nat.le_of_lt_succ ht
      have e2 : (0 : ℝ) ≤ e "time" := Nat.cast_nonneg _
      refine ⟨10 + 5 * (e "time" : ℝ), 34 + (e "time" : ℝ), 10, 34, by simp [exT], by simp [exS], by simp [exT],
        by simp [exS], ?_, ?_, ?_, ?_⟩ <;> unfold linRho <;> norm_num <;> linarith)
    (fun e _ _ _ k _ i _ _ => by
      refine ⟨fun hn => ?_, fun hn => Or.inl ?_, fun _ => ⟨?_, ?_, ?_, ?_⟩⟩ <;>
        simp_all [mhV, fineMV, exT, fineT, exS, fineS])
  exact ⟨r, r', ref, ref', a, a', h, h', h1, h2, h3⟩

end

end Momlevel.Props
