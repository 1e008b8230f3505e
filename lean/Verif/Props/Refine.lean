import Mathlib.Tactic.IntervalCases
import Verif.Spec.Refine
import Verif.Props.Dz
import Verif.Props.StericVariants
import Verif.Props.StericSuccess

/-!
# C120: cutting layers into thinner ones
-/

set_option linter.unusedSectionVars false

namespace Momlevel.Props
open Momlevel Momlevel.Fl Momlevel.Eos Momlevel.Spec

theorem overlap_add {a b c lo hi : ℝ} (h1 : a ≤ b) (h2 : b ≤ c) :
    overlap a b lo hi + overlap b c lo hi = overlap a c lo hi := by
  unfold overlap
  simp only [max_def, min_def]
  split_ifs <;> linarith

theorem overlap_self (a lo hi : ℝ) : overlap a a lo hi = 0 := by
  unfold overlap
  simp only [max_def, min_def]
  split_ifs <;> linarith

theorem overlap_sum {g : Nat → ℝ} {lo hi : ℝ} {i j : Nat} (hij : i ≤ j)
    (hg : ∀ k, i ≤ k → k < j → g k ≤ g (k + 1)) :
    g i ≤ g j ∧ ∑ k ∈ Finset.Ico i j, overlap (g k) (g (k + 1)) lo hi = overlap (g i) (g j) lo hi := by
  induction j, hij using Nat.le_induction with
  | base => simp [overlap_self]
  | succ j hij ih =>
    obtain ⟨h1, h2⟩ := ih (fun k hk hk' => hg k hk (by omega))
    have h3 := hg j hij (by omega)
    refine ⟨h1.trans h3, ?_⟩
    rw [Finset.sum_Ico_succ_top hij, h2, overlap_add h1 h3]

theorem refines_mono {ifc ifc' : Nat → ℝ} {n n' : Nat} {b : Nat → Nat} (R : Refines ifc ifc' n n' b)
    {k : Nat} (hk : k ≤ n) : b k ≤ n' := by
  have : ∀ j, k ≤ j → j ≤ n → b k ≤ b j := by
    intro j hkj
    induction j, hkj using Nat.le_induction with
    | base => intro _; exact le_rfl
    | succ j hkj ih => intro hj; exact (ih (by omega)).trans (R.parts j (by omega)).le
  rw [← R.last]
  exact this n hk le_rfl

/-- A sum over the finer layers, layer by layer. -/
theorem refines_sum {ifc ifc' : Nat → ℝ} {n n' : Nat} {b : Nat → Nat} (R : Refines ifc ifc' n n' b)
    (f : Nat → ℝ) :
    ∑ i ∈ Finset.range n', f i = ∑ k ∈ Finset.range n, ∑ i ∈ Finset.Ico (b k) (b (k + 1)), f i := by
  have : ∀ j ≤ n, ∑ k ∈ Finset.range j, ∑ i ∈ Finset.Ico (b k) (b (k + 1)), f i
      = ∑ i ∈ Finset.range (b j), f i := by
    intro j hj
    induction j with
    | zero => simp [R.first]
    | succ j ih =>
      rw [Finset.sum_range_succ, ih (by omega), Finset.range_eq_Ico, Finset.range_eq_Ico,
        Finset.sum_Ico_consecutive _ (by omega) (R.parts j (by omega)).le]
  rw [this n le_rfl, R.last]

theorem thickness_refines {ifc ifc' : Nat → ℝ} {n n' : Nat} {b : Nat → Nat}
    (R : Refines ifc ifc' n n' b) (hm : ∀ i < n', ifc' i ≤ ifc' (i + 1)) (D : ℝ) {k : Nat} (hk : k < n) :
    ∑ i ∈ Finset.Ico (b k) (b (k + 1)), thickness ifc' D i = thickness ifc D k := by
  have h0 : ifc' 0 = ifc 0 := by rw [← R.same 0 (by omega), R.first]
  unfold thickness
  rw [(overlap_sum (R.parts k hk).le (fun i _ hi => hm i
    (lt_of_lt_of_le hi (refines_mono R (by omega))))).2, R.same k (by omega), R.same (k + 1) (by omega), h0]

/-- C120: the thicknesses that `calc_dz` gives to the parts of a layer add up to that of the layer. -/
theorem C120_dz {levels interfaces levels' interfaces' depth : DA (Fl ℝ)} {z zi zi' : String}
    {n n' : Nat} {lev ifc lev' ifc' : Nat → ℝ} {b : Nat → Nat}
    (g : DzGrid levels interfaces z zi n lev ifc) (g' : DzGrid levels' interfaces' z zi' n' lev' ifc')
    (R : Refines ifc ifc' n n' b) (hb : Bathy depth) (hz : z ∉ depth.dimNames) :
    ∃ r r', calcDz levels interfaces depth = .ok r ∧ calcDz levels' interfaces' depth = .ok r' ∧
      ∀ e, depth.InBounds e → ∀ k < n, ∃ (v : ℝ) (w : Nat → ℝ),
        r.get (Function.update e z k) = fin v ∧
        (∀ i, b k ≤ i → i < b (k + 1) → r'.get (Function.update e z i) = fin (w i)) ∧
        ∑ i ∈ Finset.Ico (b k) (b (k + 1)), w i = v := by
  obtain ⟨r, h1, -, h3⟩ := C08_cell g hb hz
  obtain ⟨r', h1', -, h3'⟩ := C08_cell g' hb hz
  refine ⟨r, r', h1, h1', fun e he k hk => ?_⟩
  have hd : ∀ i, depth.get (Function.update e z i) = depth.get e := fun i => hb.wf _ _ (fun d hd => by
    rw [Function.update_of_ne]; intro h; exact hz (h ▸ hd))
  obtain ⟨v, hv, hv', -⟩ := h3 (Function.update e z k) (inBounds_upd hz he k) (by simpa using hk)
  simp only [Function.update_self, hd] at hv'
  refine ⟨v, thickness ifc' (val0 (depth.get e)), hv, fun i h1 h2 => ?_, ?_⟩
  · obtain ⟨w, hw, hw', -⟩ := h3' (Function.update e z i) (inBounds_upd hz he i) (by
      have := refines_mono R (k := k + 1) (by omega)
      simp only [Function.update_self]; omega)
    simp only [Function.update_self, hd] at hw'
    rw [hw, hw']
    rfl
  · rw [thickness_refines R g'.imono _ hk, hv']
    rfl

variable {d r ref d' r' ref' : DS (Fl ℝ)} {cn : DictArg} {rhozero : Fl ℝ} {patm : DA (Fl ℝ)}
  {eos variant domain : String} {strict : Bool} {tc zc zb : String}

/-- C120: with the linear equation of state the local heights of a column do not change when its layers
are cut into thinner ones with the same temperature and salinity.  (Parts of a wet layer that lie below
the sea floor may be missing.) -/
theorem C120_local
    (h : steric d .none cn none rhozero patm eos variant domain strict = .ok (r, ref))
    (h' : steric d' .none cn none rhozero patm eos variant domain strict = .ok (r', ref'))
    (heos : CaseVariant eos "linear")
    (hd : domain ≠ "global") (hc : defaultCoords cn = .ok (tc, zc, zb))
    {zid zid' : String} {n n' : Nat} {lev ifc lev' ifc' : Nat → ℝ} {depth : DA (Fl ℝ)}
    (G : OceanGrid d zc zb zid n lev ifc depth) (G' : OceanGrid d' zc zb zid' n' lev' ifc' depth)
    {b : Nat → Nat} (R : Refines ifc ifc' n n' b) {ρ0 : ℝ} (hρ : rhozero = fin ρ0)
    {th so vol th' so' vol' : DA (Fl ℝ)} (hth : d.getVar "thetao" = .ok th)
    (hso : d.getVar "so" = .ok so) (hvol : d.getVar "volcello" = .ok vol)
    (hth' : d'.getVar "thetao" = .ok th') (hso' : d'.getVar "so" = .ok so')
    (hvol' : d'.getVar "volcello" = .ok vol') :
    ∃ a a', r.getVar variant = .ok a ∧ r'.getVar variant = .ok a' ∧
      ∀ e, depth.InBounds e →
        (∀ k < n, vol.get (cell0 tc zc e k) ≠ nan →
          Present th (cell zc e k) ∧ Present so (cell zc e k) ∧
          Present th (cell0 tc zc e k) ∧ Present so (cell0 tc zc e k)) →
        (∀ k < n, ∀ i, b k ≤ i → i < b (k + 1) →
          (vol.get (cell0 tc zc e k) = nan → vol'.get (cell0 tc zc e i) = nan) ∧
          (vol.get (cell0 tc zc e k) ≠ nan →
            vol'.get (cell0 tc zc e i) ≠ nan ∨ val0 (depth.get e) ≤ ifc' i) ∧
          (vol'.get (cell0 tc zc e i) ≠ nan →
            th'.get (cell zc e i) = th.get (cell zc e k) ∧ so'.get (cell zc e i) = so.get (cell zc e k) ∧
            th'.get (cell0 tc zc e i) = th.get (cell0 tc zc e k) ∧
            so'.get (cell0 tc zc e i) = so.get (cell0 tc zc e k))) →
        (vol.get (cell0 tc zc e 0) = nan ↔ vol'.get (cell0 tc zc e 0) = nan) →
        a'.get e = a.get e := by
  have hf := linear_eos heos
  obtain ⟨a, a1, -, a2⟩ := local_value h hd hc G hρ hth hso hvol hf _ (fun e k _ => rfl)
  obtain ⟨a', a1', -, a2'⟩ := local_value h' hd hc G' hρ hth' hso' hvol' hf _ (fun e k _ => rfl)
  refine ⟨a, a', a1, a1', fun e he hp hm htop => ?_⟩
  obtain ⟨z, zi, -, -, gz⟩ := G'.grid
  -- the densities on the coarse and on the fine grid
  let ρ : DA (Fl ℝ) → DA (Fl ℝ) → (Nat → Env) → (Nat → Env) → Nat → ℝ := fun th so c1 c2 k =>
    linRho (val0 (th.get (c1 k))) (val0 (so.get (c2 k)))
  let c : Nat → Env := fun k => cell zc e k
  let c0 : Nat → Env := fun k => cell0 tc zc e k
  let cT : Nat → Env := fun k => if variant = "halosteric" then c0 k else c k
  let cS : Nat → Env := fun k => if variant = "thermosteric" then c0 k else c k
  have hP : ∀ k < n, vol.get (c0 k) ≠ nan → (∃ x, th.get (c k) = fin x) ∧ (∃ x, so.get (c k) = fin x) ∧
      (∃ x, th.get (c0 k) = fin x) ∧ (∃ x, so.get (c0 k) = fin x) := hp
  -- the layer that contains a finer one
  have hlay : ∀ i < n', ∃ k < n, b k ≤ i ∧ i < b (k + 1) := by
    intro i hi
    by_contra hcon
    push Not at hcon
    have : ∀ j ≤ n, b j ≤ i := by
      intro j hj
      induction j with
      | zero => rw [R.first]; omega
      | succ j ih => exact hcon j (by omega) (ih (by omega))
    have := this n le_rfl
    rw [R.last] at this
    omega
  have hP' : ∀ i < n', vol'.get (c0 i) ≠ nan → (∃ x, th'.get (c i) = fin x) ∧
      (∃ x, so'.get (c i) = fin x) ∧ (∃ x, th'.get (c0 i) = fin x) ∧ (∃ x, so'.get (c0 i) = fin x) := by
    intro i hi hv
    obtain ⟨k, hk, h1, h2⟩ := hlay i hi
    obtain ⟨m1, -, m3⟩ := hm k hk i h1 h2
    obtain ⟨q1, q2, q3, q4⟩ := m3 hv
    have := hP k hk (fun hn => hv (m1 hn))
    show (∃ x, th'.get (cell zc e i) = fin x) ∧ (∃ x, so'.get (cell zc e i) = fin x) ∧
      (∃ x, th'.get (cell0 tc zc e i) = fin x) ∧ (∃ x, so'.get (cell0 tc zc e i) = fin x)
    rw [q1, q2, q3, q4]
    exact this
  have key : ∀ {th so : DA (Fl ℝ)} {k : Nat} {c1 c2 : Nat → Env} {p : Fl ℝ},
      (∃ x, th.get (c1 k) = fin x) → (∃ x, so.get (c2 k) = fin x) →
      Linear.density (th.get (c1 k)) (so.get (c2 k)) p = fin (ρ th so c1 c2 k) := by
    rintro th so k c1 c2 p ⟨x, hx⟩ ⟨y, hy⟩
    simp only [ρ, hx, hy]
    exact linear_float _ _ _
  have A := a2 e he (ρ th so cT cS) (ρ th so c0 c0)
    (fun k hk hv => by
      obtain ⟨q1, q2, q3, q4⟩ := hP k hk hv
      refine key (c1 := cT) (c2 := cS) ?_ ?_
      · simp only [cT]; split
        · exact q3
        · exact q1
      · simp only [cS]; split
        · exact q4
        · exact q2)
    (fun k hk hv => by
      obtain ⟨q1, q2, q3, q4⟩ := hP k hk hv
      exact key (c1 := c0) (c2 := c0) q3 q4)
  have A' := a2' e he (ρ th' so' cT cS) (ρ th' so' c0 c0)
    (fun k hk hv => by
      obtain ⟨q1, q2, q3, q4⟩ := hP' k hk hv
      refine key (c1 := cT) (c2 := cS) ?_ ?_
      · simp only [cT]; split
        · exact q3
        · exact q1
      · simp only [cS]; split
        · exact q4
        · exact q2)
    (fun k hk hv => by
      obtain ⟨q1, q2, q3, q4⟩ := hP' k hk hv
      exact key (c1 := c0) (c2 := c0) q3 q4)
  rw [A, A']
  by_cases hx : vol.get (cell0 tc zc e 0) = nan
  · rw [if_pos hx, if_pos (htop.1 hx)]
  rw [if_neg hx, if_neg (fun hn => hx (htop.2 hn)), refines_sum R]
  congr 2
  refine Finset.sum_congr rfl (fun k hk => ?_)
  have hk := Finset.mem_range.1 hk
  by_cases hvk : vol.get (cell0 tc zc e k) = nan
  · rw [if_pos hvk]
    refine Finset.sum_eq_zero (fun i hi => ?_)
    obtain ⟨h1, h2⟩ := Finset.mem_Ico.1 hi
    rw [if_pos ((hm k hk i h1 h2).1 hvk)]
  · rw [if_neg hvk, ← thickness_refines R gz.imono _ hk, Finset.sum_mul]
    refine Finset.sum_congr rfl (fun i hi => ?_)
    obtain ⟨h1, h2⟩ := Finset.mem_Ico.1 hi
    obtain ⟨-, m2, m3⟩ := hm k hk i h1 h2
    by_cases hvi : vol'.get (cell0 tc zc e i) = nan
    · rw [if_pos hvi]
      have hle := (m2 hvk).resolve_left (not_not.2 hvi)
      have hz : thickness ifc' (val0 (depth.get e)) i = 0 := by
        unfold thickness overlap
        refine max_eq_left ?_
        have e1 := min_le_right (ifc' (i + 1)) (val0 (depth.get e))
        have e2 := le_max_left (ifc' i) (ifc' 0)
        linarith
      rw [hz, zero_mul]
    · rw [if_neg hvi]
      obtain ⟨q1, q2, q3, q4⟩ := m3 hvi
      have f1 : ρ th' so' cT cS i = ρ th so cT cS k := by
        simp only [ρ, cT, cS, c, c0]
        split <;> split <;> simp only [q1, q2, q3, q4]
      have f2 : ρ th' so' c0 c0 i = ρ th so c0 c0 k := by
        simp only [ρ, c0, q3, q4]
      rw [f1, f2]

/-! ## The ocean of `Props/StericSuccess` with every layer cut in two -/

noncomputable section

def fineDims : List (String × Nat) := [("time", 2), ("z_l", 4), ("yh", 2), ("xh", 2)]
def fineT : DA (Fl ℝ) := ⟨fineDims, fun e => fin (10 + 5 * (e "time" : ℝ))⟩
def fineS : DA (Fl ℝ) := ⟨fineDims, fun e => fin (34 + (e "time" : ℝ))⟩
def fineV : DA (Fl ℝ) := ⟨fineDims, fun e => if e "xh" = 0 then fin 1 else nan⟩
def fineZ : DA (Fl ℝ) := ⟨[("z_l", 4)], fun e => fin (250 + 500 * (e "z_l" : ℝ))⟩
def fineZi : DA (Fl ℝ) := ⟨[("z_i", 5)], fun e => fin (500 * (e "z_i" : ℝ))⟩
def fineD : DS (Fl ℝ) := ⟨[("thetao", fineT), ("so", fineS), ("volcello", fineV), ("areacello", exA),
  ("deptho", exDepth), ("z_l", fineZ), ("z_i", fineZi)], ["z_l", "z_i"]⟩

theorem fineGrid : OceanGrid fineD "z_l" "z_i" "z_i" 4 (fun k => 250 + 500 * (k : ℝ))
    (fun k => 500 * (k : ℝ)) exDepth where
  grid := by
    refine ⟨fineZ, fineZi, rfl, rfl, rfl, fun e => rfl, fun k _ => by positivity, rfl, fun e => rfl,
      by simp, ?_⟩
    intro k _
    push_cast
    linarith
  hdepth := rfl
  bathy := exGrid.bathy
  hz := exGrid.hz
  coord := by simp [fineD, DS.names]

theorem fineGood : GoodData fineD "time" "z_l" "z_i" "z_i" "yh" "xh" 2 4 2 2 (fun k => 250 + 500 * (k : ℝ))
    (fun k => 500 * (k : ℝ)) fineT fineS fineV exA exDepth fineZi (DA.scalar (fin 101325)) where
  names := by decide
  hnt := by norm_num
  hn := by norm_num
  hny := by norm_num
  hnx := by norm_num
  hth := rfl
  hso := rfl
  hvol := rfl
  harea := rfl
  hzb := rfl
  thd := rfl
  sod := rfl
  vold := rfl
  aread := rfl
  depthd := rfl
  grid := fineGrid
  alone := by simp [fineD, fineZ, fineZi, DA.dimNames]
  patmd := by simp

theorem fineRun (variant domain eos : String) (hv : variant ∈ ["thermosteric", "halosteric", "steric"])
    (he : CaseVariant eos "wright" ∨ CaseVariant eos "linear") :
    ∃ x, steric fineD .none .none none (fin 1035) (DA.scalar (fin 101325)) eos variant domain true
      = .ok x :=
  C30_success fineGood rfl hv he (by simp) (fun _ => exArea)

theorem fineRefines : Refines (fun k => 1000 * (k : ℝ)) (fun k => 500 * (k : ℝ)) 2 4 (fun k => 2 * k) where
  first := rfl
  last := rfl
  parts := by intro k _; show 2 * k < 2 * (k + 1); omega
  same := by intro k _; push_cast; ring

/-- C120 on this ocean, at every point and time, land included. -/
example (variant : String) (hv : variant ∈ ["thermosteric", "halosteric", "steric"]) :
    ∃ r r' ref ref' a a',
      steric exD .none .none none (fin 1035) (DA.scalar (fin 101325)) "linear" variant "local" true
        = .ok (r, ref) ∧
      steric fineD .none .none none (fin 1035) (DA.scalar (fin 101325)) "linear" variant "local" true
        = .ok (r', ref') ∧ r.getVar variant = .ok a ∧ r'.getVar variant = .ok a' ∧
      ∀ e, exDepth.InBounds e → a'.get e = a.get e := by
  obtain ⟨⟨r, ref⟩, h⟩ := exRun variant "local" "linear" hv (Or.inr linear_case)
  obtain ⟨⟨r', ref'⟩, h'⟩ := fineRun variant "local" "linear" hv (Or.inr linear_case)
  obtain ⟨a, a', h1, h2, h3⟩ := C120_local h h' linear_case (by decide) exC exGrid fineGrid fineRefines rfl
    exGood.hth exGood.hso exGood.hvol fineGood.hth fineGood.hso fineGood.hvol
  refine ⟨r, r', ref, ref', a, a', h, h', h1, h2, fun e he => h3 e he ?_ ?_ ?_⟩
  · intro k _ _
    exact ⟨⟨_, rfl⟩, ⟨_, rfl⟩, ⟨_, rfl⟩, ⟨_, rfl⟩⟩
  · intro k _ i _ _
    refine ⟨fun hn => ?_, fun hn => Or.inl ?_, fun _ => ⟨?_, ?_, ?_, ?_⟩⟩ <;>
      simp_all [exV, fineV, exT, fineT, exS, fineS]
  · simp [exV, fineV]

/-- With Wright's equation of state the heights do depend on the layers, since the density is taken at
the pressure of the level: the same column with its layers cut in two has another height. -/
theorem C120_wright_counterexample : ∃ (r r' ref ref' : DS (Fl ℝ)) (a a' : DA (Fl ℝ)) (e : Env) (x x' : ℝ),
    steric exD = .ok (r, ref) ∧ steric fineD = .ok (r', ref') ∧
    r.getVar "steric" = .ok a ∧ r'.getVar "steric" = .ok a' ∧ exDepth.InBounds e ∧
    a.get e = fin x ∧ a'.get e = fin x' ∧ x ≠ x' := by
  have e1 : (1035.0 : Fl ℝ) = fin 1035 := by rw [ofSci]; norm_num
  have e2 : (101325.0 : Fl ℝ) = fin 101325 := by rw [ofSci]; norm_num
  obtain ⟨⟨r, ref⟩, h⟩ := exRun "steric" "local" "Wright" (by simp) (Or.inl wright_case)
  obtain ⟨⟨r', ref'⟩, h'⟩ := fineRun "steric" "local" "Wright" (by simp) (Or.inl wright_case)
  obtain ⟨a, a1, -, a2⟩ := local_value h (by decide) exC exGrid rfl exGood.hth exGood.hso exGood.hvol
    (wright_eos wright_case) (fun _ k => fin ((500 + 1000 * (k : ℝ)) * 10 ^ 4 + 101325))
    (by intro e k _; simp)
  obtain ⟨b, b1, -, b2⟩ := local_value h' (by decide) exC fineGrid rfl fineGood.hth fineGood.hso
    fineGood.hvol (wright_eos wright_case) (fun _ k => fin ((250 + 500 * (k : ℝ)) * 10 ^ 4 + 101325))
    (by intro e k _; simp)
  let e : Env := fun x => if x = "time" then 1 else 0
  have he : exDepth.InBounds e := by
    intro p hp
    simp only [exDepth, List.mem_cons, List.not_mem_nil, or_false] at hp
    rcases hp with rfl | rfl <;> simp [e]
  have hO : ∀ T S z : ℝ, 10 ≤ T → T ≤ 15 → 34 ≤ S → S ≤ 35 → 0 ≤ z → z ≤ 2000 →
      Spec.Wright.Ocean T S (z * 10 ^ 4 + 101325) := by
    intro T S z q1 q2 q3 q4 q5 q6
    refine ⟨by linarith, by linarith, by linarith, by linarith, by nlinarith, by nlinarith⟩
  have hz : ∀ k : Nat, k < 2 → (0 : ℝ) ≤ 500 + 1000 * (k : ℝ) ∧ 500 + 1000 * (k : ℝ) ≤ 2000 := by
    intro k hk
    have : (k : ℝ) ≤ 1 := by exact_mod_cast Nat.le_of_lt_succ hk
    have : (0 : ℝ) ≤ k := Nat.cast_nonneg k
    constructor <;> linarith
  have hz' : ∀ k : Nat, k < 4 → (0 : ℝ) ≤ 250 + 500 * (k : ℝ) ∧ 250 + 500 * (k : ℝ) ≤ 2000 := by
    intro k hk
    have : (k : ℝ) ≤ 3 := by exact_mod_cast Nat.le_of_lt_succ hk
    have : (0 : ℝ) ≤ k := Nat.cast_nonneg k
    constructor <;> linarith
  have t1 : ∀ k, exT.get (cell "z_l" e k) = fin 15 := by intro k; simp [exT, e]; norm_num
  have t0 : ∀ k, exT.get (cell0 "time" "z_l" e k) = fin 10 := by intro k; simp [exT]
  have s1 : ∀ k, exS.get (cell "z_l" e k) = fin 35 := by intro k; simp [exS, e]; norm_num
  have s0 : ∀ k, exS.get (cell0 "time" "z_l" e k) = fin 34 := by intro k; simp [exS]
  have v0 : ∀ k, exV.get (cell0 "time" "z_l" e k) = fin 1 := by intro k; simp [exV, e]
  have t1' : ∀ k, fineT.get (cell "z_l" e k) = fin 15 := by intro k; simp [fineT, e]; norm_num
  have t0' : ∀ k, fineT.get (cell0 "time" "z_l" e k) = fin 10 := by intro k; simp [fineT]
  have s1' : ∀ k, fineS.get (cell "z_l" e k) = fin 35 := by intro k; simp [fineS, e]; norm_num
  have s0' : ∀ k, fineS.get (cell0 "time" "z_l" e k) = fin 34 := by intro k; simp [fineS]
  have v0' : ∀ k, fineV.get (cell0 "time" "z_l" e k) = fin 1 := by intro k; simp [fineV, e]
  let P : Nat → ℝ := fun k => (500 + 1000 * (k : ℝ)) * 10 ^ 4 + 101325
  let P' : Nat → ℝ := fun k => (250 + 500 * (k : ℝ)) * 10 ^ 4 + 101325
  have A := a2 e he (fun k => Spec.Wright.rho 15 35 (P k)) (fun k => Spec.Wright.rho 10 34 (P k))
    (fun k hk _ => by
      rw [if_neg (by decide), if_neg (by decide), t1, s1]
      exact wright_float (hO _ _ _ (by norm_num) (by norm_num) (by norm_num) (by norm_num)
        (hz k hk).1 (hz k hk).2))
    (fun k hk _ => by
      rw [t0, s0]
      exact wright_float (hO _ _ _ (by norm_num) (by norm_num) (by norm_num) (by norm_num)
        (hz k hk).1 (hz k hk).2))
  have B := b2 e he (fun k => Spec.Wright.rho 15 35 (P' k)) (fun k => Spec.Wright.rho 10 34 (P' k))
    (fun k hk _ => by
      rw [if_neg (by decide), if_neg (by decide), t1', s1']
      exact wright_float (hO _ _ _ (by norm_num) (by norm_num) (by norm_num) (by norm_num)
        (hz' k hk).1 (hz' k hk).2))
    (fun k hk _ => by
      rw [t0', s0']
      exact wright_float (hO _ _ _ (by norm_num) (by norm_num) (by norm_num) (by norm_num)
        (hz' k hk).1 (hz' k hk).2))
  have hd : exDepth.get e = fin 2000 := by simp [exDepth, e]
  simp only [v0, v0', reduceCtorEq, if_false, hd, val0_fin] at A B
  refine ⟨r, r', ref, ref', a, b, e, _, _, ?_, ?_, a1, b1, he, A, B, ?_⟩
  · unfold steric at h ⊢; rw [e1, e2]; exact h
  · unfold steric at h' ⊢; rw [e1, e2]; exact h'
  · have th : ∀ k : Nat, k < 2 → thickness (fun k => 1000 * (k : ℝ)) 2000 k = 1000 := by
      intro k hk; interval_cases k <;> unfold thickness Spec.overlap <;> norm_num
    have th' : ∀ k : Nat, k < 4 → thickness (fun k => 500 * (k : ℝ)) 2000 k = 500 := by
      intro k hk; interval_cases k <;> unfold thickness Spec.overlap <;> norm_num
    simp only [Finset.sum_range_succ, Finset.sum_range_zero, th 0 (by decide), th 1 (by decide),
      th' 0 (by decide), th' 1 (by decide), th' 2 (by decide), th' 3 (by decide), P, P',
      Spec.Wright.rho, Spec.Wright.denom, Spec.Wright.al0, Spec.Wright.p0, Spec.Wright.lam]
    norm_num

end

end Momlevel.Props
