import Verif.Props.PvEdges

/-! # C166: errors in velocities and stratification, relative and potential vorticity -/

set_option linter.unusedSectionVars false

namespace Momlevel.Props
open Momlevel Momlevel.Fl

variable {K : Type} [Field K] [LinearOrder K] [IsStrictOrderedRing K]

theorem pad_error {n : Nat} {f f' d : Nat → K} {ε : K} (hd : ∀ k < n, 0 ≤ d k)
    (h : ∀ k < n, |f' k - f k| ≤ ε) (j : ℤ) :
    |Spec.pad 0 n (fun k => f' k * d k) j - Spec.pad 0 n (fun k => f k * d k) j| ≤ ε * Spec.pad 0 n d j := by
  unfold Spec.pad
  split
  next hj =>
    have hk : j.toNat < n := by omega
    rw [← sub_mul, abs_mul, abs_of_nonneg (hd _ hk)]
    exact mul_le_mul_of_nonneg_right (h _ hk) (hd _ hk)
  next => simp

/-- C166: velocities to `ε` give the relative vorticity to `ε` times the length of the edges around the corner, divided
by its area.  If the errors go round the corner (`ε` below and to the right, `-ε` above and to the left) the bound is
attained. -/
theorem C166_vorticity (dset dset' : DS (Fl K)) (nu nv ndx ndy na xc yc xq yq : String) (s : Bool)
    {u dx v dy area u' v' : DA (Fl K)} {nx ny : Nat} {e : Env} {U DX V DY A U' V' : Nat → Nat → K} {ε : K}
    (lu : dset.vars.lookup nu = some u) (ldx : dset.vars.lookup ndx = some dx)
    (lv : dset.vars.lookup nv = some v) (ldy : dset.vars.lookup ndy = some dy) (la : dset.vars.lookup na = some area)
    (lu' : dset'.vars.lookup nu = some u') (ldx' : dset'.vars.lookup ndx = some dx)
    (lv' : dset'.vars.lookup nv = some v') (ldy' : dset'.vars.lookup ndy = some dy) (la' : dset'.vars.lookup na = some area)
    (g : CGrid u dx v dy area xc yc xq yq s nx ny e U DX V DY A)
    (g' : CGrid u' dx v' dy area xc yc xq yq s nx ny e U' DX V' DY A)
    (hX : ∀ j i, 0 ≤ DX j i) (hY : ∀ j i, 0 ≤ DY j i)
    (hU : ∀ j i, |U' j i - U j i| ≤ ε) (hV : ∀ j i, |V' j i - V j i| ≤ ε) :
    ∃ r r', calcRelVort dset (some (vortMap nu nv ndx ndy na)) (some (coordDict xc yc xq yq)) s = .ok r ∧
      calcRelVort dset' (some (vortMap nu nv ndx ndy na)) (some (coordDict xc yc xq yq)) s = .ok r' ∧
      ∀ j i : Nat,
        let P : ℤ → K := Spec.pad 0 ny (fun k => DX k i)
        let Q : ℤ → K := Spec.pad 0 nx (fun k => DY j k)
        let j' : ℤ := j - Spec.shift s
        let i' : ℤ := i - Spec.shift s
        ∃ z z', r.get (Function.update (Function.update e yq j) xq i) = fin z ∧
          r'.get (Function.update (Function.update e yq j) xq i) = fin z' ∧
          |z' - z| ≤ ε * (P j' + P (j' + 1) + Q (i' + 1) + Q i') / |A j i| ∧
          ((∀ k : Nat, ((k : ℤ) = j' → U' k i = U k i + ε) ∧ ((k : ℤ) = j' + 1 → U' k i = U k i - ε) ∧
            ((k : ℤ) = i' + 1 → V' j k = V j k + ε) ∧ ((k : ℤ) = i' → V' j k = V j k - ε)) →
            z' - z = ε * (P j' + P (j' + 1) + Q (i' + 1) + Q i') / A j i) := by
  obtain ⟨r, hr, h⟩ := C18_circulation dset nu nv ndx ndy na xc yc xq yq s lu ldx lv ldy la g
  obtain ⟨r', hr', h'⟩ := C18_circulation dset' nu nv ndx ndy na xc yc xq yq s lu' ldx' lv' ldy' la' g'
  refine ⟨r, r', hr, hr', fun j i => ?_⟩
  intro P Q j' i'
  refine ⟨_, _, h j i, h' j i, ?_, fun hk => ?_⟩
  · have p : ∀ t, _ := pad_error (n := ny) (f := fun k => U k i) (f' := fun k => U' k i) (d := fun k => DX k i)
      (fun k _ => hX k i) (fun k _ => hU k i)
    have q : ∀ t, _ := pad_error (n := nx) (f := fun k => V j k) (f' := fun k => V' j k) (d := fun k => DY j k)
      (fun k _ => hY j k) (fun k _ => hV j k)
    rw [← sub_div, abs_div]
    refine div_le_div_of_nonneg_right ?_ (abs_nonneg _)
    have p1 := abs_le.1 (p j')
    have p2 := abs_le.1 (p (j' + 1))
    have q1 := abs_le.1 (q (i' + 1))
    have q2 := abs_le.1 (q i')
    rw [mul_add, mul_add, mul_add, abs_le]
    constructor <;> linarith [p1.1, p1.2, p2.1, p2.2, q1.1, q1.2, q2.1, q2.2]
  · rw [← sub_div]
    congr 1
    have ex : ∀ {n : Nat} {f f' d : Nat → K} {c : K} {t : ℤ}, (∀ k : Nat, (k : ℤ) = t → f' k = f k + c) →
        Spec.pad 0 n (fun k => f' k * d k) t = Spec.pad 0 n (fun k => f k * d k) t + c * Spec.pad 0 n d t := by
      intro n f f' d c t hf
      unfold Spec.pad
      split
      next ht =>
        show f' t.toNat * d t.toNat = f t.toNat * d t.toNat + c * d t.toNat
        rw [hf t.toNat (by omega)]; ring
      next => simp
    rw [ex (f := fun k => U k i) (f' := fun k => U' k i) (d := fun k => DX k i) (c := ε) (t := j') (fun k => (hk k).1),
      ex (f := fun k => U k i) (f' := fun k => U' k i) (d := fun k => DX k i) (c := -ε) (t := j' + 1)
        (fun k h => by rw [(hk k).2.1 h]; ring),
      ex (f := fun k => V j k) (f' := fun k => V' j k) (d := fun k => DY j k) (c := ε) (t := i' + 1) (fun k => (hk k).2.2.1),
      ex (f := fun k => V j k) (f' := fun k => V' j k) (d := fun k => DY j k) (c := -ε) (t := i')
        (fun k h => by rw [(hk k).2.2.2 h]; ring)]
    ring

/-- A 2×2 grid at rest, and the same with errors of a tenth that go round the first corner: all lengths and areas one,
the vorticity there is four tenths. -/
example : let mk : List String → (Env → ℚ) → DA (Fl ℚ) := fun ds h => ⟨ds.map (fun d => (d, 2)), fun e => fin (h e)⟩
    let grid : (Env → ℚ) → (Env → ℚ) → DS (Fl ℚ) := fun p q => ⟨[("uo", mk ["yh", "xq"] p), ("vo", mk ["yq", "xh"] q),
      ("dxCu", mk ["yh", "xq"] (fun _ => 1)), ("dyCv", mk ["yq", "xh"] (fun _ => 1)),
      ("areacello_bu", mk ["yq", "xq"] (fun _ => 1))], []⟩
    let dset := grid (fun _ => 0) (fun _ => 0)
    let dset' := grid (fun e => if e "yh" = 0 then 1 / 10 else -(1 / 10)) (fun e => if e "xh" = 0 then -(1 / 10) else 1 / 10)
    ∃ r r', calcRelVort dset none none false = .ok r ∧ calcRelVort dset' none none false = .ok r' ∧
      ∃ z z', r.get (fun _ => 0) = fin z ∧ r'.get (fun _ => 0) = fin z' ∧ z' - z = 4 / 10 := by
  intro mk grid dset dset'
  have cg : ∀ P Q : Nat → ℚ, CGrid (mk ["yh", "xq"] (fun e => P (e "yh"))) (mk ["yh", "xq"] (fun _ => 1))
      (mk ["yq", "xh"] (fun e => Q (e "xh"))) (mk ["yq", "xh"] (fun _ => 1)) (mk ["yq", "xq"] (fun _ => 1))
      "xh" "yh" "xq" "yq" false 2 2 (fun _ => 0) (fun j _ => P j) (fun _ _ => 1) (fun _ i => Q i) (fun _ _ => 1)
      (fun _ _ => 1) := by
    intro P Q
    constructor
    case hA => intro _ _; norm_num
    any_goals (intro e' _; simp [mk])
    any_goals (simp [mk, DA.dimNames])
    · rfl
    · rfl
  obtain ⟨r, r', hr, hr', h⟩ := C166_vorticity dset dset' "uo" "vo" "dxCu" "dyCv" "areacello_bu" "xh" "yh" "xq" "yq" false
    rfl rfl rfl rfl rfl rfl rfl rfl rfl rfl (cg (fun _ => 0) (fun _ => 0))
    (cg (fun k => if k = 0 then 1 / 10 else -(1 / 10)) (fun k => if k = 0 then -(1 / 10) else 1 / 10)) (ε := 1 / 10)
    (fun _ _ => zero_le_one) (fun _ _ => zero_le_one)
    (fun j i => by split <;> norm_num) (fun j i => by split <;> norm_num)
  rw [← (C18_defaults_and_missing dset false).1] at hr
  rw [← (C18_defaults_and_missing dset' false).1] at hr'
  obtain ⟨z, z', hz, hz', -, hd⟩ := h 0 0
  have env : Function.update (Function.update (fun _ => 0 : Env) "yq" 0) "xq" 0 = fun _ => 0 := by
    funext d; simp only [Function.update_apply]; split <;> [rfl; split <;> rfl]
  rw [env] at hz hz'
  refine ⟨r, r', hr, hr', z, z', hz, hz', ?_⟩
  rw [hd ?_]
  · norm_num [Spec.pad, Spec.shift]
  · intro k
    simp only [Spec.shift, Bool.false_eq_true, if_false, Nat.cast_zero, sub_zero, zero_add]
    refine ⟨fun h => ?_, fun h => ?_, fun h => ?_, fun h => ?_⟩
    · rw [if_pos (by omega)]
    · rw [if_neg (by omega)]; norm_num
    · rw [if_neg (by omega)]
    · rw [if_pos (by omega)]; norm_num

theorem card_beside_le (s : Bool) (n k : Nat) : ((Finset.range n).filter (Spec.Beside s k)).card ≤ 2 := by
  cases s
  · refine (Finset.card_le_card (t := {k, k + 1}) (fun c hc => ?_)).trans (Finset.card_le_two)
    simp only [Finset.mem_filter, Spec.Beside, Bool.false_eq_true, if_false] at hc
    simp only [Finset.mem_insert, Finset.mem_singleton]
    omega
  · refine (Finset.card_le_card (t := {k, k - 1}) (fun c hc => ?_)).trans (Finset.card_le_two)
    simp only [Finset.mem_filter, Spec.Beside, if_true] at hc
    simp only [Finset.mem_insert, Finset.mem_singleton]
    omega

/-- C166: relative vorticity to `α` and `N²` to `ν` give the potential vorticity to `(α M + |ζ' + f| ν)/g`, with `M` a
bound of `N²` around the corner. -/
theorem C166_pv (zeta zeta' f n2 n2' : DA (Fl K)) (g : K) (hg : 0 < g) (xc yc xq yq : String) (s : Bool)
    (hx : xc ∈ n2.dimNames) (hy : yc ∈ n2.dimNames) (hx' : xc ∈ n2'.dimNames) (hy' : yc ∈ n2'.dimNames)
    (sx : n2'.size xc = n2.size xc) (sy : n2'.size yc = n2.size yc)
    (hxq : xq ∈ zeta.dimNames) (hyq : yq ∈ zeta.dimNames) (hxq' : xq ∈ zeta'.dimNames) (hyq' : yq ∈ zeta'.dimNames)
    (d1 : xc ≠ yc) (d2 : xq ≠ yc) :
    ∃ r r', calcPv zeta f n2 (fin g) (some (coordDict xc yc xq yq)) s "m" true = .ok r ∧
      calcPv zeta' f n2' (fin g) (some (coordDict xc yc xq yq)) s "m" true = .ok r' ∧
      ∀ (e : Env) (N N' : Nat → Nat → K) (a a' b α ν M : K), zeta.get e = fin a → zeta'.get e = fin a' → f.get e = fin b →
        |a' - a| ≤ α → 0 ≤ ν → 0 ≤ M →
        (∀ j < n2.size yc, ∀ i < n2.size xc, Spec.Beside s (e yq) j → Spec.Beside s (e xq) i →
          n2.get (Function.update (Function.update e yc j) xc i) = fin (N j i) ∧
          n2'.get (Function.update (Function.update e yc j) xc i) = fin (N' j i) ∧
          |N j i| ≤ M ∧ |N' j i - N j i| ≤ ν) →
        ∃ q q', r.get e = fin q ∧ r'.get e = fin q' ∧ |q' - q| ≤ (α * M + |a' + b| * ν) / g := by
  obtain ⟨r, hr, h⟩ := C148_value zeta f n2 g hg.ne' xc yc xq yq s hx hy hxq hyq d1 d2
  obtain ⟨r', hr', h'⟩ := C148_value zeta' f n2' g hg.ne' xc yc xq yq s hx' hy' hxq' hyq' d1 d2
  refine ⟨r, r', hr, hr', fun e N N' a a' b α ν M ha ha' hb hα hν hM hN => ?_⟩
  rw [sx, sy] at h'
  have v := h e N a b ha hb (fun j hj i hi h1 h2 => (hN j hj i hi h1 h2).1)
  have v' := h' e N' a' b ha' hb (fun j hj i hi h1 h2 => (hN j hj i hi h1 h2).2.1)
  refine ⟨_, _, v, v', ?_⟩
  set F := (Finset.range (n2.size yc)).filter (Spec.Beside s (e yq)) with hF
  set G := (Finset.range (n2.size xc)).filter (Spec.Beside s (e xq)) with hG
  have mF : ∀ {j}, j ∈ F → j < n2.size yc ∧ Spec.Beside s (e yq) j := fun h => by
    obtain ⟨h1, h2⟩ := Finset.mem_filter.1 h
    exact ⟨Finset.mem_range.1 h1, h2⟩
  have mG : ∀ {i}, i ∈ G → i < n2.size xc ∧ Spec.Beside s (e xq) i := fun h => by
    obtain ⟨h1, h2⟩ := Finset.mem_filter.1 h
    exact ⟨Finset.mem_range.1 h1, h2⟩
  have bound : ∀ {W : Nat → Nat → K} {c : K}, 0 ≤ c → (∀ j ∈ F, ∀ i ∈ G, |W j i| ≤ c) →
      |(∑ j ∈ F, ∑ i ∈ G, W j i) / 4| ≤ c := fun {W c} hc hW => by
    rw [abs_div, abs_of_pos (by norm_num : (0 : K) < 4), div_le_iff₀ (by norm_num)]
    have cF : (F.card : K) ≤ 2 := by exact_mod_cast card_beside_le s _ _
    have cG : (G.card : K) ≤ 2 := by exact_mod_cast card_beside_le s _ _
    have i1 : ∀ j ∈ F, |∑ i ∈ G, W j i| ≤ 2 * c := fun j hj => by
      refine (Finset.abs_sum_le_sum_abs _ _).trans ((Finset.sum_le_card_nsmul _ _ _ (hW j hj)).trans ?_)
      rw [nsmul_eq_mul]
      exact mul_le_mul_of_nonneg_right cG hc
    refine (Finset.abs_sum_le_sum_abs _ _).trans ((Finset.sum_le_card_nsmul _ _ _ i1).trans ?_)
    rw [nsmul_eq_mul]
    calc (F.card : K) * (2 * c) ≤ 2 * (2 * c) := mul_le_mul_of_nonneg_right cF (by linarith)
      _ = c * 4 := by ring
  have b1 := bound hM (fun j hj i hi => (hN j (mF hj).1 i (mG hi).1 (mF hj).2 (mG hi).2).2.2.1)
  have b2 := bound hν (fun j hj i hi => (hN j (mF hj).1 i (mG hi).1 (mF hj).2 (mG hi).2).2.2.2)
  have split : (∑ j ∈ F, ∑ i ∈ G, (N' j i - N j i)) / 4 = (∑ j ∈ F, ∑ i ∈ G, N' j i) / 4 - (∑ j ∈ F, ∑ i ∈ G, N j i) / 4 := by
    simp only [Finset.sum_sub_distrib]; ring
  rw [split] at b2
  generalize (∑ j ∈ F, ∑ i ∈ G, N' j i) / 4 = m' at *
  generalize (∑ j ∈ F, ∑ i ∈ G, N j i) / 4 = m at *
  rw [← sub_div, abs_div, abs_of_pos hg]
  refine div_le_div_of_nonneg_right ?_ hg.le
  have e1 : (a' + b) * m' - (a + b) * m = (a' - a) * m + (a' + b) * (m' - m) := by ring
  rw [e1]
  refine (abs_add_le _ _).trans (add_le_add ?_ ?_)
  · rw [abs_mul]
    exact mul_le_mul hα b1 (abs_nonneg _) ((abs_nonneg _).trans hα)
  · rw [abs_mul]
    exact mul_le_mul_of_nonneg_left b2 (abs_nonneg _)

/-- On a 2×2 grid: vorticity 3 known to 1/10, `N²` of 5 to 1/2, planetary vorticity 1. -/
example : let zeta : ℚ → DA (Fl ℚ) := fun c => ⟨[("yq", 2), ("xq", 2)], fun _ => fin c⟩
    let n2 : ℚ → DA (Fl ℚ) := fun c => ⟨[("yh", 2), ("xh", 2)], fun _ => fin c⟩
    ∃ r r', calcPv (zeta 3) ⟨[("yq", 2)], fun _ => fin 1⟩ (n2 5) (fin 10) (some (coordDict "xh" "yh" "xq" "yq")) false "m" true = .ok r ∧
      calcPv (zeta (31 / 10)) ⟨[("yq", 2)], fun _ => fin 1⟩ (n2 (11 / 2)) (fin 10) (some (coordDict "xh" "yh" "xq" "yq")) false "m" true = .ok r' ∧
      ∃ q q', r.get (fun _ => 0) = fin q ∧ r'.get (fun _ => 0) = fin q' ∧ |q' - q| ≤ 255 / 1000 := by
  intro zeta n2
  obtain ⟨r, r', hr, hr', h⟩ := C166_pv (zeta 3) (zeta (31 / 10)) ⟨[("yq", 2)], fun _ => fin 1⟩ (n2 5) (n2 (11 / 2)) 10
    (by norm_num) "xh" "yh" "xq" "yq" false (by simp [n2, DA.dimNames]) (by simp [n2, DA.dimNames]) (by simp [n2, DA.dimNames])
    (by simp [n2, DA.dimNames]) rfl rfl (by simp [zeta, DA.dimNames]) (by simp [zeta, DA.dimNames])
    (by simp [zeta, DA.dimNames]) (by simp [zeta, DA.dimNames]) (by decide) (by decide)
  obtain ⟨q, q', h1, h2, h3⟩ := h (fun _ => 0) (fun _ _ => 5) (fun _ _ => 11 / 2) 3 (31 / 10) 1 (1 / 10) (1 / 2) 5 rfl rfl rfl
    (by norm_num) (by norm_num) (by norm_num) (fun j _ i _ _ _ => ⟨rfl, rfl, by norm_num, by norm_num⟩)
  refine ⟨r, r', hr, hr', q, q', h1, h2, h3.trans ?_⟩
  rw [abs_of_pos (by norm_num)]
  norm_num

end Momlevel.Props
