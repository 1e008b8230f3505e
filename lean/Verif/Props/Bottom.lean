import Verif.Props.N2Sign
import Verif.Props.WaveSpeed
import Verif.Props.Coriolis
import Verif.Props.Dz
import Verif.Lemmas.Steric

/-! # C109, C110: buoyancy frequency and wave speed above a sea floor -/

set_option linter.unusedSectionVars false

namespace Momlevel
open Fl

section Gradient
variable {K : Type} [Field K] [LinearOrder K] [IsStrictOrderedRing K]

/-- The difference at a level uses three levels only. -/
theorem npGradient_stencil {n : Nat} (hn : 3 ≤ n) (z : Nat → Fl K) {f f' : Nat → Fl K} {i : Nat} (hi : i < n)
    (h0 : f (Spec.stencil n i) = f' (Spec.stencil n i)) (h1 : f (Spec.stencil n i + 1) = f' (Spec.stencil n i + 1))
    (h2 : f (Spec.stencil n i + 2) = f' (Spec.stencil n i + 2)) : npGradient n z f i = npGradient n z f' i := by
  unfold Spec.stencil at h0 h1 h2
  unfold npGradient
  by_cases c0 : i = 0
  · subst c0
    simp only [if_true] at h0 h1 h2 ⊢
    simp only [zero_add] at h1 h2
    simp only [h0, h1, h2]
  · by_cases c1 : i + 1 = n
    · simp only [if_neg c0, if_pos c1] at h0 h1 h2 ⊢
      rw [show n - 3 + 1 = n - 2 by omega] at h1
      rw [show n - 3 + 2 = n - 1 by omega] at h2
      simp only [h0, h1, h2]
    · simp only [if_neg c0, if_neg c1] at h0 h1 h2 ⊢
      rw [show i - 1 + 1 = i by omega] at h1
      rw [show i - 1 + 2 = i + 1 by omega] at h2
      simp only [h0, h1, h2]

/-- If the lowest of the three is missing, so is the difference. -/
theorem npGradient_missing {n : Nat} (hn : 3 ≤ n) (z : Nat → Fl K) {f : Nat → Fl K} {i : Nat} (hi : i < n)
    (h2 : f (Spec.stencil n i + 2) = nan) : npGradient n z f i = nan := by
  unfold Spec.stencil at h2
  unfold npGradient
  by_cases c0 : i = 0
  · subst c0
    simp only [if_true] at h2 ⊢
    simp only [zero_add] at h2
    simp only [h2, mul_nan, add_nan, ite_self]
  · by_cases c1 : i + 1 = n
    · simp only [if_neg c0, if_pos c1] at h2 ⊢
      rw [show n - 3 + 2 = n - 1 by omega] at h2
      simp only [h2, mul_nan, add_nan, ite_self]
    · simp only [if_neg c0, if_neg c1] at h2 ⊢
      rw [show i - 1 + 2 = i + 1 by omega] at h2
      simp only [h2, mul_nan, add_nan, nan_sub, nan_div, ite_self]

end Gradient

namespace Props
open Momlevel.Eos
variable {K : Type} [Field K] [LinearOrder K] [IsStrictOrderedRing K]

/-- A column over a sea floor: `n ≥ 3` levels at distinct heights, temperature and salinity on the first `m`
levels, missing on the levels below. -/
structure OverFloor (th so : DA (Fl K)) (z : Nat → Fl K) (zc : String) (e : Env) (n m : Nat)
    (x T S : Nat → K) : Prop where
  hn : 3 ≤ n
  hm : m ≤ n
  inj : Set.InjOn x (Set.Iio n)
  hz : z = fun k => fin (x k)
  tz : zc ∈ th.dimNames
  sz : zc ∈ so.dimNames
  tn : th.size zc = n
  sn : so.size zc = n
  hT : ∀ k < n, th.get (Function.update e zc k) = if k < m then fin (T k) else nan
  hS : ∀ k < n, so.get (Function.update e zc k) = if k < m then fin (S k) else nan
  he : e zc < n

theorem stencil_lt {n m i : Nat} (hn : 3 ≤ n) (hm : m ≤ n) (hi : i < n) :
    Spec.stencil n i + 2 < m ↔ m = n ∨ (i + 1 < m ∧ 3 ≤ m) := by
  unfold Spec.stencil
  split_ifs <;> omega

theorem differentiate_floor {a : DA (Fl K)} {zc : String} {e : Env} {n m : Nat} {x f : Nat → K}
    (hn : 3 ≤ n) (hm : m ≤ n) (inj : Set.InjOn x (Set.Iio n)) (hz : zc ∈ a.dimNames) (hs : a.size zc = n)
    (hf : ∀ k < n, a.get (Function.update e zc k) = if k < m then fin (f k) else nan) (he : e zc < n) :
    ∃ r, differentiate a zc (fun k => fin (x k)) = .ok r ∧ r.dims = a.dims ∧
      r.get e = if m = n ∨ (e zc + 1 < m ∧ 3 ≤ m) then fin (Spec.derivAt n x f (e zc)) else nan := by
  have h3 : ¬ a.size zc < 3 := by rw [hs]; omega
  refine ⟨⟨a.dims, fun e => npGradient (a.size zc) (fun k => fin (x k))
    (fun k => a.get (Function.update e zc k)) (e zc)⟩, by
      simp only [differentiate, if_pos hz, if_neg h3], rfl, ?_⟩
  simp only [hs]
  have hb : Spec.stencil n (e zc) + 2 < n := (stencil_lt hn le_rfl he).2 (Or.inl rfl)
  have iff := stencil_lt hn hm he
  by_cases h : Spec.stencil n (e zc) + 2 < m
  · rw [if_pos (iff.1 h), npGradient_stencil hn _ (f' := fun k => fin (f k)) he]
    · exact npGradient_eq hn inj f he
    · rw [hf _ (by omega), if_pos (by omega)]
    · rw [hf _ (by omega), if_pos (by omega)]
    · rw [hf _ hb, if_pos h]
  · rw [if_neg (fun hh => h (iff.2 hh))]
    exact npGradient_missing hn _ he (by rw [hf _ hb, if_neg h])

/-- C109: over a sea floor `calc_n2` is defined at the level `k` exactly if there is water at the level below as well
and on at least three levels, or if the water reaches the last level.  There it is `g (α T_z - β S_z)` as in a full
column. -/
theorem C109_partial {th so : DA (Fl K)} {z : Nat → Fl K} {zc : String} {e : Env} {n m : Nat}
    {x T S : Nat → K} (c : OverFloor th so z zc e n m x T S) {eos : String} {fa fb : EosFn (Fl K)}
    (ha : eosFuncFromStr eos "alpha" = .ok fa) (hb : eosFuncFromStr eos "beta" = .ok fb)
    (g : K) (patm : DA (Fl K)) (hpd : ∀ p ∈ patm.dims, p.1 ∈ th.dimNames) (p0 : K)
    (hp : patm.get e = fin p0) {a b : K}
    (hav : e zc < m → fa (fin (T (e zc))) (fin (S (e zc))) (fin (x (e zc) * 10 ^ 4 + p0)) = fin a)
    (hbv : e zc < m → fb (fin (T (e zc))) (fin (S (e zc))) (fin (x (e zc) * 10 ^ 4 + p0)) = fin b) :
    ∃ r, calcN2 th so z eos (fin g) patm zc = .ok r ∧
      r.get e = if m = n ∨ (e zc + 1 < m ∧ 3 ≤ m) then
        fin (g * (a * Spec.derivAt n x T (e zc) - b * Spec.derivAt n x S (e zc))) else nan := by
  obtain ⟨dt, h1, -, h1g⟩ := differentiate_floor c.hn c.hm c.inj c.tz c.tn c.hT c.he
  obtain ⟨ds, h2, -, h2g⟩ := differentiate_floor c.hn c.hm c.inj c.sz c.sn c.hS c.he
  rw [← c.hz] at h1 h2
  have hc : coordArray th zc z = .ok ⟨[(zc, th.size zc)], fun e => z (e zc)⟩ := by
    simp only [coordArray, if_pos c.tz]
  have hpres : ∀ p ∈ ((⟨[(zc, th.size zc)], fun e => z (e zc)⟩ : DA (Fl K))
      * DA.scalar (1.0e4 : Fl K) + patm).dims, p.1 ∈ th.dimNames := by
    intro p hp
    rcases DA.mem_bdims hp with h | h
    · rcases DA.mem_bdims h with h | h
      · simp only [List.mem_singleton] at h
        subst h; exact c.tz
      · simp at h
    · exact hpd p h
  refine ⟨_, by
    simp only [calcN2, hc, ok_bind, calcAlpha, calcBeta, applyEos_ok ha th so _ hpres,
      applyEos_ok hb th so _ hpres, h1, h2, Bool.false_eq_true, if_false]
    rfl, ?_⟩
  have h4 : (1.0e4 : Fl K) = fin (10 ^ 4) := by rw [ofSci]; norm_num
  have hTe := c.hT (e zc) c.he
  have hSe := c.hS (e zc) c.he
  rw [Function.update_eq_self] at hTe hSe
  simp only [DA.get_map, DA.get_sub, DA.get_mul, DA.get_zip3, DA.get_add, DA.get_scalar, h1g, h2g]
  by_cases hk : m = n ∨ (e zc + 1 < m ∧ 3 ≤ m)
  · have hw : e zc < m := by have := c.he; omega
    rw [if_pos hk, if_pos hk, if_pos hk, hTe, hSe, if_pos hw, if_pos hw, hp, h4, c.hz]
    simp only [fin_mul, fin_add]
    rw [hav hw, hbv hw]
    simp only [fin_mul, fin_sub]
  · rw [if_neg hk, if_neg hk, if_neg hk]
    simp only [mul_nan, sub_nan]

/-- The dimensions of `N²` are those of temperature and salinity. -/
theorem calcN2_dims {th so r : DA (Fl K)} {z : Nat → Fl K} {eos zc : String} {g p : Fl K}
    (h : calcN2 th so z eos g (DA.scalar p) zc = .ok r) (hd : so.dims = th.dims) (hnd : th.dimNames.Nodup) :
    r.dims = th.dims := by
  unfold calcN2 at h
  obtain ⟨zc', h1, h⟩ := bind_ok.1 h
  obtain ⟨al, h2, h⟩ := bind_ok.1 h
  obtain ⟨be, h3, h⟩ := bind_ok.1 h
  obtain ⟨dt, h4, h⟩ := bind_ok.1 h
  obtain ⟨ds, h5, h⟩ := bind_ok.1 h
  simp only [Bool.false_eq_true, if_false] at h
  cases h
  have dd : ∀ {a b : DA (Fl K)}, differentiate a zc z = .ok b → b.dims = a.dims := by
    intro a b hh
    unfold differentiate at hh
    split at hh
    · split at hh
      · cases hh
      · cases hh; rfl
    · cases hh
  have hz : zc'.dims = [(zc, th.size zc)] ∧ zc ∈ th.dimNames := by
    unfold coordArray at h1
    split at h1
    · rename_i hm; cases h1; exact ⟨rfl, hm⟩
    · cases h1
  have hzm : (zc, th.size zc) ∈ th.dims := by
    obtain ⟨q, hq, rfl⟩ := List.mem_map.1 hz.2
    rw [DA.size_of_mem hnd hq]
    exact hq
  have ab : ∀ {fn : String} {b : DA (Fl K)}, applyEos eos fn th so (zc' * DA.scalar (1.0e4 : Fl K) + DA.scalar p) = .ok b →
      b.dims = th.dims := by
    intro fn b hh
    unfold applyEos at hh
    obtain ⟨f, -, hh⟩ := bind_ok.1 hh
    split at hh
    · cases hh
    · cases hh
      show DA.bdims (DA.bdims th.dims so.dims) (DA.bdims (DA.bdims zc'.dims []) []) = _
      rw [hd, DA.bdims_eq_left (fun p hp => hp), DA.bdims_eq_left (b := []) (by simp), DA.bdims_eq_left (b := []) (by simp),
        hz.1]
      exact DA.bdims_eq_left (by simpa using hzm)
  show DA.bdims (DA.bdims al.dims dt.dims) (DA.bdims be.dims ds.dims) = _
  rw [ab h2, ab h3, dd h4, dd h5, hd, DA.bdims_eq_left (fun p hp => hp), DA.bdims_eq_left (fun p hp => hp)]

/-- Three-dimensional temperature and salinity over a sea floor, in Wright's oceanographic range: at the point `e`
there is water on the first `m e` of `n` levels. -/
structure OceanOver (th so : DA (Fl ℝ)) (z : Nat → Fl ℝ) (n : Nat) (x : Nat → ℝ) (rest : List (String × Nat))
    (m : Env → Nat) (T S : Env → Nat → ℝ) : Prop where
  thd : th.dims = ("z_l", n) :: rest
  sod : so.dims = ("z_l", n) :: rest
  nodup : th.dimNames.Nodup
  cols : ∀ e, (th.isel "z_l" 0).InBounds e → ∀ i < n,
    OverFloor th so z "z_l" (Function.update e "z_l" i) n (m e) x (T e) (S e)
  range : ∀ e, (th.isel "z_l" 0).InBounds e → ∀ k < m e, Spec.Wright.Ocean (T e k) (S e k) (x k * 10 ^ 4 + 101325)

variable {th so : DA (Fl ℝ)} {z : Nat → Fl ℝ} {n : Nat} {x : Nat → ℝ} {rest : List (String × Nat)}
  {m : Env → Nat} {T S : Env → Nat → ℝ}

theorem n2_column (g : OceanOver th so z n x rest m T S) {n2 : DA (Fl ℝ)} (hr : calcN2 th so z = .ok n2) {e : Env}
    (he : (th.isel "z_l" 0).InBounds e) {i : Nat} (hi : i < n) :
    (m e = n ∨ (i + 1 < m e ∧ 3 ≤ m e) → ∃ v, n2.get (Function.update e "z_l" i) = fin v) ∧
    (¬ (m e = n ∨ (i + 1 < m e ∧ 3 ≤ m e)) → n2.get (Function.update e "z_l" i) = nan) := by
  have c := g.cols e he i hi
  have fa : eosFuncFromStr "Wright" "alpha" = .ok (fun T S p : Fl ℝ => Wright.alpha T S p) := rfl
  have fb : eosFuncFromStr "Wright" "beta" = .ok (fun T S p : Fl ℝ => Wright.beta T S p) := rfl
  have hi' : Function.update e "z_l" i "z_l" = i := Function.update_self ..
  have co : i < m e → Wright.alpha (fin (T e i)) (fin (S e i)) (fin (x i * 10 ^ 4 + 101325)) =
        fin (Wright.alpha (T e i) (S e i) (x i * 10 ^ 4 + 101325)) ∧
      Wright.beta (fin (T e i)) (fin (S e i)) (fin (x i * 10 ^ 4 + 101325)) =
        fin (Wright.beta (T e i) (S e i) (x i * 10 ^ 4 + 101325)) := by
    intro hw
    have ho := g.range e he i hw
    have hp := C03_pos ho
    have hlin : Linear.density (T e i) (S e i) (x i * 10 ^ 4 + 101325) ≠ 0 := by
      rw [C02_linear_density]
      obtain ⟨h1, h2, h3, h4, -⟩ := ho
      have : 0 < 1000 - T e i / 5 + 4 / 5 * S e i := by linarith
      exact this.ne'
    obtain ⟨e1, e2, -⟩ := C02_float_finite _ _ _ hp.1.ne' hp.2.ne' hlin
    exact ⟨e1, e2⟩
  obtain ⟨r, h1, h2⟩ := C109_partial c fa fb (-(49 / 5)) (DA.scalar (fin 101325)) (by simp) 101325 rfl
    (fun h => by rw [hi'] at h ⊢; exact (co h).1) (fun h => by rw [hi'] at h ⊢; exact (co h).2)
  rw [← C19_defaults] at h1
  cases h1.symm.trans hr
  rw [hi'] at h2
  exact ⟨fun h => ⟨_, by rw [h2, if_pos h]⟩, fun h => by rw [h2, if_neg h]⟩

theorem n2_levels {n2 : DA (Fl ℝ)} (hr : calcN2 th so z = .ok n2) (hd : th.dims = ("z_l", n) :: rest) : 3 ≤ n := by
  have hs : th.size "z_l" = n := by unfold DA.size; rw [hd]; simp
  unfold calcN2 at hr
  obtain ⟨_, -, hr⟩ := bind_ok.1 hr
  obtain ⟨_, -, hr⟩ := bind_ok.1 hr
  obtain ⟨_, -, hr⟩ := bind_ok.1 hr
  obtain ⟨dt, h4, hr⟩ := bind_ok.1 hr
  unfold differentiate at h4
  split at h4
  · split at h4
    · cases h4
    · rw [hs] at *; omega
  · cases h4

theorem layer_of_inBounds (hd : th.dims = ("z_l", n) :: rest) {a : DA (Fl ℝ)} (ha : a.dims = th.dims) {e : Env}
    (he : a.InBounds e) : (th.isel "z_l" 0).InBounds e ∧ e "z_l" < n := by
  refine ⟨fun p hp => he p (ha ▸ (List.mem_filter.1 hp).1), he ("z_l", n) ?_⟩
  rw [ha, hd]; simp

theorem n2_fn (g : OceanOver th so z n x rest m T S) {n2 : DA (Fl ℝ)} (hr : calcN2 th so z = .ok n2) :
    ∀ e, n2.InBounds e → FN (n2.get e) := by
  have nd : n2.dims = th.dims := by
    rw [C19_defaults] at hr
    exact calcN2_dims hr (by rw [g.sod, g.thd]) g.nodup
  intro e he
  obtain ⟨h1, h2⟩ := layer_of_inBounds g.thd nd he
  obtain ⟨q1, q2⟩ := n2_column g hr h1 h2
  rw [Function.update_eq_self] at q1 q2
  by_cases h : m e = n ∨ (e "z_l" + 1 < m e ∧ 3 ≤ m e)
  · exact Or.inr (q1 h)
  · exact Or.inl (q2 h)

/-- C110: from temperature and salinity over a sea floor to wave speed and Rossby radius.  Both are missing exactly
where there is water on fewer than three levels; elsewhere they are finite and non-negative, and positive if a cell
that has water below it (or any cell, if the water reaches the last level) has a positive thickness. -/
theorem C110_partial (g : OceanOver th so z n x rest m T S) {n2 dz : DA (Fl ℝ)} (hr : calcN2 th so z = .ok n2)
    (hdz : ∀ e, dz.get e = nan ∨ ∃ h, 0 ≤ h ∧ dz.get e = fin h) :
    ∃ c, calcWaveSpeed n2 dz = .ok c ∧ ∀ e, (th.isel "z_l" 0).InBounds e →
      (c.get e = nan ↔ m e < 3) ∧
      (3 ≤ m e → ∃ v, c.get e = fin v ∧ 0 ≤ v ∧
        ((∃ k < n, (m e = n ∨ k + 1 < m e) ∧ ∃ h, 0 < h ∧ dz.get (Function.update e "z_l" k) = fin h) → 0 < v)) ∧
      ∀ (f : DA (Fl ℝ)) (y : ℝ), f.get e = fin y → y ≠ 0 →
        ((calcRossbyRd c f).get e = nan ↔ m e < 3) ∧
        ∀ v, c.get e = fin v → (calcRossbyRd c f).get e = fin (v / |y|) := by
  have nd : n2.dims = th.dims := by
    rw [C19_defaults] at hr
    exact calcN2_dims hr (by rw [g.sod, g.thd]) g.nodup
  have hn : ∀ e, (th.isel "z_l" 0).InBounds e → ∀ i < n, 3 ≤ n ∧ m e ≤ n := fun e he i hi =>
    ⟨(g.cols e he i hi).hn, (g.cols e he i hi).hm⟩
  have fn := n2_fn g hr
  have n0 : n ≠ 0 := by have := n2_levels hr g.thd; omega
  obtain ⟨c, hc, key⟩ := C14_sign (by rw [nd, g.thd]) n0 (by unfold DA.dimNames; rw [nd]; exact g.nodup) fn
    (dz := dz)
  refine ⟨c, hc, fun e he => ?_⟩
  have he' : (n2.isel "z_l" 0).InBounds e := by
    intro p hp
    refine he p ?_
    show p ∈ th.dims.filter _
    rw [← nd]; exact hp
  obtain ⟨k1, k2⟩ := key e he' (fun k _ _ => hdz _)
  have h0 : 0 < n := Nat.pos_of_ne_zero n0
  obtain ⟨hn3, hm⟩ := hn e he 0 h0
  obtain ⟨q1, q2⟩ := n2_column g hr he h0
  have miss : c.get e = nan ↔ m e < 3 := by
    rw [k1]
    constructor
    · intro h
      by_contra hlt
      obtain ⟨v, hv⟩ := q1 (Or.inr ⟨by omega, by omega⟩)
      rw [hv] at h; cases h
    · intro h
      exact q2 (by omega)
  refine ⟨miss, fun h3 => ?_, fun f y hf hy => ?_⟩
  · obtain ⟨v, v1, v2, v3⟩ := k2 (fun h => by have := miss.1 h; omega)
    refine ⟨v, v1, v2, fun ⟨k, hk, hw, h, hh, hd⟩ => v3 ⟨k, hk, ?_, h, hh, hd⟩⟩
    obtain ⟨w, hw'⟩ := (n2_column g hr he hk).1 (by omega)
    show n2.get (Function.update e "z_l" k) ≠ nan
    rw [hw']; simp
  · have val : ∀ v, c.get e = fin v → (calcRossbyRd c f).get e = fin (v / |y|) := by
      intro v hv
      simp only [calcRossbyRd, DA.get_div, DA.get_map, hv, hf, abs_fin]
      exact fin_div_of_ne _ (abs_ne_zero.2 hy)
    refine ⟨?_, val⟩
    by_cases h : m e < 3
    · refine ⟨fun _ => h, fun _ => ?_⟩
      simp only [calcRossbyRd, DA.get_div, miss.2 h, nan_div]
    · refine ⟨fun hh => ?_, fun hh => absurd hh h⟩
      obtain ⟨v, hv, -⟩ := k2 (fun hh => h (miss.1 hh))
      rw [val v hv] at hh
      cases hh

/-- The thickness of the lowest wet cell (and of the cells below) has no influence on the wave speed unless the water
reaches the last level: two thicknesses that agree on the other cells give the same wave speed. -/
theorem C110_bottom_ignored (g : OceanOver th so z n x rest m T S) {n2 dz dz' c c' : DA (Fl ℝ)}
    (hr : calcN2 th so z = .ok n2) (hdz : ∀ e, FN (dz.get e)) (hdz' : ∀ e, FN (dz'.get e))
    (h : calcWaveSpeed n2 dz = .ok c) (h' : calcWaveSpeed n2 dz' = .ok c') {e : Env}
    (he : (th.isel "z_l" 0).InBounds e) (hm : m e < n)
    (same : ∀ k, k + 1 < m e → dz.get (Function.update e "z_l" k) = dz'.get (Function.update e "z_l" k)) :
    c.get e = c'.get e := by
  have nd : n2.dims = th.dims := by
    rw [C19_defaults] at hr
    exact calcN2_dims hr (by rw [g.sod, g.thd]) g.nodup
  have hn3 := n2_levels hr g.thd
  have fn := n2_fn g hr
  have nd' : n2.dims = ("z_l", n) :: rest := by rw [nd, g.thd]
  have nn : n2.dimNames.Nodup := by unfold DA.dimNames; rw [nd]; exact g.nodup
  obtain ⟨r, adj, a1, a2, a3⟩ := C14_formula (dz := dz) nd' (by omega) nn fn
  obtain ⟨r', adj', b1, b2, b3⟩ := C14_formula (dz := dz') nd' (by omega) nn fn
  cases a1.symm.trans h
  cases b1.symm.trans h'
  cases a2.symm.trans b2
  obtain ⟨adj', p1, p2, p3⟩ := C12_positive nd' (by omega) fn
  cases p1.symm.trans b2
  have he' : (n2.isel "z_l" 0).InBounds e := by
    intro p hp
    refine he p ?_
    show p ∈ th.dims.filter _
    rw [← nd]; exact hp
  obtain ⟨c1, c2⟩ := a3 e he' (fun k _ _ => hdz _)
  obtain ⟨d1, d2⟩ := b3 e he' (fun k _ _ => hdz' _)
  by_cases hs : n2.get (Function.update e "z_l" 0) = nan
  · rw [c1 hs, d1 hs]
  · rw [c2 hs, d2 hs]
    congr 2
    refine Finset.sum_congr rfl (fun k hk => ?_)
    have hk := Finset.mem_range.1 hk
    by_cases hw : k + 1 < m e
    · show waveTerm _ (dz.get _) = waveTerm _ (dz'.get _)
      rw [same k hw]
    · have hb : n2.InBounds (Function.update e "z_l" k) := by
        intro p hp
        by_cases hpz : p.1 = "z_l"
        · have h1 := DA.size_of_mem nn hp
          have h2 := DA.size_of_mem nn (p := ("z_l", n)) (by rw [nd']; simp)
          rw [hpz, Function.update_self, ← h1, hpz, h2]; exact hk
        · rw [Function.update_of_ne hpz]
          exact he' p (List.mem_filter.2 ⟨hp, by simpa using hpz⟩)
      have := (p3 _ hb).1.2 ((n2_column g hr he hk).2 (by omega))
      have ha : column adj "z_l" e k = nan := this
      rw [ha]
      simp [waveTerm]

/-! ## Three columns, with water on four, three and two of four levels -/

noncomputable section

def flDims : List (String × Nat) := [("z_l", 4), ("xh", 3)]
/-- 20, 18, 16, 14 degrees. -/
def flT : DA (Fl ℝ) := ⟨flDims, fun e => if e "z_l" < 4 - e "xh" then fin (20 - 2 * (e "z_l" : ℝ)) else nan⟩
def flS : DA (Fl ℝ) := ⟨flDims, fun e => if e "z_l" < 4 - e "xh" then fin 35 else nan⟩
/-- Levels at 100, 200, 300 and 400 m. -/
def flX : Nat → ℝ := fun k => 100 * (k : ℝ) + 100

theorem flOver : OceanOver flT flS (fun k => fin (flX k)) 4 flX [("xh", 3)] (fun e => 4 - e "xh")
    (fun _ k => 20 - 2 * (k : ℝ)) (fun _ _ => 35) where
  thd := rfl
  sod := rfl
  nodup := by decide
  cols := by
    intro e he i hi
    refine ⟨by norm_num, by omega, ?_, rfl, by decide, by decide, rfl, rfl, fun k hk => ?_, fun k hk => ?_, by
      rw [Function.update_self]; exact hi⟩
    · intro a _ b _ h
      simp only [flX] at h
      exact_mod_cast (by linarith : (a : ℝ) = b)
    · simp [flT]
    · simp [flS]
  range := by
    intro e he k hk
    have : (k : ℝ) ≤ 3 := by exact_mod_cast (by omega : k ≤ 3)
    have : (0 : ℝ) ≤ k := Nat.cast_nonneg k
    refine ⟨by linarith, by linarith, by norm_num, by norm_num, ?_, ?_⟩ <;> simp only [flX] <;> nlinarith

theorem flN2 : ∃ n2, calcN2 flT flS (fun k => fin (flX k)) = .ok n2 := by
  have c := flOver.cols (fun _ => 0) (by intro p hp; simp [DA.isel, flT, flDims] at hp; subst hp; norm_num) 0 (by norm_num)
  have fa : eosFuncFromStr "Wright" "alpha" = .ok (fun T S p : Fl ℝ => Wright.alpha T S p) := rfl
  have fb : eosFuncFromStr "Wright" "beta" = .ok (fun T S p : Fl ℝ => Wright.beta T S p) := rfl
  have ho := flOver.range (fun _ => 0) (by intro p hp; simp [DA.isel, flT, flDims] at hp; subst hp; norm_num) 0 (by norm_num)
  have hp := C03_pos ho
  have hlin : Linear.density ((20 : ℝ) - 2 * ((0 : Nat) : ℝ)) 35 (flX 0 * 10 ^ 4 + 101325) ≠ 0 := by
    rw [C02_linear_density]; norm_num
  obtain ⟨e1, e2, -⟩ := C02_float_finite _ _ _ hp.1.ne' hp.2.ne' hlin
  obtain ⟨r, h1, -⟩ := C109_partial c fa fb (-(49 / 5)) (DA.scalar (fin 101325)) (by simp) 101325 rfl
    (fun _ => e1) (fun _ => e2)
  rw [← C19_defaults] at h1
  exact ⟨r, h1⟩

def flE (i : Nat) : Env := fun d => if d = "xh" then i else 0

theorem flE_bounds {i : Nat} (hi : i < 3) : (flT.isel "z_l" 0).InBounds (flE i) := by
  intro p hp
  simp [DA.isel, flT, flDims] at hp
  subst hp
  exact hi

/-- C109 is false of the code: at the lowest wet level over a sea floor, `calc_n2` is missing.  With two wet levels it
is missing altogether. -/
theorem C109_counterexample : ¬ ∀ (th so : DA (Fl ℝ)) (z : Nat → Fl ℝ) (e : Env) (n m : Nat) (x T S : Nat → ℝ),
    OverFloor th so z "z_l" e n m x T S →
    (∀ k < m, Spec.Wright.Ocean (T k) (S k) (x k * 10 ^ 4 + 101325)) →
    e "z_l" < m → ∃ n2 v, calcN2 th so z = .ok n2 ∧ n2.get e = fin v := by
  intro h
  obtain ⟨n2, hn2⟩ := flN2
  obtain ⟨n2', v, q1, q2⟩ := h _ _ _ _ _ _ _ _ _ (flOver.cols (flE 1) (flE_bounds (by norm_num)) 2 (by norm_num))
    (flOver.range (flE 1) (flE_bounds (by norm_num))) (by simp [flE])
  cases q1.symm.trans hn2
  have := (n2_column flOver hn2 (flE_bounds (i := 1) (by norm_num)) (i := 2) (by norm_num)).2 (by simp [flE])
  rw [this] at q2
  cases q2

/-- All three cases of C109: four wet levels, N² everywhere; three wet levels, not at the lowest; two wet levels,
nowhere. -/
example : ∃ n2, calcN2 flT flS (fun k => fin (flX k)) = .ok n2 ∧
    (∀ i < 4, ∃ v, n2.get (Function.update (flE 0) "z_l" i) = fin v) ∧
    (∃ v, n2.get (Function.update (flE 1) "z_l" 1) = fin v) ∧ n2.get (Function.update (flE 1) "z_l" 2) = nan ∧
    ∀ i < 4, n2.get (Function.update (flE 2) "z_l" i) = nan := by
  obtain ⟨n2, hn2⟩ := flN2
  refine ⟨n2, hn2, fun i hi => ?_, ?_, ?_, fun i hi => ?_⟩
  · exact (n2_column flOver hn2 (flE_bounds (i := 0) (by norm_num)) hi).1 (by simp [flE])
  · exact (n2_column flOver hn2 (flE_bounds (i := 1) (by norm_num)) (i := 1) (by norm_num)).1 (by simp [flE])
  · exact (n2_column flOver hn2 (flE_bounds (i := 1) (by norm_num)) (i := 2) (by norm_num)).2 (by simp [flE])
  · exact (n2_column flOver hn2 (flE_bounds (i := 2) (by norm_num)) hi).2 (by simp [flE])

/-- Thickness 100 m, the third cell `h`. -/
def flDz (h : ℝ) : DA (Fl ℝ) := ⟨flDims, fun e => if e "z_l" = 2 then fin h else fin 100⟩

theorem flDz_nonneg {h : ℝ} (hh : 0 ≤ h) : ∀ e, (flDz h).get e = nan ∨ ∃ y, 0 ≤ y ∧ (flDz h).get e = fin y := by
  intro e
  right
  by_cases q : e "z_l" = 2
  · exact ⟨h, hh, by simp [flDz, q]⟩
  · exact ⟨100, by norm_num, by simp [flDz, q]⟩

/-- C110 is false of the code: the thickness of the lowest wet cell does not enter the wave speed, and where there is
water on two levels only there is none. -/
theorem C110_counterexample : ∃ (th so : DA (Fl ℝ)) (z : Nat → Fl ℝ) (n : Nat) (x : Nat → ℝ) (rest : List (String × Nat))
    (m : Env → Nat) (T S : Env → Nat → ℝ) (n2 dz dz' c c' : DA (Fl ℝ)) (e e' : Env) (v : ℝ),
    OceanOver th so z n x rest m T S ∧ calcN2 th so z = .ok n2 ∧ calcWaveSpeed n2 dz = .ok c ∧
    calcWaveSpeed n2 dz' = .ok c' ∧ (th.isel "z_l" 0).InBounds e ∧ (th.isel "z_l" 0).InBounds e' ∧
    (∃ k < m e, dz.get (Function.update e "z_l" k) = fin 10 ∧ dz'.get (Function.update e "z_l" k) = fin 100) ∧
    c.get e = fin v ∧ c'.get e = fin v ∧ 0 < v ∧ m e' = 2 ∧ c.get e' = nan := by
  obtain ⟨n2, hn2⟩ := flN2
  obtain ⟨c, c1, c2⟩ := C110_partial flOver hn2 (flDz_nonneg (h := 10) (by norm_num))
  obtain ⟨c', d1, d2⟩ := C110_partial flOver hn2 (flDz_nonneg (h := 100) (by norm_num))
  have fn : ∀ h e, FN ((flDz h).get e) := by
    intro h e
    by_cases q : e "z_l" = 2
    · exact Or.inr ⟨h, by simp [flDz, q]⟩
    · exact Or.inr ⟨100, by simp [flDz, q]⟩
  have b1 := flE_bounds (i := 1) (by norm_num)
  have b2 := flE_bounds (i := 2) (by norm_num)
  obtain ⟨v, v1, -, v3⟩ := (c2 _ b1).2.1 (by simp [flE])
  have same := C110_bottom_ignored flOver hn2 (fn 10) (fn 100) c1 d1 b1 (by simp [flE]) (fun k hk => by
    have : k ≠ 2 := by simp [flE] at hk; omega
    simp [flDz, this])
  refine ⟨_, _, _, _, _, _, _, _, _, n2, _, _, c, c', flE 1, flE 2, v, flOver, hn2, c1, d1, b1, b2,
    ⟨2, by simp [flE], by simp [flDz], by simp [flDz]⟩, v1, same ▸ v1, v3 ⟨0, by norm_num, Or.inr (by simp [flE]), 100,
      by norm_num, by simp [flDz]⟩, by simp [flE], (c2 _ b2).1.2 (by simp [flE])⟩

/-- `C110_partial` (and `C109_partial`, which gives `flN2`) on the three columns: a wave speed with four and three wet
levels, none with two. -/
example : ∃ n2 c, calcN2 flT flS (fun k => fin (flX k)) = .ok n2 ∧ calcWaveSpeed n2 (flDz 100) = .ok c ∧
    (∃ v, c.get (flE 0) = fin v ∧ 0 < v) ∧ (∃ v, c.get (flE 1) = fin v ∧ 0 < v) ∧ c.get (flE 2) = nan := by
  obtain ⟨n2, hn2⟩ := flN2
  obtain ⟨c, c1, c2⟩ := C110_partial flOver hn2 (flDz_nonneg (h := 100) (by norm_num))
  refine ⟨n2, c, hn2, c1, ?_, ?_, (c2 _ (flE_bounds (i := 2) (by norm_num))).1.2 (by simp [flE])⟩
  · obtain ⟨v, v1, -, v3⟩ := (c2 _ (flE_bounds (i := 0) (by norm_num))).2.1 (by simp [flE])
    exact ⟨v, v1, v3 ⟨0, by norm_num, Or.inl (by simp [flE]), 100, by norm_num, by simp [flDz]⟩⟩
  · obtain ⟨v, v1, -, v3⟩ := (c2 _ (flE_bounds (i := 1) (by norm_num))).2.1 (by simp [flE])
    exact ⟨v, v1, v3 ⟨0, by norm_num, Or.inr (by simp [flE]), 100, by norm_num, by simp [flDz]⟩⟩

end

end Props

end Momlevel
