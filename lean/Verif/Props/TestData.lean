import Verif.Model.TestData
import Verif.Spec.TestData
import Verif.Props.StericSuccess
import Verif.Props.Tidegauge
import Verif.Props.TimeStub
import Verif.Props.Vorticity

/-!
# C74–C78: the generated test data
-/

set_option linter.unusedSectionVars false

namespace Momlevel.Props
open Momlevel Momlevel.Fl Momlevel.Spec

section
variable {K : Type} [Field K] [LinearOrder K] [IsStrictOrderedRing K]

theorem lookup_setVar (d : DS (Fl K)) (n m : String) (a : DA (Fl K)) :
    (d.setVar n a).vars.lookup m = if m = n then some a else d.vars.lookup m :=
  dictSet_lookup d.vars n a m

theorem hasVar_set (d : DS (Fl K)) (n : String) (a : DA (Fl K)) (dims : List (String × Nat))
    (f : Env → Fl K) (hd : a.dims = dims) (h : ∀ e, (∀ p ∈ dims, e p.1 < p.2) → a.get e = f e) :
    HasVar (d.setVar n a) n dims f :=
  ⟨a, by rw [lookup_setVar, if_pos rfl], hd, h⟩

theorem hasVar_ne {d : DS (Fl K)} {n m : String} (a : DA (Fl K)) {dims : List (String × Nat)}
    {f : Env → Fl K} (hne : m ≠ n) (h : HasVar d m dims f) : HasVar (d.setVar n a) m dims f := by
  obtain ⟨b, hb, h⟩ := h
  exact ⟨b, by rw [lookup_setVar, if_neg hne, hb], h⟩

theorem coords_mono {d : DS (Fl K)} {m : String} (n : String) (a : DA (Fl K)) (h : m ∈ d.coords) :
    m ∈ (d.setVar n a).coords := by
  unfold DS.setVar
  simp only
  split
  · exact List.mem_append_left _ h
  · exact h

theorem coords_self {d : DS (Fl K)} {n : String} (a : DA (Fl K)) (h : a.dimNames = [n]) :
    n ∈ (d.setVar n a).coords := by
  unfold DS.setVar
  simp only
  rw [if_pos h]
  simp

theorem rawSum (rng : Rng K) (seed : Nat) {x y : String} (hxy : x ≠ y) (e : Env) :
    (rng.normalArray seed 100 10 [(y, 5), (x, 5)]).sumAll.get e
      = fin (rawTotal (rng.normal seed)) := by
  rw [DA.get_sumAll]
  · congr 1
    simp only [Rng.normalArray, sumOver, val0, rawTotal, rawArea, rowMajor]
    refine Finset.sum_congr rfl fun j _ => Finset.sum_congr rfl fun i _ => ?_
    simp [Function.update_of_ne hxy.symm, Nat.mul_comm]
  · simp [Rng.normalArray, DA.dimNames, hxy.symm]
  · intro e e' h
    have h1 := h y (by simp [Rng.normalArray, DA.dimNames])
    have h2 := h x (by simp [Rng.normalArray, DA.dimNames])
    simp [Rng.normalArray, rowMajor, h1, h2]
  · intro e _
    simp [Rng.normalArray]

theorem scaledArea_dims (rng : Rng K) (seed : Nat) (x y : String) :
    (scaledArea (rng.normalArray seed 100 10 [(y, 5), (x, 5)])).dims = [(y, 5), (x, 5)] := by
  rfl

theorem scaledArea_get (rng : Rng K) (seed : Nat) {x y : String} (hxy : x ≠ y)
    (h : rawTotal (rng.normal seed) ≠ 0) (e : Env) :
    (scaledArea (rng.normalArray seed 100 10 [(y, 5), (x, 5)])).get e
      = fin (cellArea (rng.normal seed) (e y) (e x)) := by
  have h1 : (3.6111092e14 : Fl K) = fin 361110920000000 := by rw [ofSci]; norm_num
  show (rng.normalArray seed 100 10 [(y, 5), (x, 5)]).get e /
    (rng.normalArray seed 100 10 [(y, 5), (x, 5)]).sumAll.get e * (3.6111092e14 : Fl K) = _
  rw [rawSum rng seed hxy, h1]
  simp only [Rng.normalArray]
  rw [fin_div_of_ne _ h, fin_mul]
  congr 1
  simp [cellArea, rawArea, rowMajor]
  ring_nf

theorem normalArray_WF (rng : Rng K) (seed : Nat) (loc scale : K) (dims : List (String × Nat)) :
    (rng.normalArray seed loc scale dims).WF := by
  intro e e' h
  have : ∀ (l : List (String × Nat)) (a : Nat), (∀ p ∈ l, e p.1 = e' p.1) →
      l.foldl (fun acc p => acc * p.2 + e p.1) a = l.foldl (fun acc p => acc * p.2 + e' p.1) a := by
    intro l
    induction l with
    | nil => intro a _; rfl
    | cons p l ih =>
      intro a hl
      simp only [List.foldl_cons]
      rw [hl p (by simp)]
      exact ih _ (fun q hq => hl q (by simp [hq]))
  simp only [Rng.normalArray, rowMajor]
  rw [this dims 0 (fun p hp => h p.1 (List.mem_map_of_mem hp))]

theorem scaledArea_WF (rng : Rng K) (seed : Nat) (loc scale : K) (x y : String) :
    (scaledArea (rng.normalArray seed loc scale [(y, 5), (x, 5)])).WF := by
  intro e e' h
  have := normalArray_WF rng seed loc scale [(y, 5), (x, 5)] e e' h
  show (rng.normalArray seed loc scale [(y, 5), (x, 5)]).get e / _ * _
    = (rng.normalArray seed loc scale [(y, 5), (x, 5)]).get e' / _ * _
  rw [this]
  rfl

theorem sci100 : (100.0 : K) = 100 := by norm_num
theorem sci10 : (10.0 : K) = 10 := by norm_num

theorem lonCentres : (centres (arangeInt 0 361 72) : List K) = [36, 108, 180, 252, 324] := by
  have h : (arangeInt 0 361 72 : List K) = [0, 72, 144, 216, 288, 360] := by
    have : ((361 - 0 + 72 - 1) / 72 : Int).toNat = 6 := by decide
    simp only [arangeInt, this]
    norm_num [List.range_succ]
  rw [h]
  simp only [centres]
  norm_num [List.range_succ]

theorem latCentres : (centres (arangeInt (-90) 91 36) : List K) = [-72, -36, 0, 36, 72] := by
  have h : (arangeInt (-90) 91 36 : List K) = [-90, -54, -18, 18, 54, 90] := by
    have : ((91 - (-90) + 36 - 1) / 36 : Int).toNat = 6 := by decide
    simp only [arangeInt, this]
    norm_num [List.range_succ]
  rw [h]
  simp only [centres]
  norm_num [List.range_succ]

theorem point_get {point x y lon lat area : String} (h : Point point x y lon lat area) :
    dictGet pointDict point = .ok (x, y, lon, lat, area) ∧ x ≠ y ∧
      [x, y, lon, lat, area].Nodup := by
  cases h <;> exact ⟨rfl, by decide, by decide⟩

/-- `xy_fields` adds, for each of the four staggered points, a five by five grid of cells that covers
the globe, and changes no other variable. -/
theorem C75_grid (rng : Rng K) (dset : DS (Fl K)) (seed : Nat) {point x y lon lat area : String}
    (hp : Point point x y lon lat area) :
    ∃ r, xyFields rng dset point seed = .ok r ∧ HGrid r x y lon lat area (rng.normal seed) ∧
      (∀ n, n ∉ [x, y, lon, lat, area] → r.vars.lookup n = dset.vars.lookup n) ∧
      (∃ a, r.vars.lookup area = some a ∧ a.dims = [(y, 5), (x, 5)] ∧ a.WF) ∧
      x ∈ r.coords ∧ y ∈ r.coords := by
  obtain ⟨hd, hxy, hnd⟩ := point_get hp
  simp only [List.nodup_cons, List.mem_cons, not_or, List.not_mem_nil, or_false, List.nodup_nil,
    not_false_eq_true, and_true] at hnd
  obtain ⟨⟨n1, n2, n3, n4⟩, ⟨n5, n6, n7⟩, ⟨n8, n9⟩, n10⟩ := hnd
  refine ⟨_, by simp only [xyFields, hd, ok_bind]; rfl, ⟨?_, ?_, ?_, ?_, ?_⟩, ?_, ?_, ?_, ?_⟩
  · refine hasVar_ne _ n4 (hasVar_ne _ n3 (hasVar_ne _ n2 (hasVar_ne _ n1 (hasVar_set _ _ _ _ _ rfl ?_))))
    intro e he
    have := he (x, 5) (by simp)
    simp only [arr1]
    simp only at this
    interval_cases e x <;> norm_num
  · refine hasVar_ne _ n7 (hasVar_ne _ n6 (hasVar_ne _ n5 (hasVar_set _ _ _ _ _ rfl ?_)))
    intro e he
    have := he (y, 5) (by simp)
    simp only [arr1]
    simp only at this
    interval_cases e y <;> norm_num
  · refine hasVar_ne _ n9 (hasVar_ne _ n8 (hasVar_set _ _ _ _ _ (by simp [lonCentres, latCentres]) ?_))
    intro e he
    have := he (x, 5) (by simp)
    simp only [lonCentres]
    simp only at this
    interval_cases e x <;> norm_num
  · refine hasVar_ne _ n10 (hasVar_set _ _ _ _ _ (by simp [lonCentres, latCentres]) ?_)
    intro e he
    have := he (y, 5) (by simp)
    simp only [latCentres]
    simp only at this
    interval_cases e y <;> norm_num
  · intro h
    refine hasVar_set _ _ _ _ _ rfl ?_
    intro e _
    rw [sci100, sci10]
    exact scaledArea_get rng seed hxy h e
  · intro n hn
    simp only [List.mem_cons, not_or, List.not_mem_nil, not_false_eq_true, and_true] at hn
    obtain ⟨h1, h2, h3, h4, h5⟩ := hn
    simp only [lookup_setVar, if_neg h1, if_neg h2, if_neg h3, if_neg h4, if_neg h5]
  · exact ⟨_, by rw [lookup_setVar, if_pos rfl], rfl, scaledArea_WF _ _ _ _ _ _⟩
  · exact coords_mono _ _ (coords_mono _ _ (coords_mono _ _ (coords_mono _ _ (coords_self _ rfl))))
  · exact coords_mono _ _ (coords_mono _ _ (coords_mono _ _ (coords_self _ rfl)))

/-- Any other point is a KeyError. -/
theorem C75_unknown (rng : Rng K) (dset : DS (Fl K)) (seed : Nat) {point : String}
    (h : point ∉ ["h", "u", "v", "c"]) : xyFields rng dset point seed = .error .keyError := by
  have : dictGet pointDict point = .error .keyError := by
    simp only [List.mem_cons, not_or, List.not_mem_nil, not_false_eq_true, and_true] at h
    obtain ⟨h1, h2, h3, h4⟩ := h
    have e : ∀ s : String, point ≠ s → (point == s) = false := fun s hs => by simpa using hs
    simp only [dictGet, pointDict, List.lookup_cons, e _ h1, e _ h2, e _ h3, e _ h4, List.lookup_nil]
  simp only [xyFields, this, error_bind]

/-- The areas sum to 361 110 920 km² for all draws whose sum is not zero, and are positive where the
random areas are. -/
theorem C75_total {z : Nat → K} (h : rawTotal z ≠ 0) :
    ∑ j ∈ Finset.range 5, ∑ i ∈ Finset.range 5, cellArea z j i = 361110920000000 ∧
    ((∀ k < 25, 0 < 100 + 10 * z k) → ∀ j < 5, ∀ i < 5, 0 < cellArea z j i) := by
  constructor
  · simp only [cellArea, ← Finset.mul_sum, ← Finset.sum_div]
    show (361110920000000 : K) * (rawTotal z / rawTotal z) = _
    rw [div_self h, mul_one]
  · intro hp j hj i hi
    have hr : ∀ j < 5, ∀ i < 5, 0 < rawArea z j i := fun j hj i hi => hp _ (by omega)
    have ht : 0 < rawTotal z := Finset.sum_pos (fun j hj => Finset.sum_pos
      (fun i hi => hr j (Finset.mem_range.1 hj) i (Finset.mem_range.1 hi)) (by simp)) (by simp)
    unfold cellArea
    have := hr j hj i hi
    positivity

/-- The generated areas pass `validate_areacello` with every positive tolerance. -/
theorem C75_valid (rng : Rng K) (dset : DS (Fl K)) (seed : Nat) {point x y lon lat area : String}
    (hp : Point point x y lon lat area) (h : rawTotal (rng.normal seed) ≠ 0) :
    ∃ r a, xyFields rng dset point seed = .ok r ∧ r.vars.lookup area = some a ∧
      a.sumAll.get (fun _ => 0) = fin 361110920000000 ∧
      ∀ tol : K, 0 < tol → validateAreacello a (fin 361110920000000) (fin tol) = true := by
  obtain ⟨r, hr, g, -, ⟨a', ha', -, hw⟩, -⟩ := C75_grid rng dset seed hp
  obtain ⟨-, hxy, -⟩ := point_get hp
  obtain ⟨a, ha, hd, hv⟩ := g.harea h
  obtain rfl : a = a' := Option.some.inj (ha.symm.trans ha')
  have hn : a.dimNames.Nodup := by simp [DA.dimNames, hd, hxy.symm]
  have hf : ∀ e, a.InBounds e → FN (a.get e) := fun e he => by
    rw [hv e (by rw [← hd]; exact he)]; simp
  have hs : sumOver a.dims (fun e => val0 (a.get e)) (fun _ => 0) = 361110920000000 := by
    rw [hd, ← (C75_total h).1]
    simp only [sumOver]
    refine Finset.sum_congr rfl fun j hj => Finset.sum_congr rfl fun i hi => ?_
    rw [hv _ (by
      intro p hp
      simp only [List.mem_cons, List.not_mem_nil, or_false] at hp
      rcases hp with rfl | rfl
      · simpa [Function.update_of_ne hxy.symm] using hj
      · simpa using hi)]
    simp [Function.update_of_ne hxy.symm]
  refine ⟨r, a, hr, ha, by rw [DA.get_sumAll hn hw hf, hs], fun tol ht => ?_⟩
  rw [C35_iff hn hw hf (by norm_num), hs, sub_self, abs_zero]
  positivity

/-- Equal draws: 25 equal cells at the corner points of an empty dataset. -/
example : ∃ r a, xyFields (K := ℚ) ⟨fun _ _ => 0, fun _ _ => 0⟩ ⟨[], []⟩ "c" 123 = .ok r ∧
    r.vars.lookup "areacello_bu" = some a ∧ a.sumAll.get (fun _ => 0) = fin 361110920000000 := by
  obtain ⟨r, a, h1, h2, h3, -⟩ := C75_valid (K := ℚ) ⟨fun _ _ => 0, fun _ _ => 0⟩ ⟨[], []⟩ 123
    Point.corner (by norm_num [rawTotal, rawArea])
  exact ⟨r, a, h1, h2, h3⟩

theorem hasVar_congr {d d' : DS (Fl K)} {n : String} {dims : List (String × Nat)} {f : Env → Fl K}
    (h : d'.vars.lookup n = d.vars.lookup n) (hv : HasVar d n dims f) : HasVar d' n dims f := by
  obtain ⟨a, ha, h'⟩ := hv
  exact ⟨a, by rw [h, ha], h'⟩

theorem hGrid_congr {d d' : DS (Fl K)} {x y lon lat area : String} {z : Nat → K}
    (h : ∀ n ∈ [x, y, lon, lat, area], d'.vars.lookup n = d.vars.lookup n)
    (g : HGrid d x y lon lat area z) : HGrid d' x y lon lat area z :=
  ⟨hasVar_congr (h _ (by simp)) g.hx, hasVar_congr (h _ (by simp)) g.hy,
    hasVar_congr (h _ (by simp)) g.hlon, hasVar_congr (h _ (by simp)) g.hlat,
    fun hz => hasVar_congr (h _ (by simp)) (g.harea hz)⟩

/-- The two vertical coordinates, before any depth is added. -/
theorem zlevels_base (dset : DS (Fl K)) :
    let r := (dset.setVar "z_i" (arr1 "z_i" [0.0, 5.0, 15.0, 185.0, 1815.0, 6185.0])).setVar "z_l"
      (arr1 "z_l" [2.5, 10.0, 100.0, 1000.0, 4000.0])
    HasVar r "z_i" [("z_i", 6)] (fun e => fin (ifcDepth (e "z_i"))) ∧
      HasVar r "z_l" [("z_l", 5)]
        (fun e => fin ((ifcDepth (e "z_l") + ifcDepth (e "z_l" + 1)) / 2)) ∧
      ∀ n, n ∉ ["z_i", "z_l"] → r.vars.lookup n = dset.vars.lookup n := by
  intro r
  refine ⟨?_, ?_, ?_⟩
  · refine hasVar_ne _ (by decide) (hasVar_set _ _ _ _ _ rfl ?_)
    intro e he
    have := he ("z_i", 6) (by simp)
    simp only [arr1]
    simp only at this
    interval_cases e "z_i" <;> norm_num [ifcDepth]
  · refine hasVar_set _ _ _ _ _ rfl ?_
    intro e he
    have := he ("z_l", 5) (by simp)
    simp only [arr1]
    simp only at this
    interval_cases e "z_l" <;> norm_num [ifcDepth]
  · intro n hn
    simp only [List.mem_cons, not_or, List.not_mem_nil, not_false_eq_true, and_true] at hn
    simp only [r, lookup_setVar, if_neg hn.1, if_neg hn.2]

theorem testDepth_get (rng : Rng K) (seed : Nat) (e : Env) (h : e "yh" < 5) :
    (testDepth rng seed).get e = fin (ifcDepth (e "yh" + 1) * rng.uniform seed (e "xh")) := by
  simp only [testDepth, Rng.uniformAt]
  generalize rng.uniform seed (e "xh") = u
  interval_cases e "yh" <;> norm_num [ifcDepth]

/-- The vertical test grid: five levels in the middle of the layers between six interfaces; on
request a depth per cell, in row `j` a uniform share of the first `j + 1` layers. -/
theorem C76_levels (rng : Rng K) (dset : DS (Fl K)) (seed : Nat) (dep : Bool) :
    ∃ r, zlevelFields rng dset dep seed = .ok r ∧
      HasVar r "z_i" [("z_i", 6)] (fun e => fin (ifcDepth (e "z_i"))) ∧
      HasVar r "z_l" [("z_l", 5)]
        (fun e => fin ((ifcDepth (e "z_l") + ifcDepth (e "z_l" + 1)) / 2)) ∧
      (dep = false → ∀ n, n ∉ ["z_i", "z_l"] → r.vars.lookup n = dset.vars.lookup n) ∧
      (dep = true → HasVar r "deptho" [("yh", 5), ("xh", 5)] (fun e =>
        fin (ifcDepth (e "yh" + 1) * rng.uniform seed (e "xh")))) ∧
      (dep = true → "z_i" ∉ dset.names → "z_l" ∉ dset.names →
        ("yh" ∈ dset.dimNames → "xh" ∈ dset.dimNames →
          ∀ n, n ∉ ["z_i", "z_l", "deptho"] → r.vars.lookup n = dset.vars.lookup n) ∧
        (("yh" ∉ dset.dimNames ∨ "xh" ∉ dset.dimNames) →
          HGrid r "xh" "yh" "geolon" "geolat" "areacello" (rng.normal 123) ∧
          ∀ n, n ∉ ["z_i", "z_l", "deptho", "xh", "yh", "geolon", "geolat", "areacello"] →
            r.vars.lookup n = dset.vars.lookup n)) := by
  obtain ⟨b1, b2, b3⟩ := zlevels_base dset
  set d' := (dset.setVar "z_i" (arr1 "z_i" [0.0, 5.0, 15.0, 185.0, 1815.0, 6185.0])).setVar "z_l"
      (arr1 "z_l" [2.5, 10.0, 100.0, 1000.0, 4000.0]) with hd'
  cases dep with
  | false =>
    refine ⟨d', rfl, b1, b2, fun _ => b3, by simp, by simp⟩
  | true =>
    obtain ⟨g, hg, hG, hother, -⟩ := C75_grid rng d' 123 Point.tracer
    have hdims : "z_i" ∉ dset.names → "z_l" ∉ dset.names →
        ∀ m, m ≠ "z_i" → m ≠ "z_l" → (m ∈ d'.dimNames ↔ m ∈ dset.dimNames) := by
      intro h1 h2 m m1 m2
      have e1 : dictSet dset.vars "z_i" (arr1 "z_i" [0.0, 5.0, 15.0, 185.0, 1815.0, 6185.0])
          = dset.vars ++ [("z_i", arr1 "z_i" [0.0, 5.0, 15.0, 185.0, 1815.0, 6185.0])] :=
        dictSet_new h1
      have e2 : d'.vars = dset.vars ++ [("z_i", arr1 "z_i" [0.0, 5.0, 15.0, 185.0, 1815.0, 6185.0])]
          ++ [("z_l", arr1 "z_l" [2.5, 10.0, 100.0, 1000.0, 4000.0])] := by
        rw [← e1, hd']
        refine dictSet_new ?_
        show _ ∉ (dictSet dset.vars "z_i" _).map Prod.fst
        rw [e1]
        simp only [List.map_append, List.mem_append, List.map_cons, List.map_nil, List.mem_singleton]
        exact fun h => h.elim h2 (by decide)
      simp only [DS.dimNames, e2, List.flatMap_append, List.flatMap_cons, List.flatMap_nil, arr1,
        DA.dimNames, List.map_cons, List.map_nil, List.mem_append, List.append_nil,
        List.mem_singleton, m1, m2, or_false]
    have hne : ∀ n, n ∉ ["z_i", "z_l", "deptho"] → n ≠ "deptho" ∧ n ∉ ["z_i", "z_l"] := by
      intro n hn
      simp only [List.mem_cons, not_or, List.not_mem_nil, not_false_eq_true, and_true] at hn ⊢
      exact ⟨hn.2.2, hn.1, hn.2.1⟩
    by_cases hc : (!d'.dimNames.contains "yh" || !d'.dimNames.contains "xh") = true
    · refine ⟨g.setVar "deptho" (testDepth rng seed), ?_, ?_, ?_, by simp, ?_, ?_⟩
      · simp only [zlevelFields, if_true, ← hd', if_pos hc, hg, ok_bind]
        rfl
      · refine hasVar_ne _ (by decide) (hasVar_congr (hother _ (by decide)) b1)
      · refine hasVar_ne _ (by decide) (hasVar_congr (hother _ (by decide)) b2)
      · intro _
        exact hasVar_set _ _ _ _ _ rfl (fun e he => testDepth_get _ _ _ (he ("yh", 5) (by simp)))
      · intro _ h1 h2
        refine ⟨fun hy hx => ?_, fun _ => ⟨?_, ?_⟩⟩
        · have k1 := (hdims h1 h2 "yh" (by decide) (by decide)).2 hy
          have k2 := (hdims h1 h2 "xh" (by decide) (by decide)).2 hx
          simp [k1, k2] at hc
        · refine hGrid_congr (fun n hn => ?_) hG
          rw [lookup_setVar, if_neg]
          rintro rfl
          exact absurd hn (by decide)
        · intro n hn
          simp only [List.mem_cons, not_or, List.not_mem_nil, not_false_eq_true, and_true] at hn
          rw [lookup_setVar, if_neg hn.2.2.1, hother n (by simp; tauto), b3 n (by simp; tauto)]
    · refine ⟨d'.setVar "deptho" (testDepth rng seed), ?_, ?_, ?_, by simp, ?_, ?_⟩
      · simp only [zlevelFields, if_true, ← hd', if_neg hc, ok_bind]
        rfl
      · exact hasVar_ne _ (by decide) b1
      · exact hasVar_ne _ (by decide) b2
      · intro _
        exact hasVar_set _ _ _ _ _ rfl (fun e he => testDepth_get _ _ _ (he ("yh", 5) (by simp)))
      · intro _ h1 h2
        refine ⟨fun hy hx n hn => ?_, fun h => ?_⟩
        · rw [lookup_setVar, if_neg (hne n hn).1, b3 n (hne n hn).2]
        · exfalso
          apply hc
          rw [← hdims h1 h2 "yh" (by decide) (by decide), ← hdims h1 h2 "xh" (by decide) (by decide)] at h
          rcases h with h | h <;> simp [h]

/-- The depths lie inside the grid: in row `j` between zero and interface `j + 1`. -/
theorem C76_depth_range (u : Nat → K) (hu : ∀ i, 0 ≤ u i ∧ u i < 1) {j : Nat} (hj : j < 5) (i : Nat) :
    0 ≤ ifcDepth (j + 1) * u i ∧ ifcDepth (j + 1) * u i < (ifcDepth (j + 1) : K) ∧
      (ifcDepth (j + 1) : K) ≤ 6185 := by
  obtain ⟨h0, h1⟩ := hu i
  have hp : (0 : K) < ifcDepth (j + 1) := by interval_cases j <;> norm_num [ifcDepth]
  refine ⟨by positivity, by nlinarith, by interval_cases j <;> norm_num [ifcDepth]⟩

example : (0 : ℚ) ≤ ifcDepth 3 * (1 / 2) ∧ ifcDepth 3 * (1 / 2) < (ifcDepth 3 : ℚ) ∧ (ifcDepth 3 : ℚ) ≤ 6185 :=
  C76_depth_range (fun _ => 1 / 2) (fun _ => by norm_num) (show 2 < 5 by norm_num) 0

/-! ## The assembled dataset -/

theorem xy_area {rng : Rng K} {d g : DS (Fl K)} {seed : Nat} (hg : xyFields rng d "h" seed = .ok g) :
    g.vars.lookup "areacello"
      = some (scaledArea (rng.normalArray seed 100 10 [("yh", 5), ("xh", 5)])) := by
  simp only [xyFields, show dictGet pointDict "h" = .ok ("xh", "yh", "geolon", "geolat", "areacello")
    from rfl, ok_bind] at hg
  rw [← Except.ok.inj hg, lookup_setVar, if_pos rfl, sci100, sci10]

/-- What `xy_fields(dset)` and `zlevel_fields(dset)` add, as arrays. -/
theorem base_ok (rng : Rng K) (d : DS (Fl K)) :
    ∃ g r, xyFields rng d = .ok g ∧ zlevelFields rng g = .ok r ∧
      r.vars.lookup "z_i" = some (arr1 "z_i" [0.0, 5.0, 15.0, 185.0, 1815.0, 6185.0]) ∧
      r.vars.lookup "z_l" = some (arr1 "z_l" [2.5, 10.0, 100.0, 1000.0, 4000.0]) ∧
      r.vars.lookup "deptho" = some (testDepth rng 123) ∧
      r.vars.lookup "areacello" = some (scaledArea (rng.normalArray 123 100 10 [("yh", 5), ("xh", 5)])) ∧
      HGrid r "xh" "yh" "geolon" "geolat" "areacello" (rng.normal 123) ∧
      ∀ n, n ∉ ["z_i", "z_l", "deptho", "xh", "yh", "geolon", "geolat", "areacello"] →
        r.vars.lookup n = d.vars.lookup n := by
  obtain ⟨g, hg, hG, hother, ⟨a, ha, had, -⟩, -⟩ := C75_grid rng d 123 Point.tracer
  have ha' := xy_area hg
  set d' := (g.setVar "z_i" (arr1 "z_i" [0.0, 5.0, 15.0, 185.0, 1815.0, 6185.0])).setVar "z_l"
      (arr1 "z_l" [2.5, 10.0, 100.0, 1000.0, 4000.0]) with hd'
  have hl : d'.vars.lookup "areacello"
      = some (scaledArea (rng.normalArray 123 100 10 [("yh", 5), ("xh", 5)])) := by
    rw [hd', lookup_setVar, if_neg (by decide), lookup_setVar, if_neg (by decide), ha']
  have hmem : ∀ m ∈ ["yh", "xh"], m ∈ d'.dimNames := by
    intro m hm
    refine List.mem_flatMap.2 ⟨_, lookup_mem hl, ?_⟩
    exact hm
  have hc : ¬ (!d'.dimNames.contains "yh" || !d'.dimNames.contains "xh") = true := by
    simp [hmem "yh" (by simp), hmem "xh" (by simp)]
  refine ⟨g, d'.setVar "deptho" (testDepth rng 123), hg, ?_, ?_, ?_, ?_, ?_, ?_, ?_⟩
  · simp only [zlevelFields, if_true, ← hd', if_neg hc, ok_bind]
    rfl
  · rw [lookup_setVar, if_neg (by decide), hd', lookup_setVar, if_neg (by decide), lookup_setVar,
      if_pos rfl]
  · rw [lookup_setVar, if_neg (by decide), hd', lookup_setVar, if_pos rfl]
  · rw [lookup_setVar, if_pos rfl]
  · rw [lookup_setVar, if_neg (by decide), hl]
  · refine hGrid_congr (fun n hn => ?_) hG
    simp only [List.mem_cons, List.not_mem_nil, or_false] at hn
    rcases hn with rfl | rfl | rfl | rfl | rfl <;>
    rw [lookup_setVar, if_neg (by decide), hd', lookup_setVar, if_neg (by decide), lookup_setVar,
      if_neg (by decide)]
  · intro n hn
    simp only [List.mem_cons, not_or, List.not_mem_nil, not_false_eq_true, and_true] at hn
    rw [lookup_setVar, if_neg hn.2.2.1, hd', lookup_setVar, if_neg hn.2.1, lookup_setVar, if_neg hn.1,
      hother n (by simp; tauto)]

/-- The time axis of the test data: five numbered times, or twelve months for each year. -/
theorem testTimes_ok (c : Calendar) {y n : Nat} (hy : n = 0 ∨ 1 ≤ y) :
    ∃ (x : Timed (DS (Fl K))) (nt : Nat), testTimes y n c = .ok (x, nt) ∧
      nt = (if n = 0 then 5 else 12 * n) ∧ (∀ m, m ≠ "time" → x.obj.vars.lookup m = none) ∧
      (n = 0 → x.axes = []) ∧
      (1 ≤ n → ∃ st, generateTimeStub y n c "MS" = .ok st ∧ x.axes = [("time", ⟨c, st.time⟩)]) := by
  rcases Nat.eq_zero_or_pos n with rfl | hn
  · refine ⟨_, _, by simp only [testTimes]; rfl, rfl, ?_, fun _ => rfl, by simp⟩
    intro m hm
    rw [lookup_setVar, if_neg hm]
    rfl
  · obtain ⟨st, b, hst, hb, -, -, -, hS, -⟩ := C63_monthly c (hy.resolve_left (by omega)) n
    have hl : st.time.length = 12 * n := by
      have := hS.1
      omega
    refine ⟨⟨⟨[], ["time"]⟩, [("time", ⟨c, st.time⟩)]⟩, st.time.length, ?_, ?_, ?_, by omega, ?_⟩
    · simp only [testTimes, ge_iff_le]
      rw [if_pos (by omega), hst]
      rfl
    · rw [if_neg (by omega), hl]
    · intro m _; rfl
    · intro _; exact ⟨st, hst, rfl⟩

/-- Every variable of `generate_test_data`. -/
theorem gen_ok (rng : Rng K) (c : Calendar) {y n : Nat} (hy : n = 0 ∨ 1 ≤ y) (seed : Nat) :
    ∃ x nt, generateTestData rng y n c seed = .ok x ∧ nt = (if n = 0 then 5 else 12 * n) ∧
      (n = 0 → x.axes = []) ∧
      (1 ≤ n → ∃ st, generateTimeStub y n c "MS" = .ok st ∧ x.axes = [("time", ⟨c, st.time⟩)]) ∧
      HGrid x.obj "xh" "yh" "geolon" "geolat" "areacello" (rng.normal 123) ∧
      x.obj.vars.lookup "z_i" = some (arr1 "z_i" [0.0, 5.0, 15.0, 185.0, 1815.0, 6185.0]) ∧
      x.obj.vars.lookup "z_l" = some (arr1 "z_l" [2.5, 10.0, 100.0, 1000.0, 4000.0]) ∧
      x.obj.vars.lookup "deptho" = some (testDepth rng 123) ∧
      x.obj.vars.lookup "areacello"
        = some (scaledArea (rng.normalArray 123 100 10 [("yh", 5), ("xh", 5)])) ∧
      (let dims := [("time", nt), ("z_l", 5), ("yh", 5), ("xh", 5)]
      x.obj.vars.lookup "thetao" = some (rng.normalArray seed 15.0 5.0 dims) ∧
      x.obj.vars.lookup "so" = some (rng.normalArray seed 35.0 1.5 dims) ∧
      x.obj.vars.lookup "volcello" = some (rng.normalArray seed 1000.0 100.0 dims)) := by
  obtain ⟨x, nt, ht, hnt, -, ha0, ha1⟩ := testTimes_ok (K := K) c hy
  obtain ⟨g, r, hg, hr, h1, h2, h3, h4, hG, -⟩ := base_ok rng x.obj
  refine ⟨⟨((r.setVar "thetao" (rng.normalArray seed 15.0 5.0 [("time", nt), ("z_l", 5), ("yh", 5),
      ("xh", 5)])).setVar "so" (rng.normalArray seed 35.0 1.5 [("time", nt), ("z_l", 5), ("yh", 5),
      ("xh", 5)])).setVar "volcello" (rng.normalArray seed 1000.0 100.0 [("time", nt), ("z_l", 5),
      ("yh", 5), ("xh", 5)]), x.axes⟩, nt, ?_, hnt, ha0, ha1, ?_, ?_, ?_, ?_, ?_, ?_, ?_, ?_⟩
  · simp only [generateTestData, ht, hg, hr, ok_bind]
    rfl
  · refine hGrid_congr (fun n hn => ?_) hG
    simp only [List.mem_cons, List.not_mem_nil, or_false] at hn
    rcases hn with rfl | rfl | rfl | rfl | rfl <;>
    rw [lookup_setVar, if_neg (by decide), lookup_setVar, if_neg (by decide), lookup_setVar,
      if_neg (by decide)]
  all_goals simp [lookup_setVar, h1, h2, h3, h4]

/-- Which random stream feeds which field: temperature, salinity and volume all read the draws of the
given seed in row-major order (time, level, row, column), while area and depth read those of seed 123,
and every row of depths reads the same five draws. -/
theorem C77_fields (rng : Rng K) (c : Calendar) {y n : Nat} (hy : n = 0 ∨ 1 ≤ y) (seed : Nat) :
    ∃ x nt, generateTestData rng y n c seed = .ok x ∧ nt = (if n = 0 then 5 else 12 * n) ∧
      (let dims := [("time", nt), ("z_l", 5), ("yh", 5), ("xh", 5)]
      let pos : Env → Nat := fun e => 125 * e "time" + 25 * e "z_l" + 5 * e "yh" + e "xh"
      HasVar x.obj "thetao" dims (fun e => fin (15 + 5 * rng.normal seed (pos e))) ∧
      HasVar x.obj "so" dims (fun e => fin (35 + 3 / 2 * rng.normal seed (pos e))) ∧
      HasVar x.obj "volcello" dims (fun e => fin (1000 + 100 * rng.normal seed (pos e)))) ∧
      HasVar x.obj "deptho" [("yh", 5), ("xh", 5)]
        (fun e => fin (ifcDepth (e "yh" + 1) * rng.uniform 123 (e "xh"))) ∧
      HGrid x.obj "xh" "yh" "geolon" "geolat" "areacello" (rng.normal 123) := by
  obtain ⟨x, nt, hx, hnt, -, -, hG, -, -, hdep, -, hth, hso, hvol⟩ := gen_ok rng c hy seed
  have key : ∀ e : Env, rowMajor [("time", nt), ("z_l", 5), ("yh", 5), ("xh", 5)] e
      = 125 * e "time" + 25 * e "z_l" + 5 * e "yh" + e "xh" := by
    intro e
    simp only [rowMajor, List.foldl_cons, List.foldl_nil]
    ring
  refine ⟨x, nt, hx, hnt, ⟨⟨_, hth, rfl, ?_⟩, ⟨_, hso, rfl, ?_⟩, ⟨_, hvol, rfl, ?_⟩⟩,
    ⟨_, hdep, rfl, fun e he => testDepth_get _ _ _ (he ("yh", 5) (by simp))⟩, hG⟩
  all_goals
    intro e _
    simp only [Rng.normalArray, key]
    norm_num

/-- Temperature, salinity and volume of the test data lie on one line. -/
theorem C77_affine (rng : Rng K) (c : Calendar) {y n : Nat} (hy : n = 0 ∨ 1 ≤ y) (seed : Nat)
    {x : Timed (DS (Fl K))} (hx : generateTestData rng y n c seed = .ok x) {th so vol : DA (Fl K)}
    (h1 : x.obj.vars.lookup "thetao" = some th) (h2 : x.obj.vars.lookup "so" = some so)
    (h3 : x.obj.vars.lookup "volcello" = some vol) (e : Env) (he : th.InBounds e) :
    ∃ T, th.get e = fin T ∧ so.get e = fin (35 + 3 / 10 * (T - 15)) ∧
      vol.get e = fin (1000 + 20 * (T - 15)) := by
  obtain ⟨x', nt, hx', -, ⟨⟨_, a1, d1, b1⟩, ⟨_, a2, -, b2⟩, ⟨_, a3, -, b3⟩⟩, -⟩ :=
    C77_fields rng c hy seed
  obtain rfl : x = x' := Except.ok.inj (hx.symm.trans hx')
  rw [h1, Option.some.injEq] at a1
  rw [h2, Option.some.injEq] at a2
  rw [h3, Option.some.injEq] at a3
  subst a1 a2 a3
  have he' : ∀ p ∈ [("time", nt), ("z_l", 5), ("yh", 5), ("xh", 5)], e p.1 < p.2 := by
    rw [← d1]; exact he
  refine ⟨_, b1 e he', ?_, ?_⟩
  · rw [b2 e he']; exact congrArg fin (by ring)
  · rw [b3 e he']; exact congrArg fin (by ring)

/-- Temperature 20 goes with salinity 36.5 and volume 1100, whatever the seed. -/
example : ∃ x, generateTestData (K := ℚ) ⟨fun _ _ => 1, fun _ _ => 0⟩ 1981 0 .noleap 5 = .ok x ∧
    HasVar x.obj "so" [("time", 5), ("z_l", 5), ("yh", 5), ("xh", 5)] (fun _ => fin (35 + 3 / 2 * 1)) := by
  obtain ⟨x, nt, h1, h2, ⟨-, h3, -⟩, -⟩ := C77_fields (K := ℚ) ⟨fun _ _ => 1, fun _ _ => 0⟩ .noleap
    (y := 1981) (n := 0) (Or.inl rfl) 5
  subst h2
  exact ⟨x, h1, h3⟩

/-- Changing the seed never changes the areas and depths. -/
theorem C77_seed (rng : Rng K) (c : Calendar) {y n : Nat} (hy : n = 0 ∨ 1 ≤ y) (seed seed' : Nat) :
    ∃ x x', generateTestData rng y n c seed = .ok x ∧ generateTestData rng y n c seed' = .ok x' ∧
      x.axes = x'.axes ∧
      x.obj.vars.lookup "areacello" = x'.obj.vars.lookup "areacello" ∧
      x.obj.vars.lookup "deptho" = x'.obj.vars.lookup "deptho" := by
  obtain ⟨x, nt, hx, -, b0, b1, -, -, -, h1, h2, -⟩ := gen_ok rng c hy seed
  obtain ⟨x', nt', hx', -, b0', b1', -, -, -, h1', h2', -⟩ := gen_ok rng c hy seed'
  refine ⟨x, x', hx, hx', ?_, by rw [h2, h2'], by rw [h1, h1']⟩
  rcases Nat.eq_zero_or_pos n with h | h
  · rw [b0 h, b0' h]
  · obtain ⟨st, e1, e2⟩ := b1 h
    obtain ⟨st', e1', e2'⟩ := b1' h
    obtain rfl : st = st' := Except.ok.inj (e1.symm.trans e1')
    rw [e2, e2']

end

/-! ## The generated data can be used -/

theorem testDepth_bathy (rng : Rng ℝ) (seed : Nat) (hu : ∀ i, 0 ≤ rng.uniform seed i) :
    Bathy (testDepth rng seed) where
  wf := by
    intro e e' h
    have h1 := h "yh" (by simp [testDepth, DA.dimNames])
    have h2 := h "xh" (by simp [testDepth, DA.dimNames])
    simp only [testDepth, h1, h2]
  nodup := by simp [testDepth, DA.dimNames]
  vals := by
    intro e he
    right
    have hj : e "yh" < 5 := he ("yh", 5) (by simp [testDepth])
    refine ⟨_, ?_, testDepth_get rng seed e hj⟩
    have hp : (0 : ℝ) ≤ ifcDepth (e "yh" + 1) := by
      interval_cases e "yh" <;> norm_num [ifcDepth]
    exact mul_nonneg hp (hu _)

/-- No coordinate but `z` itself lacks a dimension other than `z`. -/
def Alone {V : Type} (d : DS V) (z : String) : Prop :=
  ∀ p ∈ d.vars, p.1 ∈ d.coords → p.1 ≠ z → ∃ x ∈ p.2.dimNames, x ≠ z

theorem Alone.setVar {V : Type} {d : DS V} {z : String} (h : Alone d z) {n : String} {a : DA V}
    (ha : n = z ∨ ∃ x ∈ a.dimNames, x ≠ z) : Alone (d.setVar n a) z := by
  intro p hp hc hz
  have hp' : p = (n, a) ∨ (p ∈ d.vars ∧ p.1 ≠ n) := by
    simp only [DS.setVar, dictSet] at hp
    split at hp
    · obtain ⟨q, hq, rfl⟩ := List.mem_map.1 hp
      split
      · exact Or.inl rfl
      · rename_i hne; exact Or.inr ⟨hq, hne⟩
    · rename_i hk
      rcases List.mem_append.1 hp with hq | hq
      · refine Or.inr ⟨hq, fun he => hk ?_⟩
        rw [List.contains_iff_mem, ← he]
        exact List.mem_map_of_mem hq
      · exact Or.inl (List.mem_singleton.1 hq)
  rcases hp' with rfl | ⟨hp', hne⟩
  · exact ha.resolve_left hz
  · refine h p hp' ?_ hz
    simp only [DS.setVar] at hc
    split at hc
    · rcases List.mem_append.1 hc with hc | hc
      · exact hc
      · exact absurd (List.mem_singleton.1 hc) hne
    · exact hc

theorem Alone.xy {rng : Rng ℝ} {d g : DS (Fl ℝ)} (h : Alone d "z_l") (hg : xyFields rng d = .ok g) :
    Alone g "z_l" := by
  simp only [xyFields, show dictGet pointDict "h" = .ok ("xh", "yh", "geolon", "geolat", "areacello")
    from rfl, ok_bind] at hg
  rw [← Except.ok.inj hg]
  have two : ∀ (n : String) (b : DS (Fl ℝ)) (a : DA (Fl ℝ)), "xh" ∈ a.dimNames → Alone b "z_l" →
      Alone (b.setVar n a) "z_l" := fun n b a ha hb => hb.setVar (Or.inr ⟨"xh", ha, by decide⟩)
  refine two _ _ _ (memL (memL (by simp [Rng.normalArray]))) (two _ _ _ (by simp [DA.dimNames]) (two _ _ _ (by simp [DA.dimNames]) ?_))
  exact (h.setVar (Or.inr ⟨"xh", by simp [arr1, DA.dimNames], by decide⟩)).setVar
    (Or.inr ⟨"yh", by simp [arr1, DA.dimNames], by decide⟩)

theorem Alone.zlevel {rng : Rng ℝ} {d g : DS (Fl ℝ)} (h : Alone d "z_l") (hg : zlevelFields rng d = .ok g) :
    Alone g "z_l" := by
  simp only [zlevelFields, if_true] at hg
  have h' : Alone ((d.setVar "z_i" (arr1 "z_i" [0.0, 5.0, 15.0, 185.0, 1815.0, 6185.0])).setVar "z_l"
      (arr1 "z_l" [2.5, 10.0, 100.0, 1000.0, 4000.0])) "z_l" :=
    (h.setVar (Or.inr ⟨"z_i", by simp [arr1, DA.dimNames], by decide⟩)).setVar (Or.inl rfl)
  have hd : ∀ b, Alone b "z_l" → Alone (b.setVar "deptho" (testDepth rng 123)) "z_l" := fun b hb =>
    hb.setVar (Or.inr ⟨"yh", by simp [testDepth, DA.dimNames], by decide⟩)
  split at hg
  · simp only [bind_ok, pure_ok] at hg
    obtain ⟨b, hb, rfl⟩ := hg
    exact hd b (h'.xy hb)
  · rw [← Except.ok.inj hg]; exact hd _ h'

theorem gen_alone {rng : Rng ℝ} {c : Calendar} {y n seed : Nat} {x : Timed (DS (Fl ℝ))}
    (h : generateTestData rng y n c seed = .ok x) : Alone x.obj "z_l" := by
  simp only [generateTestData, bind_ok, pure_ok] at h
  obtain ⟨⟨x0, nt⟩, h1, g, h2, r, h3, rfl⟩ := h
  have a0 : Alone x0.obj "z_l" := by
    unfold testTimes at h1
    split at h1
    · simp only [bind_ok, pure_ok] at h1
      obtain ⟨st, -, h1⟩ := h1
      cases h1
      intro p hp
      cases hp
    · cases h1
      intro p hp _ _
      have : p = ("time", arr1 "time" [1.0, 2.0, 3.0, 4.0, 5.0]) := List.mem_singleton.1 hp
      subst this
      exact ⟨"time", by simp [arr1, DA.dimNames], by decide⟩
  have t : ∀ (a b : ℝ), ∃ x ∈ (rng.normalArray seed a b [("time", nt), ("z_l", 5), ("yh", 5), ("xh", 5)]).dimNames,
      x ≠ "z_l" := fun a b => ⟨"xh", by simp [Rng.normalArray, DA.dimNames], by decide⟩
  exact ((((a0.xy h2).zlevel h3).setVar (Or.inr (t _ _))).setVar (Or.inr (t _ _))).setVar (Or.inr (t _ _))

/-- The vertical grid of the test data. -/
theorem testGrid : DzGrid (arr1 "z_l" [2.5, 10.0, 100.0, 1000.0, 4000.0] : DA (Fl ℝ))
    (arr1 "z_i" [0.0, 5.0, 15.0, 185.0, 1815.0, 6185.0]) "z_l" "z_i" 5
    (fun k => ([2.5, 10.0, 100.0, 1000.0, 4000.0] : List ℝ).getD k 0)
    (fun k => ([0.0, 5.0, 15.0, 185.0, 1815.0, 6185.0] : List ℝ).getD k 0) where
  ldims := rfl
  lget := fun e => rfl
  lnonneg := by intro k hk; interval_cases k <;> norm_num
  idims := rfl
  iget := fun e => rfl
  inonneg := by norm_num
  imono := by intro k hk; interval_cases k <;> norm_num

/-- The generated dataset is accepted by `validate_dataset` and by `steric`, for both equations of
state, all variants and both domains, unless the 25 random areas happen to sum to zero. -/
theorem C74_usable (rng : Rng ℝ) (c : Calendar) {y n : Nat} (hy : n = 0 ∨ 1 ≤ y) (seed : Nat)
    (ht : rawTotal (rng.normal 123) ≠ 0) (hu : ∀ i, 0 ≤ rng.uniform 123 i) :
    ∃ x, generateTestData rng y n c seed = .ok x ∧
      validateDataset x.obj false true (.list ["z_i", "deptho"]) = .ok () ∧
      ∀ (eos variant domain : String) (rhozero : Fl ℝ) (strict : Bool),
        CaseVariant eos "wright" ∨ CaseVariant eos "linear" →
        variant ∈ ["thermosteric", "halosteric", "steric"] → rhozero ≠ fin 0 →
        ∃ r, steric x.obj .none .none none rhozero (DA.scalar (101325.0 : Fl ℝ)) eos variant domain strict
          = .ok r := by
  obtain ⟨x, nt, hx, hnt, -, -, hG, hzi, hzl, hdep, harea, hth, hso, hvol⟩ := gen_ok rng c hy seed
  have hpos : 0 < nt := by
    rw [hnt]; split <;> omega
  have hval : validateAreacello (scaledArea (rng.normalArray 123 100 10 [("yh", 5), ("xh", 5)])) = true := by
    obtain ⟨g, a, hg, ha, -, hv⟩ := C75_valid rng (⟨[], []⟩ : DS (Fl ℝ)) 123 Point.tracer ht
    rw [xy_area hg, Option.some.injEq] at ha
    rw [C35_defaults, ha]
    exact hv _ (by norm_num)
  have gd : GoodData x.obj "time" "z_l" "z_i" "z_i" "yh" "xh" nt 5 5 5 _ _ _ _ _ _ _ _
      (DA.scalar (101325.0 : Fl ℝ)) := {
    names := by decide
    hnt := hpos
    hn := by decide
    hny := by decide
    hnx := by decide
    hth := getVar_ok hth
    hso := getVar_ok hso
    hvol := getVar_ok hvol
    harea := getVar_ok harea
    hzb := getVar_ok hzi
    thd := rfl
    sod := rfl
    vold := rfl
    aread := rfl
    depthd := rfl
    grid := {
      grid := ⟨_, _, by rw [DS.getItem, hzl], by rw [DS.getItem, hzi], testGrid⟩
      hdepth := getVar_ok hdep
      bathy := testDepth_bathy rng 123 hu
      hz := by simp [testDepth, DA.dimNames]
      coord := List.mem_map.2 ⟨_, lookup_mem hzl, rfl⟩ }
    alone := gen_alone hx
    patmd := by simp [DA.scalar] }
  refine ⟨x, hx, ?_, fun eos variant domain rhozero strict he hv hr =>
    C30_success gd rfl hv he hr (fun _ => hval)⟩
  rw [(C34_iff x.obj false true _).1]
  refine ⟨?_, ?_, ?_, ?_, fun _ => ⟨_, harea, hval⟩, by simp⟩
  · intro v hv
    simp only [List.mem_cons, List.not_mem_nil, or_false] at hv
    rcases hv with rfl | rfl | rfl
    · rw [rankOf_of_getVar gd.hth]; rfl
    · rw [rankOf_of_getVar gd.hso]; rfl
    · rw [rankOf_of_getVar gd.hvol]; rfl
  · rw [rankOf_of_getVar gd.harea]; rfl
  · intro r h
    rw [rankOf_of_getVar gd.grid.hdepth] at h
    exact (Option.some.inj h).symm
  · intro v hv
    simp only [extraVars, List.mem_cons, List.not_mem_nil, or_false] at hv
    rcases hv with rfl | rfl
    · rw [rankOf_of_getVar gd.hzb]; simp
    · rw [rankOf_of_getVar gd.grid.hdepth]; simp

/-- A generator that always draws the mean and a half meets the hypotheses. -/
example : ∃ x r, generateTestData (K := ℝ) ⟨fun _ _ => 0, fun _ _ => 1 / 2⟩ 1981 5 .noleap 7 = .ok x ∧
    steric x.obj .none .none none (fin 1035) (DA.scalar (101325.0 : Fl ℝ)) "Wright" "steric" "local" true
      = .ok r := by
  have ht : rawTotal (fun _ => (0 : ℝ)) ≠ 0 := by norm_num [rawTotal, rawArea]
  obtain ⟨x, h1, -, h2⟩ := C74_usable ⟨fun _ _ => 0, fun _ _ => 1 / 2⟩ .noleap (y := 1981) (n := 5)
    (Or.inr (by norm_num)) 7 ht (fun _ => by norm_num)
  obtain ⟨r, hr⟩ := h2 "Wright" "steric" "local" (fin 1035) true (Or.inl wright_case) (by simp)
    (by simp)
  exact ⟨x, r, h1, hr⟩

/-- `C75_grid` for the velocity points, and `C75_unknown` for a point that does not exist. -/
example : (∃ r, xyFields (K := ℚ) ⟨fun _ _ => 0, fun _ _ => 1 / 2⟩ ⟨[], []⟩ "u" 3 = .ok r ∧
      "xq" ∈ r.coords ∧ "yh" ∈ r.coords) ∧
    xyFields (K := ℚ) ⟨fun _ _ => 0, fun _ _ => 1 / 2⟩ ⟨[], []⟩ "q" 3 = .error .keyError := by
  refine ⟨?_, C75_unknown _ _ _ (by decide)⟩
  obtain ⟨r, h1, -, -, -, h2, h3⟩ := C75_grid (K := ℚ) ⟨fun _ _ => 0, fun _ _ => 1 / 2⟩ ⟨[], []⟩ 3 (point := "u")
    (x := "xq") (y := "yh") (lon := "geolon_u") (lat := "geolat_u") (area := "areacello_cu") .zonal
  exact ⟨r, h1, h2, h3⟩

end Momlevel.Props
