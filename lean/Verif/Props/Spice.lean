import Verif.Lemmas.Spice

/-! # C07: spiciness -/

namespace Momlevel.Props
open Momlevel Momlevel.Spice Momlevel.Fl

/-- numpy level: for arrays of one shape the result has that shape and every element is the
Flament polynomial of the corresponding inputs; a missing input gives a missing output. -/
theorem C07_numpy (th so : NArr (Fl ℝ)) (ht : th.WF) (hs : so.WF) (h : th.shape = so.shape) :
    ∃ r, spice (.arr th) (.arr so) = .ok r ∧ r.shape = th.shape ∧ r.WF ∧
      ∀ (i : Nat) (x y : Fl ℝ), th.data[i]? = some x → so.data[i]? = some y →
        (∀ t s, x = fin t → y = fin s → r.data[i]? = some (fin (Spec.Flament.poly t s))) ∧
        (x = nan ∨ y = nan → r.data[i]? = some nan) := by
  refine ⟨⟨th.shape, List.zipWith (fun a b => point b a) so.data th.data⟩, ?_, rfl, ?_, ?_⟩
  · have hb : (th.shape == so.shape) = true := by simp [h]
    simp only [spice, Arg.toArr, hb, pyAssert_true, ok_bind, spice_data]
    rfl
  · unfold NArr.WF at *
    simp only [List.length_zipWith, ht, hs, h, min_self]
  · intro i x y hx hy
    have key : (List.zipWith (fun a b => point b a) so.data th.data)[i]? = some (point x y) := by
      rw [List.getElem?_zipWith, hx, hy]
    constructor
    · rintro t s rfl rfl
      rw [key, point_fin]
    · rintro (rfl | rfl)
      · rw [key, point_nan_left]
      · rw [key, point_nan_right]

/-- numpy level: different shapes are rejected. -/
theorem C07_shape_mismatch (th so : NArr (Fl ℝ)) (h : th.shape ≠ so.shape) :
    spice (.arr th) (.arr so) = .error .assertionError := by
  have hb : (th.shape == so.shape) = false := by simpa using h
  simp only [spice, Arg.toArr, hb, pyAssert_false, error_bind]

/-- Two plain numbers give a one-element array. -/
theorem C07_scalar (t s : ℝ) :
    spice (.num (fin t)) (.num (fin s)) = .ok ⟨[1], [fin (Spec.Flament.poly t s)]⟩ := by
  have hb : ([1] == [1]) = true := rfl
  simp only [spice, Arg.toArr, hb, pyAssert_true, ok_bind, spice_data, List.zipWith_cons_cons, List.zipWith_nil_right, point_fin]
  rfl

/-- xarray level: two arrays with the same dimensions (in any order) give an array with the
dimensions of the first whose every element is the polynomial of the inputs at the same labels. -/
theorem C07_calc_spice (th so : DA (Fl ℝ)) (ht : th.WF) (hs : so.WF) (hn : th.dimNames.Nodup)
    (hperm : th.dims.Perm so.dims) :
    ∃ r, calcSpice th so = .ok r ∧ r.dims = th.dims ∧
      ∀ e, th.InBounds e →
        (∀ t s, th.get e = fin t → so.get e = fin s → r.get e = fin (Spec.Flament.poly t s)) ∧
        (th.get e = nan ∨ so.get e = nan → r.get e = nan) := by
  have hn' : so.dimNames.Nodup := (hperm.map Prod.fst).nodup_iff.1 hn
  have hout : DA.bdims th.dims so.dims = th.dims := by
    unfold DA.bdims
    rw [List.filter_eq_nil_iff.2, List.append_nil]
    intro p hp
    have : p.1 ∈ th.dims.map Prod.fst := List.mem_map_of_mem (hperm.mem_iff.2 hp)
    simpa using this
  have key : ∀ a : DA (Fl ℝ), a.dimNames.Nodup → (th.dims.Perm a.dims) →
      ufuncData th.dims a = ⟨th.dims.map Prod.snd, ravel th.dims a.get⟩ := by
    intro a ha hp
    have hmine : ∀ p ∈ th.dims, a.dimNames.contains p.1 = true := by
      intro p hp'
      have : p.1 ∈ a.dimNames := List.mem_map_of_mem (hp.mem_iff.1 hp')
      simpa using this
    have hsize : ∀ p ∈ th.dims, a.size p.1 = p.2 := fun p hp' => DA.size_of_mem ha (hp.mem_iff.1 hp')
    unfold ufuncData
    have h1 : th.dims.dropWhile (fun p => !a.dimNames.contains p.1) = th.dims := by
      cases hd : th.dims with
      | nil => rfl
      | cons p l =>
        have := hmine p (by rw [hd]; simp)
        rw [List.dropWhile_cons, if_neg]
        rw [this]; simp
    have h2 : th.dims.filter (fun p => a.dimNames.contains p.1) = th.dims :=
      List.filter_eq_self.2 hmine
    simp only [h1, h2]
    congr 1
    · apply List.map_congr_left
      intro p hp'
      rw [if_pos (hmine p hp'), hsize p hp']
    · congr 1
      conv_rhs => rw [← List.map_id th.dims]
      apply List.map_congr_left
      intro p hp'
      rw [hsize p hp']; rfl
  have k1 := key th hn (List.Perm.refl _)
  have k2 := key so hn' hperm
  have hw : ∀ a : DA (Fl ℝ), (⟨th.dims.map Prod.snd, ravel th.dims a.get⟩ : NArr (Fl ℝ)).WF :=
    fun a => length_ravel th.dims a.get
  obtain ⟨r, hr, -, -, hval⟩ := C07_numpy _ _ (hw th) (hw so) rfl
  refine ⟨⟨th.dims, fun e => r.data.getD (flatIndex th.dims e) .nan⟩, ?_, rfl, ?_⟩
  · unfold calcSpice
    simp only [hout, k1, k2, hr]
    rfl
  · intro e he
    have hb : ∀ p ∈ th.dims, e p.1 < p.2 := he
    have g1 : (ravel th.dims th.get)[flatIndex th.dims e]? = some (th.get e) := by
      rw [ravel_flatIndex th.dims th.get e hb hn]
      congr 1
      apply ht
      intro d hd
      exact if_pos hd
    have g2 : (ravel th.dims so.get)[flatIndex th.dims e]? = some (so.get e) := by
      rw [ravel_flatIndex th.dims so.get e hb hn]
      congr 1
      apply hs
      intro d hd
      exact if_pos ((hperm.map Prod.fst).mem_iff.2 hd)
    obtain ⟨v1, v2⟩ := hval _ _ _ g1 g2
    constructor
    · intro t s h1 h2
      show r.data.getD _ _ = _
      rw [List.getD_eq_getElem?_getD, v1 t s h1 h2]; rfl
    · intro h
      show r.data.getD _ _ = _
      rw [List.getD_eq_getElem?_getD, v2 h]; rfl

/-- xarray level: if the second array lacks a dimension of size other than one, the request is
rejected instead of being broadcast. -/
theorem C07_calc_spice_reject (th so : DA (Fl ℝ)) (p : String × Nat)
    (hn : th.dimNames.Nodup) (hp : p ∈ th.dims) (hs : p.1 ∉ so.dimNames) (h1 : p.2 ≠ 1) :
    calcSpice th so = .error .assertionError := by
  simp only [calcSpice]
  rw [C07_shape_mismatch]
  · rfl
  · -- the shapes differ
    unfold ufuncData
    simp only
    set out := DA.bdims th.dims so.dims with hout
    have hpo : p ∈ out := by rw [hout]; unfold DA.bdims; exact List.mem_append_left _ hp
    have hth : th.dimNames.contains p.1 = true := by
      have : p.1 ∈ th.dimNames := List.mem_map_of_mem hp
      simpa using this
    -- first argument: nothing is dropped
    have hd : out.dropWhile (fun p => !th.dimNames.contains p.1) = out := by
      rw [hout]; unfold DA.bdims
      cases hdd : th.dims with
      | nil => rw [hdd] at hp; simp at hp
      | cons q l =>
        have : th.dimNames.contains q.1 = true := by
          have : q.1 ∈ th.dimNames := by unfold DA.dimNames; rw [hdd]; simp
          simpa using this
        rw [List.cons_append, List.dropWhile_cons, if_neg]
        rw [this]; simp
    rw [hd]
    intro heq
    by_cases hdrop : out.dropWhile (fun p => !so.dimNames.contains p.1) = out
    · rw [hdrop] at heq
      have := List.map_inj_left.1 heq p hpo
      rw [if_pos hth, if_neg (by simpa using hs), DA.size_of_mem hn hp] at this
      exact h1 this
    · have hlen := congrArg List.length heq
      rw [List.length_map, List.length_map] at hlen
      apply hdrop
      exact (List.dropWhile_suffix _).eq_of_length hlen.symm

/-- Non-vacuity: a 2×3 field on permuted dimensions meets the hypotheses. -/
example :
    let th : DA (Fl ℝ) := ⟨[("y", 2), ("x", 3)], fun e => fin (e "y" + 10 * e "x")⟩
    let so : DA (Fl ℝ) := ⟨[("x", 3), ("y", 2)], fun e => if e "x" = 0 then nan else fin 35⟩
    th.WF ∧ so.WF ∧ th.dimNames.Nodup ∧ th.dims.Perm so.dims ∧ th.InBounds (fun _ => 1) := by
  refine ⟨?_, ?_, ?_, ?_, ?_⟩
  · intro e e' h
    simp only [DA.dimNames, List.map_cons, List.map_nil, List.mem_cons, List.not_mem_nil,
      or_false, forall_eq_or_imp, forall_eq] at h
    simp [h.1, h.2]
  · intro e e' h
    simp only [DA.dimNames, List.map_cons, List.map_nil, List.mem_cons, List.not_mem_nil,
      or_false, forall_eq_or_imp, forall_eq] at h
    simp [h.1]
  · simp [DA.dimNames]
  · exact List.Perm.swap _ _ _
  · intro p hp
    simp only [List.mem_cons, List.not_mem_nil, or_false] at hp
    rcases hp with rfl | rfl <;> decide

end Momlevel.Props
