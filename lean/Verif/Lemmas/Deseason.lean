import Verif.Props.Season

/-! Evaluating `deseason` block by block. -/

set_option linter.unusedSectionVars false

namespace Momlevel
open Momlevel.Props

theorem locate_sum (l : List Nat) (i : Nat) : (locate l i).1 + (locate l i).2.2 = i := by
  induction l generalizing i with
  | nil => simp [locate]
  | cons s r ih =>
    rw [locate]
    split
    · simp
    · have := ih (i - s)
      simp only
      omega

theorem locate_single {n i : Nat} (h : i < n ∨ i = 0) : locate [n] i = (0, n, i) := by
  rw [locate]
  split
  · rfl
  · have : i = 0 ∧ n = 0 := by omega
    rw [this.1, this.2]
    rfl

theorem idxOf_dim {a : DA (Fl ℝ)} {d : String} {n : Nat} (hn : a.dimNames.Nodup)
    (h : (d, n) ∈ a.dims) :
    ∃ hi : a.dimNames.idxOf d < a.dims.length, a.dims[a.dimNames.idxOf d] = (d, n) := by
  have hm : d ∈ a.dimNames := List.mem_map_of_mem h
  have hi := List.idxOf_lt_length_of_mem hm
  have hl : a.dimNames.length = a.dims.length := List.length_map _
  refine ⟨by omega, ?_⟩
  have h1 : a.dimNames[a.dimNames.idxOf d] = d := List.getElem_idxOf hi
  have h2 : (a.dims[a.dimNames.idxOf d]'(by omega)).1 = d := by
    rw [← List.getElem_map (f := Prod.fst) (h := hi)]
    exact h1
  have h3 := DA.size_of_mem hn (List.getElem_mem (by omega : a.dimNames.idxOf d < a.dims.length))
  rw [h2] at h3
  have h4 := DA.size_of_mem hn h
  exact Prod.ext h2 (h3.symm.trans h4)

theorem timeChunks_length {x : SeasonArray} (hc : Spec.Covered x) (tdim : String) :
    (timeChunks x tdim).length = x.da.dims.length := by
  unfold timeChunks
  cases hx : x.chunks with
  | none => simp
  | some cs =>
    have := congrArg List.length (hc cs hx)
    rw [List.length_map, List.length_map] at this
    simp only
    split
    · rw [List.length_set]; exact this
    · exact this

theorem timeChunks_time {x : SeasonArray} {ax : TimeAxis} {n : Nat} (h : Spec.HasTime x ax n)
    (hc : Spec.Covered x) : chunkSizes x.da (timeChunks x "time") "time" = [n] := by
  obtain ⟨hi, he⟩ := idxOf_dim h.distinct h.dim_mem
  have hs : x.da.size "time" = n := DA.size_of_mem h.distinct h.dim_mem
  unfold chunkSizes timeChunks
  cases hx : x.chunks with
  | none =>
    simp only
    rw [List.getD_eq_getElem?_getD, List.getElem?_map, List.getElem?_eq_getElem hi, he]
    rfl
  | some cs =>
    have hcs := hc cs hx
    have hl := congrArg List.length hcs
    rw [List.length_map, List.length_map] at hl
    simp only
    split
    · rw [List.getD_eq_getElem?_getD, List.getElem?_set_self (by omega), hs]
      rfl
    · rename_i h1
      have h1 : (cs.getD (x.da.dimNames.idxOf "time") []).length = 1 := by
        by_contra hne; exact h1 hne
      have hi' : x.da.dimNames.idxOf "time" < cs.length := by omega
      rw [List.getD_eq_getElem?_getD, List.getElem?_eq_getElem hi', Option.getD_some] at h1 ⊢
      have h2 : cs[x.da.dimNames.idxOf "time"].sum = n := by
        have e1 : (cs.map List.sum)[x.da.dimNames.idxOf "time"]? = some n := by
          rw [hcs, List.getElem?_map, List.getElem?_eq_getElem hi, he]; rfl
        rw [List.getElem?_map, List.getElem?_eq_getElem hi'] at e1
        exact Option.some.inj e1
      obtain ⟨a, ha⟩ := List.length_eq_one_iff.1 h1
      rw [ha] at h2 ⊢
      simp at h2
      rw [h2]

theorem chunkSizes_absent {x : SeasonArray} (hc : Spec.Covered x) {d : String}
    (hd : d ∉ x.da.dimNames) : chunkSizes x.da (timeChunks x "time") d = [] := by
  unfold chunkSizes
  have hl := timeChunks_length hc "time"
  have : x.da.dimNames.length = x.da.dims.length := List.length_map _
  rw [List.idxOf_eq_length hd, List.getD_eq_getElem?_getD, List.getElem?_eq_none (by omega)]
  rfl

section
variable {x : SeasonArray} {ax : TimeAxis} {n : Nat}

theorem block_size (h : Spec.HasTime x ax n) (hc : Spec.Covered x) {e : Env}
    (he : e "time" < n ∨ e "time" = 0) :
    (block x.da (timeChunks x "time") e).size "time" = n := by
  have hn : (block x.da (timeChunks x "time") e).dimNames.Nodup := by
    have : (block x.da (timeChunks x "time") e).dimNames = x.da.dimNames := by
      unfold block DA.dimNames
      rw [List.map_map]; rfl
    rw [this]; exact h.distinct
  have hm : ("time", n) ∈ (block x.da (timeChunks x "time") e).dims := by
    refine List.mem_map.2 ⟨("time", n), h.dim_mem, ?_⟩
    simp only [timeChunks_time h hc, locate_single he]
  exact DA.size_of_mem hn hm

theorem block_series (h : Spec.HasTime x ax n) (hc : Spec.Covered x) {e : Env}
    (he : e "time" < n ∨ e "time" = 0) :
    seriesAt (block x.da (timeChunks x "time") e) "time" n
      (blockIndex x.da (timeChunks x "time") e) = seriesAt x.da "time" n e := by
  funext k
  change x.da.get _ = x.da.get _
  congr 1
  funext d
  by_cases hd : d = "time"
  · subst hd
    rw [Function.update_self, Function.update_self, timeChunks_time h hc, locate_single he]
    simp
  · rw [Function.update_of_ne hd, Function.update_of_ne hd]
    exact locate_sum _ _

theorem blockIndex_time (h : Spec.HasTime x ax n) (hc : Spec.Covered x) {e : Env}
    (he : e "time" < n ∨ e "time" = 0) :
    blockIndex x.da (timeChunks x "time") e "time" = e "time" := by
  unfold blockIndex
  rw [timeChunks_time h hc, locate_single he]

theorem blockIndex_absent (hc : Spec.Covered x) {e : Env} {d : String}
    (hd : d ∉ x.da.dimNames) : blockIndex x.da (timeChunks x "time") e d = e d := by
  unfold blockIndex
  rw [chunkSizes_absent hc hd]
  rfl

theorem yearDays_getD (hn : ax.stamps.length = n) {k : Nat} (hk : k < n) :
    (yearDays ax).getD k 0 = (Spec.daysOf ax k : ℝ) := by
  unfold yearDays Spec.daysOf
  have hk' : k < ax.stamps.length := by omega
  rw [List.getD_eq_getElem?_getD, List.getElem?_map, List.getElem?_eq_getElem hk']
  simp only [Option.map_some, Option.getD_some]
  by_cases hl : isLeap ax.cal ax.stamps[k].date.year = true
  · rw [if_pos hl, if_pos ((isLeap_iff _ _).1 hl)]; norm_num
  · rw [if_neg hl, if_neg (fun hh => hl ((isLeap_iff _ _).2 hh))]; norm_num

theorem decimalTime_axis (hn : ax.stamps.length = n) :
    decimalTime n (.array (yearDays ax)) = .ok (Spec.sampleYears ax n) := by
  have hl : (yearDays ax).length = n := by unfold yearDays; rw [List.length_map]; exact hn
  have hz : (0 : ℝ) ∉ yearDays ax := by
    intro hh
    obtain ⟨s, _, hs⟩ := List.mem_map.1 hh
    split at hs <;> norm_num at hs
  simp only [decimalTime, hl, true_or, if_true, hz, if_false]
  congr 1
  funext k
  rw [yearDays_getD hn k.2]
  rfl

/-- The fit at a point. -/
noncomputable def fitAtPoint (x : SeasonArray) (ax : TimeAxis) (n : Nat) (e : Env) : SeasonFit n :=
  seasonalFit (Spec.sampleYears ax n) (seriesAt x.da "time" n e)

theorem process_model {b : DA (Fl ℝ)} (hn : ax.stamps.length = n) (hs : b.size "time" = n) :
    processChunk "time" (.array (yearDays ax)) "model" b =
      .ok ⟨b.dims, fun e =>
        entry (seasonalFit (Spec.sampleYears ax n) (seriesAt b "time" n e)).smodel (e "time")⟩ := by
  subst hs
  unfold processChunk
  simp only [show ("model" : String) ≠ "coeff" by decide,
    show ("model" : String) ≠ "residuals" by decide, if_false, if_true]
  rw [decimalTime_axis hn]
  rfl

theorem process_residuals {b : DA (Fl ℝ)} (hn : ax.stamps.length = n) (hs : b.size "time" = n) :
    processChunk "time" (.array (yearDays ax)) "residuals" b =
      .ok ⟨b.dims, fun e =>
        entry (seasonalFit (Spec.sampleYears ax n) (seriesAt b "time" n e)).residuals (e "time")⟩ := by
  subst hs
  unfold processChunk
  simp only [show ("residuals" : String) ≠ "coeff" by decide, if_false, if_true]
  rw [decimalTime_axis hn]
  rfl

theorem process_coeff {b : DA (Fl ℝ)} (hn : ax.stamps.length = n) (hs : b.size "time" = n)
    (hd : b.ndim ≠ 1) :
    processChunk "time" (.array (yearDays ax)) "coeff" b =
      .ok ⟨b.dims.filter (fun p => p.1 != "time") ++ [("coeff", 6)], fun e =>
        entry (seasonalFit (Spec.sampleYears ax n) (seriesAt b "time" n e)).coeff (e "coeff")⟩ := by
  subst hs
  unfold processChunk
  simp only [if_true, if_neg hd]
  rw [decimalTime_axis hn]
  rfl

theorem lazy_model (h : Spec.HasTime x ax n) (hc : Spec.Covered x) {e : Env} (he : e "time" < n)
    (od : List (String × Nat)) :
    (deseasonLazy x "time" (.array (yearDays ax)) "model" od).get e =
      .ok (entry (fitAtPoint x ax n e).smodel (e "time")) := by
  unfold deseasonLazy
  simp only [show ("model" : String) ≠ "coeff" by decide, if_false]
  rw [process_model h.count (block_size h hc (Or.inl he))]
  simp only [Except.map]
  rw [block_series h hc (Or.inl he), blockIndex_time h hc (Or.inl he)]
  rfl

theorem lazy_residuals (h : Spec.HasTime x ax n) (hc : Spec.Covered x) {e : Env}
    (he : e "time" < n) (od : List (String × Nat)) :
    (deseasonLazy x "time" (.array (yearDays ax)) "residuals" od).get e =
      .ok (entry (fitAtPoint x ax n e).residuals (e "time")) := by
  unfold deseasonLazy
  simp only [show ("residuals" : String) ≠ "coeff" by decide, if_false]
  rw [process_residuals h.count (block_size h hc (Or.inl he))]
  simp only [Except.map]
  rw [block_series h hc (Or.inl he), blockIndex_time h hc (Or.inl he)]
  rfl

theorem block_ndim (x : SeasonArray) (cs : List (List Nat)) (e : Env) :
    (block x.da cs e).ndim = x.da.ndim := by
  unfold block DA.ndim
  exact List.length_map _

theorem lazy_coeff (h : Spec.HasTime x ax n) (hc : Spec.Covered x) (hd : x.da.ndim ≠ 1) (e : Env)
    (od : List (String × Nat)) :
    (deseasonLazy x "time" (.array (yearDays ax)) "coeff" od).get e =
      .ok (entry (fitAtPoint x ax n e).coeff (e "coeff")) := by
  have h0 : (Function.update e "time" 0) "time" < n ∨ (Function.update e "time" 0) "time" = 0 :=
    Or.inr (Function.update_self ..)
  unfold deseasonLazy
  simp only [if_true]
  rw [process_coeff h.count (block_size h hc h0) (by rw [block_ndim]; exact hd)]
  simp only [Except.map]
  rw [block_series h hc h0, blockIndex_absent hc h.no_coeff,
    Function.update_of_ne (by decide : ("coeff" : String) ≠ "time"), seriesAt_update]
  rfl

theorem lazy_coeff_flat (hd : x.da.ndim = 1) (d : DaysInYear) (e : Env)
    (od : List (String × Nat)) :
    (deseasonLazy x "time" d "coeff" od).get e = .error .typeError := by
  unfold deseasonLazy processChunk
  simp only [if_true, block_ndim, if_pos hd]
  rfl

theorem load_ok {a : DA (Except PyErr (Fl ℝ))} {f : Env → Fl ℝ}
    (h : ∀ e ∈ DA.envs a.dims, a.get e = .ok (f e)) :
    loadBlocks a = .ok ⟨a.dims, fun e => element (a.get e)⟩ := by
  unfold loadBlocks
  have : (DA.envs a.dims).findSome? (fun e => failure (a.get e)) = none := by
    rw [List.findSome?_eq_none_iff]
    intro e he
    rw [h e he]
    rfl
  rw [this]

theorem load_error {a : DA (Except PyErr (Fl ℝ))} {er : PyErr} (hne : DA.envs a.dims ≠ [])
    (h : ∀ e, a.get e = .error er) : loadBlocks a = .error er := by
  unfold loadBlocks
  cases he : DA.envs a.dims with
  | nil => exact absurd he hne
  | cons e r =>
    rw [List.findSome?_cons, h e]
    rfl

end

end Momlevel
