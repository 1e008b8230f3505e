import Verif.Props.AlignDerived
import Verif.Model.XGrid

/-! # C102–C104: arrays of one dataset, remaining functions -/

set_option linter.unusedSectionVars false

namespace Momlevel.Props
open Momlevel Momlevel.Fl Momlevel.Spec Momlevel.Eos

variable {L : Type} [DecidableEq L] {K : Type} [Field K] [LinearOrder K] {size : String → Nat} {idx : Index L}

theorem Sized.adjust {a r : DA (Fl K)} {z : String} (ha : Sized size a) (h : adjustNegativeN2 a z = .ok r) :
    Sized size r := by
  unfold adjustNegativeN2 at h
  unfold fillFirst at h
  cases hd : a.dims with
  | nil =>
    simp only [DA.map, hd, error_bind] at h
    cases h
  | cons p rest =>
    obtain ⟨d, n⟩ := p
    simp only [DA.map, hd] at h
    by_cases hn : n = 0
    · rw [if_pos hn, error_bind] at h
      cases h
    · rw [if_neg hn, ok_bind] at h
      unfold ffill at h
      split at h
      · rw [ok_bind] at h
        cases h
        have hs : ∀ p ∈ (d, n) :: rest, p.2 = size p.1 := hd ▸ ha
        exact Sized.bdims hs hs
      · rw [error_bind] at h
        cases h

theorem Sized.first {V : Type} {a r : DA V} (ha : Sized size a) (h : Momlevel.first a = .ok r) : Sized size r := by
  unfold Momlevel.first at h
  split at h
  · cases h
  · split at h
    · cases h
    · cases h
      exact ha.isel _ _

/-- C102 (one dataset): the same for `calc_pdens`. -/
theorem C102_same_pdens {a b c : DA (Fl K)} {level : Fl K} {eos : String} (ha : Sized size a) (hb : Sized size b)
    (hc : Sized size c) : calcPdensL (⟨a, idx⟩ : LA L (Fl K)) ⟨b, idx⟩ level ⟨c, idx⟩ eos
      = (calcPdens a b level c eos).map (fun r => ⟨r, idx⟩) := by
  have hp : Sized size (DA.scalar (level * (1.0e4 : Fl K)) + c) := Sized.zip (Sized.scalar _) hc
  unfold calcPdensL calcPdens
  rw [C102_same ha hb hp]
  cases pyAssert (Fl.le (0.0 : Fl K) level && Fl.le level (7500.0 : Fl K)) <;> rfl

/-- C102 (one dataset): the same for `inverse_barometer`. -/
theorem C102_same_barometer {a b c : DA (Fl K)} {g : Fl K} {eos : String} (ha : Sized size a) (hb : Sized size b)
    (hc : Sized size c) : inverseBarometerL (⟨a, idx⟩ : LA L (Fl K)) ⟨b, idx⟩ ⟨c, idx⟩ g eos
      = (inverseBarometer a b c g eos).map (fun r => ⟨r, idx⟩) := by
  unfold inverseBarometerL inverseBarometer calcRho
  rw [C102_same ha hb hc]
  cases h : Momlevel.applyEos eos "density" a b c with
  | error e => rfl
  | ok r =>
    have hr := Sized.calcRho ha hb hc h
    have hq : Sized size ((r * DA.scalar g).map (fun d => (-1.0 : Fl K) / d)) :=
      Sized.map (hr.zip (Sized.scalar _))
    simp only [Except.map, ok_bind]
    rw [zipInner_same hc hq]
    rfl

/-- C103 (one dataset): the same for `calc_rhoga`. -/
theorem C103_same_rhoga {a b : DA (Fl K)} (ha : Sized size a) (hb : Sized size b) :
    calcRhogaL (⟨a, idx⟩ : LA L (Fl K)) ⟨b, idx⟩ = .ok ⟨calcRhoga a b, idx⟩ := by
  simp only [calcRhogaL, zipInner_same ha hb]
  rfl

/-- C104 (one dataset): the same for `calc_pv`. -/
theorem C104_same_pv {a b c : DA (Fl K)} {g : Fl K} (ha : Sized size a) (hb : Sized size b) (hc : Sized size c) :
    calcPvL (⟨a, idx⟩ : LA L (Fl K)) ⟨b, idx⟩ ⟨c, idx⟩ g
      = (calcPv a b c g (interp_n2 := false)).map (fun r => ⟨r, idx⟩) := by
  have hab : Sized size (DA.zip (· + ·) a b) := ha.zip hb
  have hcg : Sized size (c / DA.scalar g) := hc.zip (Sized.scalar _)
  simp only [calcPvL, zipInner_same ha hb, ok_bind]
  rw [zipInner_same hab hcg]
  rfl

/-- C104 (one dataset): the same for `calc_wave_speed`. -/
theorem C104_same_wave {a b : DA (Fl ℝ)} {z : String} (ha : Sized size a) (hb : Sized size b) :
    calcWaveSpeedL (⟨a, idx⟩ : LA L (Fl ℝ)) ⟨b, idx⟩ z = (calcWaveSpeed a b z).map (fun r => ⟨r, idx⟩) := by
  unfold calcWaveSpeedL calcWaveSpeed LA.lift
  cases h1 : adjustNegativeN2 a with
  | error e => simp only [h1, error_bind]; rfl
  | ok adj =>
    have hadj := Sized.adjust ha h1
    have hp : Sized size (DA.map npSqrt adj * b) := (Sized.map hadj).zip hb
    simp only [h1, ok_bind, pure_bind]
    rw [zipInner_same (Sized.map hadj) hb, ok_bind]
    change (if z ∉ (DA.map npSqrt adj * b).dimNames then _ else _) = _
    by_cases hz : z ∉ (DA.map npSqrt adj * b).dimNames
    · rw [if_pos hz, if_pos hz]; rfl
    · rw [if_neg hz, if_neg hz]
      cases h2 : Momlevel.first a with
      | error e => simp only [error_bind]; rfl
      | ok top =>
        have ht := Sized.first ha h2
        have hres : Sized size ((DA.map npSqrt adj * b).sumDim z / DA.scalar npPi) :=
          (hp.sumDim z).zip (Sized.scalar _)
        simp only [ok_bind, pure_bind]
        change (LA.alignExact (⟨top, idx⟩ : LA L (Fl ℝ)) ⟨(DA.map npSqrt adj * b).sumDim z / DA.scalar npPi, idx⟩ >>= _) = _
        rw [alignExact_same ht hres, ok_bind]
        simp only [mergeIdx_same]
        rfl

/-- Arrays of one dataset with three labelled columns. -/
example (idx : Index Nat) : ∃ a b : DA (Fl ℝ), Sized (fun _ => 3) a ∧ Sized (fun _ => 3) b ∧
    calcWaveSpeedL (⟨a, idx⟩ : LA Nat (Fl ℝ)) ⟨b, idx⟩ = (calcWaveSpeed a b).map (fun r => ⟨r, idx⟩) ∧
    calcPvL (⟨a, idx⟩ : LA Nat (Fl ℝ)) ⟨b, idx⟩ ⟨b, idx⟩
      = (calcPv a b b (interp_n2 := false)).map (fun r => ⟨r, idx⟩) ∧
    calcRhogaL (⟨a, idx⟩ : LA Nat (Fl ℝ)) ⟨b, idx⟩ = .ok ⟨calcRhoga a b, idx⟩ ∧
    inverseBarometerL (⟨a, idx⟩ : LA Nat (Fl ℝ)) ⟨b, idx⟩ ⟨b, idx⟩
      = (inverseBarometer a b b).map (fun r => ⟨r, idx⟩) ∧
    calcPdensL (⟨a, idx⟩ : LA Nat (Fl ℝ)) ⟨b, idx⟩ (fin 2000) ⟨b, idx⟩
      = (calcPdens a b (fin 2000) b).map (fun r => ⟨r, idx⟩) := by
  have h : ∀ f : Env → Fl ℝ, Sized (fun _ => 3) (⟨[("z_l", 3)], f⟩ : DA (Fl ℝ)) := by
    intro f p hp
    rw [List.mem_singleton.1 hp]
  exact ⟨⟨[("z_l", 3)], fun e => fin (e "z_l")⟩, ⟨[("z_l", 3)], fun _ => fin 1⟩, h _, h _, C104_same_wave (h _) (h _),
    C104_same_pv (h _) (h _) (h _), C103_same_rhoga (h _) (h _), C102_same_barometer (h _) (h _) (h _),
    C102_same_pdens (h _) (h _) (h _)⟩

end Momlevel.Props
