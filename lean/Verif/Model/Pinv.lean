import Mathlib.Analysis.Matrix.Spectrum
import Mathlib.LinearAlgebra.Matrix.DotProduct
import Mathlib.Algebra.Order.Star.Real

/-!
# The pseudoinverse

`np.linalg.pinv`, used at /repo/src/momlevel/trend.py:412 and 523, returns the Moore–Penrose inverse.
Here it is defined as the matrix satisfying the four Penrose equations; such a matrix exists and is
unique.  Simplification: exact arithmetic (numpy treats singular values below `1e-15` times the
largest as zero).
-/

namespace Momlevel
open Matrix

variable {m n : Type} [Fintype m] [Fintype n] [DecidableEq n]

/-- The four Penrose equations. -/
structure IsPinv (A : Matrix m n ℝ) (P : Matrix n m ℝ) : Prop where
  mul_mul : A * P * A = A
  pinv_mul_mul : P * A * P = P
  left_symm : (A * P)ᵀ = A * P
  right_symm : (P * A)ᵀ = P * A

omit [DecidableEq n] in
/-- The pseudoinverse is unique. -/
theorem IsPinv.unique {A : Matrix m n ℝ} {P Q : Matrix n m ℝ} (hP : IsPinv A P) (hQ : IsPinv A Q) :
    P = Q := by
  have h1 : A * P = A * Q := by
    calc A * P = (A * Q * A) * P := by rw [hQ.mul_mul]
      _ = (A * Q)ᵀ * (A * P)ᵀ := by rw [hQ.left_symm, hP.left_symm]; simp only [Matrix.mul_assoc]
      _ = (A * P * (A * Q))ᵀ := by rw [Matrix.transpose_mul (A * P) (A * Q)]
      _ = (A * Q)ᵀ := by rw [← Matrix.mul_assoc, hP.mul_mul]
      _ = A * Q := hQ.left_symm
  have h2 : P * A = Q * A := by
    calc P * A = P * (A * Q * A) := by rw [hQ.mul_mul]
      _ = (P * A)ᵀ * (Q * A)ᵀ := by rw [hQ.right_symm, hP.right_symm]; simp only [Matrix.mul_assoc]
      _ = (Q * A * (P * A))ᵀ := by rw [Matrix.transpose_mul (Q * A) (P * A)]
      _ = (Q * (A * P * A))ᵀ := by simp only [Matrix.mul_assoc]
      _ = (Q * A)ᵀ := by rw [hP.mul_mul]
      _ = Q * A := hQ.right_symm
  calc P = P * A * P := hP.pinv_mul_mul.symm
    _ = Q * A * P := by rw [h2]
    _ = Q * (A * P) := Matrix.mul_assoc _ _ _
    _ = Q * (A * Q) := by rw [h1]
    _ = Q * A * Q := (Matrix.mul_assoc _ _ _).symm
    _ = Q := hQ.pinv_mul_mul

/-- Every real matrix has a pseudoinverse. -/
theorem exists_pinv (A : Matrix m n ℝ) : ∃ P, IsPinv A P := by
  have hG : (Aᵀ * A).IsHermitian := by
    have := Matrix.isHermitian_conjTranspose_mul_self A
    rwa [Matrix.conjTranspose_eq_transpose_of_trivial] at this
  set U : Matrix n n ℝ := (hG.eigenvectorUnitary : Matrix n n ℝ) with hU
  have hUU : star U * U = 1 := Unitary.coe_star_mul_self hG.eigenvectorUnitary
  have hspec : Aᵀ * A = U * diagonal hG.eigenvalues * star U := by
    have := hG.spectral_theorem
    rw [Unitary.conjStarAlgAut_apply] at this
    exact this
  set d := hG.eigenvalues with hd
  set G := U * diagonal (fun i => (d i)⁻¹) * star U with hGdef
  have hmul : ∀ a b : n → ℝ, U * diagonal a * star U * (U * diagonal b * star U) =
      U * diagonal (fun i => a i * b i) * star U := by
    intro a b
    calc U * diagonal a * star U * (U * diagonal b * star U)
        = U * diagonal a * (star U * U) * diagonal b * star U := by simp only [Matrix.mul_assoc]
      _ = U * (diagonal a * diagonal b) * star U := by
          rw [hUU, Matrix.mul_one]; simp only [Matrix.mul_assoc]
      _ = _ := by rw [diagonal_mul_diagonal]
  have htr : ∀ a : n → ℝ, (U * diagonal a * star U)ᵀ = U * diagonal a * star U := by
    intro a
    have hs : star U = Uᵀ := by
      rw [star_eq_conjTranspose, conjTranspose_eq_transpose_of_trivial]
    rw [hs, transpose_mul, transpose_mul, transpose_transpose, diagonal_transpose, Matrix.mul_assoc]
  have hGG : G * (Aᵀ * A) = U * diagonal (fun i => (d i)⁻¹ * d i) * star U := by
    rw [hspec, hmul]
  have hGt : Gᵀ = G := htr _
  have hproj : (Aᵀ * A) * (G * (Aᵀ * A)) = Aᵀ * A := by
    rw [hGG, hspec, hmul]
    congr 3
    funext i
    by_cases h : d i = 0
    · simp [h]
    · field_simp
  have hAG : A * (G * (Aᵀ * A)) = A := by
    have hz : (A * (G * (Aᵀ * A)) - A)ᴴ * (A * (G * (Aᵀ * A)) - A) = 0 := by
      rw [conjTranspose_eq_transpose_of_trivial]
      have ht : (G * (Aᵀ * A))ᵀ = G * (Aᵀ * A) := by rw [hGG]; exact htr _
      rw [transpose_sub, transpose_mul, ht]
      rw [Matrix.sub_mul, Matrix.mul_sub, Matrix.mul_sub]
      have e1 : G * (Aᵀ * A) * Aᵀ * (A * (G * (Aᵀ * A))) = G * (Aᵀ * A) * (Aᵀ * A) := by
        calc _ = G * (Aᵀ * A) * ((Aᵀ * A) * (G * (Aᵀ * A))) := by simp only [Matrix.mul_assoc]
          _ = _ := by rw [hproj]
      have e2 : Aᵀ * (A * (G * (Aᵀ * A))) = Aᵀ * A := by
        rw [← Matrix.mul_assoc]; exact hproj
      rw [e1, e2, Matrix.mul_assoc (G * (Aᵀ * A)) Aᵀ A]
      simp
    rw [conjTranspose_mul_self_eq_zero] at hz
    exact sub_eq_zero.1 hz
  refine ⟨G * Aᵀ, ?_, ?_, ?_, ?_⟩
  · calc A * (G * Aᵀ) * A = A * (G * (Aᵀ * A)) := by simp only [Matrix.mul_assoc]
      _ = A := hAG
  · calc G * Aᵀ * A * (G * Aᵀ) = (G * (Aᵀ * A) * G) * Aᵀ := by simp only [Matrix.mul_assoc]
      _ = G * Aᵀ := by
        rw [hGG, hGdef, hmul]
        congr 4
        funext i
        by_cases h : d i = 0
        · simp [h]
        · field_simp
  · rw [transpose_mul, transpose_mul, transpose_transpose, hGt, Matrix.mul_assoc]
  · rw [Matrix.mul_assoc, hGG]; exact htr _

/-- `np.linalg.pinv`, trend.py:412, 523. -/
noncomputable def pinv (A : Matrix m n ℝ) : Matrix n m ℝ := Classical.choose (exists_pinv A)

theorem pinv_spec (A : Matrix m n ℝ) : IsPinv A (pinv A) := Classical.choose_spec (exists_pinv A)

end Momlevel
