import Verif.Spec.Kalman
import Mathlib.Analysis.Matrix.PosDef

/-! # Matrix facts behind the Kalman update -/

namespace Openspace

open Matrix

set_option linter.unusedSectionVars false

variable {m n : Type} [Fintype m] [Fintype n] [DecidableEq m] [DecidableEq n]

theorem posSemidef_congr {P : Matrix n n ℝ} (hP : P.PosSemidef) (A : Matrix m n ℝ) :
    (A * P * Aᵀ).PosSemidef := by
  have := hP.mul_mul_conjTranspose_same A
  rwa [conjTranspose_eq_transpose_of_trivial] at this

theorem posDef_predict {P Q : Matrix n n ℝ} (hP : P.PosSemidef) (hQ : Q.PosDef) (F : Matrix n n ℝ) :
    (F * P * Fᵀ + Q).PosDef :=
  hQ.posSemidef_add (posSemidef_congr hP F)

theorem posDef_innovation {P : Matrix n n ℝ} {R : Matrix m m ℝ} {H : Matrix m n ℝ} (hP : P.PosDef)
    (hR : R.PosSemidef) (hH : H * Hᵀ = 1) : (H * P * Hᵀ + R).PosDef := by
  refine PosDef.add_posSemidef ?_ hR
  have hinj : Function.Injective H.vecMul := by
    intro v w hvw
    have hvw' : v ᵥ* H = w ᵥ* H := hvw
    have : v ᵥ* H ᵥ* Hᵀ = w ᵥ* H ᵥ* Hᵀ := by rw [hvw']
    simpa [Matrix.vecMul_vecMul, hH] using this
  have := hP.mul_mul_conjTranspose_same hinj
  rwa [conjTranspose_eq_transpose_of_trivial] at this

theorem posSemidef_updated {P : Matrix n n ℝ} {R : Matrix m m ℝ} (hP : P.PosSemidef) (hR : R.PosSemidef)
    (H : Matrix m n ℝ) (K : Matrix n m ℝ) : (Spec.updatedCovariance P H R K).PosSemidef :=
  (posSemidef_congr hP _).add (posSemidef_congr hR _)

theorem updated_expand (P : Matrix n n ℝ) (R : Matrix m m ℝ) (H : Matrix m n ℝ) (K : Matrix n m ℝ) :
    Spec.updatedCovariance P H R K =
      P - K * (H * P) - P * (Hᵀ * Kᵀ) + K * ((H * P * Hᵀ + R) * Kᵀ) := by
  simp only [Spec.updatedCovariance, transpose_sub, transpose_one, transpose_mul, Matrix.sub_mul, Matrix.mul_sub,
    Matrix.one_mul, Matrix.mul_one, Matrix.add_mul, Matrix.mul_add, Matrix.mul_assoc]
  abel

/-- the gain of the filter, as an equation: `K S = P Hᵀ` -/
theorem updated_optimal {P : Matrix n n ℝ} {R : Matrix m m ℝ} {H : Matrix m n ℝ} {K : Matrix n m ℝ}
    (hP : P.IsHermitian) (hR : R.IsHermitian) (hK : K * (H * P * Hᵀ + R) = P * Hᵀ) (G : Matrix n m ℝ) :
    Spec.updatedCovariance P H R K = (1 - K * H) * P ∧
    Spec.updatedCovariance P H R K = P - K * (H * P * Hᵀ + R) * Kᵀ ∧
    Spec.updatedCovariance P H R G =
      Spec.updatedCovariance P H R K + (G - K) * (H * P * Hᵀ + R) * (G - K)ᵀ := by
  have hPt : Pᵀ = P := by simpa [conjTranspose_eq_transpose_of_trivial] using hP.eq
  have hRt : Rᵀ = R := by simpa [conjTranspose_eq_transpose_of_trivial] using hR.eq
  rw [updated_expand, updated_expand]
  generalize hS : H * P * Hᵀ + R = S at *
  have hSt : Sᵀ = S := by
    rw [← hS]; simp only [transpose_add, transpose_mul, transpose_transpose, hPt, hRt, Matrix.mul_assoc]
  have hK' : S * Kᵀ = H * P := by
    have := congrArg transpose hK
    simpa only [transpose_mul, transpose_transpose, hPt, hSt] using this
  refine ⟨?_, ?_, ?_⟩
  · rw [hK', ← Matrix.mul_assoc P, ← hK, Matrix.mul_assoc K S, hK', Matrix.sub_mul, Matrix.one_mul, Matrix.mul_assoc]
    abel
  · rw [hK', ← Matrix.mul_assoc P, ← hK, Matrix.mul_assoc K S, hK']
    abel
  · rw [transpose_sub, hK', ← Matrix.mul_assoc P, ← Matrix.mul_assoc P, ← hK]
    simp only [Matrix.sub_mul, Matrix.mul_sub, Matrix.mul_assoc, hK']
    abel

end Openspace
