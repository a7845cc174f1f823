import Verif.Spec.Draws
import Mathlib.Analysis.SpecialFunctions.Integrals.Basic

/-!
# Means of products of functions of the draws
-/

namespace Openspace

open MeasureTheory ProbabilityTheory Spec Real

instance : IsProbabilityMeasure (volume.restrict (Set.Icc (0 : ℝ) 1)) := ⟨by simp⟩

instance : IsProbabilityMeasure draws := by unfold draws; infer_instance

/-- the mean of a product of functions of the three draws -/
theorem draws_mul (f g h : ℝ → ℝ) : ∫ d, f d.1 * (g d.2.1 * h d.2.2) ∂draws
    = (∫ x, f x ∂gaussianReal 0 1) * ((∫ x, g x ∂gaussianReal 0 1) * ∫ x in Set.Icc 0 1, h x) := by
  unfold draws
  rw [integral_prod_mul (f := f) (g := fun d : ℝ × ℝ => g d.1 * h d.2), integral_prod_mul]

theorem draws_integrable {f g h : ℝ → ℝ} (hf : Integrable f (gaussianReal 0 1)) (hg : Integrable g (gaussianReal 0 1))
    (hh : Integrable h (volume.restrict (Set.Icc (0 : ℝ) 1))) : Integrable (fun d : ℝ × ℝ × ℝ => f d.1 * (g d.2.1 * h d.2.2)) draws :=
  hf.mul_prod (g := fun d : ℝ × ℝ => g d.1 * h d.2) (hg.mul_prod hh)

/-- a continuous bounded function has a mean -/
theorem integrable_bdd {μ : Measure ℝ} [IsFiniteMeasure μ] {f : ℝ → ℝ} (hf : Continuous f) {c : ℝ} (h : ∀ x, |f x| ≤ c) :
    Integrable f μ := by
  refine Integrable.of_bound (C := c) hf.aestronglyMeasurable (Filter.Eventually.of_forall fun x => ?_)
  rw [Real.norm_eq_abs]; exact h x

/-- the mean of the cosine of a normal number -/
theorem mean_cos (a : ℝ) : ∫ x, cos (x * a) ∂gaussianReal 0 1 = exp (-(a ^ 2 / 2)) := by
  have h := charFun_gaussianReal (μ := 0) (v := 1) a
  rw [charFun_apply_real] at h
  have h2 := congrArg Complex.re h
  have e1 : ∫ x, cos (x * a) ∂gaussianReal 0 1 = (∫ x : ℝ, Complex.exp (a * x * Complex.I) ∂gaussianReal 0 1).re := by
    have hi : Integrable (fun x : ℝ => Complex.exp (a * x * Complex.I)) (gaussianReal 0 1) := by
      refine Integrable.of_bound (C := 1) (by fun_prop) (Filter.Eventually.of_forall fun x => ?_)
      rw [show (a * x * Complex.I : ℂ) = ((a * x : ℝ) : ℂ) * Complex.I by push_cast; ring, Complex.norm_exp_ofReal_mul_I]
    have := integral_re (𝕜 := ℂ) hi
    refine Eq.trans ?_ this
    congr 1; ext x
    show _ = (Complex.exp (a * x * Complex.I)).re
    rw [show (a * x * Complex.I : ℂ) = ((a * x : ℝ) : ℂ) * Complex.I by push_cast; ring, Complex.exp_ofReal_mul_I_re, mul_comm]
  rw [e1, h2]
  rw [show ((a : ℂ) * ((0 : ℝ) : ℂ) * Complex.I - ((1 : NNReal) : ℝ) * a ^ 2 / 2 : ℂ) = ((-(a ^ 2 / 2) : ℝ) : ℂ) by push_cast; ring]
  rw [Complex.exp_ofReal_re]

theorem mean_cos_sq (a : ℝ) : ∫ x, cos (x * a) ^ 2 ∂gaussianReal 0 1 = (1 + exp (-(2 * a ^ 2))) / 2 := by
  have e : ∀ x : ℝ, cos (x * a) ^ 2 = 1 / 2 + cos (x * (2 * a)) * (1 / 2) := by
    intro x; rw [cos_sq, show x * (2 * a) = 2 * (x * a) by ring]; ring
  simp_rw [e]
  rw [integral_add (integrable_const _) ((integrable_bdd (by fun_prop) fun x => abs_cos_le_one _).mul_const _), integral_mul_const,
    mean_cos, integral_const]
  simp only [probReal_univ, smul_eq_mul]
  rw [show (2 * a) ^ 2 / 2 = 2 * a ^ 2 by ring]; ring

theorem mean_sin_sq (a : ℝ) : ∫ x, sin (x * a) ^ 2 ∂gaussianReal 0 1 = (1 - exp (-(2 * a ^ 2))) / 2 := by
  have e : ∀ x : ℝ, sin (x * a) ^ 2 = 1 - cos (x * a) ^ 2 := fun x => by rw [sin_sq]
  simp_rw [e]
  rw [integral_sub (integrable_const _) (integrable_bdd (c := 1) (by fun_prop) fun x => by
    rw [abs_of_nonneg (sq_nonneg _)]; exact cos_sq_le_one _), mean_cos_sq, integral_const]
  simp only [probReal_univ, smul_eq_mul]; ring

theorem normal_id : Integrable (fun x : ℝ => x) (gaussianReal 0 1) :=
  (memLp_id_gaussianReal (μ := 0) (v := 1) 1).integrable (by norm_num)

theorem normal_sq : Integrable (fun x : ℝ => x ^ 2) (gaussianReal 0 1) :=
  (memLp_id_gaussianReal (μ := 0) (v := 1) 2).integrable_sq

theorem mean_sq : ∫ x, x ^ 2 ∂gaussianReal 0 1 = 1 := by
  have h := variance_id_gaussianReal (μ := 0) (v := 1)
  rw [variance_eq_sub (memLp_id_gaussianReal (μ := 0) (v := 1) 2)] at h
  simpa [integral_id_gaussianReal] using h

/-- a linear function of a normal number -/
theorem line_integrable (m s : ℝ) : Integrable (fun x : ℝ => m + s * x) (gaussianReal 0 1) :=
  (integrable_const _).add (normal_id.const_mul _)

theorem line_mean (m s : ℝ) : ∫ x, (m + s * x) ∂gaussianReal 0 1 = m := by
  rw [integral_add (integrable_const _) (normal_id.const_mul _), integral_const_mul, integral_id_gaussianReal, integral_const]
  simp

theorem line_sq_integrable (m s : ℝ) : Integrable (fun x : ℝ => (m + s * x) ^ 2) (gaussianReal 0 1) := by
  have e : ∀ x : ℝ, (m + s * x) ^ 2 = (m ^ 2 + 2 * m * s * x) + s ^ 2 * x ^ 2 := fun x => by ring
  simp_rw [e]
  exact (line_integrable _ _).add (normal_sq.const_mul _)

theorem line_sq_mean (m s : ℝ) : ∫ x, (m + s * x) ^ 2 ∂gaussianReal 0 1 = m ^ 2 + s ^ 2 := by
  have e : ∀ x : ℝ, (m + s * x) ^ 2 = (m ^ 2 + 2 * m * s * x) + s ^ 2 * x ^ 2 := fun x => by ring
  simp_rw [e]
  rw [integral_add (line_integrable _ _) (normal_sq.const_mul _), line_mean, integral_const_mul, mean_sq, mul_one]

/-- means over a full turn -/
theorem turn_cos : ∫ x in Set.Icc (0 : ℝ) 1, cos (2 * π * x) = 0 := by
  rw [integral_Icc_eq_integral_Ioc, ← intervalIntegral.integral_of_le zero_le_one,
    intervalIntegral.integral_comp_mul_left (fun x => cos x) (by positivity)]
  simp

theorem turn_sin : ∫ x in Set.Icc (0 : ℝ) 1, sin (2 * π * x) = 0 := by
  rw [integral_Icc_eq_integral_Ioc, ← intervalIntegral.integral_of_le zero_le_one,
    intervalIntegral.integral_comp_mul_left (fun x => sin x) (by positivity)]
  simp

theorem turn_cos_sq : ∫ x in Set.Icc (0 : ℝ) 1, cos (2 * π * x) ^ 2 = 1 / 2 := by
  rw [integral_Icc_eq_integral_Ioc, ← intervalIntegral.integral_of_le zero_le_one,
    intervalIntegral.integral_comp_mul_left (fun x => cos x ^ 2) (by positivity)]
  simp [integral_cos_sq]
  field_simp

theorem turn_sin_sq : ∫ x in Set.Icc (0 : ℝ) 1, sin (2 * π * x) ^ 2 = 1 / 2 := by
  rw [integral_Icc_eq_integral_Ioc, ← intervalIntegral.integral_of_le zero_le_one,
    intervalIntegral.integral_comp_mul_left (fun x => sin x ^ 2) (by positivity)]
  simp [integral_sin_sq]
  field_simp

theorem turn_sin_cos : ∫ x in Set.Icc (0 : ℝ) 1, sin (2 * π * x) * cos (2 * π * x) = 0 := by
  rw [integral_Icc_eq_integral_Ioc, ← intervalIntegral.integral_of_le zero_le_one,
    intervalIntegral.integral_comp_mul_left (fun x => sin x * cos x) (by positivity)]
  simp [integral_sin_mul_cos₁]

end Openspace
