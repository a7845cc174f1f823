import Mathlib.Analysis.SpecialFunctions.Trigonometric.Bounds
import Mathlib.Analysis.Calculus.Deriv.MeanValue

/-!
# Taylor bounds for sine and cosine on the positive half line
-/

namespace Openspace

open Real

/-- a function that starts at 0 and has a non-negative derivative is non-negative -/
theorem nonneg_of_deriv {f f' : ℝ → ℝ} (h : ∀ x, HasDerivAt f (f' x) x) (h0 : f 0 = 0) (hp : ∀ x, 0 ≤ x → 0 ≤ f' x)
    {x : ℝ} (hx : 0 ≤ x) : 0 ≤ f x := by
  have : MonotoneOn f (Set.Ici 0) := by
    apply monotoneOn_of_deriv_nonneg (convex_Ici 0)
    · exact fun y _ => (h y).continuousAt.continuousWithinAt
    · exact fun y _ => (h y).differentiableAt.differentiableWithinAt
    · intro y hy
      rw [interior_Ici] at hy
      rw [(h y).deriv]
      exact hp y (le_of_lt hy)
  rw [← h0]
  exact this (Set.mem_Ici.mpr le_rfl) (Set.mem_Ici.mpr hx) hx

theorem sin_le1 {x : ℝ} (hx : 0 ≤ x) : sin x ≤ x := sin_le hx

theorem cos_ge2 (x : ℝ) : 1 - x ^ 2 / 2 ≤ cos x := one_sub_sq_div_two_le_cos

theorem sin_ge3 {x : ℝ} (hx : 0 ≤ x) : x - x ^ 3 / 6 ≤ sin x := by
  have h : ∀ y, HasDerivAt (fun y => sin y - (y - y ^ 3 / 6)) (cos y - (1 - y ^ 2 / 2)) y := by
    intro y
    have := (hasDerivAt_sin y).sub ((hasDerivAt_id y).sub ((hasDerivAt_pow 3 y).div_const 6))
    exact this.congr_deriv (by norm_num; ring)
  have := nonneg_of_deriv h (by simp) (fun y _ => by linarith [cos_ge2 y]) hx
  linarith

theorem cos_le4 {x : ℝ} (hx : 0 ≤ x) : cos x ≤ 1 - x ^ 2 / 2 + x ^ 4 / 24 := by
  have h : ∀ y, HasDerivAt (fun y => 1 - y ^ 2 / 2 + y ^ 4 / 24 - cos y) (sin y - (y - y ^ 3 / 6)) y := by
    intro y
    have := ((((hasDerivAt_pow 2 y).div_const 2).const_sub 1).add ((hasDerivAt_pow 4 y).div_const 24)).sub (hasDerivAt_cos y)
    exact this.congr_deriv (by norm_num; ring)
  have := nonneg_of_deriv h (by simp) (fun y hy => by linarith [sin_ge3 hy]) hx
  linarith

theorem sin_le5 {x : ℝ} (hx : 0 ≤ x) : sin x ≤ x - x ^ 3 / 6 + x ^ 5 / 120 := by
  have h : ∀ y, HasDerivAt (fun y => y - y ^ 3 / 6 + y ^ 5 / 120 - sin y) (1 - y ^ 2 / 2 + y ^ 4 / 24 - cos y) y := by
    intro y
    have := (((hasDerivAt_id y).sub ((hasDerivAt_pow 3 y).div_const 6)).add ((hasDerivAt_pow 5 y).div_const 120)).sub
      (hasDerivAt_sin y)
    exact this.congr_deriv (by norm_num; ring)
  have := nonneg_of_deriv h (by simp) (fun y hy => by linarith [cos_le4 hy]) hx
  linarith

theorem cos_ge6 {x : ℝ} (hx : 0 ≤ x) : 1 - x ^ 2 / 2 + x ^ 4 / 24 - x ^ 6 / 720 ≤ cos x := by
  have h : ∀ y, HasDerivAt (fun y => cos y - (1 - y ^ 2 / 2 + y ^ 4 / 24 - y ^ 6 / 720)) (y - y ^ 3 / 6 + y ^ 5 / 120 - sin y) y := by
    intro y
    have := (hasDerivAt_cos y).sub (((((hasDerivAt_pow 2 y).div_const 2).const_sub 1).add ((hasDerivAt_pow 4 y).div_const 24)).sub
      ((hasDerivAt_pow 6 y).div_const 720))
    exact this.congr_deriv (by norm_num; ring)
  have := nonneg_of_deriv h (by simp) (fun y hy => by linarith [sin_le5 hy]) hx
  linarith

theorem sin_ge7 {x : ℝ} (hx : 0 ≤ x) : x - x ^ 3 / 6 + x ^ 5 / 120 - x ^ 7 / 5040 ≤ sin x := by
  have h : ∀ y, HasDerivAt (fun y => sin y - (y - y ^ 3 / 6 + y ^ 5 / 120 - y ^ 7 / 5040))
      (cos y - (1 - y ^ 2 / 2 + y ^ 4 / 24 - y ^ 6 / 720)) y := by
    intro y
    have := (hasDerivAt_sin y).sub ((((hasDerivAt_id y).sub ((hasDerivAt_pow 3 y).div_const 6)).add
      ((hasDerivAt_pow 5 y).div_const 120)).sub ((hasDerivAt_pow 7 y).div_const 5040))
    exact this.congr_deriv (by norm_num; ring)
  have := nonneg_of_deriv h (by simp) (fun y hy => by linarith [cos_ge6 hy]) hx
  linarith

end Openspace
