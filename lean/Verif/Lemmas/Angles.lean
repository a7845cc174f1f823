import Verif.Lemmas.Py
import Verif.Model.Functions

/-! # Angles: `atan2` and the wrap into `[0, 2 pi)` -/

namespace Openspace

open Real

theorem two_pi_pos' : 0 < 2 * π := by positivity

theorem pyAtan2_gt (y x : ℝ) : -π < pyAtan2 y x := Complex.neg_pi_lt_arg _

theorem pyAtan2_le (y x : ℝ) : pyAtan2 y x ≤ π := Complex.arg_le_pi _

theorem norm_mk (x y : ℝ) : ‖(⟨x, y⟩ : ℂ)‖ = √(x * x + y * y) := by
  rw [Complex.norm_def, Complex.normSq_mk]

theorem mul_cos_atan2 (y x : ℝ) : √(x * x + y * y) * cos (pyAtan2 y x) = x := by
  have := Complex.norm_mul_cos_arg (⟨x, y⟩ : ℂ)
  rwa [norm_mk] at this

theorem mul_sin_atan2 (y x : ℝ) : √(x * x + y * y) * sin (pyAtan2 y x) = y := by
  have := Complex.norm_mul_sin_arg (⟨x, y⟩ : ℂ)
  rwa [norm_mk] at this

theorem pyAtan2_polar {r t : ℝ} (hr : 0 < r) (h1 : -π < t) (h2 : t ≤ π) :
    pyAtan2 (r * sin t) (r * cos t) = t := by
  have := Complex.arg_mul_cos_add_sin_mul_I hr ⟨h1, h2⟩
  unfold pyAtan2
  refine Eq.trans (congrArg Complex.arg ?_) this
  apply Complex.ext <;> simp [Complex.cos_ofReal_re, Complex.sin_ofReal_re, Complex.cos_ofReal_im,
    Complex.sin_ofReal_im]

theorem pyAtan2_zero : pyAtan2 0 0 = 0 := by
  unfold pyAtan2
  exact Complex.arg_zero

theorem wrapNeg_sin (x : ℝ) : sin (wrapNeg x) = sin x := by
  unfold wrapNeg pyPi; split <;> simp

theorem wrapNeg_cos (x : ℝ) : cos (wrapNeg x) = cos x := by
  unfold wrapNeg pyPi; split <;> simp

theorem wrapNeg_nonneg {x : ℝ} (h : -(2 * π) ≤ x) : 0 ≤ wrapNeg x := by
  unfold wrapNeg pyPi; split <;> linarith

theorem wrapNeg_lt {x : ℝ} (h : x < 2 * π) : wrapNeg x < 2 * π := by
  unfold wrapNeg pyPi; split <;> linarith

theorem wrapNeg_of_nonneg {x : ℝ} (h : 0 ≤ x) : wrapNeg x = x := by
  unfold wrapNeg; simp [not_lt.mpr h]

theorem wrapNeg_of_neg {x : ℝ} (h : x < 0) : wrapNeg x = x + 2 * π := by
  unfold wrapNeg pyPi; simp [h]

theorem exists_wrapNeg (x : ℝ) : ∃ k : ℤ, wrapNeg x = x + 2 * π * k := by
  unfold wrapNeg pyPi
  split
  · exact ⟨1, by simp⟩
  · exact ⟨0, by simp⟩

theorem wrapNeg_atan2_range (y x : ℝ) :
    0 ≤ wrapNeg (pyAtan2 y x) ∧ wrapNeg (pyAtan2 y x) < 2 * π := by
  have h1 := pyAtan2_gt y x
  have h2 := pyAtan2_le y x
  have := pi_pos
  exact ⟨wrapNeg_nonneg (by linarith), wrapNeg_lt (by linarith)⟩

theorem wrapNeg_atan2_polar {r t : ℝ} (hr : 0 < r) (h1 : 0 ≤ t) (h2 : t < 2 * π) :
    wrapNeg (pyAtan2 (r * sin t) (r * cos t)) = t := by
  by_cases h : t ≤ π
  · rw [pyAtan2_polar hr (by linarith [pi_pos]) h, wrapNeg_of_nonneg h1]
  · push Not at h
    have e : pyAtan2 (r * sin t) (r * cos t) = t - 2 * π := by
      have := pyAtan2_polar (t := t - 2 * π) hr (by linarith) (by linarith)
      simpa using this
    rw [e, wrapNeg_of_neg (by linarith)]; ring

/-- polar angle of a point given up to a positive factor -/
theorem wrapNeg_atan2_eq {x y r t : ℝ} (hr : 0 < r) (h1 : 0 ≤ t) (h2 : t < 2 * π)
    (hx : x = r * cos t) (hy : y = r * sin t) : wrapNeg (pyAtan2 y x) = t := by
  rw [hx, hy, wrapNeg_atan2_polar hr h1 h2]

theorem pyAtan2_eq {x y r t : ℝ} (hr : 0 < r) (h1 : -π < t) (h2 : t ≤ π)
    (hx : x = r * cos t) (hy : y = r * sin t) : pyAtan2 y x = t := by
  rw [hx, hy, pyAtan2_polar hr h1 h2]

/-- two angles in `[0, 2 pi)` with equal sine and cosine are equal -/
theorem angle_eq_of_cos_sin {s t : ℝ} (hs : 0 ≤ s) (hs' : s < 2 * π) (ht : 0 ≤ t) (ht' : t < 2 * π)
    (hc : cos s = cos t) (hsn : sin s = sin t) : s = t := by
  have h1 := wrapNeg_atan2_polar one_pos hs hs'
  have h2 := wrapNeg_atan2_polar one_pos ht ht'
  rw [← h1, ← h2, hc, hsn]

/-- equal sine and cosine means equal modulo a full turn -/
theorem exists_turn {s t : ℝ} (hc : cos s = cos t) (hsn : sin s = sin t) :
    ∃ k : ℤ, s = t + 2 * π * k := by
  have h : cos (s - t) = 1 := by
    rw [cos_sub, hc, hsn]; nlinarith [sin_sq_add_cos_sq t]
  rw [cos_eq_one_iff] at h
  obtain ⟨k, hk⟩ := h
  exact ⟨k, by linarith⟩

theorem cos_turn (t : ℝ) (k : ℤ) : cos (t + 2 * π * k) = cos t := by
  rw [show t + 2 * π * k = t + k * (2 * π) by ring]; exact cos_add_int_mul_two_pi t k

theorem sin_turn (t : ℝ) (k : ℤ) : sin (t + 2 * π * k) = sin t := by
  rw [show t + 2 * π * k = t + k * (2 * π) by ring]; exact sin_add_int_mul_two_pi t k

end Openspace
