import Mathlib.Analysis.SpecialFunctions.Log.Deriv
import Mathlib.Analysis.Calculus.Deriv.MeanValue
import Mathlib.Analysis.Convex.SpecificFunctions.Basic
import Mathlib.Tactic.FieldSimp
import Mathlib.Tactic.Positivity

/-!
# Simpson's rule for the rocket equation

`simpson x` is what Simpson's rule gives for the integral of `1 / (1 - t)` over `[0, x]`, whose value
is `-log (1 - x)`.
-/

namespace Openspace.Burn

open Real

/-- Simpson's rule for `1 / (1 - t)` on `[0, x]` -/
noncomputable def simpson (x : ℝ) : ℝ := x / 6 * (1 + 4 / (1 - x / 2) + 1 / (1 - x))

/-- derivative of `x / (1 - c x)` -/
theorem hasDerivAt_frac (c x : ℝ) (h : 1 - c * x ≠ 0) :
    HasDerivAt (fun x : ℝ => x / (1 - c * x)) (1 / (1 - c * x) ^ 2) x := by
  have h1 : HasDerivAt (fun x : ℝ => 1 - c * x) (-(c * 1)) x := by
    have := ((hasDerivAt_id x).const_mul c).const_sub 1
    exact this
  have h2 := (hasDerivAt_id x).div h1 h
  refine h2.congr_deriv ?_
  field_simp
  simp

theorem simpson_eq (x : ℝ) :
    simpson x = (x + 4 * (x / (1 - 1 / 2 * x)) + x / (1 - 1 * x)) / 6 := by
  unfold simpson
  rw [show 1 - 1 / 2 * x = 1 - x / 2 by ring, one_mul]
  ring

theorem hasDerivAt_simpson (x : ℝ) (h : x < 1) :
    HasDerivAt simpson ((1 + 4 * (1 / (1 - x / 2) ^ 2) + 1 / (1 - x) ^ 2) / 6) x := by
  have e : simpson = fun x => (x + 4 * (x / (1 - 1 / 2 * x)) + x / (1 - 1 * x)) / 6 := funext simpson_eq
  rw [e]
  have h1 := hasDerivAt_frac (1 / 2) x (by linarith)
  have h2 := hasDerivAt_frac 1 x (by linarith)
  have h3 := (((hasDerivAt_id x).add (h1.const_mul 4)).add h2).div_const 6
  refine h3.congr_deriv ?_
  rw [show 1 - 1 / 2 * x = 1 - x / 2 by ring, one_mul]

theorem hasDerivAt_log_sub (c x : ℝ) (h : c * x < 1) :
    HasDerivAt (fun x : ℝ => log (1 - c * x)) (-c / (1 - c * x)) x := by
  have h1 : HasDerivAt (fun x : ℝ => 1 - c * x) (-(c * 1)) x := ((hasDerivAt_id x).const_mul c).const_sub 1
  have h2 := h1.log (by linarith)
  refine h2.congr_deriv ?_
  rw [mul_one]

/-- the error of the rule has this derivative -/
theorem error_deriv (x : ℝ) (h : x < 1) :
    (1 + 4 * (1 / (1 - x / 2) ^ 2) + 1 / (1 - x) ^ 2) / 6 + -1 / (1 - 1 * x) =
      x ^ 4 / (24 * ((1 - x) ^ 2 * (1 - x / 2) ^ 2)) := by
  have h1 : 1 - x ≠ 0 := by linarith
  have h2 : 2 - x ≠ 0 := by linarith
  rw [one_mul, show 1 - x / 2 = (2 - x) / 2 by ring]
  field_simp
  ring

theorem hasDerivAt_error (x : ℝ) (h : x < 1) :
    HasDerivAt (fun x => simpson x + log (1 - 1 * x)) (x ^ 4 / (24 * ((1 - x) ^ 2 * (1 - x / 2) ^ 2))) x := by
  rw [← error_deriv x h]
  exact (hasDerivAt_simpson x h).add (hasDerivAt_log_sub 1 x (by linarith))

/-- a function with non-negative derivative that starts at zero is not negative -/
theorem nonneg_of_deriv {f f' : ℝ → ℝ} {X : ℝ} (hX : 0 ≤ X) (h0 : f 0 = 0)
    (hd : ∀ x ∈ Set.Icc 0 X, HasDerivAt f (f' x) x) (hf' : ∀ x ∈ Set.Ioo 0 X, 0 ≤ f' x) : 0 ≤ f X := by
  have hm : MonotoneOn f (Set.Icc 0 X) := by
    refine monotoneOn_of_deriv_nonneg (convex_Icc 0 X) (fun x hx => (hd x hx).continuousAt.continuousWithinAt) ?_ ?_
    · intro x hx
      rw [interior_Icc] at hx
      exact (hd x (Set.Ioo_subset_Icc_self hx)).differentiableAt.differentiableWithinAt
    · intro x hx
      rw [interior_Icc] at hx
      rw [(hd x (Set.Ioo_subset_Icc_self hx)).deriv]
      exact hf' x hx
  rw [← h0]
  exact hm ⟨le_rfl, hX⟩ ⟨hX, le_rfl⟩ hX

/-- a function with positive derivative that starts at zero is positive -/
theorem pos_of_deriv {f f' : ℝ → ℝ} {X : ℝ} (hX : 0 < X) (h0 : f 0 = 0)
    (hd : ∀ x ∈ Set.Icc 0 X, HasDerivAt f (f' x) x) (hf' : ∀ x ∈ Set.Ioo 0 X, 0 < f' x) : 0 < f X := by
  have hm : StrictMonoOn f (Set.Icc 0 X) := by
    refine strictMonoOn_of_deriv_pos (convex_Icc 0 X) (fun x hx => (hd x hx).continuousAt.continuousWithinAt) ?_
    intro x hx
    rw [interior_Icc] at hx
    rw [(hd x (Set.Ioo_subset_Icc_self hx)).deriv]
    exact hf' x hx
  rw [← h0]
  exact hm ⟨le_rfl, hX.le⟩ ⟨hX.le, le_rfl⟩ hX

theorem simpson_zero : simpson 0 = 0 := by simp [simpson]

/-- Simpson's rule gives too much, … -/
theorem lt_simpson {x : ℝ} (h0 : 0 < x) (h1 : x < 1) : -log (1 - x) < simpson x := by
  have := pos_of_deriv (f := fun x => simpson x + log (1 - 1 * x))
    (f' := fun x => x ^ 4 / (24 * ((1 - x) ^ 2 * (1 - x / 2) ^ 2))) h0 (by simp [simpson_zero])
    (fun y hy => hasDerivAt_error y (by linarith [hy.2])) (by
      intro y hy
      have a1 : 0 < 1 - y := by linarith [hy.2]
      have a2 : 0 < 1 - y / 2 := by linarith
      have a3 := hy.1
      positivity)
  simp only [one_mul] at this
  linarith

/-- … but not by much -/
theorem simpson_le {x : ℝ} (h0 : 0 ≤ x) (h1 : x < 1) :
    simpson x ≤ -log (1 - x) + x ^ 5 / (120 * (1 - x) ^ 4) := by
  have := nonneg_of_deriv (f := fun y => y ^ 5 / (120 * (1 - x) ^ 4) - (simpson y + log (1 - 1 * y)))
    (f' := fun y => (5 * y ^ 4) / (120 * (1 - x) ^ 4) - y ^ 4 / (24 * ((1 - y) ^ 2 * (1 - y / 2) ^ 2))) h0
    (by simp [simpson_zero])
    (fun y hy => by
      have d5 : HasDerivAt (fun y : ℝ => y ^ 5) (5 * y ^ 4) y := by simpa using hasDerivAt_pow 5 y
      exact (d5.div_const (120 * (1 - x) ^ 4)).sub (hasDerivAt_error y (by linarith [hy.2]))) (by
      intro y hy
      obtain ⟨b1, b2⟩ := hy
      have a1 : 0 < 1 - x := by linarith
      have a2 : 1 - x ≤ 1 - y := by linarith
      have a3 : 1 - x ≤ 1 - y / 2 := by linarith
      have q1 : (1 - x) ^ 2 ≤ (1 - y) ^ 2 := pow_le_pow_left₀ a1.le a2 2
      have q2 : (1 - x) ^ 2 ≤ (1 - y / 2) ^ 2 := pow_le_pow_left₀ a1.le a3 2
      have q3 : (1 - x) ^ 4 ≤ (1 - y) ^ 2 * (1 - y / 2) ^ 2 := by
        calc (1 - x) ^ 4 = (1 - x) ^ 2 * (1 - x) ^ 2 := by ring
          _ ≤ _ := mul_le_mul q1 q2 (by positivity) (by positivity)
      have e : (5 * y ^ 4) / (120 * (1 - x) ^ 4) = y ^ 4 / (24 * (1 - x) ^ 4) := by
        field_simp; norm_num
      rw [e, sub_nonneg]
      have : 0 < (1 - x) ^ 4 := by positivity
      apply div_le_div_of_nonneg_left (by positivity) (by positivity)
      linarith)
  simp only [one_mul] at this
  linarith

/-- the rule on a part of the interval gives less than half the logarithm of twice the part -/
theorem simpson_lt_half {x : ℝ} (h0 : 0 < x) (h1 : 2 * x < 1) : simpson x < -log (1 - 2 * x) / 2 := by
  have := pos_of_deriv (f := fun y => -log (1 - 2 * y) / 2 - simpson y)
    (f' := fun y => -(-2 / (1 - 2 * y)) / 2 - (1 + 4 * (1 / (1 - y / 2) ^ 2) + 1 / (1 - y) ^ 2) / 6) h0
    (by simp [simpson_zero])
    (fun y hy => ((hasDerivAt_log_sub 2 y (by linarith [hy.2])).neg.div_const 2).sub
      (hasDerivAt_simpson y (by linarith [hy.1, hy.2]))) (by
      intro y hy
      obtain ⟨b1, b2⟩ := hy
      have a1 : 0 < 1 - 2 * y := by linarith
      have a2 : 0 < 1 - y := by linarith
      have a3 : 0 < 1 - y / 2 := by linarith
      have q1 : 1 / (1 - y / 2) ^ 2 ≤ 1 / (1 - 2 * y) := by
        apply div_le_div_of_nonneg_left zero_le_one a1; nlinarith
      have q2 : 1 / (1 - y) ^ 2 ≤ 1 / (1 - 2 * y) := by
        apply div_le_div_of_nonneg_left zero_le_one a1; nlinarith
      have q3 : 1 < 1 / (1 - 2 * y) := by rw [lt_div_iff₀ a1]; linarith
      have e : -(-2 / (1 - 2 * y)) / 2 = 1 / (1 - 2 * y) := by ring
      rw [e]
      linarith)
  linarith

/-- cutting the interval into `n ≥ 2` parts and using the first part every time gives too little -/
theorem simpson_parts {x : ℝ} {n : ℕ} (hn : 2 ≤ n) (h0 : 0 < x) (h1 : n * x < 1) :
    n * x < n * simpson x ∧ n * simpson x < -(n / 2) * log (1 - 2 * x) ∧
      -(n / 2 : ℝ) * log (1 - 2 * x) ≤ -log (1 - n * x) := by
  have hn' : (2 : ℝ) ≤ n := by exact_mod_cast hn
  have h2 : 2 * x < 1 := by nlinarith
  refine ⟨?_, ?_, ?_⟩
  · have a := lt_simpson h0 (by linarith)
    have b := log_le_sub_one_of_pos (show 0 < 1 - x by linarith)
    have : x < simpson x := by linarith
    apply mul_lt_mul_of_pos_left this (by linarith)
  · have := simpson_lt_half h0 h2
    have := mul_lt_mul_of_pos_left this (show (0 : ℝ) < n by linarith)
    linarith
  · have hb := one_add_mul_self_le_rpow_one_add (s := -(2 * x)) (by linarith) (p := n / 2) (by linarith)
    have e : 1 + (n / 2 : ℝ) * -(2 * x) = 1 - n * x := by ring
    rw [e] at hb
    have hl := log_le_log (by linarith) hb
    rw [log_rpow (by linarith)] at hl
    have e2 : 1 + -(2 * x) = 1 - 2 * x := by ring
    rw [e2] at hl
    linarith

end Openspace.Burn
