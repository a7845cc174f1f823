import Mathlib.Analysis.Calculus.MeanValue
import Mathlib.Analysis.Calculus.Deriv.Pow
import Mathlib.Analysis.Calculus.Deriv.Mul
import Mathlib.Analysis.SpecialFunctions.Pow.NNReal

/-!
How much the energy of a motion changes, when its power is at most `ε` times its speed and the speed is bounded by the
energy itself.
-/

namespace Openspace

open Real Set Filter Topology

theorem energy_drift {x x' k : ℝ → ℝ} {T ε c W : ℝ} (hε : 0 ≤ ε) (hx : ContinuousOn x (Icc 0 T))
    (dx : ∀ s ∈ Ico 0 T, HasDerivWithinAt x (x' s) (Ici s) s) (hk0 : ∀ s ∈ Icc 0 T, 0 ≤ k s)
    (hk : ∀ s ∈ Icc 0 T, k s ^ 2 ≤ 2 * (x s + c)) (hx' : ∀ s ∈ Ico 0 T, |x' s| ≤ ε * k s) (hW : W = √(2 * (x 0 + c))) :
    ∀ s ∈ Icc 0 T, |x s - x 0| ≤ ε * s * (W + ε * s / 2) := by
  intro s hs
  have hT : 0 ≤ T := hs.1.trans hs.2
  have hW0 : 0 ≤ W := by rw [hW]; exact Real.sqrt_nonneg _
  have hW2 : W ^ 2 = 2 * (x 0 + c) := by
    rw [hW]; exact Real.sq_sqrt ((sq_nonneg _).trans (hk 0 ⟨le_rfl, hT⟩))
  have strict : ∀ δ > 0, ∀ t ∈ Icc 0 T, x t ≤ x 0 + (ε + δ) * t * (W + δ + (ε + δ) * t / 2) := by
    intro δ hδ t ht
    refine image_le_of_deriv_right_lt_deriv_boundary (f := x) (f' := x') (a := 0) (b := T)
      (B := fun t => x 0 + (ε + δ) * t * (W + δ + (ε + δ) * t / 2)) (B' := fun t => (ε + δ) * (W + δ + (ε + δ) * t))
      hx dx (by simp) (fun u => ?_) (fun u hu he => ?_) ht
    · have h1 : HasDerivAt (fun u => (ε + δ) * u) (ε + δ) u := by simpa using (hasDerivAt_id u).const_mul (ε + δ)
      have h2 := (h1.mul ((h1.div_const 2).const_add (W + δ))).const_add (x 0)
      refine h2.congr_deriv ?_
      ring
    · have hu' : u ∈ Icc 0 T := ⟨hu.1, hu.2.le⟩
      have h1 := hk u hu'
      have h3 : 0 ≤ (ε + δ) * u := mul_nonneg (by linarith) hu.1
      have h2 : k u ≤ W + δ + (ε + δ) * u := by
        refine abs_le_of_sq_le_sq' (a := k u) ?_ (by linarith) |>.2
        rw [he] at h1
        nlinarith
      have h4 := (le_abs_self _).trans (hx' u hu)
      have h5 := mul_le_mul_of_nonneg_left h2 hε
      have h6 : 0 < δ * (W + δ + (ε + δ) * u) := mul_pos hδ (by linarith)
      linarith
  have upper : ∀ t ∈ Icc 0 T, x t ≤ x 0 + ε * t * (W + ε * t / 2) := by
    intro t ht
    have lim : Tendsto (fun δ : ℝ => x 0 + (ε + δ) * t * (W + δ + (ε + δ) * t / 2)) (𝓝[>] 0)
        (𝓝 (x 0 + (ε + 0) * t * (W + 0 + (ε + 0) * t / 2))) := by
      have : ContinuousAt (fun δ : ℝ => x 0 + (ε + δ) * t * (W + δ + (ε + δ) * t / 2)) 0 := by fun_prop
      exact this.tendsto.mono_left nhdsWithin_le_nhds
    rw [add_zero, add_zero] at lim
    exact ge_of_tendsto lim (by
      filter_upwards [self_mem_nhdsWithin] with δ hδ
      exact strict δ hδ t ht)
  have speed : ∀ t ∈ Icc 0 T, k t ≤ W + ε * t := by
    intro t ht
    have h3 : 0 ≤ ε * t := mul_nonneg hε ht.1
    refine abs_le_of_sq_le_sq' (a := k t) ?_ (by linarith) |>.2
    have := hk t ht
    have := upper t ht
    nlinarith
  have fin := image_norm_le_of_norm_deriv_right_le_deriv_boundary (f := fun t => x t - x 0) (f' := x') (a := 0) (b := T)
    (B := fun t => ε * t * (W + ε * t / 2)) (B' := fun t => ε * (W + ε * t)) (hx.sub continuousOn_const)
    (fun t ht => (dx t ht).sub_const _) (by simp) (fun u => by
      have h1 : HasDerivAt (fun u => ε * u) ε u := by simpa using (hasDerivAt_id u).const_mul ε
      have h2 := h1.mul ((h1.div_const 2).const_add W)
      refine h2.congr_deriv ?_
      ring)
    (fun u hu => (hx' u hu).trans (mul_le_mul_of_nonneg_left (speed u ⟨hu.1, hu.2.le⟩) hε)) hs
  exact fin

end Openspace
