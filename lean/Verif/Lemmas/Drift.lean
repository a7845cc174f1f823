import Mathlib.Analysis.ODE.Gronwall
import Mathlib.Analysis.Normed.Module.Basic

/-!
How far two motions with the same start drift apart, when their accelerations differ by at most `w²` times their distance
plus `ε`.
-/

namespace Openspace

open Real Set

/-- Gronwall's inequality for the pair of distance and relative velocity, then once more for the distance -/
theorem drift {E : Type*} [NormedAddCommGroup E] [NormedSpace ℝ E] {x u c : ℝ → E} {T w ε : ℝ} (hw : 0 < w) (hε : 0 ≤ ε)
    (hx : ContinuousOn x (Icc 0 T)) (hu : ContinuousOn u (Icc 0 T))
    (dx : ∀ s ∈ Ico 0 T, HasDerivWithinAt x (u s) (Ici s) s) (du : ∀ s ∈ Ico 0 T, HasDerivWithinAt u (c s) (Ici s) s)
    (x0 : x 0 = 0) (u0 : u 0 = 0) (hc : ∀ s ∈ Ico 0 T, ‖c s‖ ≤ w ^ 2 * ‖x s‖ + ε) :
    ∀ s ∈ Icc 0 T, ‖u s‖ ≤ ε / w * (exp (w * s) - 1) ∧ ‖x s‖ ≤ ε / w ^ 2 * (exp (w * s) - 1 - w * s) := by
  have first : ∀ s ∈ Icc 0 T, ‖u s‖ ≤ ε / w * (exp (w * s) - 1) := by
    intro s hs
    have := norm_le_gronwallBound_of_norm_deriv_right_le (f := fun s => (w • x s, u s)) (f' := fun s => (w • u s, c s))
      (δ := 0) (K := w) (ε := ε) (a := 0) (b := T) ((hx.const_smul w).prodMk hu)
      (fun s hs => ((dx s hs).const_smul w).prodMk (du s hs)) (by simp [x0, u0]) (fun s hs => by
        rw [Prod.norm_def, Prod.norm_def]
        simp only [norm_smul, Real.norm_eq_abs, abs_of_pos hw]
        have h1 := le_max_left (w * ‖x s‖) ‖u s‖
        have h2 := le_max_right (w * ‖x s‖) ‖u s‖
        refine max_le ?_ ?_
        · have := mul_le_mul_of_nonneg_left h2 hw.le
          linarith
        · have := mul_le_mul_of_nonneg_left h1 hw.le
          have := hc s hs
          nlinarith) s hs
    rw [gronwallBound_of_K_ne_0 hw.ne', Prod.norm_def] at this
    simp only [zero_mul, zero_add, sub_zero] at this
    exact (le_max_right _ _).trans this
  refine fun s hs => ⟨first s hs, ?_⟩
  refine image_norm_le_of_norm_deriv_right_le_deriv_boundary (f := x) (f' := u) (a := 0) (b := T)
    (B := fun s => ε / w ^ 2 * (exp (w * s) - 1 - w * s)) (B' := fun s => ε / w * (exp (w * s) - 1)) hx dx ?_ ?_
    (fun s hs => first s ⟨hs.1, hs.2.le⟩) hs
  · simp [x0]
  · intro s
    have h1 : HasDerivAt (fun s => w * s) w s := by simpa using (hasDerivAt_id s).const_mul w
    have h2 := ((h1.exp.sub_const 1).sub h1).const_mul (ε / w ^ 2)
    refine h2.congr_deriv ?_
    field_simp

end Openspace
