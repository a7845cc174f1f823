import Mathlib.Analysis.SpecialFunctions.Trigonometric.Basic

/-! # What is assumed of the tangent of the C library -/

namespace Openspace.Spec

/-- a tangent with errors of at most one unit in the last place -/
def TanAccurate (tan : ℝ → ℝ) : Prop := ∀ x, |tan x - Real.tan x| ≤ 1 / 2 ^ 52 * |Real.tan x|

end Openspace.Spec
