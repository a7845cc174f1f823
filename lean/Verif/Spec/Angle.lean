import Mathlib.Analysis.SpecialFunctions.Trigonometric.Basic

/-! # Angles that agree up to whole turns -/

namespace Openspace.Spec

/-- `x` and `y` differ by at most `E` and whole turns -/
def AngleNear (x y E : ℝ) : Prop := ∃ k : ℤ, |x - (y + 2 * Real.pi * k)| ≤ E

end Openspace.Spec
