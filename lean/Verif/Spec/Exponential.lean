import Verif.Spec.Libm
import Mathlib.Analysis.SpecialFunctions.Pow.Real
import Mathlib.Analysis.SpecialFunctions.Log.Basic

/-! # What is assumed of the C library where a burn is computed -/

namespace Openspace.Spec

/-- a natural logarithm with errors of at most one unit in the last place: relative errors of at most `2 ^ -52` -/
def LogAccurate (ln : ℝ → ℝ) : Prop := ∀ x, 0 < x → |ln x - Real.log x| ≤ 1 / 2 ^ 52 * |Real.log x|

/-- powers of positive numbers with errors of at most one unit in the last place -/
def PowAccurate (lib : F64.Libm) : Prop := ∀ x y, 0 < x → |lib.pow x y - x ^ y| ≤ 1 / 2 ^ 52 * x ^ y

end Openspace.Spec
