import Verif.Spec.Libm
import Mathlib.Analysis.SpecialFunctions.Log.Base

/-! # What is assumed of the C library where a brightness is computed -/

namespace Openspace.Spec

/-- errors of at most one unit in the last place: relative errors of at most `2 ^ -52` -/
structure TrigRelative (lib : F64.Libm) : Prop where
  sin : ∀ x, |lib.sin x - Real.sin x| ≤ 1 / 2 ^ 52 * |Real.sin x|
  cos : ∀ x, |lib.cos x - Real.cos x| ≤ 1 / 2 ^ 52 * |Real.cos x|

/-- an arccosine returns no negative number and nothing above the double `math.pi` -/
def AcosRange (acos : ℝ → ℝ) : Prop := ∀ x, |x| ≤ 1 → 0 ≤ acos x ∧ acos x ≤ F64.pi

/-- a decimal logarithm with errors of at most one unit in the last place -/
def Log10Accurate (log10 : ℝ → ℝ) : Prop := ∀ x, 0 < x → |log10 x - Real.logb 10 x| ≤ 1 / 2 ^ 52 * |Real.logb 10 x|

end Openspace.Spec
