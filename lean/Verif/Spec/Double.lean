import Mathlib.Algebra.Order.Archimedean.Real.Basic

/-!
# Specification of double precision numbers
-/

namespace Openspace.Spec

/-- a number with a significand of 53 bits; the exponent is not bounded -/
def IsBinary64 (x : ℝ) : Prop := ∃ m e : ℤ, |m| < 2 ^ 53 ∧ x = m * 2 ^ e

/-- a modified Julian date between 6 August 1948 and 22 April 2038, as a double -/
def IsEpoch (x : ℝ) : Prop := IsBinary64 x ∧ 32769 ≤ x ∧ x < 65535

/-- the distance of neighbouring doubles in this range, in days: about 0.63 microseconds -/
noncomputable def resolution : ℝ := 1 / 2 ^ 37

end Openspace.Spec
