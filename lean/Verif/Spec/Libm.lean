import Verif.Model.DoubleKepler
import Mathlib.Analysis.SpecialFunctions.Trigonometric.Basic
import Mathlib.Analysis.SpecialFunctions.Trigonometric.Inverse
import Mathlib.Analysis.SpecialFunctions.Complex.Arg

/-! # What is assumed of the functions of the C library -/

namespace Openspace.Spec

/-- absolute errors of at most `2 ^ -52` (an error of one unit in the last place is at most `2 ^ -53`) -/
structure Accurate (lib : F64.Libm) : Prop where
  sin : ∀ x, |lib.sin x - Real.sin x| ≤ 1 / 2 ^ 52
  cos : ∀ x, |lib.cos x - Real.cos x| ≤ 1 / 2 ^ 52

/-- an arccosine with an absolute error of at most `2 ^ -51`, one unit in the last place of its largest values -/
def AcosAccurate (acos : ℝ → ℝ) : Prop := ∀ x, |x| ≤ 1 → |acos x - Real.arccos x| ≤ 1 / 2 ^ 51

/-- a two-argument arctangent with an absolute error of at most `2 ^ -51`, one unit in the last place of its largest
values -/
def Atan2Accurate (lib : F64.Libm) : Prop := ∀ y x, |lib.atan2 y x - Complex.arg ⟨x, y⟩| ≤ 1 / 2 ^ 51

/-- an arcsine with an absolute error of at most `2 ^ -52`, one unit in the last place of its largest values -/
def AsinAccurate (lib : F64.Libm) : Prop := ∀ x, |x| ≤ 1 → |lib.asin x - Real.arcsin x| ≤ 1 / 2 ^ 52

end Openspace.Spec
