import Verif.Spec.Libm

/-! # What is assumed of the C library where small angles matter -/

namespace Openspace.Spec

/-- a sine and an arcsine with errors of at most one unit in the last place: relative errors of at most `2 ^ -52` -/
structure UlpAccurate (lib : F64.Libm) : Prop where
  sin : ∀ x, |lib.sin x - Real.sin x| ≤ 1 / 2 ^ 52 * |Real.sin x|
  asin : ∀ x, |x| ≤ 1 → |lib.asin x - Real.arcsin x| ≤ 1 / 2 ^ 52 * |Real.arcsin x|

end Openspace.Spec
