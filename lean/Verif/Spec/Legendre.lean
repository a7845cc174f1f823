import Mathlib.Algebra.Polynomial.Derivative
import Mathlib.Analysis.SpecialFunctions.Trigonometric.Basic

/-!
# Specification: Legendre functions and the normalisation of geopotential coefficients

Textbook definitions; nothing here refers to the model.
-/

namespace Openspace.Spec

open Polynomial

/-- Legendre polynomial of degree `n` by Rodrigues' formula -/
noncomputable def legendre (n : ℕ) : ℝ[X] :=
  C (1 / (2 ^ n * (n.factorial : ℝ))) * derivative^[n] ((X ^ 2 - 1) ^ n)

/-- `m`-th derivative of the Legendre polynomial of degree `n` at `u` -/
noncomputable def legendreDeriv (n m : ℕ) (u : ℝ) : ℝ := (derivative^[m] (legendre n)).eval u

/-- associated Legendre function (geodesy convention, no Condon–Shortley phase) of latitude -/
noncomputable def assocLegendre (n m : ℕ) (phi : ℝ) : ℝ :=
  Real.cos phi ^ m * legendreDeriv n m (Real.sin phi)

/-- full normalisation factor of geodesy -/
noncomputable def normFactor (n m : ℕ) : ℝ :=
  Real.sqrt ((if m = 0 then 1 else 2) * (2 * n + 1) * ((n - m).factorial : ℝ) / ((n + m).factorial : ℝ))

/-- published fully normalised cosine coefficients, degrees 2 to 4 -/
noncomputable def Cbar : ℕ → ℕ → ℝ
  | 2, 0 => -0.484165143790815e-3
  | 2, 1 => -0.206615509074176e-9
  | 2, 2 => 0.243938357328313e-5
  | 3, 0 => 0.957161207093473e-6
  | 3, 1 => 0.203046201047864e-5
  | 3, 2 => 0.904787894809528e-6
  | 3, 3 => 0.721321757121568e-6
  | 4, 0 => 0.539965866638991e-6
  | 4, 1 => -0.536157389388867e-6
  | 4, 2 => 0.350501623962649e-6
  | 4, 3 => 0.990856766672321e-6
  | 4, 4 => -0.188519633023033e-6
  | _, _ => 0

/-- published fully normalised sine coefficients, degrees 2 to 4 -/
noncomputable def Sbar : ℕ → ℕ → ℝ
  | 2, 1 => 0.138441389137979e-8
  | 2, 2 => -0.140027370385934e-5
  | 3, 1 => 0.248200415856872e-6
  | 3, 2 => -0.619005475177618e-6
  | 3, 3 => 0.141434926192941e-5
  | 4, 1 => -0.473567346518086e-6
  | 4, 2 => 0.662480026275829e-6
  | 4, 3 => -0.200956723567452e-6
  | 4, 4 => 0.308803882149194e-6
  | _, _ => 0

end Openspace.Spec
