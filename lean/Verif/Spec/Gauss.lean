import Verif.Model.Celestial

/-!
# Independent specification: the auxiliary numbers of Gauss's method for two positions
-/

namespace Openspace.Spec

open Real

/-- the auxiliary numbers of Gauss's method: `m = mu dt² / k³` and `l = (ra + rb) / 2k - 1/2` with `k² = 2 (ra rb + ra · rb)` -/
noncomputable def gaussK (ra rb : Vec3) : ℝ := √(2 * (ra.magnitude * rb.magnitude + ra.dot rb))

noncomputable def gaussM (ra rb : Vec3) (dt : ℝ) : ℝ := Earth.MU * dt ^ 2 / gaussK ra rb ^ 3

noncomputable def gaussL (ra rb : Vec3) : ℝ := (ra.magnitude + rb.magnitude) / (2 * gaussK ra rb) - 1 / 2

/-- the first approximation of the sector-to-triangle ratio -/
noncomputable def gaussStart (m l : ℝ) : ℝ := 12 / 22 + 10 / 22 * √(1 + (44 / 9) * (m / (l + 5 / 6)))

end Openspace.Spec
