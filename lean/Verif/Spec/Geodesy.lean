import Verif.Spec.Linalg
import Verif.Model.Celestial

/-!
# Specification: the reference ellipsoid

Only the two constants RADIUS and FLATTENING of the code are used.
-/

namespace Openspace.Spec

/-- equatorial radius -/
noncomputable def semiMajor : ℝ := Earth.RADIUS

/-- polar radius -/
noncomputable def semiMinor : ℝ := Earth.RADIUS * (1 - Earth.FLATTENING)

/-- the point is on the ellipsoid -/
def OnEllipsoid (p : Vec3) : Prop :=
  (p.x ^ 2 + p.y ^ 2) / semiMajor ^ 2 + p.z ^ 2 / semiMinor ^ 2 = 1

/-- half the gradient of the ellipsoid's equation: an outward normal at a point of the ellipsoid -/
noncomputable def ellipsoidNormal (p : Vec3) : Vec3 :=
  ⟨p.x / semiMajor ^ 2, p.y / semiMajor ^ 2, p.z / semiMinor ^ 2⟩

/-- outward unit vector of geodetic latitude `lat` and longitude `lon` -/
noncomputable def geodeticDirection (lat lon : ℝ) : Vec3 :=
  ⟨Real.cos lat * Real.cos lon, Real.cos lat * Real.sin lon, Real.sin lat⟩

end Openspace.Spec
