import Verif.Spec.Geodesy

/-!
# Specification: lines of sight

A line of sight is a ray from the observer through the target; it is blocked where it is inside the Earth.
-/

namespace Openspace.Spec

/-- the point is inside the Earth, taken as the reference ellipsoid -/
def InsideEllipsoid (p : Vec3) : Prop :=
  (p.x ^ 2 + p.y ^ 2) / semiMajor ^ 2 + p.z ^ 2 / semiMinor ^ 2 < 1

/-- the point of the ray from `a` through `b` that is reached at `a` for 0 and at `b` for 1 -/
noncomputable def sightPoint (a b : Vec3) (t : ℝ) : Vec3 :=
  ⟨a.x + t * (b.x - a.x), a.y + t * (b.y - a.y), a.z + t * (b.z - a.z)⟩

end Openspace.Spec
