import Verif.Model.Linalg

/-! # Axes that are nearly orthogonal and right-handed -/

namespace Openspace.Spec

/-- the cosines of the angles between the axes are at most `ε`, and the volume of the box that they span is that of a right-handed
orthogonal triad but for the fraction `ε` -/
structure NearTriad (x y z : Vec3) (ε : ℝ) : Prop where
  xy : |x.dot y| ≤ ε * (x.magnitude * y.magnitude)
  yz : |y.dot z| ≤ ε * (y.magnitude * z.magnitude)
  zx : |z.dot x| ≤ ε * (z.magnitude * x.magnitude)
  volume : (1 - ε) * (x.magnitude * y.magnitude * z.magnitude) ≤ x.dot (y.cross z)

end Openspace.Spec
