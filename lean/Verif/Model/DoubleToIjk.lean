import Verif.Model.DoubleElements

/-!
# The state of classical elements in double precision

`Model/Elements` has `ClassicalElements.to_ijk` with real arithmetic.  Here every operation is rounded to the nearest
double; sine and cosine are those of the platform's C library, given as arbitrary functions.  As in `Model/Double` the
exponent range is not bounded and zeros have no sign.  Only position and velocity of the state are modelled; the epoch
is handed on unchanged.
-/

namespace Openspace.F64

noncomputable section

/-- `ClassicalElements.perigee_vector` (elements.py 79-90) -/
def perigeeVector (lib : Libm) (el : ClassicalElements) : Py Vec3 :=
  let cw := lib.cos el.argument_of_perigee
  let c0 := lib.cos el.raan
  let sw := lib.sin el.argument_of_perigee
  let s0 := lib.sin el.raan
  let ci := lib.cos el.inclination
  normalized ⟨rnd (rnd (cw * c0) - rnd (rnd (sw * ci) * s0)), rnd (rnd (cw * s0) + rnd (rnd (sw * ci) * c0)),
    rnd (sw * lib.sin el.inclination)⟩

/-- `ClassicalElements.semilatus_rectum_vector` (elements.py 92-105) -/
def semilatusRectumVector (lib : Libm) (el : ClassicalElements) : Vec3 :=
  let cw := lib.cos el.argument_of_perigee
  let c0 := lib.cos el.raan
  let sw := lib.sin el.argument_of_perigee
  let s0 := lib.sin el.raan
  let ci := lib.cos el.inclination
  ⟨rnd (rnd (-sw * c0) - rnd (rnd (cw * ci) * s0)), rnd (rnd (-sw * s0) + rnd (rnd (cw * ci) * c0)),
    rnd (cw * lib.sin el.inclination)⟩

/-- `p.scaled(x).plus(q.scaled(y))` (elements.py 131, linalg.py 247-255, 191-199) -/
def combine (p q : Vec3) (x y : ℝ) : Vec3 :=
  ⟨rnd (rnd (p.x * x) + rnd (q.x * y)), rnd (rnd (p.y * x) + rnd (q.y * y)), rnd (rnd (p.z * x) + rnd (q.z * y))⟩

/-- `ClassicalElements.to_ijk` (elements.py 107-131): position and velocity -/
def toIjk (lib : Libm) (fuel : Nat) (el : ClassicalElements) : Py (Vec3 × Vec3) := do
  let a := el.semimajor_axis
  let e := el.eccentricity
  let p ← perigeeVector lib el
  let q := semilatusRectumVector lib el
  let ea ← eaFromMaE lib fuel el.mean_anomaly e
  let cea := lib.cos ea
  let sea := lib.sin ea
  let r := rnd (a * rnd (1 - rnd (e * cea)))
  let rinv ← div 1 r
  let mua ← div mu a
  let smua ← sqrt mua
  let ea_dot := rnd (rinv * smua)
  let se ← sqrt (rnd (1 - rnd (e * e)))
  let b := rnd (a * se)
  let x_bar := rnd (a * rnd (cea - e))
  let y_bar := rnd (b * sea)
  let x_bar_dot := rnd (rnd (-a * ea_dot) * sea)
  let y_bar_dot := rnd (rnd (b * ea_dot) * cea)
  pure (combine p q x_bar y_bar, combine p q x_bar_dot y_bar_dot)

end

end Openspace.F64
