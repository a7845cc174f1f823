import Verif.Model.DoubleForces
import Verif.Model.DoublePositions
import Verif.Model.DoubleVectors
import Verif.Model.States

/-!
# The geopotential acceleration in double precision

`GCRF.acceleration_from_gravity` with every operation rounded to the nearest double, under the conventions of
`Model/DoubleEarth`; `tan` is the tangent of the C library.  A state is given by its position `pos` and the value `e`
of its epoch.
-/

namespace Openspace.F64

noncomputable section

/-- a coefficient `c / sqrt(q)` of `Earth.C` or `Earth.S` (celestial.py 15-52) -/
def coef (c q : ℝ) : ℝ := rnd (rnd c / rnd (sqrtNN (rnd q)))

/-- `Earth.C` (celestial.py 15-32).  Divisors are non-zero. -/
def earthC : List (List ℝ) :=
  [ [1],
    [0, 0],
    [coef (-0.484165143790815e-3) 0.2, coef (-0.206615509074176e-9) 0.6, coef 0.243938357328313e-5 2.4],
    [ coef 0.957161207093473e-6 (1 / 7),
      coef 0.203046201047864e-5 (6 / 7),
      coef 0.904787894809528e-6 (60 / 7),
      coef 0.721321757121568e-6 (360 / 7) ],
    [ coef 0.539965866638991e-6 (24 / 216),
      coef (-0.536157389388867e-6) (10 / 9),
      coef 0.350501623962649e-6 20,
      coef 0.990856766672321e-6 280,
      coef (-0.188519633023033e-6) 2240 ] ]

/-- `Earth.S` (celestial.py 35-52).  Divisors are non-zero. -/
def earthS : List (List ℝ) :=
  [ [0],
    [0, 0],
    [0, coef 0.138441389137979e-8 0.6, coef (-0.140027370385934e-5) 2.4],
    [ 0,
      coef 0.248200415856872e-6 (6 / 7),
      coef (-0.619005475177618e-6) (60 / 7),
      coef 0.141434926192941e-5 (360 / 7) ],
    [ 0,
      coef (-0.473567346518086e-6) (10 / 9),
      coef 0.662480026275829e-6 20,
      coef (-0.200956723567452e-6) 280,
      coef 0.308803882149194e-6 2240 ] ]

/-- `LegendrePolynomial(phi).p` (functions.py 62-99), from the computed cosine and sine of `phi` -/
def legendreTable (c s : ℝ) : List (List ℝ) :=
  let c2 := rnd (c * c)
  let s2 := rnd (s * s)
  [ [1, 0],
    [s, c, 0],
    [ rnd (rnd (rnd (3 * s2) - 1) * 0.5),
      rnd (rnd (3 * s) * c),
      rnd (3 * c2),
      0 ],
    [ rnd (rnd (s * rnd (rnd (5 * s2) - 3)) * 0.5),
      rnd (rnd (rnd (rnd (15 * s2) - 3) * c) * 0.5),
      rnd (rnd (15 * s) * c2),
      rnd (rnd (15 * c2) * c),
      0 ],
    [ rnd (0.125 * rnd (rnd (rnd (rnd (35 * s2) * s2) - rnd (30 * s2)) + 3)),
      rnd (rnd (2.5 * rnd (rnd (rnd (7 * s2) * s) - rnd (3 * s))) * c),
      rnd (rnd (rnd (rnd (7 * s2) - 1) * c2) * 7.5),
      rnd (rnd (rnd (105 * c) * c2) * s),
      rnd (rnd (105 * c2) * c2),
      0 ] ]

/-- the body of the inner loop of `GCRF.acceleration_from_gravity` (states.py 168-176) -/
def gravityTerm (lib : Libm) (tan : ℝ → ℝ) (p : List (List ℝ)) (ra dec r_exponent : ℝ) (n : Nat) (acc : Partials)
    (m : Nat) : Py Partials := do
  let clam := lib.cos (rnd (ofNat m * ra))
  let slam := lib.sin (rnd (ofNat m * ra))
  let pnm ← pyIndex2 p n m
  let cnm ← pyIndex2 earthC n m
  let snm ← pyIndex2 earthS n m
  let pnm1 ← pyIndex2 p n (m + 1)
  let even := rnd (rnd (cnm * clam) + rnd (snm * slam))
  pure ⟨rnd (acc.r + rnd (rnd (rnd (r_exponent * (ofNat n + 1)) * pnm) * even)),
    rnd (acc.phi + rnd (rnd (r_exponent * rnd (pnm1 - rnd (rnd (ofNat m * tan dec) * pnm))) * even)),
    rnd (acc.lamb + rnd (rnd (rnd (r_exponent * ofNat m) * pnm) * rnd (rnd (snm * clam) - rnd (cnm * slam))))⟩

/-- the two nested loops of `GCRF.acceleration_from_gravity` (states.py 164-180) -/
def gravitySums (lib : Libm) (tan : ℝ → ℝ) (p : List (List ℝ)) (ra dec r_over_r : ℝ) : Py Partials :=
  (List.range' 2 (earthS.length - 2)).foldlM (fun acc n =>
    (List.range (n + 1)).foldlM (gravityTerm lib tan p ra dec (lib.pow r_over_r (ofNat n)) n) acc) ⟨0, 0, 0⟩

/-- the body-fixed vector computed by `GCRF.acceleration_from_gravity` from the ITRF position and from the length of
the GCRF position (states.py 147-193) -/
def gravityItrf (lib : Libm) (tan : ℝ → ℝ) (ecef : Vec3) (posMag : ℝ) : Py Vec3 := do
  let sphr := fromCartesian lib ecef
  let p := legendreTable (lib.cos sphr.declination) (lib.sin sphr.declination)
  let recip_r ← div 1 posMag
  let mu_over_r := rnd (mu * recip_r)
  let r_over_r := rnd (geoA * recip_r)
  let recip_root ← div 1 (rnd (sqrtNN (rnd (rnd (ecef.x * ecef.x) + rnd (ecef.y * ecef.y)))))
  let rz_over_root := rnd (rnd (rnd (ecef.z * recip_r) * recip_r) * recip_root)
  let s ← gravitySums lib tan p sphr.right_ascension sphr.declination r_over_r
  let partial_r := rnd (s.r * rnd (-recip_r * mu_over_r))
  let partial_phi := rnd (s.phi * mu_over_r)
  let partial_lamb := rnd (s.lamb * mu_over_r)
  let root ← div 1 recip_root
  let a := rnd (rnd (recip_r * partial_r) - rnd (rz_over_root * partial_phi))
  let b := rnd (rnd (recip_root * recip_root) * partial_lamb)
  pure
    ⟨rnd (rnd (a * ecef.x) - rnd (b * ecef.y)),
     rnd (rnd (a * ecef.y) + rnd (b * ecef.x)),
     rnd (rnd (rnd (recip_r * partial_r) * ecef.z) + rnd (rnd (rnd (root * recip_r) * recip_r) * partial_phi))⟩

/-- `GCRF.acceleration_from_gravity` (states.py 140-195) -/
def accelerationFromGravity (lib : Libm) (tan : ℝ → ℝ) (pos : Vec3) (e : ℝ) : Py Vec3 := do
  let ecef ← gcrfToItrf lib pos e
  let a ← gravityItrf lib tan ecef (magnitude pos)
  itrfToGcrf lib a e

end

end Openspace.F64
