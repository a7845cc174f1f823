import Mathlib.Analysis.SpecialFunctions.Trigonometric.Basic
import Mathlib.LinearAlgebra.Matrix.Notation
import Mathlib.Data.Real.Basic

/-!
# The classical reduction from the mean equator of J2000 to the Earth-fixed frame

Frame rotations, the IAU 1976 precession angles (Lieske), the mean obliquity, and the two-term nutation series in
common low-precision use. Angles are in radians, `T` counts Julian centuries and `d` days from J2000.
-/

namespace Openspace.Spec

open Real

noncomputable section

/-- components in a frame turned by `a` about the first axis -/
def R1 (a : ℝ) : Matrix (Fin 3) (Fin 3) ℝ := !![1, 0, 0; 0, cos a, sin a; 0, -sin a, cos a]

/-- components in a frame turned by `a` about the second axis -/
def R2 (a : ℝ) : Matrix (Fin 3) (Fin 3) ℝ := !![cos a, 0, -sin a; 0, 1, 0; sin a, 0, cos a]

/-- components in a frame turned by `a` about the third axis -/
def R3 (a : ℝ) : Matrix (Fin 3) (Fin 3) ℝ := !![cos a, sin a, 0; -sin a, cos a, 0; 0, 0, 1]

/-- degrees -/
def deg (x : ℝ) : ℝ := x * (π / 180)

/-- seconds of arc -/
def arcsec (x : ℝ) : ℝ := deg (x / 3600)

/-- the IAU 1976 angles -/
def zetaA (T : ℝ) : ℝ := arcsec (2306.2181 * T + 0.30188 * T ^ 2 + 0.017998 * T ^ 3)
def zA (T : ℝ) : ℝ := arcsec (2306.2181 * T + 1.09468 * T ^ 2 + 0.018203 * T ^ 3)
def thetaA (T : ℝ) : ℝ := arcsec (2004.3109 * T - 0.42665 * T ^ 2 - 0.041833 * T ^ 3)

/-- from the mean equator and equinox of J2000 to those of date -/
def precession (T : ℝ) : Matrix (Fin 3) (Fin 3) ℝ := R3 (-zA T) * R2 (thetaA T) * R3 (-zetaA T)

/-- mean obliquity of the ecliptic -/
def meanObliquity (T : ℝ) : ℝ := deg 23.43929111 - arcsec (46.815 * T + 0.00059 * T ^ 2 - 0.001813 * T ^ 3)

/-- nutation in longitude -/
def nutLongitude (d : ℝ) : ℝ :=
  deg (-0.0048 * sin (deg (125 - 0.05295 * d)) - 0.0004 * sin (deg (200.9 + 1.97129 * d)))

/-- nutation in obliquity -/
def nutObliquity (d : ℝ) : ℝ :=
  deg (0.0026 * cos (deg (125 - 0.05295 * d)) + 0.0002 * cos (deg (200.9 + 1.97129 * d)))

/-- from the mean to the true equator and equinox of date -/
def nutation (eps dpsi deps : ℝ) : Matrix (Fin 3) (Fin 3) ℝ := R1 (-(eps + deps)) * R3 (-dpsi) * R1 eps

/-- apparent sidereal time from the mean one -/
def apparentSidereal (gmst eps dpsi : ℝ) : ℝ := gmst + dpsi * cos eps

/-- from the mean equator of J2000 to the Earth-fixed frame -/
def toEarthFixed (d gmst : ℝ) : Matrix (Fin 3) (Fin 3) ℝ :=
  R3 (apparentSidereal gmst (meanObliquity (d / 36525)) (nutLongitude d)) *
    nutation (meanObliquity (d / 36525)) (nutLongitude d) (nutObliquity d) * precession (d / 36525)

end

end Openspace.Spec
