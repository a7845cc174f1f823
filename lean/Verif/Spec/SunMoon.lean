import Verif.Spec.EarthOrientation

/-!
# Low-precision solar and lunar coordinates

The series of Montenbruck and Gill, *Satellite Orbits*, section 3.3.2, equations 3.43 to 3.51; the comments of
`Moon.get_position` cite them by number. `T` counts Julian centuries from J2000; distances are in kilometres.
-/

namespace Openspace.Spec

open Real

noncomputable section

/-- rectangular equatorial coordinates of the point at ecliptic longitude `lon`, latitude `lat` and distance `r`, when
the ecliptic is inclined at `eps` (3.45, 3.51) -/
def fromEcliptic (eps lon lat r : ℝ) : Fin 3 → ℝ :=
  (R1 (-eps)).mulVec ![r * cos lon * cos lat, r * sin lon * cos lat, r * sin lat]

/-- obliquity of the ecliptic at J2000 -/
def obliquity : ℝ := deg 23.43929111

/-- mean anomaly of the Sun (3.43) -/
def sunAnomaly (T : ℝ) : ℝ := deg (357.5256 + 35999.049 * T)

/-- ecliptic longitude of the Sun (3.44) -/
def sunLongitude (T : ℝ) : ℝ :=
  deg 282.94 + sunAnomaly T + arcsec 6892 * sin (sunAnomaly T) + arcsec 72 * sin (2 * sunAnomaly T)

/-- distance of the Sun (3.44) -/
def sunDistance (T : ℝ) : ℝ :=
  (149.619 - 2.499 * cos (sunAnomaly T) - 0.021 * cos (2 * sunAnomaly T)) * 10 ^ 6

/-- the Sun (3.45): its ecliptic latitude is zero -/
def sunPosition (T : ℝ) : Fin 3 → ℝ := fromEcliptic obliquity (sunLongitude T) 0 (sunDistance T)

/-! The fundamental arguments of the Moon's motion (3.47): mean longitude, mean anomalies of the Moon and of the Sun,
mean argument of latitude, elongation. -/

def moonL0 (T : ℝ) : ℝ := deg (218.31617 + 481267.88088 * T - 1.3972 * T)
def moonL (T : ℝ) : ℝ := deg (134.96292 + 477198.86753 * T)
def moonL' (T : ℝ) : ℝ := deg (357.52543 + 35999.04944 * T)
def moonF (T : ℝ) : ℝ := deg (93.27283 + 483202.01873 * T)
def moonD (T : ℝ) : ℝ := deg (297.85027 + 445267.11135 * T)

/-- periodic part of the Moon's longitude, in seconds of arc (3.48) -/
def moonInequality (l l' F D : ℝ) : ℝ :=
  22640 * sin l + 769 * sin (2 * l) - 4586 * sin (l - 2 * D) + 2370 * sin (2 * D) - 668 * sin l' - 412 * sin (2 * F)
    - 212 * sin (2 * l - 2 * D) - 206 * sin (l + l' - 2 * D) + 192 * sin (l + 2 * D) - 165 * sin (l' - 2 * D)
    + 148 * sin (l - l') - 125 * sin D - 110 * sin (l + l') - 55 * sin (2 * F - 2 * D)

/-- ecliptic longitude of the Moon (3.48) -/
def moonLongitude (T : ℝ) : ℝ := moonL0 T + arcsec (moonInequality (moonL T) (moonL' T) (moonF T) (moonD T))

/-- minor terms of the Moon's latitude, in seconds of arc (3.49) -/
def moonMinor (l l' F D : ℝ) : ℝ :=
  -526 * sin (F - 2 * D) + 44 * sin (l + F - 2 * D) - 31 * sin (-l + F - 2 * D) - 25 * sin (-2 * l + F)
    - 23 * sin (l' + F - 2 * D) + 21 * sin (-l + F) + 11 * sin (-l' + F - 2 * D)

/-- ecliptic latitude of the Moon (3.49) -/
def moonLatitude (T : ℝ) : ℝ :=
  arcsec 18520 * sin (moonF T + moonLongitude T - moonL0 T + arcsec 412 * sin (2 * moonF T)
      + arcsec 541 * sin (moonL' T))
    + arcsec (moonMinor (moonL T) (moonL' T) (moonF T) (moonD T))

/-- distance of the Moon (3.50) -/
def moonDistance (T : ℝ) : ℝ :=
  385000 - 20905 * cos (moonL T) - 3699 * cos (2 * moonD T - moonL T) - 2956 * cos (2 * moonD T)
    - 570 * cos (2 * moonL T) + 246 * cos (2 * moonL T - 2 * moonD T) - 205 * cos (moonL' T - 2 * moonD T)
    - 171 * cos (moonL T + 2 * moonD T) - 152 * cos (moonL T + moonL' T - 2 * moonD T)

/-- the Moon (3.51) -/
def moonPosition (T : ℝ) : Fin 3 → ℝ :=
  fromEcliptic obliquity (moonLongitude T) (moonLatitude T) (moonDistance T)

end

end Openspace.Spec
