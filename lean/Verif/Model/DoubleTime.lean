import Verif.Model.DoubleKepler

/-!
# Calendar dates and the Greenwich hour angle in double precision

`Verif.Model.Time` computes epochs with real numbers.  Here the same functions are modelled operation by operation with
rounding to the nearest double (`Verif.Model.Double`): a constant written with decimals in the source is the double
nearest to it, every arithmetic operation is followed by rounding, `floor` and `%` act on doubles.

Simplifications: as in `Verif.Model.Double`, the exponent range is not bounded.  The arguments `hour` and `minute` are
integers, as the annotations of `from_gregorian` say; Python divides two integers with a single rounding, as here.
-/

namespace Openspace.F64

noncomputable section

/-- `Conversions.hms_to_decimal_day` (functions.py 16-28) -/
def hmsToDecimalDay (hr m s : ℝ) : ℝ := rnd (rnd (rnd (hr / 24) + rnd (m / 1440)) + rnd (s / 86400))

/-- the whole-day part of `Epoch.from_gregorian` (time.py 56-65): the divisions and the product are floating point, the
sums are integers -/
def gregorianMjd (year month day : ℤ) : ℤ :=
  let y := if month ≤ 2 then year - 1 else year
  let m := if month ≤ 2 then month + 12 else month
  let b := ⌊rnd ((y : ℝ) / 400)⌋ - ⌊rnd ((y : ℝ) / 100)⌋ + ⌊rnd ((y : ℝ) / 4)⌋
  365 * y - 679004 + b + ⌊rnd (rnd 30.6001 * ((m + 1 : ℤ) : ℝ))⌋ + day

/-- `Epoch.from_gregorian` (time.py 37-67), the value of the epoch -/
def fromGregorian (year month day hour minute : ℤ) (sec : ℝ) : ℝ :=
  rnd (gregorianMjd year month day + hmsToDecimalDay hour minute sec)

/-- `Epoch.UTC_TDT_OFFSET` (time.py 19) -/
def UTC_TDT_OFFSET : ℝ := rnd (rnd 69.184 / 86400)

/-- `Epoch.julian_value` (time.py 69-75) -/
def julianValue (e : ℝ) : ℝ := rnd (e + 2400000.5)

/-- `Epoch.julian_centuries_past_j2000` (time.py 77-83) -/
def julianCenturies (e : ℝ) : ℝ := rnd (rnd (julianValue e - 2451545) / 36525)

/-- Python's `x % y` for floats and `0 < y`: the remainder of the C function `fmod`, which is exact and has the sign of
`x`; if it is negative, `y` is added (with rounding) -/
def pyMod (x y : ℝ) : ℝ :=
  let r := x - y * (if 0 ≤ x then ⌊x / y⌋ else ⌈x / y⌉ : ℤ)
  if r < 0 then rnd (r + y) else r

/-- `math.radians` as CPython computes it: a product with the constant `pi / 180` -/
def radians (x : ℝ) : ℝ := rnd (x * rnd (pi / 180))

/-- `Epoch.greenwich_hour_angle` (time.py 95-113) -/
def gha (e : ℝ) : ℝ :=
  let utc := rnd (e - UTC_TDT_OFFSET)
  let dec_day := pyMod utc 1
  let j0 := rnd (julianValue utc - dec_day)
  let j := rnd (rnd (j0 - 2451545) / 36525)
  let theta0 := rnd (rnd (rnd 100.4606184 + rnd (rnd 36000.77004 * j)) + rnd (rnd (rnd 0.000387933 * j) * j))
  let total_deg := rnd (theta0 + rnd (rnd 360.98564724 * dec_day))
  radians (pyMod total_deg 360)

end

end Openspace.F64
