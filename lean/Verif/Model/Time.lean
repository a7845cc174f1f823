import Verif.Model.Functions

/-!
# Model of `/repo/src/openspace/time.py`
-/

namespace Openspace

noncomputable section

/-- `Epoch` (time.py 7-27): a modified Julian day number -/
@[ext] structure Epoch where
  value : ℝ

namespace Epoch

/-- `Epoch.MJD_ZERO` (time.py 10) -/
def MJD_ZERO : ℝ := 2400000.5

/-- `Epoch.JULIAN_CENTURY` (time.py 13) -/
def JULIAN_CENTURY : ℝ := 36525

/-- `Epoch.J2000_JULIAN_DATE` (time.py 16) -/
def J2000_JULIAN_DATE : ℝ := 2451545

/-- `Epoch.UTC_TDT_OFFSET` (time.py 19) -/
def UTC_TDT_OFFSET : ℝ := 69.184 / SECONDS_IN_DAY

/-- `Epoch.copy` (time.py 29-35) -/
def copy (e : Epoch) : Epoch := ⟨e.value⟩

/-- the whole-day part of `Epoch.from_gregorian` (time.py 56-65), an exact integer in Python.
`floor(y / 400)` on a Python `int` is `y / 400` on `Int` (floor division; the quotients of
calendar years are far below the size where the float division could round across an
integer); `floor(30.6001 * (m + 1))` is computed on the real number `30.6001`. -/
def gregorianMjd (year month day : Int) : Int :=
  let y := if month ≤ 2 then year - 1 else year
  let m := if month ≤ 2 then month + 12 else month
  let b := y / 400 - y / 100 + y / 4
  365 * y - 679004 + b + pyFloor (30.6001 * ofInt (m + 1)) + day

/-- `Epoch.from_gregorian` (time.py 37-67) -/
def fromGregorian (year month day hour minute : Int) (sec : ℝ) : Epoch :=
  ⟨ofInt (gregorianMjd year month day) + hmsToDecimalDay (ofInt hour) (ofInt minute) sec⟩

/-- `Epoch.julian_value` (time.py 69-75) -/
def julianValue (e : Epoch) : ℝ := e.value + MJD_ZERO

/-- `Epoch.julian_centuries_past_j2000` (time.py 77-83) -/
def julianCenturies (e : Epoch) : ℝ := (e.julianValue - J2000_JULIAN_DATE) / JULIAN_CENTURY

/-- `Epoch.plus_days` (time.py 85-93) -/
def plusDays (e : Epoch) (t : ℝ) : Epoch := ⟨e.value + t⟩

/-- `Epoch.greenwich_hour_angle` (time.py 95-113) -/
def gha (e : Epoch) : ℝ :=
  let utc : Epoch := ⟨e.value - UTC_TDT_OFFSET⟩
  let dec_day := pyMod utc.value 1
  let j0 := utc.julianValue - dec_day
  let j := (j0 - J2000_JULIAN_DATE) / JULIAN_CENTURY
  let theta0 := 100.4606184 + 36000.77004 * j + 0.000387933 * j * j
  let total_deg := theta0 + 360.98564724 * dec_day
  pyRadians (pyMod total_deg 360)

end Epoch

end

end Openspace
