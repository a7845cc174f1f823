import Mathlib.Data.Int.Init
import Mathlib.Logic.Function.Iterate
import Mathlib.Data.Real.Basic

/-!
# The proleptic Gregorian calendar

Independent of the model: leap years, month lengths and "the next day".
-/

namespace Openspace.Calendar

/-- a year is a leap year iff it is divisible by 4, and by 400 if it is divisible by 100 -/
def IsLeap (y : Int) : Prop := y % 4 = 0 ∧ (y % 100 = 0 → y % 400 = 0)

instance (y : Int) : Decidable (IsLeap y) := by unfold IsLeap; infer_instance

/-- number of days of a month -/
def daysInMonth (y m : Int) : Int :=
  if m = 2 then (if IsLeap y then 29 else 28)
  else if m = 4 ∨ m = 6 ∨ m = 9 ∨ m = 11 then 30
  else 31

/-- a calendar date -/
structure Date where
  year : Int
  month : Int
  day : Int
  deriving DecidableEq

/-- months run from 1 to 12, days from 1 to the length of the month; every integer is a year -/
def Date.Valid (d : Date) : Prop :=
  1 ≤ d.month ∧ d.month ≤ 12 ∧ 1 ≤ d.day ∧ d.day ≤ daysInMonth d.year d.month

/-- the day after -/
def Date.next (d : Date) : Date :=
  if d.day < daysInMonth d.year d.month then ⟨d.year, d.month, d.day + 1⟩
  else if d.month < 12 then ⟨d.year, d.month + 1, 1⟩
  else ⟨d.year + 1, 1, 1⟩

/-- chronological order of dates -/
def Date.Before (a b : Date) : Prop :=
  a.year < b.year ∨ (a.year = b.year ∧ (a.month < b.month ∨ (a.month = b.month ∧ a.day < b.day)))

/-- a date with a time of day -/
structure Instant where
  date : Date
  hour : Int
  minute : Int
  second : ℝ

/-- the time of day is between 00:00:00 and 24:00:00 (excluded) -/
def Instant.Valid (i : Instant) : Prop :=
  i.date.Valid ∧ 0 ≤ i.hour ∧ i.hour < 24 ∧ 0 ≤ i.minute ∧ i.minute < 60 ∧
    0 ≤ i.second ∧ i.second < 60

/-- chronological order of instants -/
def Instant.Before (a b : Instant) : Prop :=
  a.date.Before b.date ∨ (a.date = b.date ∧
    (a.hour < b.hour ∨ (a.hour = b.hour ∧
      (a.minute < b.minute ∨ (a.minute = b.minute ∧ a.second < b.second)))))

end Openspace.Calendar
