import Mathlib.Analysis.SpecialFunctions.Complex.Arg
import Mathlib.Analysis.SpecialFunctions.Trigonometric.Inverse
import Mathlib.Analysis.SpecialFunctions.Pow.Real
import Mathlib.Analysis.SpecialFunctions.Log.Base
import Mathlib.Analysis.Real.Sqrt

/-!
# The fragment of Python that openspace is written in

This file is not a model of a particular file of `/repo`.  It fixes the meaning of the
Python built-ins and `math` functions which the modelled code calls, so that every other
file under `Verif/Model` can be read side by side with the Python source.

* Python numbers (`float`, and `int` used as a number) are modelled by real numbers.
  Rounding, overflow, `nan`, `inf` and signed zeros are *not* modelled (see DESIGN.md).
* An exception is a value: a function which may raise returns `Py α = Except PyErr α`.
* A method which mutates its object is a `PyM σ α`: it maps the state before the call to
  the outcome *and the state after the call*, and the state survives an exception
  (Python does not roll back assignments made before a `raise`).
-/

namespace Openspace

/-- Exceptions that the modelled code can raise, plus two markers which are not exceptions:
`complexValue` (Python silently returns a `complex` for a negative base and a fractional
exponent; nothing after that is modelled) and `outOfFuel` (a `while` loop is still running
after the given number of iterations; theorems about results hold for every amount of fuel,
theorems about termination exhibit an amount which is enough). -/
inductive PyErr
  | zeroDivision
  | valueError
  | attributeError
  | indexError
  | recursionError
  | complexValue
  | outOfFuel
  deriving DecidableEq, Repr

/-- The result of a call that may raise. -/
abbrev Py := Except PyErr

/-- A method that mutates an object (or the heap) of type `σ` and may raise. -/
def PyM (σ α : Type) : Type := σ → Except PyErr α × σ

namespace PyM

variable {σ τ α β : Type}

/-- return without touching the state -/
protected def pure (a : α) : PyM σ α := fun s => (.ok a, s)

/-- sequencing: an exception skips the continuation but keeps the mutations made so far -/
protected def bind (m : PyM σ α) (f : α → PyM σ β) : PyM σ β := fun s =>
  match m s with
  | (.ok a, s') => f a s'
  | (.error e, s') => (.error e, s')

instance : Monad (PyM σ) where
  pure := PyM.pure
  bind := PyM.bind

/-- read the object -/
def get : PyM σ σ := fun s => (.ok s, s)

/-- assign to (a field of) the object -/
def modify (f : σ → σ) : PyM σ Unit := fun s => (.ok (), f s)

/-- evaluate an expression that may raise -/
def lift (x : Py α) : PyM σ α := fun s => (x, s)

/-- `raise` -/
def throw (e : PyErr) : PyM σ α := fun s => (.error e, s)

/-- call a method of a sub-object stored in the object -/
def zoom (getter : σ → τ) (setter : σ → τ → σ) (m : PyM τ α) : PyM σ α := fun s =>
  match m (getter s) with
  | (r, t) => (r, setter s t)

/-- `for _ in range(n): body` -/
def repeatN : Nat → PyM σ Unit → PyM σ Unit
  | 0, _ => PyM.pure ()
  | n + 1, body => PyM.bind body fun _ => repeatN n body

end PyM

noncomputable section

/-- `math.pi` -/
def pyPi : ℝ := Real.pi

/-- `math.sin` -/
def pySin (x : ℝ) : ℝ := Real.sin x

/-- `math.cos` -/
def pyCos (x : ℝ) : ℝ := Real.cos x

/-- `math.tan` (total: no floating-point number is an odd multiple of pi/2) -/
def pyTan (x : ℝ) : ℝ := Real.tan x

/-- `math.e ** x`; `math.e` is idealised to the real number e -/
def pyExp (x : ℝ) : ℝ := Real.exp x

/-- `math.atan2`: the argument of the complex number `x + i y`, in `(-pi, pi]`, 0 at the origin -/
def pyAtan2 (y x : ℝ) : ℝ := Complex.arg ⟨x, y⟩

/-- `math.radians` -/
def pyRadians (x : ℝ) : ℝ := x * pyPi / 180

/-- `math.degrees` -/
def pyDegrees (x : ℝ) : ℝ := x * 180 / pyPi

/-- `abs` -/
def pyAbs (x : ℝ) : ℝ := |x|

/-- `math.floor` -/
def pyFloor (x : ℝ) : Int := ⌊x⌋

/-- `math.ceil` of a non-negative number, used as a loop count -/
def pyCeilNat (x : ℝ) : Nat := ⌈x⌉₊

/-- an `int` used as a `float` -/
def ofInt (z : Int) : ℝ := (z : ℝ)

/-- a loop count used as a `float` -/
def ofNat (n : Nat) : ℝ := (n : ℝ)

/-- `x % y` for `y > 0` (Python's result has the sign of `y`) -/
def pyMod (x y : ℝ) : ℝ := x - y * ofInt (pyFloor (x / y))

/-- `math.sqrt` of an expression which is a sum of squares (or a non-negative literal)
for every input, so the domain test is omitted -/
def sqrtNN (x : ℝ) : ℝ := Real.sqrt x

/-- `a / b` -/
def pyDiv (a b : ℝ) : Py ℝ := if b = 0 then .error .zeroDivision else .ok (a / b)

/-- `math.sqrt` -/
def pySqrt (x : ℝ) : Py ℝ := if x < 0 then .error .valueError else .ok (Real.sqrt x)

/-- `math.asin` -/
def pyAsin (x : ℝ) : Py ℝ :=
  if x < -1 ∨ 1 < x then .error .valueError else .ok (Real.arcsin x)

/-- `math.acos` -/
def pyAcos (x : ℝ) : Py ℝ :=
  if x < -1 ∨ 1 < x then .error .valueError else .ok (Real.arccos x)

/-- `math.log` -/
def pyLog (x : ℝ) : Py ℝ := if x ≤ 0 then .error .valueError else .ok (Real.log x)

/-- `math.log10` -/
def pyLog10 (x : ℝ) : Py ℝ := if x ≤ 0 then .error .valueError else .ok (Real.logb 10 x)

/-- `x ** y` for a fractional exponent `y > 0`: a negative base gives a Python `complex` -/
def pyPow (x y : ℝ) : Py ℝ := if x < 0 then .error .complexValue else .ok (x ^ y)

/-- `x ** n` for a non-negative integer `n` -/
def pyPowNat (x : ℝ) (n : Nat) : ℝ := x ^ n

/-- `x ** (-y)` for a fractional `y > 0`: raises for `x = 0`, a Python `complex` for `x < 0` -/
def pyPowNeg (x y : ℝ) : Py ℝ :=
  if x = 0 then .error .zeroDivision else if x < 0 then .error .complexValue else .ok (x ^ (-y))

/-- `table[n][m]` for non-negative indices -/
def pyIndex2 (table : List (List ℝ)) (n m : Nat) : Py ℝ :=
  match table[n]? with
  | none => .error .indexError
  | some row =>
    match row[m]? with
    | none => .error .indexError
    | some v => .ok v

end

end Openspace
