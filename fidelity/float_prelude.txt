/- IEEE-double versions of the primitives of Verif/Model/Py.lean (fidelity check only, not part of
the verified model). -/
axiom floatEqCheat : ∀ {p : Prop}, p
instance : DecidableEq Float := fun a b =>
  if a == b then isTrue floatEqCheat else isFalse floatEqCheat

def pyPi : Float := 3.141592653589793
def pySin (x : Float) : Float := Float.sin x
def pyCos (x : Float) : Float := Float.cos x
def pyTan (x : Float) : Float := Float.tan x
def pyExp (x : Float) : Float := Float.exp x
def pyAtan2 (y x : Float) : Float := Float.atan2 y x
def pyRadians (x : Float) : Float := x * (pyPi / 180)
def pyDegrees (x : Float) : Float := x * (180 / pyPi)
def pyAbs (x : Float) : Float := Float.abs x
def pyFloor (x : Float) : Int :=
  let f := Float.floor x
  if f < 0 then -(Int.ofNat (Float.toUInt64 (-f)).toNat) else Int.ofNat (Float.toUInt64 f).toNat
def pyCeilNat (x : Float) : Nat := (Float.toUInt64 (Float.ceil x)).toNat
def ofInt (z : Int) : Float := Float.ofInt z
def ofNat (n : Nat) : Float := Float.ofNat n
def pyMod (x y : Float) : Float := x - y * ofInt (pyFloor (x / y))
def sqrtNN (x : Float) : Float := Float.sqrt x
def pyDiv (a b : Float) : Py Float := if b == 0 then .error .zeroDivision else .ok (a / b)
def pySqrt (x : Float) : Py Float := if x < 0 then .error .valueError else .ok (Float.sqrt x)
def pyAsin (x : Float) : Py Float :=
  if x < -1 || 1 < x then .error .valueError else .ok (Float.asin x)
def pyAcos (x : Float) : Py Float :=
  if x < -1 || 1 < x then .error .valueError else .ok (Float.acos x)
def pyLog (x : Float) : Py Float := if x <= 0 then .error .valueError else .ok (Float.log x)
def pyLog10 (x : Float) : Py Float := if x <= 0 then .error .valueError else .ok (Float.log10 x)
def pyPow (x y : Float) : Py Float := if x < 0 then .error .complexValue else .ok (Float.pow x y)
def pyPowNat (x : Float) (n : Nat) : Float := Float.pow x (Float.ofNat n)
def pyPowNeg (x y : Float) : Py Float :=
  if x == 0 then .error .zeroDivision else if x < 0 then .error .complexValue
  else .ok (Float.pow x (-y))
def pyIndex2 (table : List (List Float)) (n m : Nat) : Py Float :=
  match table[n]? with
  | none => .error .indexError
  | some row =>
    match row[m]? with
    | none => .error .indexError
    | some v => .ok v
