import Verif.Model.Linalg
import Verif.Model.Double
import Mathlib.Data.Nat.Digits.Defs

/-!
# Model of the string conversions of `/repo/src/openspace/math/linalg.py`
-/

namespace Openspace

noncomputable section

/-- the character of a digit -/
def digitChar (d : ℕ) : Char := Char.ofNat (48 + d)

/-- the decimal digits of a natural number, most significant first -/
def decimalDigits (n : ℕ) : List Char := if n = 0 then ['0'] else ((Nat.digits 10 n).map digitChar).reverse

/-- `f"{x:.6f}"`: CPython rounds the exact value of the float to the nearest multiple of 1e-6, ties to even, and keeps
the sign of a negative number that is rounded to zero.  The signed zero `-0.0` itself is not modelled. -/
def fixed6 (x : ℝ) : List Char :=
  let n := (F64.roundEven (|x| * 1000000)).toNat
  let m := n % 1000000
  (if x < 0 then ['-'] else []) ++ decimalDigits (n / 1000000) ++ '.' ::
    [m / 100000, m / 10000 % 10, m / 1000 % 10, m / 100 % 10, m / 10 % 10, m % 10].map digitChar

/-- `Vector3D.__str__` (linalg.py 175-181) -/
def Vec3.str (v : Vec3) : String :=
  String.ofList (fixed6 v.x ++ ' ' :: fixed6 v.y ++ ' ' :: fixed6 v.z)

/-- `Vector6D.__str__` (linalg.py 53-59) -/
def Vec6.str (v : Vec6) : String :=
  String.ofList (fixed6 v.x ++ ' ' :: fixed6 v.y ++ ' ' :: fixed6 v.z ++ ' ' :: fixed6 v.vx ++ ' ' :: fixed6 v.vy ++
    ' ' :: fixed6 v.vz)

end

end Openspace
