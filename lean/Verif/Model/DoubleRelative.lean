import Verif.Model.DoubleElements
import Verif.Model.Relative

/-!
# The relative propagator in double precision

`Model/Relative` with every operation rounded to the nearest double; sine and cosine are those of the C library, given
as arbitrary functions.  As in `Model/Double` the exponent range is not bounded and zeros have no sign.  Only the state
vector is modelled; `HCW.from_state_vector` hands it on unchanged.
-/

namespace Openspace.F64

noncomputable section

/-- `Vector6D.dot` (linalg.py 61-76) -/
def dot6 (a b : Vec6) : ℝ :=
  rnd (rnd (rnd (rnd (rnd (rnd (a.x * b.x) + rnd (a.y * b.y)) + rnd (a.z * b.z)) + rnd (a.vx * b.vx)) +
    rnd (a.vy * b.vy)) + rnd (a.vz * b.vz))

/-- `Matrix6D.multiply_vector` (linalg.py 895-910) -/
def mulVec6 (m : Mat6) (v : Vec6) : Vec6 :=
  ⟨dot6 m.row1 v, dot6 m.row2 v, dot6 m.row3 v, dot6 m.row4 v, dot6 m.row5 v, dot6 m.row6 v⟩

/-- the attribute `n` set by `Hill.__init__` (relative.py 28) -/
def hillRate (sma : ℝ) : Py ℝ := do
  let q ← div mu (rnd (rnd (sma * sma) * sma))
  sqrt q

/-- `Hill.system_matrix` (relative.py 33-63) -/
def hillMatrix (lib : Libm) (n t : ℝ) : Py Mat6 := do
  let n_inv ← div 1 n
  let sn := lib.sin (rnd (n * t))
  let cs := lib.cos (rnd (n * t))
  pure
    ⟨⟨rnd (4 - rnd (3 * cs)), 0, 0, rnd (sn * n_inv), rnd (rnd (2 * rnd (1 - cs)) * n_inv), 0⟩,
     ⟨rnd (6 * rnd (sn - rnd (n * t))), 1, 0, rnd (rnd (-2 * rnd (1 - cs)) * n_inv),
       rnd (rnd (rnd (4 * sn) - rnd (rnd (3 * n) * t)) * n_inv), 0⟩,
     ⟨0, 0, cs, 0, 0, rnd (sn * n_inv)⟩,
     ⟨rnd (rnd (3 * n) * sn), 0, 0, cs, rnd (2 * sn), 0⟩,
     ⟨rnd (rnd (-6 * n) * rnd (1 - cs)), 0, 0, rnd (-2 * sn), rnd (rnd (4 * cs) - 3), 0⟩,
     ⟨0, 0, rnd (-n * sn), 0, 0, cs⟩⟩

/-- the state vector after `Hill.step_by_seconds` (relative.py 65-71) -/
def hillStep (lib : Libm) (n t : ℝ) (x : Vec6) : Py Vec6 := do
  let m ← hillMatrix lib n t
  pure (mulVec6 m x)

/-- the state vector after `k` calls of `Hill.step` (relative.py 73-75) with step size `h` -/
def hillSteps (lib : Libm) (n h : ℝ) : ℕ → Vec6 → Py Vec6
  | 0, x => pure x
  | k + 1, x => do
    let y ← hillSteps lib n h k x
    hillStep lib n h y

end

end Openspace.F64
