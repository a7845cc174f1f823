import Verif.Model.States

/-!
# Model of `/repo/src/openspace/propagators/relative.py`
-/

namespace Openspace

noncomputable section

/-- `Hill` (relative.py 8-31) -/
@[ext] structure Hill where
  state : State
  sma : ℝ
  n : ℝ
  step_size : ℝ

namespace Hill

/-- `Hill.__init__` (relative.py 13-31) -/
def new (state : State) (sma : ℝ) : Py Hill := do
  let q ← pyDiv Earth.MU (sma * sma * sma)
  let n ← pySqrt q
  pure ⟨state.copy, sma, n, 600⟩

/-- `Hill.system_matrix` (relative.py 33-63) -/
def systemMatrix (p : Hill) (t : ℝ) : Py Mat6 := do
  let n := p.n
  let n_inv ← pyDiv 1 n
  let sn := pySin (n * t)
  let cs := pyCos (n * t)
  pure
    ⟨⟨4 - 3 * cs, 0, 0, sn * n_inv, 2 * (1 - cs) * n_inv, 0⟩,
     ⟨6 * (sn - n * t), 1, 0, -2 * (1 - cs) * n_inv, (4 * sn - 3 * n * t) * n_inv, 0⟩,
     ⟨0, 0, cs, 0, 0, sn * n_inv⟩,
     ⟨3 * n * sn, 0, 0, cs, 2 * sn, 0⟩,
     ⟨-6 * n * (1 - cs), 0, 0, -2 * sn, 4 * cs - 3, 0⟩,
     ⟨0, 0, -n * sn, 0, 0, cs⟩⟩

/-- `Hill.step_by_seconds` (relative.py 65-71) -/
def stepBySeconds (t : ℝ) : PyM Hill Unit := do
  let p ← PyM.get
  let m ← PyM.lift (p.systemMatrix t)
  PyM.modify fun p => { p with state := State.fromStateVector (m.mulVec p.state.vector) }

/-- `Hill.step` (relative.py 73-75) -/
def step : PyM Hill Unit := do
  let p ← PyM.get
  stepBySeconds p.step_size

end Hill

end

end Openspace
