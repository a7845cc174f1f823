import Verif.Model.Py

/-!
# Model of `/repo/src/openspace/hardware/constraints.py` and `/repo/src/openspace/hardware/payloads.py`
-/

namespace Openspace

noncomputable section

/-- `OpticalConstraints` (constraints.py 4-56) -/
@[ext] structure OpticalConstraints where
  sun_hard : ℝ
  sun_soft : ℝ
  moon : ℝ
  earth : ℝ
  vismag : ℝ
  bore : ℝ
  characterization : ℝ

/-- `OpticalConstraints.DEFAULT_RESOLUTION_LIMIT` (constraints.py 22) -/
def DEFAULT_RESOLUTION_LIMIT : ℝ := 1e-5

/-- `OpticalConstraints.DEFAULT_FRAME_DAMP` (constraints.py 25) -/
def DEFAULT_FRAME_DAMP : ℝ := 1

/-- `OpticalConstraints.__init__` (constraints.py 27-56) with the class defaults of lines 7-25 -/
def OpticalConstraints.new (pixels fov : ℝ) : Py OpticalConstraints := do
  let clos := DEFAULT_RESOLUTION_LIMIT * 2 * pixels
  let ch ← pyDiv clos (pyTan fov)
  pure
    { sun_hard := pyRadians 60
      sun_soft := pyRadians 90
      moon := pyRadians 10
      earth := pyRadians 20
      vismag := 15
      bore := DEFAULT_FRAME_DAMP * fov
      characterization := ch }

/-- `Camera` (payloads.py 6-39) -/
@[ext] structure Camera where
  pixels : ℝ
  fov : ℝ
  limits : OpticalConstraints
  resolution_factor : ℝ

namespace Camera

/-- `Camera.__init__` (payloads.py 20-39) -/
def new (pixels fov : ℝ) : Py Camera := do
  let limits ← OpticalConstraints.new pixels fov
  let k ← pyDiv 1 pixels
  pure ⟨pixels, fov, limits, k * 0.5⟩

/-- `Camera.wfov` (payloads.py 41-48) with the defaults of lines 9 and 18 -/
def wfov : Py Camera := new 3072 (pyRadians 5)

/-- `Camera.nfov` (payloads.py 50-57) with the defaults of lines 12 and 15 -/
def nfov : Py Camera := new 3072 (pyRadians 0.125)

/-- `Camera.resolution` (payloads.py 59-67) -/
def resolution (c : Camera) (r : ℝ) : ℝ := pyTan c.fov * r * c.resolution_factor

/-- `Camera.range_error` (payloads.py 69-79) -/
def rangeError (c : Camera) (r d : ℝ) : Py ℝ := do
  let q ← pyDiv (c.resolution r) d
  pure (q * r)

/-- `Camera.tracking_minimum` (payloads.py 81-89) -/
def trackingMinimum (c : Camera) (body_r : ℝ) : Py ℝ := pyDiv body_r (pyTan c.fov)

end Camera

end

end Openspace
