import Verif.Model.States

/-!
# Model of `/repo/src/openspace/coordinates/elements.py`
-/

namespace Openspace

noncomputable section

/-- `ClassicalElements` (elements.py 10-48) -/
@[ext] structure ClassicalElements where
  epoch : Epoch
  semimajor_axis : ℝ
  eccentricity : ℝ
  inclination : ℝ
  raan : ℝ
  argument_of_perigee : ℝ
  mean_anomaly : ℝ

namespace ClassicalElements

/-- `ClassicalElements.from_ijk` (elements.py 50-69) -/
def fromIjk (state : State) : Py ClassicalElements := do
  let r := state.position.magnitude
  let v := state.velocity.magnitude
  let rdv := state.position.dot state.velocity
  let h := hFromRV state.position state.velocity
  let w ← h.normalized
  let i := incFromW w
  let raan := raanFromW w
  let a ← aFromMuRV Earth.MU r v
  let p ← pFromMuH Earth.MU h.magnitude
  let e ← eFromAP a p
  let n ← nFromAMu a Earth.MU
  let ea ← eaFromRdvRAN rdv r a n
  let ma := maFromEaE ea e
  let u := uFromRW state.position w
  let nu ← nuFromEEa e ea
  let aop := wFromUNu u nu
  pure ⟨state.epoch.copy, a, e, i, raan, aop, ma⟩

/-- `ClassicalElements.eccentric_anomaly` (elements.py 71-77) -/
def eccentricAnomaly (fuel : Nat) (el : ClassicalElements) : Py ℝ :=
  eaFromMaE fuel el.mean_anomaly el.eccentricity

/-- `ClassicalElements.perigee_vector` (elements.py 79-90) -/
def perigeeVector (el : ClassicalElements) : Py Vec3 :=
  let cw := pyCos el.argument_of_perigee
  let c0 := pyCos el.raan
  let sw := pySin el.argument_of_perigee
  let s0 := pySin el.raan
  let ci := pyCos el.inclination
  Vec3.normalized
    ⟨cw * c0 - sw * ci * s0, cw * s0 + sw * ci * c0, sw * pySin el.inclination⟩

/-- `ClassicalElements.semilatus_rectum_vector` (elements.py 92-105) -/
def semilatusRectumVector (el : ClassicalElements) : Vec3 :=
  let cw := pyCos el.argument_of_perigee
  let c0 := pyCos el.raan
  let sw := pySin el.argument_of_perigee
  let s0 := pySin el.raan
  let ci := pyCos el.inclination
  ⟨-sw * c0 - cw * ci * s0, -sw * s0 + cw * ci * c0, cw * pySin el.inclination⟩

/-- `ClassicalElements.to_ijk` (elements.py 107-131) -/
def toIjk (fuel : Nat) (el : ClassicalElements) : Py State := do
  let p ← el.perigeeVector
  let q := el.semilatusRectumVector
  let ea ← el.eccentricAnomaly fuel
  let cea := pyCos ea
  let sea := pySin ea
  let r := el.semimajor_axis * (1 - el.eccentricity * cea)
  let rinv ← pyDiv 1 r
  let mua ← pyDiv Earth.MU el.semimajor_axis
  let smua ← pySqrt mua
  let ea_dot := rinv * smua
  let se ← pySqrt (1 - el.eccentricity * el.eccentricity)
  let b := el.semimajor_axis * se
  let x_bar := el.semimajor_axis * (cea - el.eccentricity)
  let y_bar := b * sea
  let x_bar_dot := -el.semimajor_axis * ea_dot * sea
  let y_bar_dot := b * ea_dot * cea
  pure (State.new el.epoch ((p.scaled x_bar).plus (q.scaled y_bar))
    ((p.scaled x_bar_dot).plus (q.scaled y_bar_dot)))

end ClassicalElements

end

end Openspace
