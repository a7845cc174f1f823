import Verif.Props.StepSucceeds
import Verif.Props.Maneuvers

/-!
# Concrete runs

Successful propagations, burns and finite manoeuvres, in which the properties C40, C45, C46 and C47 fail.
-/

namespace Openspace

open Real

variable {ι : Type} [DecidableEq ι]

/-- the epoch and the step landed on are as C41 says, in a run of eight steps -/
example : ∃ p', RK4.stepToEpoch ⟨59932 + 2300 / 86400⟩ geoExample = (.ok (), p') ∧
    p'.state.epoch.value = 59932 + 2300 / 86400 ∧ p'.step_size = 300 := by
  obtain ⟨p', h⟩ := geoExample_flies 2300 (by norm_num)
  obtain ⟨h1, h2, -⟩ := C41_lands _ _ _ h
  exact ⟨p', h, by rw [h1], h2⟩

/-- a geosynchronous satellite propagated without perturbations -/
noncomputable def switchedOff : RK4 :=
  { geoExample with state := { geoExample.state with use_perturbations := false } }

/-- a step turns the perturbations back on -/
theorem C40_violated_witness : ∃ p p' : RK4, p.state.use_perturbations = false ∧ RK4.step p = (.ok (), p') ∧
    p'.state.use_perturbations = true := by
  obtain ⟨h1, h2, h3, h4⟩ := geoExample_data
  obtain ⟨p', hp⟩ := C90_step switchedOff 0 (by show 6378 ≤ geoExample.state.position.magnitude; rw [h1]; norm_num)
    (by show geoExample.state.position.magnitude ≤ _; rw [h1]; norm_num) h4
    (by
      intro dt _
      refine ⟨_, C43_off _ dt rfl, ?_⟩
      rw [Vec3.magnitude_eq_zero.mpr rfl]
      show 0 + 4.56e-9 * |(0 : ℝ)| ≤ 0
      rw [abs_zero]; norm_num)
    (by
      show |(300 : ℝ)| * geoExample.state.velocity.magnitude ≤ 0.35 * geoExample.state.position.magnitude
      rw [h1, h2]; norm_num [abs_of_pos])
    (by
      show |(0 : ℝ)| + 9 * (|(300 : ℝ)| * geoExample.state.velocity.magnitude +
        300 ^ 2 * (Earth.MU / geoExample.state.position.magnitude ^ 2 + 0)) < 8 * geoExample.state.position.axial
      rw [h1, h2, h3]; norm_num [abs_of_pos, Earth.MU])
  exact ⟨switchedOff, p', rfl, hp, C40_violated _ _ hp⟩

/-- a burning geosynchronous satellite, steps of 300 s -/
noncomputable def burningGeo : RK4 :=
  { geoExample with thrust_direction := ⟨0, 1, 0⟩, m0 := 800, m_dot := 0.003, isp := 350 }

/-- the acceleration jumps back at the start of the second step of a burn -/
theorem C47_violated_witness : ∃ p q : RK4, RK4.step p = (.ok (), q) ∧
    q.thrustVector 0 ≠ p.thrustVector p.step_size := by
  obtain ⟨h1, h2, h3, h4⟩ := geoExample_data
  have hd : (⟨0, 1, 0⟩ : Vec3) ≠ ⟨0, 0, 0⟩ := by intro h; have := congrArg Vec3.y h; norm_num at this
  obtain ⟨q, hq⟩ := C90_step burningGeo 1e-3 (by show 6378 ≤ geoExample.state.position.magnitude; rw [h1]; norm_num)
    (by show geoExample.state.position.magnitude ≤ _; rw [h1]; norm_num) h4
    (by
      intro dt hdt
      have hdt' : 0 ≤ dt ∧ dt ≤ 300 := by
        have : burningGeo.step_size = 300 := rfl
        rw [this] at hdt
        rcases hdt with rfl | rfl | rfl <;> norm_num
      obtain ⟨u, hu, ht⟩ := C43_thrust burningGeo dt (by norm_num [burningGeo]) (by norm_num [burningGeo])
        (by show (0.003 : ℝ) * dt < 800; norm_num; linarith [hdt'.2]) hd
      refine ⟨_, ht, ?_⟩
      have hu1 : u.magnitude = 1 := by
        rw [Vec3.normalized_eq_ok] at hu
        rw [hu.2]; exact Vec3.magnitude_unit (Vec3.unit_dot hd)
      rw [Vec3.magnitude_scaled_abs, hu1, mul_one]
      show |0.003 * 350 * SEA_LEVEL_G / (800 - 0.003 * dt)| + 4.56e-9 * |(0 : ℝ)| ≤ 1e-3
      have hm : 799 ≤ 800 - 0.003 * dt := by norm_num; linarith [hdt'.2]
      rw [abs_zero, mul_zero, add_zero, abs_of_nonneg (div_nonneg (by norm_num [SEA_LEVEL_G]) (by linarith)),
        div_le_iff₀ (by linarith)]
      norm_num [SEA_LEVEL_G] at hm ⊢; linarith)
    (by
      show |(300 : ℝ)| * geoExample.state.velocity.magnitude ≤ 0.35 * geoExample.state.position.magnitude
      rw [h1, h2]; norm_num [abs_of_pos])
    (by
      show |(0 : ℝ)| + 9 * (|(300 : ℝ)| * geoExample.state.velocity.magnitude +
        300 ^ 2 * (Earth.MU / geoExample.state.position.magnitude ^ 2 + 1e-3)) < 8 * geoExample.state.position.axial
      rw [h1, h2, h3]; norm_num [abs_of_pos, Earth.MU])
  refine ⟨burningGeo, q, hq, (C47_violated burningGeo q ?_ ?_ ?_ hd ?_ ?_ hq).2⟩
  · norm_num [burningGeo]
  · norm_num [burningGeo]
  · norm_num [burningGeo]
  · show (0 : ℝ) < 300; norm_num
  · show (0.003 : ℝ) * 300 < 800; norm_num

/-- a finite manoeuvre succeeds when the frame is defined and the burn succeeds -/
theorem finiteManeuver_of_burn {w : World ι} {i : ι} {dv : Vec3} {M : Mat3} {q : RK4}
    (hM : frameMatrix (w i).propagator.state = .ok M)
    (hq : RK4.maneuver (M.mulVec dv) (w i).m_dot (w i).totalMass (w i).isp (w i).propagator = (.ok (), q))
    (hm : (w i).m_dot ≠ 0) (ht : (w i).totalMass ≠ 0) (hi : (w i).isp ≠ 0) :
    ∃ w', Spacecraft.finiteManeuver i dv w = (.ok (), w') := by
  have e0 : ∀ t : RK4, ({ w i with propagator := t } : Spacecraft ι).totalMass = (w i).totalMass := fun _ => rfl
  have hms : (w i).m_dot / (w i).totalMass ≠ 0 := div_ne_zero hm ht
  have hx : -(w i).isp * ((w i).m_dot / (w i).totalMass) * SEA_LEVEL_G ≠ 0 :=
    mul_ne_zero (mul_ne_zero (neg_ne_zero.mpr hi) hms) g_pos.ne'
  refine ⟨Function.update w i { w i with
    propagator := q
    propellant_mass := (w i).propellant_mass - (w i).m_dot * (-1 / ((w i).m_dot / (w i).totalMass) *
      (1 - pyExp ((w i).m_dot / (w i).totalMass * (M.mulVec dv).magnitude /
        (-(w i).isp * ((w i).m_dot / (w i).totalMass) * SEA_LEVEL_G)))) }, ?_⟩
  unfold Spacecraft.finiteManeuver
  rw [PyM.bind_eq_ok]
  refine ⟨w i, w, rfl, ?_⟩
  rw [PyM.bind_eq_ok]
  refine ⟨M, w, PyM.lift_eq_ok.mpr ⟨hM, rfl⟩, ?_⟩
  rw [PyM.bind_eq_ok]
  refine ⟨(), Function.update w i { w i with propagator := q }, ?_, ?_⟩
  · unfold Spacecraft.onPropagator PyM.zoom
    rw [hq]
  · rw [PyM.bind_eq_ok]
    refine ⟨_, _, rfl, ?_⟩
    simp only [PyM.bind_eq_ok, PyM.lift_eq_ok, Function.update_self, e0]
    refine ⟨_, _, ⟨pyDiv_ok ht, rfl⟩, _, _, ⟨pyDiv_ok hms, rfl⟩, _, _, ⟨pyDiv_ok hx, rfl⟩, ?_⟩
    simp only [Spacecraft.assign, PyM.modify_apply, Function.update_self, Function.update_idem]

/-- a spacecraft crossing the inertial y axis, in geosynchronous orbit -/
noncomputable def crossing : GCRF := GCRF.new ⟨59932⟩ ⟨0, 42164, 0⟩ ⟨-3.07, 0, 0⟩

/-- a finite manoeuvre of 1 m/s, commanded radially outward, of a spacecraft built by the constructor: it succeeds,
adds propellant, and thrusts straight towards the Earth -/
theorem C45_violated_witness : ∃ (w w' : World ℕ), Spacecraft.Fresh w ∧
    Spacecraft.finiteManeuver 0 ⟨0.001, 0, 0⟩ w = (.ok (), w') ∧
    (w 0).propellant_mass < (w' 0).propellant_mass ∧
    (w' 0).propagator.thrust_direction = (w 0).propagator.state.position.scaled (-0.001 / 42164) := by
  obtain ⟨w, hw, hn⟩ := exists_fresh (ι := ℕ) (fun _ => crossing)
  obtain ⟨s, hs, -, -, hprop, -, -, -, -, -, -, hmd, hisp, hdry, hpm⟩ := new_ok (ι := ℕ) crossing
  have hws : w 0 = s := by have := (hn 0).symm.trans hs; cases this; rfl
  have htot : (w 0).totalMass = 800 := by rw [hws, Spacecraft.totalMass, hdry, hpm]; norm_num
  rw [← hws] at hprop hmd hisp
  have hpos : (w 0).propagator.state.position = ⟨0, 42164, 0⟩ := by rw [hprop]; rfl
  have hvel : (w 0).propagator.state.velocity = ⟨-3.07, 0, 0⟩ := by rw [hprop]; rfl
  have mp : (⟨0, 42164, 0⟩ : Vec3).magnitude = 42164 :=
    Vec3.magnitude_of_dot (by norm_num) (by simp only [Vec3.dot]; norm_num)
  have mv : (⟨-3.07, 0, 0⟩ : Vec3).magnitude = 3.07 :=
    Vec3.magnitude_of_dot (by norm_num) (by simp only [Vec3.dot]; norm_num)
  have hax : Vec3.axial ⟨0, 42164, 0⟩ = 42164 := by
    rw [Vec3.axial, show ((0 : ℝ) ^ 2 + 42164 ^ 2) = 42164 ^ 2 by ring]
    exact Real.sqrt_sq (by norm_num)
  have hcr : (⟨0, 42164, 0⟩ : Vec3).cross ⟨-3.07, 0, 0⟩ ≠ ⟨0, 0, 0⟩ := by
    intro h; have := congrArg Vec3.z h; norm_num [Vec3.cross] at this
  obtain ⟨M, hM⟩ : ∃ M, frameMatrix (w 0).propagator.state = .ok M := by
    simp only [frameMatrix, hpos, hvel]
    rw [Vec3.normalized_ok (Vec3.magnitude_pos.mp (by rw [mp]; norm_num)), ok_bind, Vec3.normalized_ok hcr, ok_bind]
    exact ⟨_, rfl⟩
  have hmag : (M.mulVec ⟨0.001, 0, 0⟩).magnitude = 0.001 := by
    rw [(frameMatrix_isRotation hM).orth.magnitude_mulVec]
    exact Vec3.magnitude_of_dot (by norm_num) (by simp only [Vec3.dot]; norm_num)
  obtain ⟨E, hE⟩ : ∃ E, E = exp (-(M.mulVec ⟨0.001, 0, 0⟩).magnitude / (350 * SEA_LEVEL_G)) := ⟨_, rfl⟩
  have hE1 : 0.999 ≤ E := by
    rw [hE, hmag]
    refine le_trans ?_ (add_one_le_exp _)
    norm_num [SEA_LEVEL_G]
  have hE2 : E ≤ 1 := by rw [hE, hmag, exp_le_one_iff]; norm_num [SEA_LEVEL_G]
  obtain ⟨S, hS⟩ : ∃ S, S = 800 / 0.003 * (1 - E) := ⟨_, rfl⟩
  obtain ⟨T, hT⟩ : ∃ T, T = 0.003 * 350 * SEA_LEVEL_G / (800 * E) + 0 := ⟨_, rfl⟩
  have hSb : S ≤ 300 := by rw [hS]; norm_num at hE1 ⊢; linarith
  have hS0 : 0 ≤ S := by rw [hS]; norm_num; linarith
  have hTb : T ≤ 1e-3 := by
    rw [hT, add_zero, div_le_iff₀ (by norm_num at hE1; linarith)]
    norm_num [SEA_LEVEL_G] at hE1 ⊢; linarith
  have hT0 : 0 ≤ T := by
    have := g_pos
    have : 0 ≤ E := by norm_num at hE1; linarith
    rw [hT]; positivity
  have hb : S * 3.07 + S ^ 2 * (Earth.MU / 42164 ^ 2 + T) ≤ 1200 := by
    have q1 : S ^ 2 ≤ 300 ^ 2 := pow_le_pow_left₀ hS0 hSb 2
    have q2 : Earth.MU / 42164 ^ 2 + T ≤ 1.3e-3 := by
      have : Earth.MU / 42164 ^ 2 ≤ 2.25e-4 := by norm_num [Earth.MU]
      norm_num at this hTb ⊢; linarith
    have q3 : S ^ 2 * (Earth.MU / 42164 ^ 2 + T) ≤ 300 ^ 2 * 1.3e-3 :=
      mul_le_mul q1 q2 (add_nonneg (by norm_num [Earth.MU]) hT0) (by norm_num)
    norm_num at q3 ⊢; linarith
  have hsrp : (w 0).propagator.state.srp_scalar = 0 := by rw [hprop]; rfl
  obtain ⟨q, hq, -⟩ := C90_burn (w 0).propagator (M.mulVec ⟨0.001, 0, 0⟩) 0.003 800 350 S (Earth.MU / 42164 ^ 2)
    (S * 3.07 + S ^ 2 * (Earth.MU / 42164 ^ 2 + T)) T
    (Vec3.magnitude_pos.mp (by rw [hmag]; norm_num)) (by norm_num) (by norm_num) (by norm_num)
    (by rw [hpos, mp]; norm_num) (by rw [hpos, mp]; norm_num) (by rw [hprop]; exact geoExample_data.2.2.2)
    (by rw [hS, hE]) (by rw [hpos, mp]) (by rw [hsrp, abs_zero, mul_zero, ← hE, hT]) (by rw [hvel, mv])
    (by rw [hpos, mp]; linarith) (by rw [hpos, hax]; simp only [abs_zero]; linarith)
  obtain ⟨w', hw'⟩ := finiteManeuver_of_burn (dv := ⟨0.001, 0, 0⟩) hM (by rw [hmd, htot, hisp]; exact hq)
    (by rw [hmd]; norm_num) (by rw [htot]; norm_num) (by rw [hisp]; norm_num)
  have hz : (⟨0.001, 0, 0⟩ : Vec3) ≠ ⟨0, 0, 0⟩ := by intro h; have := congrArg Vec3.x h; norm_num at this
  exact ⟨w, w', hw, hw', (C45_violated w w' 0 _ hw').2 (by rw [htot]; norm_num) (by rw [hisp]; norm_num) hz,
    C46_violated w w' 0 42164 3.07 0.001 (by norm_num) (by norm_num) hpos hvel hw'⟩

/-- the thrust is opposite to the one commanded -/
theorem C46_violated_witness : ∃ (w w' : World ℕ), Spacecraft.Fresh w ∧
    Spacecraft.finiteManeuver 0 ⟨0.001, 0, 0⟩ w = (.ok (), w') ∧
    (w' 0).propagator.thrust_direction = (w 0).propagator.state.position.scaled (-0.001 / 42164) := by
  obtain ⟨w, w', h1, h2, -, h3⟩ := C45_violated_witness
  exact ⟨w, w', h1, h2, h3⟩

end Openspace
