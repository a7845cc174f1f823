import Verif.Props.Witnesses
import Verif.Props.Burn
import Verif.Props.GaussConvergence
import Verif.Props.GaussTime
import Verif.Props.FilterError
import Verif.Props.Observations
import Verif.Props.Attitude

/-!
# Concrete cases of C34, C42, C44, C51 to C55, C58, C60 and C83
-/

namespace Openspace

open Real Spacecraft

/-- C34: an impulse of 5 m/s forward and 1 m/s across the orbit of a spacecraft made by the constructor -/
example : ∃ w w' : World (Fin 1), Fresh w ∧ impulsiveManeuver 0 ⟨0, 0.005, 0.001⟩ w = (.ok (), w') ∧
    (w' 0).propagator.state.velocity ≠ (w 0).propagator.state.velocity := by
  obtain ⟨w, hw, hg⟩ := exists_fresh (ι := Fin 1) fun _ => geoState
  have hp : (w 0).propagator = RK4.new geoState := by
    obtain ⟨s, h1, -, -, h2, -⟩ := new_ok (ι := Fin 1) geoState
    rw [hg 0] at h1
    cases h1
    exact h2
  obtain ⟨w', M, h1, -, -, -, -, h2, -⟩ := C34_impulse w 0 ⟨0, 0.005, 0.001⟩ (by
    rw [hp]; exact geoState_nonDegenerate)
  refine ⟨w, w', hw, h1, ?_⟩
  intro h
  rw [h] at h2
  have h3 : (⟨0, 0.005, 0.001⟩ : Vec3).magnitude = 0 := by
    rw [← h2, Vec3.magnitude_eq_zero]; ext <;> simp [Vec3.minus]
  have := congrArg Vec3.y (Vec3.magnitude_eq_zero.mp h3)
  norm_num at this

/-- a step of 300 s of a geosynchronous satellite -/
theorem geo_step : ∃ p', RK4.step geoExample = (.ok (), p') := by
  obtain ⟨h1, h2, h3, h4⟩ := geoExample_data
  exact C90_step geoExample 0 (by rw [h1]; norm_num) (by rw [h1]; norm_num) h4
    (by
      intro dt _
      refine ⟨_, C43_off _ dt rfl, ?_⟩
      rw [Vec3.magnitude_eq_zero.mpr rfl]
      show 0 + 4.56e-9 * |(0 : ℝ)| ≤ 0
      rw [abs_zero]; norm_num)
    (by
      show |(300 : ℝ)| * geoExample.state.velocity.magnitude ≤ 0.35 * geoExample.state.position.magnitude
      rw [h1, h2]; norm_num [abs_of_pos])
    (by
      show |(0 : ℝ)| + 9 * (|(300 : ℝ)| * geoExample.state.velocity.magnitude +
        300 ^ 2 * (Earth.MU / geoExample.state.position.magnitude ^ 2 + 0)) < 8 * geoExample.state.position.axial
      rw [h1, h2, h3]; norm_num [abs_of_pos, Earth.MU])

/-- C42: its step is the classical Runge-Kutta step -/
example : ∃ f p', Represents geoExample f ∧ RK4.step geoExample = (.ok (), p') ∧
    Spec.phase p'.state.position p'.state.velocity =
      Spec.rk4 f 0 300 (Spec.phase ⟨42164, 0, 0⟩ ⟨0, 3.07, 0⟩) := by
  obtain ⟨f, hf⟩ := exists_represents geoExample
  obtain ⟨p', hp⟩ := geo_step
  exact ⟨f, p', hf, hp, (C42_classical geoExample p' f hf rfl rfl hp).1⟩

/-- C44: a burn of 10 m/s with the default engine lasts between five minutes and three quarters of an hour -/
example : ∃ p', RK4.maneuver ⟨0, 0.01, 0⟩ Spacecraft.DEFAULT_M_DOT
      (Spacecraft.DEFAULT_MASS + Spacecraft.DEFAULT_PROP_MASS) Spacecraft.DEFAULT_ISP geoExample = (.ok (), p') ∧
    300 < (p'.state.epoch.value - geoExample.state.epoch.value) * 86400 := by
  obtain ⟨p', hp, hT⟩ := geoExample_default_burn
  refine ⟨p', hp, ?_⟩
  rw [(C44_duration _ _ _ _ _ _ (by norm_num [Spacecraft.DEFAULT_M_DOT])
    (by norm_num [Spacecraft.DEFAULT_MASS, Spacecraft.DEFAULT_PROP_MASS]) (by norm_num [Spacecraft.DEFAULT_ISP]) hp).1]
  exact hT

/-- C51 to C54: a filter, and an observation with noise that it processes -/
example : ∃ p s s', Hill.new (State.new ⟨0⟩ ⟨1, 9, 0⟩ ⟨0, 0, 0⟩) 42164 = .ok p ∧ RelativeKalman.new ⟨0⟩ p = .ok s ∧
    RelativeKalman.process (SpaceObservation.new geoState ⟨0, 10, 0⟩ 0.1 0) s = (.ok (), s') ∧
    s'.epoch = geoState.epoch ∧ ∃ P R, s'.p10 = some P ∧ s'.r = some R := by
  obtain ⟨p, hp, hn, -⟩ := hill_new_ok (State.new ⟨0⟩ ⟨1, 9, 0⟩ ⟨0, 0, 0⟩) (show (0:ℝ) < 42164 by norm_num)
  have hs : ∃ s, RelativeKalman.new ⟨0⟩ p = .ok s := by
    simp only [RelativeKalman.new, Hill.systemMatrix_ok hn.ne', ok_bind, pure_eq_ok]
    exact ⟨_, rfl⟩
  obtain ⟨s, hs⟩ := hs
  obtain ⟨ob, hob⟩ : ∃ ob, ob = SpaceObservation.new geoState ⟨0, 10, 0⟩ 0.1 0 := ⟨_, rfl⟩
  have hobs : ob.observer_state = geoState ∧ ob.observed_direction = ⟨0, 10, 0⟩ ∧ ob.range_error = 0.1 ∧
      ob.angular_error = 0 := by rw [hob]; exact ⟨rfl, rfl, rfl, rfl⟩
  have hr := (C73_space geoState ⟨0, 10, 0⟩ 0.1 0).2.2.2.2.1
  rw [← hob] at hr
  have hx : cos ob.declination * cos ob.right_ascension = 0 ∧ ob.range = 10 := by
    have h1 : ob.range = 10 := by
      rw [hob, (C73_space geoState ⟨0, 10, 0⟩ 0.1 0).1]
      exact Vec3.magnitude_of_dot (by norm_num) (by simp only [Vec3.dot]; norm_num)
    have h2 := congrArg Vec3.x hr
    simp only [h1] at h2
    exact ⟨by linarith, h1⟩
  have hne : ∀ d : Vec3, d.x = 0 → (geoState.position.cross geoState.velocity).cross (geoState.position.plus d) ≠ ⟨0, 0, 0⟩ := by
    intro d hd h
    have := congrArg Vec3.y h
    simp only [geoState, GCRF.new, State.new, Vec3.cross, Vec3.plus, Vec3.copy, hd] at this
    norm_num at this
  obtain ⟨s', h1⟩ := C52_succeeds ⟨0⟩ p s hs [] ob (by rw [hobs.1]; exact geoState_nonDegenerate)
    (by rw [hobs.1, hobs.2.1]; exact hne _ rfl)
    (by
      rw [hobs.1, hobs.2.1, hobs.2.2.1, hobs.2.2.2]
      apply hne
      simp only [SphericalPosition.toCartesian, Vec3.scaled, Vec3.minus, pyCos, pySin, add_zero]
      linear_combination (ob.range + 0.1) * hx.1)
  rw [← hob]
  refine ⟨p, s, s', hp, hs, h1, ?_, ?_⟩
  · rw [(C54_bookkeeping ⟨0⟩ p s hs [] ob s' h1).1, hobs.1]
  · obtain ⟨P, K, R, h2, -, h3, -⟩ := C53_optimal ⟨0⟩ p s hs [] ob s' h1
    exact ⟨P, R, h2, h3⟩

/-- C55: azimuth 5 rad (past 180 degrees), elevation 0.5 rad, range 1000 km -/
example (site : State) : (GroundObservation.fromAnglesAndRange site 5 0.5 1000 0.1 0.001).azimuth = 5 ∧
    (GroundObservation.fromAnglesAndRange site 5 0.5 1000 0.1 0.001).elevation = 0.5 := by
  have hp := pi_gt_three
  obtain ⟨h1, h2, -⟩ := C55_round_trip site 5 0.5 1000 0.1 0.001 (by norm_num) (by linarith)
    (by rw [abs_of_pos (by norm_num)]; norm_num; linarith) (by norm_num)
  exact ⟨h1, h2⟩

/-- C83: a transfer of 45 degrees in 700 s -/
example : ∃ (ra rb : Vec3) (dt : ℝ) (ce : ClassicalElements) (Ea Eb : ℝ),
    Gauss.coesFromVectors 60 ra rb ⟨0⟩ ⟨dt / 86400⟩ = .ok ce ∧ Ea < Eb ∧
    ce.mean_anomaly = Ea - ce.eccentricity * sin Ea := by
  obtain ⟨ra, rb, dt, h1, h2, -, -, -, ce, h3⟩ := quarter_transfer
  obtain ⟨nua, nub, Ea, Eb, n, y, -, -, -, -, h4, h5, -⟩ := C83_time_of_flight h3 (dt := dt) (by simp) h1 h2
  exact ⟨ra, rb, dt, ce, Ea, Eb, h3, h5, h4⟩

/-- C58: a root of the function, and a first guess which is none -/
example : Gauss.solveNu ((1 + π) ^ 2) 0.5 1 (-(1 + π)) (1 + π) = .ok (1 + π) := by
  have hp := pi_pos
  have hs : √(1 / 2 : ℝ) = √2 / 2 := by
    rw [sqrt_div zero_le_one, sqrt_one, div_eq_div_iff (by positivity) (by norm_num), one_mul, mul_self_sqrt (by norm_num)]
  have ha : arcsin (√2 / 2) = π / 4 := by
    rw [← sin_pi_div_four]; exact arcsin_sin (by linarith) (by linarith)
  have hw : Gauss.wOfOmega (1 / 2) = .ok π := by
    have h1 : √(1 / 2 : ℝ) ≤ 1 := sqrt_le_one.mpr (by norm_num)
    have h0 := sqrt_nonneg (1 / 2 : ℝ)
    simp only [Gauss.wOfOmega, pySqrt_ok (show (0 : ℝ) ≤ 1 / 2 by norm_num), ok_bind,
      pyAsin_ok (by linarith : -1 ≤ √(1 / 2 : ℝ)) h1, pySin]
    rw [hs, ha, show 2 * (π / 4) = π / 2 by ring, sin_pi_div_two, show 2 * (π / 2) = π by ring, sin_pi,
      pyDiv_ok (by norm_num)]
    norm_num
  have hf : ∀ s : ℝ, s * s = 1 → Gauss.fOfNu (s * (1 + π)) ((1 + π) ^ 2) 0.5 = .ok (1 - s * (1 + π) + π) := by
    intro s hs
    have e : s * (1 + π) * (s * (1 + π)) = (1 + π) ^ 2 := by linear_combination (1 + π) ^ 2 * hs
    have hne : (1 + π) ^ 2 ≠ 0 := by positivity
    simp only [Gauss.fOfNu, e, pyDiv_ok hne, div_self hne, ok_bind, show (1 - 0.5 : ℝ) = 1 / 2 by norm_num, hw, one_mul]
    rfl
  have h1 := hf 1 (by norm_num)
  have h2 := hf (-1) (by norm_num)
  rw [one_mul, show 1 - (1 + π) + π = 0 by ring] at h1
  rw [neg_one_mul] at h2
  exact C58_root 0 h1 h2 (by nlinarith)

/-- C60: an update in the mode of the constructor -/
example : ∃ w w' : World (Fin 1), Fresh w ∧ (Call.updateAttitude 0).run 1 w = (.ok (), w') ∧
    (w' 0).steering = "lvlh" ∧ (w' 0).position.cross (w' 0).velocity ≠ ⟨0, 0, 0⟩ := by
  obtain ⟨w, hw, hg⟩ := exists_fresh (ι := Fin 1) fun _ => geoState
  have hp : (w 0).propagator = RK4.new geoState := by
    obtain ⟨s, h1, -, -, h2, -⟩ := new_ok (ι := Fin 1) geoState
    rw [hg 0] at h1
    cases h1
    exact h2
  obtain ⟨f1, -, f3, -⟩ := fresh_fields hw 0
  refine ⟨w, Function.update w 0 (lvlhAttitude (w 0)), hw, ?_, ?_, ?_⟩
  · show updateAttitude 1 0 w = _
    rw [updateAttitude_succ, if_pos f1]
    show finishCall 0 (Function.update w 0 (lvlhAttitude (w 0))) = _
    rw [finishCall_apply, Function.update_self]
    have : (lvlhAttitude (w 0)).slewing = false := f3
    simp [finishSlew, this]
  · rw [Function.update_self]; exact f1
  · rw [Function.update_self]
    show (w 0).propagator.state.position.cross (w 0).propagator.state.velocity ≠ _
    rw [hp]
    show geoState.position.cross geoState.velocity ≠ _
    intro h
    have := congrArg Vec3.z h
    simp only [geoState, GCRF.new, State.new, Vec3.cross, Vec3.copy] at this
    norm_num at this

end Openspace
