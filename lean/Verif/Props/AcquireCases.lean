import Verif.Props.Acquire
import Verif.Props.Sensors

/-!
# Runs of `acquire` and `process_wfov`

A run in scope of C116, and a run in which the filter is wrong (C117).
-/

namespace Openspace

open Real Spacecraft

theorem Vec3.abs_x_le (v : Vec3) : |v.x| ≤ v.magnitude := by
  have h := v.magnitude_sq_dot
  refine abs_le_of_sq_le_sq ?_ v.magnitude_nonneg
  rw [h, Vec3.dot]
  nlinarith [mul_self_nonneg v.y, mul_self_nonneg v.z]

/-- the state of a new spacecraft is the one it was built from -/
theorem fresh_state {ι : Type} [DecidableEq ι] {g : GCRF} {s : Spacecraft ι} (h : Spacecraft.new g = .ok s) :
    s.propagator = RK4.new g ∧ s.currentState.position = g.position ∧ s.currentState.velocity = g.velocity ∧
    s.currentState.epoch = g.epoch := by
  obtain ⟨s', h1, -, -, h2, -⟩ := new_ok (ι := ι) g
  rw [h] at h1
  cases h1
  refine ⟨h2, ?_, ?_, ?_⟩ <;> simp only [currentState, h2] <;> rfl

/-- the semi-major axis of a satellite at 42164 km with 3.07 km/s across -/
theorem geo_sma {ι : Type} {s : Spacecraft ι} (hp : s.currentState.position = ⟨42164, 0, 0⟩)
    (hv : s.currentState.velocity = ⟨0, 3.07, 0⟩) : ∃ a, s.sma = .ok a ∧ 0 < a := by
  have h1 : s.position.magnitude = 42164 := by
    rw [position, hp]
    exact Vec3.magnitude_of_dot (by norm_num) (by simp [Vec3.dot, Vec3.copy]; norm_num)
  have h2 : s.velocity.magnitude = 3.07 := by
    show s.currentState.velocity.magnitude = 3.07
    rw [hv]
    exact Vec3.magnitude_of_dot (by norm_num) (by simp [Vec3.dot]; norm_num)
  have hd : (0 : ℝ) < 2 / 42164 - 3.07 * 3.07 / Earth.MU := by norm_num [Earth.MU]
  refine ⟨1 / (2 / 42164 - 3.07 * 3.07 / Earth.MU), ?_, by positivity⟩
  rw [sma, aFromMuRV, h1, h2, pyDiv_ok (by norm_num), ok_bind, pyDiv_ok (by norm_num [Earth.MU]), ok_bind, pyDiv_ok hd.ne']

/-- Hill coordinates exist for targets off the orbit normal -/
theorem geo_hill {ι : Type} {s t : Spacecraft ι} (hp : s.currentState.position = ⟨42164, 0, 0⟩)
    (hv : s.currentState.velocity = ⟨0, 3.07, 0⟩) (ht : t.currentState.position.x ≠ 0) :
    ∃ rel, gcrfToHcw s.currentState t.currentState = .ok rel := by
  obtain ⟨rel, -, h, -⟩ := C32_round_trip s.currentState (nonDegenerate_iff.mpr (by
      rw [hp, hv]
      intro h
      have := congrArg Vec3.z h
      norm_num [Vec3.cross] at this)) t.currentState (by
      rw [hp, hv]
      intro h
      have := congrArg Vec3.y h
      norm_num [Vec3.cross] at this
      exact ht this)
  exact ⟨rel, h⟩

/-- the wide camera of a new spacecraft has a positive field of view below a right angle -/
theorem fresh_wfov {ι : Type} {w : World ι} (hw : Fresh w) (i : ι) :
    0 < tan (w i).wfov.fov ∧ 0 < (w i).wfov.resolution_factor ∧ (w i).pointing_accuracy = 1e-5 := by
  obtain ⟨g, hg⟩ := hw i
  simp only [Spacecraft.new, bind_eq_ok, pure_eq_ok, Except.ok.injEq] at hg
  obtain ⟨c1, hc1, c2, -, k, -, e⟩ := hg
  rw [← e]
  simp only [Camera.wfov, Camera.new, OpticalConstraints.new, bind_eq_ok, pyDiv_eq_ok, pure_eq_ok, Except.ok.injEq] at hc1
  obtain ⟨l, ⟨_, -, rfl⟩, _, ⟨-, rfl⟩, rfl⟩ := hc1
  have hp := pi_pos
  refine ⟨?_, ?_, rfl⟩
  rotate_left
  · show (0 : ℝ) < 1 / 3072 * 0.5
    norm_num
  show 0 < tan (pyRadians 5)
  simp only [pyRadians, pyPi]
  exact tan_pos_of_pos_of_lt_pi_div_two (by positivity) (by linarith)

/-- C116: a new geosynchronous spacecraft acquires one 10 km above it and processes a noiseless observation of it -/
example : ∃ (w w1 w2 : World (Fin 2)), Fresh w ∧ (Call.acquire 0 1).run 3 w = (.ok (), w1) ∧
    (Call.processWfov 0 1 0 0 0).run 3 w1 = (.ok (), w2) ∧ FilterTrue w2 0 1 := by
  obtain ⟨w, hw, hg⟩ := exists_fresh (ι := Fin 2) fun k =>
    GCRF.new ⟨59932⟩ ⟨42164 + 10 * (k.val : ℝ), 0, 0⟩ ⟨0, 3.07, 0⟩
  have h0 := fresh_state (hg 0)
  have h1 := fresh_state (hg 1)
  have p0 : (w 0).currentState.position = ⟨42164, 0, 0⟩ := by
    rw [h0.2.1]; simp [GCRF.new, State.new, Vec3.copy]
  have p1 : (w 1).currentState.position = ⟨42174, 0, 0⟩ := by
    rw [h1.2.1]; simp [GCRF.new, State.new, Vec3.copy]; norm_num
  have v0 : (w 0).currentState.velocity = ⟨0, 3.07, 0⟩ := h0.2.2.1
  have e0 : (w 0).currentEpoch = ⟨59932⟩ := by
    rw [currentEpoch_eq, h0.1]; rfl
  have e1 : (w 1).currentEpoch = ⟨59932⟩ := by
    rw [currentEpoch_eq, h1.1]; rfl
  obtain ⟨rel, hrel⟩ := geo_hill (s := w 0) (t := w 1) p0 v0 (by rw [p1]; norm_num)
  obtain ⟨a, ha, hapos⟩ := geo_sma (s := w 0) p0 v0
  obtain ⟨f, hf⟩ := acquire_runs hrel ha hapos 3
  have hm : (w 0).steering ≠ TARGET := by rw [(fresh_fields hw 0).1]; decide
  have hb : (w 0).body_z ≠ ⟨0, 0, 0⟩ := by
    rw [(C60_modes w hw 0 [] 0).2.2.1, position, p0]
    simp [Vec3.scaled, Vec3.copy]
  obtain ⟨w1, hw1⟩ := first_track_ok 2 (Function.update w 0 { w 0 with filter := some f }) 0 1
    (by rw [Function.update_self]; exact hm) (by rw [Function.update_self]; exact hb)
    (by
      rw [Function.update_self, Function.update_of_ne (by decide)]
      show (w 1).currentState.position.minus (w 0).currentState.position ≠ _
      rw [p0, p1]
      intro h
      have := congrArg Vec3.x h
      norm_num [Vec3.minus] at this)
    (by
      rw [Function.update_self, Function.update_of_ne (by decide)]
      show (w 1).currentEpoch = (w 0).currentEpoch
      rw [e0, e1])
  have hacq : (Call.acquire 0 1).run 3 w = (.ok (), w1) := hf.trans hw1
  have hee : (w 1).currentEpoch = (w 0).currentEpoch := by rw [e0, e1]
  obtain ⟨-, -, k0, k1⟩ := C116_acquire 3 w w1 0 1 hacq
  have k1 := k1 hee
  have q0 : (w1 0).currentState = (w 0).currentState := by simp only [currentState, k0]
  have q1 : (w1 1).currentState = (w 1).currentState := by simp only [currentState, k1]
  -- the sensors do not change
  have hsame : (w1 0).wfov = (w 0).wfov ∧ (w1 0).pointing_accuracy = (w 0).pointing_accuracy ∧
      (w1 1).body_radius = (w 1).body_radius := by
    obtain ⟨f0, w', g1, g2⟩ := request_ok (c := .acquire 0 1) rfl hacq
    have hr0 := (((updateAttitude_effect 3 0 w').2 w1 g1).rel 0).toUpd.frame
    have hr1 := (((updateAttitude_effect 3 0 w').2 w1 g1).rel 1).toUpd.frame
    have a1 : (w1 0).wfov = (w' 0).wfov := by rw [hr0]
    have a2 : (w1 0).pointing_accuracy = (w' 0).pointing_accuracy := by rw [hr0]
    have a3 : (w1 1).body_radius = (w' 1).body_radius := by rw [hr1]
    have b : (w' 0).wfov = (w 0).wfov ∧ (w' 0).pointing_accuracy = (w 0).pointing_accuracy ∧ w' 1 = w 1 := by
      rcases g2 with ⟨-, rfl⟩ | ⟨-, ang, -, rfl⟩
      · refine ⟨?_, ?_, Function.update_of_ne (by decide) ..⟩ <;> rw [Function.update_self]
      · refine ⟨?_, ?_, Function.update_of_ne (by decide) ..⟩ <;> rw [Function.update_self] <;> rfl
    exact ⟨a1.trans b.1, a2.trans b.2.1, a3.trans (by rw [b.2.2])⟩
  obtain ⟨hfov, hres, hacc⟩ := fresh_wfov hw 0
  obtain ⟨-, -, hrad⟩ := fresh_sensorDefaults hw 1
  have hrange : (w1 0).range (w1 1) = 10 := by
    show ((w1 1).currentState.position.minus (w1 0).currentState.position).magnitude = 10
    rw [q0, q1, p0, p1]
    exact Vec3.magnitude_of_dot (by norm_num) (by simp only [Vec3.dot, Vec3.minus]; norm_num)
  obtain ⟨ob, hob⟩ : ∃ ob, observe (w1 0).wfov (w1 0) (w1 1) 0 0 0 = .ok ob := by
    refine (observe_spec _ _ _ _ _ _).2.2.mpr ⟨by rw [hsame.2.2, hrad]; norm_num, ?_, ?_⟩
    · rw [q0, q1, p0, p1]; norm_num
    · rw [hrange]; norm_num
  have ho := (observe_spec _ _ _ _ _ _).1 _ hob
  have hex := ho.exact rfl rfl
  have hd : ob.observed_direction = ⟨10, 0, 0⟩ := by
    rw [q0, q1, p0, p1] at hex
    have x1 := congrArg Vec3.x hex
    have x2 := congrArg Vec3.y hex
    have x3 := congrArg Vec3.z hex
    simp only [Vec3.plus] at x1 x2 x3
    ext
    · show _ = (10 : ℝ); linarith
    · show _ = (0 : ℝ); linarith
    · show _ = (0 : ℝ); linarith
  have hst : ob.observer_state = (w 0).currentState := by rw [observe_observer hob, q0]
  have hsph : (10 : ℝ) * cos ob.declination * cos ob.right_ascension = 10 ∧ ob.range = 10 ∧
      (10 : ℝ) * cos ob.declination * sin ob.right_ascension = 0 ∧ (10 : ℝ) * sin ob.declination = 0 := by
    have hob' := hob
    simp only [observe, bind_eq_ok, pure_eq_ok, Except.ok.injEq] at hob'
    obtain ⟨re, -, n, -, e⟩ := hob'
    have hn : n = ⟨10, 0, 0⟩ := by rw [← hd, ← e]; rfl
    obtain ⟨c1, -, -, -, c2, -⟩ := C73_space (w1 0).currentState n re (w1 0).pointing_accuracy
    rw [e] at c1 c2
    have hr : ob.range = 10 := by
      rw [c1, hn]
      exact Vec3.magnitude_of_dot (by norm_num) (by simp only [Vec3.dot]; norm_num)
    rw [hn, hr] at c2
    have x1 := congrArg Vec3.x c2
    have x2 := congrArg Vec3.y c2
    have x3 := congrArg Vec3.z c2
    exact ⟨x1.symm, hr, x2.symm, x3.symm⟩
  have hre : 0 < ob.range_error := by
    rw [ho.range_error, hrange, hsame.1, hsame.2.2, hrad]
    positivity
  have hae : ob.angular_error = 1e-5 := by rw [ho.angular_error, hsame.2.1, hacc]
  have hfl : (w1 0).filter = some f := by
    rw [trackState_filter hw1 0, Function.update_self]
  obtain ⟨rel', a', hill, f', b1, b2, b3, b4, b5⟩ := acquire_unpack hacq
  have hff : f' = f := by
    have : (w1 0).filter = some f' := by rw [trackState_filter b5 0, Function.update_self]
    rw [hfl] at this
    exact (Option.some.inj this).symm
  subst hff
  have hside : ∀ P : Vec3, P.x ≠ 0 ∨ P.y ≠ 0 →
      ((w 0).currentState.position.cross (w 0).currentState.velocity).cross P ≠ ⟨0, 0, 0⟩ := by
    intro P hP h
    rw [p0, v0] at h
    have y1 := congrArg Vec3.x h
    have y2 := congrArg Vec3.y h
    simp only [Vec3.cross] at y1 y2
    norm_num at y1 y2
    rcases hP with hP | hP
    · exact hP y2
    · exact hP y1
  obtain ⟨f2, hproc⟩ := C52_succeeds _ hill f' b4 [] ob
    (by
      rw [hst]
      exact nonDegenerate_iff.mpr (by
        rw [p0, v0]
        intro h
        have := congrArg Vec3.z h
        norm_num [Vec3.cross] at this))
    (by
      rw [hst, hd]
      apply hside
      left
      rw [p0]
      norm_num [Vec3.plus])
    (by
      rw [hst, hd]
      apply hside
      right
      rw [p0, hae]
      simp only [SphericalPosition.toCartesian, Vec3.scaled, Vec3.plus, Vec3.minus, pyCos, pySin, cos_add, sin_add]
      have s1 : 0 < sin (1e-5 : ℝ) := sin_pos_of_pos_of_lt_pi (by norm_num) (by linarith [pi_gt_three])
      have s2 : 0 < cos (1e-5 : ℝ) := cos_pos_of_mem_Ioo ⟨by linarith [pi_gt_three], by linarith [pi_gt_three]⟩
      obtain ⟨t1, t2, t3, t4⟩ := hsph
      have e : cos ob.declination * cos (1e-5 : ℝ) - sin ob.declination * sin (1e-5 : ℝ) =
          cos ob.declination * cos (1e-5 : ℝ) := by
        have : sin ob.declination = 0 := by linarith
        rw [this]; ring
      rw [e]
      have e2 : cos ob.declination * (sin ob.right_ascension * cos (1e-5 : ℝ) + cos ob.right_ascension * sin (1e-5 : ℝ)) =
          sin (1e-5 : ℝ) := by
        linear_combination (cos (1e-5 : ℝ)) / 10 * t3 + sin (1e-5 : ℝ) / 10 * t1
      have e3 : ∀ k : ℝ, cos ob.declination * cos (1e-5 : ℝ) *
          (sin ob.right_ascension * cos (1e-5 : ℝ) + cos ob.right_ascension * sin (1e-5 : ℝ)) * k =
          sin (1e-5 : ℝ) * cos (1e-5 : ℝ) * k := by
        intro k; linear_combination (cos (1e-5 : ℝ) * k) * e2
      have e4 : 0 < sin (1e-5 : ℝ) * cos (1e-5 : ℝ) * (ob.range + ob.range_error) := by
        rw [t2]; positivity
      intro h
      nlinarith [e3 (ob.range + ob.range_error)])
  have hrun := (C116_process 3 w1 0 1 0 0 0 _ _ (Or.inl ⟨rfl, rfl⟩)).2.1 f' ob f2 hfl hob hproc
  refine ⟨w, w1, _, hw, hacq, hrun, ?_⟩
  obtain ⟨hk, rel2, f3, g1, g2, g3, -, g4⟩ := C116_truth 3 w w1 _ 0 1 0 _ _ hee hacq (Or.inl ⟨rfl, rfl⟩) hrun
  refine ⟨?_, f3, rel2, g2, g3, g1, g4⟩
  rw [currentEpoch_eq, currentEpoch_eq, hk, hk, k0, k1]
  exact hee

/-- C117: a new spacecraft acquires a climbing target whose state is ten seconds old; the new filter, labelled with
the present time, has the target more than 9 km below where the library itself now has it -/
theorem C117_violated : ∃ (w w' : World (Fin 2)) (f : RelativeKalman) (rel : State), Fresh w ∧
    (Call.acquire 0 1).run 3 w = (.ok (), w') ∧ (w' 0).filter = some f ∧ f.epoch = (w' 0).currentEpoch ∧
    (w' 1).currentEpoch = (w' 0).currentEpoch ∧ gcrfToHcw (w' 0).currentState (w' 1).currentState = .ok rel ∧
    f.x00.x + 9 < rel.position.x ∧ ¬ FilterTrue w' 0 1 := by
  obtain ⟨w, hw, hg⟩ := exists_fresh (ι := Fin 2) fun k => if k = 0 then
    GCRF.new ⟨59932 + 10 / 86400⟩ ⟨42164, 0, 0⟩ ⟨0, 3.07, 0⟩ else GCRF.new ⟨59932⟩ ⟨42174, 0, 0⟩ ⟨1, 0, 0⟩
  have h0 := fresh_state (hg 0)
  have h1 := fresh_state (hg 1)
  rw [if_pos rfl] at h0
  rw [if_neg (by decide)] at h1
  have p0 : (w 0).currentState.position = ⟨42164, 0, 0⟩ := h0.2.1
  have p1 : (w 1).currentState.position = ⟨42174, 0, 0⟩ := h1.2.1
  have v0 : (w 0).currentState.velocity = ⟨0, 3.07, 0⟩ := h0.2.2.1
  have e0 : (w 0).currentEpoch = ⟨59932 + 10 / 86400⟩ := by rw [currentEpoch_eq, h0.1]; rfl
  have e1 : (w 1).currentEpoch = ⟨59932⟩ := by rw [currentEpoch_eq, h1.1]; rfl
  have hee : (w 1).currentEpoch ≠ (w 0).currentEpoch := by
    rw [e0, e1]
    intro h
    have := congrArg Epoch.value h
    norm_num at this
  obtain ⟨rel0, hrel⟩ := geo_hill (s := w 0) (t := w 1) p0 v0 (by rw [p1]; norm_num)
  obtain ⟨a, ha, hapos⟩ := geo_sma (s := w 0) p0 v0
  obtain ⟨f, hf⟩ := acquire_runs hrel ha hapos 3
  have hm : (w 0).steering ≠ TARGET := by rw [(fresh_fields hw 0).1]; decide
  have hb : (w 0).body_z ≠ ⟨0, 0, 0⟩ := by
    rw [(C60_modes w hw 0 [] 0).2.2.1, position, p0]
    simp [Vec3.scaled, Vec3.copy]
  -- the flight of the target
  obtain ⟨p, hp⟩ : ∃ p, p = RK4.new (GCRF.new ⟨59932⟩ ⟨42174, 0, 0⟩ ⟨1, 0, 0⟩) := ⟨_, rfl⟩
  have pp : p.state.position = ⟨42174, 0, 0⟩ := by rw [hp]; rfl
  have pv : p.state.velocity = ⟨1, 0, 0⟩ := by rw [hp]; rfl
  have pm : p.state.position.magnitude = 42174 := by
    rw [pp]; exact Vec3.magnitude_of_dot (by norm_num) (by simp only [Vec3.dot]; norm_num)
  have pvm : p.state.velocity.magnitude = 1 := by
    rw [pv]; exact Vec3.magnitude_of_dot (by norm_num) (by simp only [Vec3.dot]; norm_num)
  have pax : p.state.position.axial = 42174 := by
    rw [pp, Vec3.axial, show ((42174 : ℝ) ^ 2 + 0 ^ 2) = 42174 ^ 2 by ring]
    exact Real.sqrt_sq (by norm_num)
  have pe : p.state.epoch = ⟨59932⟩ := by rw [hp]; rfl
  have hM : Earth.MU / 42174 ^ 2 ≤ 0.000225 := by norm_num [Earth.MU]
  have hM0 : 0 ≤ Earth.MU / 42174 ^ 2 := by norm_num [Earth.MU]
  obtain ⟨p', hfly, -, -, hline⟩ := C90_coast p ⟨59932 + 10 / 86400⟩ 10 (Earth.MU / 42174 ^ 2)
    (10 * 1 + 10 ^ 2 * (Earth.MU / 42174 ^ 2 + 0)) 0 (by rw [hp]; rfl) (by rw [pm]; norm_num) (by rw [pm]; norm_num)
    (by rw [pe]; exact geoExample_data.2.2.2) (by rw [pe]; norm_num [abs_of_pos]) (by rw [pm])
    (by have : p.state.srp_scalar = 0 := by rw [hp]; rfl
        rw [this, abs_zero, mul_zero]) (by rw [pvm]) (by rw [pm]; linarith) (by
        rw [pax, pp]; norm_num at hM ⊢; linarith)
  have hw1p : (w 1).propagator = p := by rw [hp]; exact h1.1
  obtain ⟨w', hw'⟩ := first_track_late 1 (Function.update w 0 { w 0 with filter := some f }) 0 1 p' (by decide)
    (by rw [Function.update_self]; exact hm) (by rw [Function.update_self]; exact hb)
    (by
      rw [Function.update_self, Function.update_of_ne (by decide)]
      show (w 1).currentState.position.minus (w 0).currentState.position ≠ _
      rw [p0, p1]
      intro h
      have := congrArg Vec3.x h
      norm_num [Vec3.minus] at this)
    (by rw [Function.update_self, Function.update_of_ne (by decide)]; exact hee)
    (by rw [Function.update_of_ne (by decide)]; exact (fresh_fields hw 1).1)
    (by rw [Function.update_of_ne (by decide)]; exact (fresh_fields hw 1).2.2.1)
    (by
      rw [Function.update_self, Function.update_of_ne (by decide), hw1p]
      show RK4.stepToEpoch (w 0).currentEpoch p = _
      rw [e0]; exact hfly)
  have hacq : (Call.acquire 0 1).run 3 w = (.ok (), w') := hf.trans hw'
  obtain ⟨f', rel', g1, g2, g3, g4, g5, g6⟩ := C117_stale_violated 3 w w' 0 1 hee hm hacq
  obtain ⟨-, -, k0, -⟩ := C116_acquire 3 w w' 0 1 hacq
  have q0 : (w' 0).currentState = (w 0).currentState := by simp only [currentState, k0]
  have q1 : (w' 1).propagator = p' := by
    have : (w' 0).currentEpoch = ⟨59932 + 10 / 86400⟩ := by rw [currentEpoch_eq, k0, ← currentEpoch_eq, e0]
    rw [this, hw1p, hfly] at g4
    cases g4; rfl
  have r1 : (w' 1).currentState.position = p'.state.position := by simp only [currentState, q1]; rfl
  -- the target has climbed
  have hx : 42183 < p'.state.position.x := by
    rw [pe, pp, pv] at hline
    have habs := Vec3.abs_x_le ((p'.state.position.minus ⟨42174, 0, 0⟩).minus
      ((⟨1, 0, 0⟩ : Vec3).scaled ((59932 + 10 / 86400 - 59932) * 86400)))
    have := (abs_le.mp (habs.trans hline)).1
    simp only [Vec3.minus, Vec3.scaled] at this
    norm_num at hM this
    linarith
  have hmag : 42183 < p'.state.position.magnitude :=
    lt_of_lt_of_le hx ((le_abs_self _).trans (Vec3.abs_x_le _))
  obtain ⟨rel, hrel'⟩ := geo_hill (s := w' 0) (t := w' 1) (by rw [q0, p0]) (by rw [q0, v0]) (by rw [r1]; linarith)
  obtain ⟨M, hMf⟩ : ∃ M, frameMatrix (w' 0).currentState = .ok M := by
    have := hrel'
    simp only [gcrfToHcw, bind_eq_ok] at this
    obtain ⟨M, hM, -⟩ := this
    exact ⟨M, hM⟩
  have hlt : f'.x00.x + 9 < rel.position.x := by
    rw [g6, gcrfToHcw_position hMf hrel', r1]
    show rel'.position.x + 9 < _
    rw [gcrfToHcw_position hMf g5, p1]
    have : (⟨42174, 0, 0⟩ : Vec3).magnitude = 42174 :=
      Vec3.magnitude_of_dot (by norm_num) (by simp only [Vec3.dot]; norm_num)
    simp only [this]
    linarith
  refine ⟨w, w', f', rel, hw, hacq, g1, g2, g3, hrel', hlt, ?_⟩
  rintro ⟨-, f3, rel3, b1, -, b3, b4⟩
  rw [g1] at b1
  cases b1
  rw [hrel'] at b3
  cases b3
  rw [b4] at hlt
  simp only at hlt
  linarith

end Openspace
