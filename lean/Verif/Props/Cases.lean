import Verif.Props.Sensors
import Verif.Props.Tracking

/-!
# A reachable case of C66

A history at the end of which the payload points at a target and detects it.
-/

namespace Openspace

open Real Spacecraft

/-! ## a direction at right angles to two others -/

theorem exists_orth (a b : Vec3) : ∃ u : Vec3, u ≠ ⟨0, 0, 0⟩ ∧ a.dot u = 0 ∧ b.dot u = 0 := by
  by_cases hc : a.cross b = ⟨0, 0, 0⟩
  · -- parallel
    have h1 : a.y * b.z - a.z * b.y = 0 := congrArg Vec3.x hc
    have h2 : a.z * b.x - a.x * b.z = 0 := congrArg Vec3.y hc
    have h3 : a.x * b.y - a.y * b.x = 0 := congrArg Vec3.z hc
    by_cases ha : a.x = 0 ∧ a.y = 0
    · by_cases hb : b.x = 0 ∧ b.y = 0
      · refine ⟨⟨1, 0, 0⟩, by simp, ?_, ?_⟩ <;> simp [Vec3.dot, ha, hb]
      · refine ⟨⟨-b.y, b.x, 0⟩, ?_, ?_, ?_⟩
        · intro h
          simp only [Vec3.mk.injEq, neg_eq_zero] at h
          exact hb ⟨h.2.1, h.1⟩
        · simp [Vec3.dot, ha]
        · simp [Vec3.dot]; ring
    · refine ⟨⟨-a.y, a.x, 0⟩, ?_, ?_, ?_⟩
      · intro h
        simp only [Vec3.mk.injEq, neg_eq_zero] at h
        exact ha ⟨h.2.1, h.1⟩
      · simp [Vec3.dot]; ring
      · simp [Vec3.dot]; linarith
  · refine ⟨_, hc, ?_, ?_⟩ <;> simp only [Vec3.dot, Vec3.cross] <;> ring

/-- a unit vector at right angles to two directions and at most at a right angle to a third -/
theorem exists_direction (a b c : Vec3) : ∃ u : Vec3, u.magnitude = 1 ∧ a.dot u = 0 ∧ b.dot u = 0 ∧ c.dot u ≤ 0 := by
  obtain ⟨u, h0, h1, h2⟩ := exists_orth a b
  have hm := Vec3.magnitude_pos.mpr h0
  rcases le_total (c.dot u) 0 with h3 | h3
  · refine ⟨u.scaled (1 / u.magnitude), ?_, ?_, ?_, ?_⟩
    · rw [Vec3.magnitude_scaled, abs_of_pos (by positivity)]; field_simp
    · rw [Vec3.dot_comm, Vec3.dot_scaled_left, Vec3.dot_comm, h1, mul_zero]
    · rw [Vec3.dot_comm, Vec3.dot_scaled_left, Vec3.dot_comm, h2, mul_zero]
    · rw [Vec3.dot_comm, Vec3.dot_scaled_left, Vec3.dot_comm]
      exact mul_nonpos_of_nonneg_of_nonpos (by positivity) h3
  · refine ⟨u.scaled (-1 / u.magnitude), ?_, ?_, ?_, ?_⟩
    · rw [Vec3.magnitude_scaled, abs_of_neg (div_neg_of_neg_of_pos (by norm_num) hm)]; field_simp
    · rw [Vec3.dot_comm, Vec3.dot_scaled_left, Vec3.dot_comm, h1, mul_zero]
    · rw [Vec3.dot_comm, Vec3.dot_scaled_left, Vec3.dot_comm, h2, mul_zero]
    · rw [Vec3.dot_comm, Vec3.dot_scaled_left, Vec3.dot_comm]
      exact mul_nonpos_of_nonpos_of_nonneg (div_neg_of_neg_of_pos (by norm_num) hm).le h3

section

variable {ι : Type} [DecidableEq ι]

/-- the camera of the constructor -/
def DefaultCamera (s : Spacecraft ι) : Prop := Camera.wfov = .ok s.wfov

theorem defaultCamera_stable : ApiStable (DefaultCamera (ι := ι)) where
  attitude := fun _ _ _ _ h => h
  slew := fun _ h => h
  stepTo := fun _ _ h => h
  step := fun _ h => h
  filter := fun _ _ h => h
  impulse := fun _ _ h => h
  maneuver := fun _ _ h => h
  mass := fun _ _ h => h
  mode := fun _ _ _ _ _ h => h
  stop := fun _ _ h => h

omit [DecidableEq ι] in
theorem fresh_defaultCamera {w : World ι} (hw : Fresh w) : All DefaultCamera w := by
  intro i
  obtain ⟨g, hg⟩ := hw i
  simp only [Spacecraft.new, bind_eq_ok, pure_eq_ok, Except.ok.injEq] at hg
  obtain ⟨c1, hc1, c2, -, k, -, e⟩ := hg
  rw [← e]
  exact hc1

theorem wfov_limits {c : Camera} (h : Camera.wfov = .ok c) : c.limits.sun_soft = π / 2 ∧ c.limits.earth = π / 9 ∧
    c.limits.moon = π / 18 ∧ c.limits.vismag = 15 ∧ c.limits.bore = π / 36 := by
  simp only [Camera.wfov, Camera.new, OpticalConstraints.new, bind_eq_ok, pure_eq_ok, Except.ok.injEq] at h
  obtain ⟨l, ⟨x, -, rfl⟩, k, -, rfl⟩ := h
  simp only [pyRadians, pyPi, DEFAULT_FRAME_DAMP]
  refine ⟨by ring, by ring, by ring, trivial, by ring⟩

end

/-- two spacecraft in geostationary distance from the Earth, one kilometre apart, and a history of one call after
which the first one looks at the second, at right angles to the Sun and to the Moon and away from the Earth -/
theorem tracking_pair : ∃ w : World (Fin 2), Fresh w ∧ ∃ s t : Spacecraft (Fin 2),
    s = after 2 [.trackState 0 1] w 0 ∧ t = after 2 [.trackState 0 1] w 1 ∧ DefaultCamera s ∧ SensorDefaults s ∧
    s.range t = 1 ∧ 1000 ≤ s.sunVector.magnitude ∧ 1000 ≤ s.position.magnitude ∧
    (∃ m, s.moonVector = .ok m ∧ 1000 ≤ m.magnitude) ∧ s.sunVector.dot (s.targetVector t) = 0 ∧
    s.sunAngle t = .ok (π / 2) ∧ s.moonAngle t = .ok (π / 2) ∧ (∃ e, s.earthAngle t = .ok e ∧ π / 2 ≤ e) ∧
    s.body_z.angle (s.targetVector t) = .ok 0 := by
  obtain ⟨M, hM, hM1, -⟩ := C30_moon ⟨0⟩
  have hS1 := (C30_sun ⟨0⟩).1
  obtain ⟨S, hSe⟩ : ∃ S, S = Sun.getPosition ⟨0⟩ := ⟨_, rfl⟩
  rw [← hSe] at hS1
  obtain ⟨P, hP⟩ : ∃ P : Vec3, P = ⟨42164, 0, 0⟩ := ⟨_, rfl⟩
  have hPm : P.magnitude = 42164 := by rw [hP]; exact Vec3.magnitude_of_dot (by norm_num) (by simp only [Vec3.dot]; norm_num)
  obtain ⟨u, hu, u1, u2, u3⟩ := exists_direction (S.minus P) (M.minus P) (P.scaled (-1))
  have hu0 : u ≠ ⟨0, 0, 0⟩ := by
    intro h; rw [h, Vec3.magnitude_eq_zero.mpr rfl] at hu; norm_num at hu
  have hSP : S.minus P ≠ ⟨0, 0, 0⟩ := by
    intro h
    have hx : S.x - P.x = 0 := congrArg Vec3.x h
    have hy : S.y - P.y = 0 := congrArg Vec3.y h
    have hz : S.z - P.z = 0 := congrArg Vec3.z h
    have : S = P := by ext <;> linarith
    rw [this, hPm] at hS1; norm_num at hS1
  have hMP : M.minus P ≠ ⟨0, 0, 0⟩ := by
    intro h
    have hx : M.x - P.x = 0 := congrArg Vec3.x h
    have hy : M.y - P.y = 0 := congrArg Vec3.y h
    have hz : M.z - P.z = 0 := congrArg Vec3.z h
    have : M = P := by ext <;> linarith
    rw [this, hPm] at hM1; norm_num at hM1
  have hfar : ∀ X : Vec3, 356096 ≤ X.magnitude → 1000 ≤ (X.minus P).magnitude := by
    intro X hX
    have := norm_sub_norm_le X.toE P.toE
    rw [Vec3.norm_toE, Vec3.norm_toE, hPm, show X.toE - P.toE = (X.minus P).toE by
      ext i; fin_cases i <;> simp [Vec3.toE, Vec3.toFun, Vec3.minus], Vec3.norm_toE] at this
    linarith
  have hPn : P.scaled (-1) ≠ ⟨0, 0, 0⟩ := by rw [hP]; simp [Vec3.scaled]
  obtain ⟨w, hw, hg⟩ := exists_fresh (ι := Fin 2) fun k =>
    GCRF.new ⟨0⟩ (P.plus (u.scaled (k.val : ℝ))) ⟨0, 3.07, 0⟩
  have hprop : ∀ k, (w k).position = P.plus (u.scaled (k.val : ℝ)) ∧ (w k).currentEpoch = ⟨0⟩ := by
    intro k
    obtain ⟨s, h1, -, -, h2, -⟩ := new_ok (ι := Fin 2) (GCRF.new ⟨0⟩ (P.plus (u.scaled (k.val : ℝ))) ⟨0, 3.07, 0⟩)
    rw [hg k] at h1
    cases h1
    rw [position_eq, currentEpoch_eq, h2]
    exact ⟨rfl, rfl⟩
  have hp0 : (w 0).position = P := by rw [(hprop 0).1]; ext <;> simp [Vec3.plus, Vec3.scaled]
  have hp1 : (w 1).position = P.plus u := by rw [(hprop 1).1]; ext <;> simp [Vec3.plus, Vec3.scaled]
  have hd : (w 1).position.minus (w 0).position = u := by
    rw [hp0, hp1]; ext <;> simp [Vec3.plus, Vec3.minus]
  have hm : (w 0).steering ≠ TARGET := by rw [(fresh_fields hw 0).1]; decide
  have hb : (w 0).body_z ≠ ⟨0, 0, 0⟩ := by
    rw [(C60_modes w hw 0 [] 0).2.2.1, hp0]; exact hPn
  obtain ⟨w', h1⟩ := first_track_ok 1 w 0 1 hm hb (by rw [hd]; exact hu0) (by rw [(hprop 0).2, (hprop 1).2])
  have hk : ∀ k, (w' k).propagator = (w k).propagator := fun k =>
    request_keeps (c := .trackState 0 1) rfl h1 k (by rw [(hprop k).2, (hprop 0).2])
  have hpos' : ∀ k, (w' k).position = (w k).position := by intro k; rw [position_eq, position_eq, hk]
  have hz := (C63_partial 2 w w' (.trackState 0 1) 0 1 (Or.inl rfl) hm h1).2.2
  have hd' : (w' 1).position.minus (w' 0).position = u := by rw [hpos', hpos', hd]
  rw [hd'] at hz
  have haft : after 2 [.trackState 0 1] w = w' := by
    show ((Call.trackState 0 1).run 2 w).2 = w'
    rw [h1]
  have hcam : DefaultCamera (w' 0) := by
    rw [← haft]; exact after_all defaultCamera_stable 2 _ (fresh_defaultCamera hw) 0
  have hsen : SensorDefaults (w' 0) := by
    rw [← haft]; exact after_all sensorDefaults_stable 2 _ (fresh_sensorDefaults hw) 0
  have hep : (w' 0).currentState.epoch = ⟨0⟩ := by
    have : (w' 0).currentEpoch = ⟨0⟩ := by rw [currentEpoch_eq, hk, ← currentEpoch_eq, (hprop 0).2]
    exact this
  have hps : (w' 0).currentState.position = P := by
    have : (w' 0).position = P := by rw [hpos', hp0]
    exact this
  have htv : (w' 0).targetVector (w' 1) = u := hd'
  have hsv : (w' 0).sunVector = S.minus P := by
    show Vec3.minus (Sun.getPosition (w' 0).currentState.epoch) (w' 0).currentState.position = _
    rw [hep, hps, ← hSe]
  have hmv : (w' 0).moonVector = .ok (M.minus P) := by
    show GCRF.moonVector (w' 0).currentState = _
    simp only [GCRF.moonVector, hep, hps, hM, ok_bind, pure_eq_ok]
  have hev : (w' 0).earthVector = P.scaled (-1) := by
    show ((w' 0).position).scaled (-1) = _
    rw [hpos', hp0]
  have hsa : (w' 0).sunAngle (w' 1) = .ok (π / 2) := by
    unfold sunAngle
    rw [htv, hsv, Vec3.angle_ok hSP hu0, u1, zero_div, arccos_zero]
  refine ⟨w, hw, w' 0, w' 1, by rw [haft], by rw [haft], hcam, hsen, by unfold Spacecraft.range; rw [htv, hu],
    by rw [hsv]; exact hfar S (by linarith), by rw [hpos', hp0, hPm]; norm_num, ⟨_, hmv, hfar M (by linarith)⟩,
    by rw [htv, hsv, u1], hsa, ?_,
    ⟨arccos ((P.scaled (-1)).dot u / ((P.scaled (-1)).magnitude * u.magnitude)), ?_, ?_⟩, ?_⟩
  · unfold moonAngle
    rw [hmv, ok_bind, htv, Vec3.angle_ok hMP hu0, u2, zero_div, arccos_zero]
  · unfold earthAngle
    rw [htv, hev, Vec3.angle_ok hPn hu0]
  · rw [← arccos_zero]
    exact arccos_le_arccos (div_nonpos_of_nonpos_of_nonneg u3 (mul_nonneg (Vec3.magnitude_nonneg _) (Vec3.magnitude_nonneg _)))
  · rw [hz, htv, Vec3.angle_ok hu0 hu0]
    rw [← Vec3.magnitude_sq_dot, hu]; norm_num

/-- the payload detects: a history of one call after which the first of two spacecraft sees the second -/
theorem C66_reachable : ∃ w : World (Fin 2), Fresh w ∧
    (after 2 [.trackState 0 1] w 0).detect (after 2 [.trackState 0 1] w 1) = .ok true := by
  obtain ⟨w, hw, s, t, rfl, rfl, hcam, ⟨-, hal, hrad⟩, hr, -, -, -, -, hsa, hma, ⟨e, hea, he⟩, hb⟩ := tracking_pair
  obtain ⟨l1, l2, l3, l4, l5⟩ := wfov_limits hcam
  have hd : (after 2 [.trackState 0 1] w 0).targetVector (after 2 [.trackState 0 1] w 1) ≠ ⟨0, 0, 0⟩ := by
    rw [← Vec3.magnitude_ne_zero]
    show Spacecraft.range _ _ ≠ 0
    rw [hr]; norm_num
  have hvm := visualMagnitude_eq hsa (by positivity) (by rw [hal]; norm_num) (by rw [hrad]; norm_num) hd
  rw [hal, hrad, hr] at hvm
  refine ⟨w, hw, (C66_true _ _).mpr ⟨π / 2, e, π / 2, _, 0, hsa, hea, hma, hvm.2, hb, ?_, ?_, ?_, ?_, ?_⟩⟩
  · rw [l1]
  · rw [l2]; linarith [pi_pos]
  · rw [l3]; linarith [pi_pos]
  · rw [l4]
    have hlog : (-16 : ℝ) ≤ logb 10 (2 / 3 * 0.3 * 0.005 ^ 2 / (π * 1 ^ 2) * Spec.lambert (π / 2)) := by
      rw [le_logb_iff_rpow_le (by norm_num) hvm.1]
      have hl : Spec.lambert (π / 2) = 1 := by
        rw [Spec.lambert, show π - π / 2 = π / 2 by ring, sin_pi_div_two, cos_pi_div_two]; ring
      rw [hl, mul_one, one_pow, mul_one, le_div_iff₀ pi_pos, show ((10 : ℝ) ^ (-16 : ℝ)) = 10 ^ (-16 : ℤ) by
        rw [← Real.rpow_intCast]; norm_num]
      have := pi_lt_four
      norm_num
      linarith
    linarith
  · rw [l5]; positivity

end Openspace
