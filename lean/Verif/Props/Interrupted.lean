import Verif.Props.Propagation
import Verif.Props.Gravity

/-!
# What an interrupted propagation leaves behind (C82)
-/

namespace Openspace

/-- a step that raises has at most assigned the thrust of the state -/
theorem step_error' (p : RK4) : (RK4.step p).1 = .ok () ∨ (RK4.step p).2 = p ∨
    ∃ t0, (RK4.step p).2 = { p with state := p.thrusted t0 } := by
  unfold RK4.step
  simp only [PyM.get_bind_apply]
  rcases p.thrustVector 0 with e | t0
  · exact .inr (.inl rfl)
  simp only [PyM.lift_ok_bind_apply, PyM.modify_bind_apply, PyM.get_bind_apply]
  rcases GCRF.derivative _ with e | k1
  · exact .inr (.inr ⟨t0, rfl⟩)
  simp only [PyM.lift_ok_bind_apply]
  rcases RK4.stage _ _ _ _ _ with e | k2
  · exact .inr (.inr ⟨t0, rfl⟩)
  simp only [PyM.lift_ok_bind_apply]
  rcases RK4.stage _ _ _ _ _ with e | k3
  · exact .inr (.inr ⟨t0, rfl⟩)
  simp only [PyM.lift_ok_bind_apply]
  rcases RK4.stage _ _ _ _ _ with e | k4
  · exact .inr (.inr ⟨t0, rfl⟩)
  exact .inl rfl

theorem step_error {p p' : RK4} {e : PyErr} (h : RK4.step p = (.error e, p')) :
    p' = p ∨ ∃ t0, p' = { p with state := p.thrusted t0 } := by
  have := step_error' p
  rw [h] at this
  rcases this with h | h | h
  · cases h
  · exact .inl h
  · exact .inr h

/-- a loop of steps that raises has completed some of them, then raised in the next -/
theorem repeatN_error {n : ℕ} {p p' : RK4} {e : PyErr} (h : PyM.repeatN n RK4.step p = (.error e, p')) :
    ∃ k q, k < n ∧ RK4.Steps k p q ∧ RK4.step q = (.error e, p') := by
  induction n generalizing p with
  | zero => exact absurd (congrArg Prod.fst h) (by simp [PyM.repeatN, PyM.pure])
  | succ n ih =>
    have e1 : PyM.repeatN (n + 1) RK4.step p = (RK4.step >>= fun _ => PyM.repeatN n RK4.step) p := rfl
    rw [e1, PyM.bind_apply] at h
    rcases hs : RK4.step p with ⟨r, q⟩
    rw [hs] at h
    cases r with
    | error e2 => exact ⟨0, p, by omega, .zero p, by rw [hs]; exact h⟩
    | ok u =>
      obtain ⟨k, q', hk, h1, h2⟩ := ih h
      exact ⟨k + 1, q', by omega, .succ hs h1, h2⟩

/-- how a `step_to_epoch` that raises ends -/
theorem stepToEpoch_error {p p' : RK4} {t : Epoch} {e : PyErr} (h : RK4.stepToEpoch t p = (.error e, p')) :
    ∃ (n k : ℕ) (dt : ℝ) (q : RK4), IsLeast {j : ℕ | |(t.value - p.state.epoch.value) * 86400| ≤ 300 * j} n ∧
      n * dt = (t.value - p.state.epoch.value) * 86400 ∧ k < n ∧
      RK4.Steps k { p with step_size := dt } q ∧ RK4.step q = (.error e, p') := by
  have hsec : SECONDS_IN_DAY = 86400 := by norm_num [SECONDS_IN_DAY]
  rw [RK4.stepToEpoch_apply] at h
  simp only [hsec] at h
  have hL := ceil_isLeast ((t.value - p.state.epoch.value) * 86400)
  generalize ⌈|(t.value - p.state.epoch.value) * 86400 / 300|⌉₊ = n at h hL
  rcases hr : PyM.repeatN n RK4.step (if 0 < n then { p with step_size :=
    (t.value - p.state.epoch.value) * 86400 / n } else p) with ⟨r, q⟩
  rw [hr] at h
  cases r with
  | ok u => cases h
  | error e' =>
    cases h
    obtain ⟨k, q, hk, h1, h2⟩ := repeatN_error hr
    have hn : 0 < n := by omega
    rw [if_pos hn] at h1
    have hn' : (n : ℝ) ≠ 0 := by positivity
    refine ⟨n, k, _, q, hL, ?_, hk, h1, h2⟩
    field_simp

/-- what does hold: the position, velocity and epoch after a `step_to_epoch` that raises are those reached by
the steps completed before, fewer than were needed -/
theorem C82_state_partial (p p' : RK4) (t : Epoch) (e : PyErr) (h : RK4.stepToEpoch t p = (.error e, p')) :
    ∃ (n k : ℕ) (dt : ℝ) (q : RK4), IsLeast {j : ℕ | |(t.value - p.state.epoch.value) * 86400| ≤ 300 * j} n ∧
      n * dt = (t.value - p.state.epoch.value) * 86400 ∧ k < n ∧
      RK4.Steps k { p with step_size := dt } q ∧ (RK4.step q).1 = .error e ∧
      p'.state.position = q.state.position ∧ p'.state.velocity = q.state.velocity ∧
      p'.state.epoch.value = p.state.epoch.value + k * dt / 86400 := by
  have hsec : SECONDS_IN_DAY = 86400 := by norm_num [SECONDS_IN_DAY]
  obtain ⟨n, k, dt, q, hL, hn, hk, h1, h2⟩ := stepToEpoch_error h
  have hf := h1.frame.2.2.2.2.2.1
  rw [hsec] at hf
  have hst : p'.state.position = q.state.position ∧ p'.state.velocity = q.state.velocity ∧
      p'.state.epoch = q.state.epoch := by
    rcases step_error h2 with rfl | ⟨t0, rfl⟩
    · exact ⟨rfl, rfl, rfl⟩
    · exact ⟨rfl, rfl, rfl⟩
  refine ⟨n, k, dt, q, hL, hn, hk, h1, by rw [h2], hst.1, hst.2.1, ?_⟩
  rw [hst.2.2, hf]; ring

/-- the step size is not restored, whatever interrupted the propagation -/
theorem C82_step_size_violated (p p' : RK4) (t : Epoch) (e : PyErr) (h : RK4.stepToEpoch t p = (.error e, p')) :
    ∃ n : ℕ, IsLeast {j : ℕ | |(t.value - p.state.epoch.value) * 86400| ≤ 300 * j} n ∧ 0 < n ∧
      n * p'.step_size = (t.value - p.state.epoch.value) * 86400 := by
  obtain ⟨n, k, dt, q, hL, hn, hk, h1, h2⟩ := stepToEpoch_error h
  refine ⟨n, hL, by omega, ?_⟩
  have := (RK4.step_frame' q).1
  rw [h2] at this
  rw [this, h1.frame.1]
  exact hn

/-- the engine is not switched off by a manoeuvre that raises after it was lit -/
theorem C82_engine_violated (p p' : RK4) (dv : Vec3) (m_dot m0 isp : ℝ) (hm : m_dot ≠ 0) (h0 : m0 ≠ 0)
    (hi : isp ≠ 0) (e : PyErr) (h : RK4.maneuver dv m_dot m0 isp p = (.error e, p')) :
    p'.m_dot = m_dot ∧ p'.m0 = m0 ∧ p'.isp = isp ∧ p'.thrust_direction = dv := by
  unfold RK4.maneuver at h
  rw [burnDuration_ok dv hm h0 hi] at h
  simp only [PyM.lift_ok_bind_apply, PyM.modify_bind_apply, PyM.get_bind_apply, Vec3.copy_eq] at h
  rw [PyM.bind_apply] at h
  rcases hr : RK4.stepToEpoch (p.state.epoch.plusDays (Spec.burnTime dv.magnitude m_dot m0 isp / SECONDS_IN_DAY))
      { p with thrust_direction := dv, m0 := m0, m_dot := m_dot, isp := isp } with ⟨r, q⟩
  rw [hr] at h
  cases r with
  | ok u => exact absurd (congrArg Prod.fst h) (by simp [PyM.modify_apply])
  | error e' =>
    cases h
    obtain ⟨n, k, dt, q, -, -, -, h1, h2⟩ := stepToEpoch_error hr
    have hf := RK4.step_frame' q
    rw [h2] at hf
    obtain ⟨-, a2, a3, a4, a5⟩ := hf
    obtain ⟨-, b2, b3, b4, b5, -⟩ := h1.frame
    exact ⟨a2.trans b2, a3.trans b3, a4.trans b4, a5.trans b5⟩

theorem step_of_error {p : RK4} {t0 : Vec3} {e : PyErr} (h0 : p.thrustVector 0 = .ok t0)
    (hd : (p.thrusted t0).derivative = .error e) :
    RK4.step p = (.error e, { p with state := p.thrusted t0 }) := by
  unfold RK4.step
  simp only [PyM.get_bind_apply, h0, PyM.lift_ok_bind_apply, PyM.modify_bind_apply]
  have : GCRF.derivative { p.state with thrust := t0 } = .error e := hd
  rw [this]
  rfl

theorem stepToEpoch_of_error {p : RK4} {t : Epoch} {e : PyErr} (ht : t.value ≠ p.state.epoch.value)
    (h : ∀ dt, ∃ q, RK4.step { p with step_size := dt } = (.error e, q)) :
    ∃ q, RK4.stepToEpoch t p = (.error e, q) := by
  have hsec : SECONDS_IN_DAY = 86400 := by norm_num [SECONDS_IN_DAY]
  rw [RK4.stepToEpoch_apply]
  simp only [hsec]
  have hn : 0 < ⌈|(t.value - p.state.epoch.value) * 86400 / 300|⌉₊ := by
    rw [Nat.ceil_pos, abs_pos]
    exact div_ne_zero (mul_ne_zero (sub_ne_zero.mpr ht) (by norm_num)) (by norm_num)
  generalize ⌈|(t.value - p.state.epoch.value) * 86400 / 300|⌉₊ = n at hn
  rw [if_pos hn]
  obtain ⟨k, rfl⟩ : ∃ k, n = k + 1 := ⟨n - 1, by omega⟩
  obtain ⟨q, hq⟩ := h ((t.value - p.state.epoch.value) * 86400 / ((k + 1 : ℕ) : ℝ))
  refine ⟨q, ?_⟩
  have e1 : ∀ r, PyM.repeatN (k + 1) RK4.step r = (RK4.step >>= fun _ => PyM.repeatN k RK4.step) r := fun _ => rfl
  rw [e1, PyM.bind_apply, hq]

/-- on the polar axis, within 350000 km, the derivative raises -/
theorem derivative_polar {s : GCRF} {z : ℝ} (hp : s.use_perturbations = true)
    (hs : PositionConvert.gcrfToItrf s.position s.epoch = .ok ⟨0, 0, z⟩) (hz : z ≠ 0) (hz' : |z| ≤ 350000) :
    s.derivative = .error .zeroDivision := by
  have hm := (gcrfToItrf_magnitude s.epoch hs)
  have hzm : (⟨0, 0, z⟩ : Vec3).magnitude = |z| :=
    Vec3.magnitude_of_dot (abs_nonneg z) (by simp [Vec3.dot, ← sq])
  rw [hzm] at hm
  have hne : s.position ≠ ⟨0, 0, 0⟩ := by
    intro h
    rw [h, Vec3.magnitude_eq_zero.mpr rfl, mul_zero] at hm
    exact hz (abs_nonpos_iff.mp hm.2)
  obtain ⟨⟨am, h1⟩, ⟨as, h2⟩, ⟨ap, h3⟩⟩ := C30_no_division s (by linarith [hm.1])
  have h4 := (C35_raises s .zeroDivision).mpr ⟨rfl, z, hs⟩
  simp only [GCRF.derivative, accelerationFromEarth_ok hne, ok_bind, hp, if_true, h1, h2, h3, h4, error_bind]

/-- a freshly built propagator above the north pole: a request to propagate by a minute and a burn both raise;
the first leaves the step size at 60 s, the second leaves the engine burning, so that a later step would thrust -/
theorem C82_violated : ∃ (s : GCRF) (p1 p2 : RK4) (t : Epoch) (dv : Vec3) (m_dot m0 isp : ℝ),
    RK4.stepToEpoch t (RK4.new s) = (.error .zeroDivision, p1) ∧ (RK4.new s).step_size = 300 ∧ p1.step_size = 60 ∧
    RK4.maneuver dv m_dot m0 isp (RK4.new s) = (.error .zeroDivision, p2) ∧
    (RK4.new s).thrustVector 0 = .ok ⟨0, 0, 0⟩ ∧ ∃ a, p2.thrustVector 0 = .ok a ∧ 0 < a.magnitude := by
  obtain ⟨r, hr⟩ := gcrfToItrf_surj ⟨0⟩ ⟨0, 0, 7000⟩
  obtain ⟨s, hs⟩ : ∃ s, s = GCRF.new ⟨0⟩ r ⟨0, 0, 0⟩ := ⟨_, rfl⟩
  have hd : ∀ p : RK4, p.state = (RK4.new s).state → ∀ t0, (p.thrusted t0).derivative = .error .zeroDivision := by
    intro p hp t0
    refine derivative_polar (z := 7000) ?_ ?_ (by norm_num) (by norm_num)
    · simp only [RK4.thrusted, hp]; rfl
    · simp only [RK4.thrusted, hp, hs]; exact hr
  have h1 : ∃ q, RK4.stepToEpoch ⟨60 / 86400⟩ (RK4.new s) = (.error .zeroDivision, q) := by
    refine stepToEpoch_of_error ?_ fun dt => ⟨_, step_of_error (C43_off _ _ rfl) (hd _ rfl _)⟩
    simp [RK4.new, GCRF.copy, GCRF.new, State.new, Epoch.copy, hs]
  obtain ⟨p1, h1⟩ := h1
  have hst : p1.step_size = 60 := by
    obtain ⟨n, hL, hn, he⟩ := C82_step_size_violated _ _ _ _ h1
    have hep : (RK4.new s).state.epoch.value = 0 := by
      simp [RK4.new, GCRF.copy, GCRF.new, State.new, Epoch.copy, hs]
    rw [hep] at hL he
    have h1n : n ≤ 1 := hL.2 (by norm_num)
    have : n = 1 := by omega
    subst this
    norm_num at he
    linarith
  have hg := g_pos
  have hx : (⟨1, 0, 0⟩ : Vec3) ≠ ⟨0, 0, 0⟩ := by simp
  have h2 : ∃ q, RK4.maneuver ⟨1, 0, 0⟩ 1 1000 300 (RK4.new s) = (.error .zeroDivision, q) := by
    unfold RK4.maneuver
    rw [burnDuration_ok _ (by norm_num) (by norm_num) (by norm_num)]
    simp only [PyM.lift_ok_bind_apply, PyM.modify_bind_apply, PyM.get_bind_apply, Vec3.copy_eq]
    rw [PyM.bind_apply]
    have : ∃ q, RK4.stepToEpoch ((RK4.new s).state.epoch.plusDays
        (Spec.burnTime (⟨1, 0, 0⟩ : Vec3).magnitude 1 1000 300 / SECONDS_IN_DAY))
        { (RK4.new s) with thrust_direction := ⟨1, 0, 0⟩, m0 := 1000, m_dot := 1, isp := 300 } =
          (.error .zeroDivision, q) := by
      refine stepToEpoch_of_error ?_ fun dt => ?_
      · have hmag : (⟨1, 0, 0⟩ : Vec3).magnitude = 1 := Vec3.magnitude_of_dot zero_le_one (by simp [Vec3.dot])
        have hb : 0 < Spec.burnTime (⟨1, 0, 0⟩ : Vec3).magnitude 1 1000 300 := by
          rw [hmag, Spec.burnTime]
          have : Real.exp (-1 / (300 * SEA_LEVEL_G)) < 1 :=
            Real.exp_lt_one_iff.mpr (div_neg_of_neg_of_pos (by norm_num) (by positivity))
          have h3 : 0 < 1 - Real.exp (-1 / (300 * SEA_LEVEL_G)) := by linarith
          positivity
        have hsec : 0 < SECONDS_IN_DAY := by norm_num [SECONDS_IN_DAY]
        simp only [Epoch.plusDays, ne_eq, add_eq_left]
        positivity
      · obtain ⟨u, -, hu⟩ := C43_thrust { (RK4.new s) with thrust_direction := ⟨1, 0, 0⟩, m0 := 1000, m_dot := 1, isp := 300, step_size := dt }
          0 (by norm_num) (by norm_num) (by norm_num) hx
        exact ⟨_, step_of_error hu (hd _ rfl _)⟩
    obtain ⟨q, hq⟩ := this
    refine ⟨q, ?_⟩
    rw [hq]
  obtain ⟨p2, h2⟩ := h2
  obtain ⟨e1, e2, e3, e4⟩ := C82_engine_violated _ _ _ _ _ _ (by norm_num) (by norm_num) (by norm_num) _ h2
  refine ⟨s, p1, p2, _, _, _, _, _, h1, rfl, hst, h2, C43_off _ _ rfl, ?_⟩
  obtain ⟨u, hu1, hu⟩ := C43_thrust p2 0 (by rw [e1]; norm_num) (by rw [e2]; norm_num) (by rw [e2]; norm_num)
    (by rw [e4]; exact hx)
  refine ⟨_, hu, ?_⟩
  rw [Vec3.magnitude_scaled, Vec3.magnitude_unit (Vec3.normalized_dot_self hu1), e1, e2, e3, mul_one, abs_pos]
  positivity

end Openspace
