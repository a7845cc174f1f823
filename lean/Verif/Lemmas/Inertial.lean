import Verif.Lemmas.Linalg
import Verif.Model.Inertial

/-!
# Lemmas about the Runge-Kutta propagator
-/

namespace Openspace

namespace RK4

/-- the state of the propagator with the thrust assigned -/
noncomputable def thrusted (p : RK4) (t0 : Vec3) : GCRF := { p.state with thrust := t0 }

/-- result of a successful step -/
noncomputable def stepped (p : RK4) (k1 k2 k3 k4 : Vec3 × Vec3) : RK4 :=
  { p with
    state := GCRF.new ((p.state.epoch.plusDays (p.step_size / 2 / SECONDS_IN_DAY)).plusDays
        (p.step_size / 2 / SECONDS_IN_DAY))
      (p.state.position.plus (((k1.1.plus ((k2.1.scaled 2).plus ((k3.1.scaled 2).plus k4.1))).scaled
        (1 / 6)).scaled p.step_size))
      (p.state.velocity.plus (((k1.2.plus ((k2.2.scaled 2).plus ((k3.2.scaled 2).plus k4.2))).scaled
        (1 / 6)).scaled p.step_size)) }

theorem step_ok_iff (p p' : RK4) :
    step p = (.ok (), p') ↔ ∃ t0 k1 k2 k3 k4,
      p.thrustVector 0 = .ok t0 ∧ (p.thrusted t0).derivative = .ok k1 ∧
      p.stage (p.state.epoch.plusDays (p.step_size / 2 / SECONDS_IN_DAY))
        (p.state.position.plus (k1.1.scaled (p.step_size / 2)))
        (p.state.velocity.plus (k1.2.scaled (p.step_size / 2))) (p.step_size / 2) = .ok k2 ∧
      p.stage (p.state.epoch.plusDays (p.step_size / 2 / SECONDS_IN_DAY))
        (p.state.position.plus (k2.1.scaled (p.step_size / 2)))
        (p.state.velocity.plus (k2.2.scaled (p.step_size / 2))) (p.step_size / 2) = .ok k3 ∧
      p.stage ((p.state.epoch.plusDays (p.step_size / 2 / SECONDS_IN_DAY)).plusDays
          (p.step_size / 2 / SECONDS_IN_DAY))
        (p.state.position.plus (k3.1.scaled p.step_size))
        (p.state.velocity.plus (k3.2.scaled p.step_size)) (p.step_size / 2 * 2) = .ok k4 ∧
      p' = p.stepped k1 k2 k3 k4 := by
  unfold step
  simp only [PyM.get_bind_apply]
  rw [PyM.bind_eq_ok]
  constructor
  · rintro ⟨t0, s', h0, h⟩
    rw [PyM.lift_eq_ok] at h0
    obtain ⟨h0, rfl⟩ := h0
    simp only [PyM.modify_bind_apply, PyM.get_bind_apply] at h
    rw [PyM.bind_eq_ok] at h
    obtain ⟨k1, s', h1, h⟩ := h
    rw [PyM.lift_eq_ok] at h1
    obtain ⟨h1, rfl⟩ := h1
    rw [PyM.bind_eq_ok] at h
    obtain ⟨k2, s', h2, h⟩ := h
    rw [PyM.lift_eq_ok] at h2
    obtain ⟨h2, rfl⟩ := h2
    rw [PyM.bind_eq_ok] at h
    obtain ⟨k3, s', h3, h⟩ := h
    rw [PyM.lift_eq_ok] at h3
    obtain ⟨h3, rfl⟩ := h3
    rw [PyM.bind_eq_ok] at h
    obtain ⟨k4, s', h4, h⟩ := h
    rw [PyM.lift_eq_ok] at h4
    obtain ⟨h4, rfl⟩ := h4
    simp only [PyM.modify_apply, Prod.mk.injEq, true_and] at h
    exact ⟨t0, k1, k2, k3, k4, h0, h1, h2, h3, h4, h.symm⟩
  · rintro ⟨t0, k1, k2, k3, k4, h0, h1, h2, h3, h4, rfl⟩
    refine ⟨t0, p, PyM.lift_eq_ok.mpr ⟨h0, rfl⟩, ?_⟩
    simp only [PyM.modify_bind_apply, PyM.get_bind_apply]
    rw [PyM.bind_eq_ok]
    refine ⟨k1, _, PyM.lift_eq_ok.mpr ⟨h1, rfl⟩, ?_⟩
    rw [PyM.bind_eq_ok]
    refine ⟨k2, _, PyM.lift_eq_ok.mpr ⟨h2, rfl⟩, ?_⟩
    rw [PyM.bind_eq_ok]
    refine ⟨k3, _, PyM.lift_eq_ok.mpr ⟨h3, rfl⟩, ?_⟩
    rw [PyM.bind_eq_ok]
    refine ⟨k4, _, PyM.lift_eq_ok.mpr ⟨h4, rfl⟩, ?_⟩
    rfl

theorem secondsInDay_pos : 0 < SECONDS_IN_DAY := by norm_num [SECONDS_IN_DAY]

/-- what a successful step leaves alone, and what it resets -/
theorem step_frame {p p' : RK4} (h : step p = (.ok (), p')) :
    p'.step_size = p.step_size ∧ p'.m_dot = p.m_dot ∧ p'.m0 = p.m0 ∧ p'.isp = p.isp ∧
    p'.thrust_direction = p.thrust_direction ∧
    p'.state.epoch.value = p.state.epoch.value + p.step_size / SECONDS_IN_DAY ∧
    p'.state.use_perturbations = true ∧ p'.state.srp_scalar = 0 ∧ p'.state.thrust = ⟨0, 0, 0⟩ ∧
    p'.state.vector = Vec6.fromPosVel p'.state.position p'.state.velocity := by
  rw [step_ok_iff] at h
  obtain ⟨t0, k1, k2, k3, k4, -, -, -, -, -, rfl⟩ := h
  refine ⟨rfl, rfl, rfl, rfl, rfl, ?_, rfl, rfl, rfl, rfl⟩
  show p.state.epoch.value + _ + _ = _
  ring

/-- whatever the outcome of a step, the engine data and step size are untouched -/
theorem step_frame' (p : RK4) :
    (step p).2.step_size = p.step_size ∧ (step p).2.m_dot = p.m_dot ∧ (step p).2.m0 = p.m0 ∧
    (step p).2.isp = p.isp ∧ (step p).2.thrust_direction = p.thrust_direction := by
  unfold step
  simp only [PyM.get_bind_apply]
  rcases p.thrustVector 0 with e | t0
  · exact ⟨rfl, rfl, rfl, rfl, rfl⟩
  simp only [PyM.lift_ok_bind_apply, PyM.modify_bind_apply, PyM.get_bind_apply]
  rcases GCRF.derivative _ with e | k1
  · exact ⟨rfl, rfl, rfl, rfl, rfl⟩
  simp only [PyM.lift_ok_bind_apply]
  rcases stage _ _ _ _ _ with e | k2
  · exact ⟨rfl, rfl, rfl, rfl, rfl⟩
  simp only [PyM.lift_ok_bind_apply]
  rcases stage _ _ _ _ _ with e | k3
  · exact ⟨rfl, rfl, rfl, rfl, rfl⟩
  simp only [PyM.lift_ok_bind_apply]
  rcases stage _ _ _ _ _ with e | k4
  · exact ⟨rfl, rfl, rfl, rfl, rfl⟩
  simp only [PyM.lift_ok_bind_apply]
  exact ⟨rfl, rfl, rfl, rfl, rfl⟩

/-- `n` successful steps one after the other -/
inductive Steps : Nat → RK4 → RK4 → Prop
  | zero (p : RK4) : Steps 0 p p
  | succ {n : Nat} {p q r : RK4} : step p = (.ok (), q) → Steps n q r → Steps (n + 1) p r

theorem repeatN_ok_iff {n : Nat} {p p' : RK4} :
    PyM.repeatN n step p = (.ok (), p') ↔ Steps n p p' := by
  induction n generalizing p with
  | zero =>
    constructor
    · intro h
      have : p = p' := by simpa [PyM.repeatN] using h
      subst this; exact .zero p
    · intro h; cases h; rfl
  | succ n ih =>
    have e : PyM.repeatN (n + 1) step p = (step >>= fun _ => PyM.repeatN n step) p := rfl
    rw [e, PyM.bind_eq_ok]
    constructor
    · rintro ⟨⟨⟩, q, h1, h2⟩; exact .succ h1 (ih.mp h2)
    · intro h
      cases h with
      | succ h1 h2 => exact ⟨(), _, h1, ih.mpr h2⟩

theorem Steps.frame {n : Nat} {p p' : RK4} (h : Steps n p p') :
    p'.step_size = p.step_size ∧ p'.m_dot = p.m_dot ∧ p'.m0 = p.m0 ∧ p'.isp = p.isp ∧
    p'.thrust_direction = p.thrust_direction ∧
    p'.state.epoch.value = p.state.epoch.value + n * (p.step_size / SECONDS_IN_DAY) ∧
    (0 < n → p'.state.use_perturbations = true ∧ p'.state.srp_scalar = 0 ∧
      p'.state.thrust = ⟨0, 0, 0⟩ ∧
      p'.state.vector = Vec6.fromPosVel p'.state.position p'.state.velocity) := by
  induction h with
  | zero p => simp
  | @succ n p q r h1 h2 ih =>
    obtain ⟨a1, a2, a3, a4, a5, a6, a7, a8, a9, a10⟩ := step_frame h1
    obtain ⟨b1, b2, b3, b4, b5, b6, b7⟩ := ih
    refine ⟨by rw [b1, a1], by rw [b2, a2], by rw [b3, a3], by rw [b4, a4], by rw [b5, a5], ?_, fun _ => ?_⟩
    · rw [b6, a6, a1]; push_cast; ring
    · rcases Nat.eq_zero_or_pos n with rfl | hn
      · cases h2; exact ⟨a7, a8, a9, a10⟩
      · exact b7 hn

theorem step_size_eta (p : RK4) : { p with step_size := p.step_size } = p := rfl

/-- the shape of `step_to_epoch` -/
theorem stepToEpoch_apply (t : Epoch) (p : RK4) :
    stepToEpoch t p =
      (let dt := (t.value - p.state.epoch.value) * SECONDS_IN_DAY
       let n := ⌈|dt / 300|⌉₊
       match PyM.repeatN n step (if 0 < n then { p with step_size := dt / n } else p) with
       | (.ok _, q) => (.ok (), { q with step_size := p.step_size })
       | (.error e, q) => (.error e, q)) := by
  simp only [stepToEpoch, PyM.get_bind_apply]
  by_cases h : 0 < ⌈|(t.value - p.state.epoch.value) * SECONDS_IN_DAY / 300|⌉₊
  · have h' : pyCeilNat (pyAbs ((t.value - p.state.epoch.value) * SECONDS_IN_DAY / MAX_STEP)) > 0 := h
    rw [if_pos h, if_pos h', PyM.modify_bind_apply, PyM.bind_apply]
    simp only [pyCeilNat, pyAbs, MAX_STEP, ofNat, PyM.modify_apply]
    rcases PyM.repeatN _ step _ with ⟨r, q⟩
    cases r <;> rfl
  · have h' : ¬ pyCeilNat (pyAbs ((t.value - p.state.epoch.value) * SECONDS_IN_DAY / MAX_STEP)) > 0 := h
    rw [if_neg h, if_neg h', PyM.bind_apply]
    simp only [pyCeilNat, pyAbs, MAX_STEP, PyM.modify_apply]
    rcases PyM.repeatN _ step _ with ⟨r, q⟩
    cases r <;> rfl

/-- `step_to_epoch` returns exactly when it can chain the equal steps -/
theorem stepToEpoch_ok_iff {t : Epoch} {p p' : RK4} :
    stepToEpoch t p = (.ok (), p') ↔
      ∃ q, Steps ⌈|(t.value - p.state.epoch.value) * SECONDS_IN_DAY / 300|⌉₊
        (if 0 < ⌈|(t.value - p.state.epoch.value) * SECONDS_IN_DAY / 300|⌉₊ then
          { p with step_size := (t.value - p.state.epoch.value) * SECONDS_IN_DAY /
            ⌈|(t.value - p.state.epoch.value) * SECONDS_IN_DAY / 300|⌉₊ } else p) q ∧
        p' = { q with step_size := p.step_size } := by
  rw [stepToEpoch_apply]
  simp only [← repeatN_ok_iff]
  generalize (if 0 < ⌈|(t.value - p.state.epoch.value) * SECONDS_IN_DAY / 300|⌉₊ then
          { p with step_size := (t.value - p.state.epoch.value) * SECONDS_IN_DAY /
            ⌈|(t.value - p.state.epoch.value) * SECONDS_IN_DAY / 300|⌉₊ } else p) = p0
  rcases PyM.repeatN _ step p0 with ⟨r, q⟩
  cases r with
  | error e => simp
  | ok u => simp [eq_comm]

end RK4

end Openspace

namespace Openspace.RK4

/-- the three shapes the propagator can have after a step, successful or not -/
theorem step_cases (p : RK4) :
    (step p).2 = p ∨ (∃ t0, (step p).2 = { p with state := p.thrusted t0 }) ∨
    ∃ k1 k2 k3 k4, (step p).2 = p.stepped k1 k2 k3 k4 := by
  unfold step
  simp only [PyM.get_bind_apply]
  rcases p.thrustVector 0 with e | t0
  · exact Or.inl rfl
  simp only [PyM.lift_ok_bind_apply, PyM.modify_bind_apply, PyM.get_bind_apply]
  rcases GCRF.derivative _ with e | k1
  · exact Or.inr (Or.inl ⟨t0, rfl⟩)
  simp only [PyM.lift_ok_bind_apply]
  rcases stage _ _ _ _ _ with e | k2
  · exact Or.inr (Or.inl ⟨t0, rfl⟩)
  simp only [PyM.lift_ok_bind_apply]
  rcases stage _ _ _ _ _ with e | k3
  · exact Or.inr (Or.inl ⟨t0, rfl⟩)
  simp only [PyM.lift_ok_bind_apply]
  rcases stage _ _ _ _ _ with e | k4
  · exact Or.inr (Or.inl ⟨t0, rfl⟩)
  simp only [PyM.lift_ok_bind_apply]
  exact Or.inr (Or.inr ⟨k1, k2, k3, k4, rfl⟩)

/-- a predicate on states that the propagator cannot break -/
structure Stable (Q : GCRF → Prop) : Prop where
  thrust : ∀ s t0, Q s → Q { s with thrust := t0 }
  new : ∀ e r v, Q (GCRF.new e r v)

theorem Stable.step {Q : GCRF → Prop} (hQ : Stable Q) {p : RK4} (h : Q p.state) :
    Q (RK4.step p).2.state := by
  rcases step_cases p with h1 | ⟨t0, h1⟩ | ⟨k1, k2, k3, k4, h1⟩
  · rw [h1]; exact h
  · rw [h1]; exact hQ.thrust _ t0 h
  · rw [h1]; exact hQ.new _ _ _

theorem Stable.repeatN {Q : GCRF → Prop} (hQ : Stable Q) (n : Nat) {p : RK4} (h : Q p.state) :
    Q (PyM.repeatN n RK4.step p).2.state := by
  induction n generalizing p with
  | zero => exact h
  | succ n ih =>
    have e : PyM.repeatN (n + 1) RK4.step p = (RK4.step >>= fun _ => PyM.repeatN n RK4.step) p := rfl
    rw [e, PyM.bind_apply]
    have hs := hQ.step h
    rcases hst : RK4.step p with ⟨r, q⟩
    rw [hst] at hs
    cases r with
    | error e => exact hs
    | ok u => exact ih hs

theorem Stable.stepToEpoch {Q : GCRF → Prop} (hQ : Stable Q) (t : Epoch) {p : RK4} (h : Q p.state) :
    Q (RK4.stepToEpoch t p).2.state := by
  rw [stepToEpoch_apply]
  have h0 : Q (if 0 < ⌈|(t.value - p.state.epoch.value) * SECONDS_IN_DAY / 300|⌉₊ then
          { p with step_size := (t.value - p.state.epoch.value) * SECONDS_IN_DAY /
            ⌈|(t.value - p.state.epoch.value) * SECONDS_IN_DAY / 300|⌉₊ } else p).state := by
    split <;> exact h
  have := hQ.repeatN ⌈|(t.value - p.state.epoch.value) * SECONDS_IN_DAY / 300|⌉₊ h0
  simp only
  rcases hst : PyM.repeatN _ RK4.step _ with ⟨r, q⟩
  rw [hst] at this
  cases r <;> exact this

theorem Stable.maneuver {Q : GCRF → Prop} (hQ : Stable Q) (dv : Vec3) (m_dot m0 isp : ℝ) {p : RK4}
    (h : Q p.state) : Q (RK4.maneuver dv m_dot m0 isp p).2.state := by
  unfold RK4.maneuver
  rcases burnDuration dv m_dot m0 isp with e | T
  · exact h
  simp only [PyM.lift_ok_bind_apply, PyM.modify_bind_apply, PyM.get_bind_apply]
  rw [PyM.bind_apply]
  have := hQ.stepToEpoch (p.state.epoch.plusDays (T / SECONDS_IN_DAY))
    (p := { p with thrust_direction := dv, m0 := m0, m_dot := m_dot, isp := isp }) h
  simp only [Vec3.copy_eq] at this ⊢
  rcases hst : RK4.stepToEpoch _ _ with ⟨r, q⟩
  rw [hst] at this
  cases r <;> exact this

end Openspace.RK4
