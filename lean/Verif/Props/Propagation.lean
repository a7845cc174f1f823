import Verif.Lemmas.Inertial
import Verif.Spec.RungeKutta
import Verif.Model.Artificial
import Mathlib.Analysis.SpecialFunctions.Integrals.Basic
import Mathlib.Tactic.Module

/-!
# Properties C41–C44, C47: the Runge-Kutta propagator and its thrust model
-/

namespace Openspace

open Real

/-! ## C41 -/

/-- the number of steps is the least one for which no step is longer than 300 s -/
theorem ceil_isLeast (dt : ℝ) : IsLeast {k : ℕ | |dt| ≤ 300 * k} ⌈|dt / 300|⌉₊ := by
  have e : |dt / 300| = |dt| / 300 := by rw [abs_div]; norm_num
  constructor
  · have := Nat.le_ceil |dt / 300|
    simp only [Set.mem_ofPred_eq]
    rw [e] at this ⊢
    linarith
  · intro k hk
    simp only [Set.mem_ofPred_eq] at hk
    rw [Nat.ceil_le, e]
    linarith

theorem C41_lands (p p' : RK4) (t : Epoch) (h : RK4.stepToEpoch t p = (.ok (), p')) :
    -- the epoch is the requested one and the step size is restored
    p'.state.epoch = t ∧ p'.step_size = p.step_size ∧
    -- the span is covered by the least number of equal steps of at most 300 s, each a `step()`
    ∃ (n : ℕ) (dt : ℝ) (q : RK4), IsLeast {k : ℕ | |(t.value - p.state.epoch.value) * 86400| ≤ 300 * k} n ∧
      n * dt = (t.value - p.state.epoch.value) * 86400 ∧ |dt| ≤ 300 ∧
      RK4.Steps n (if 0 < n then { p with step_size := dt } else p) q ∧
      p' = { q with step_size := p.step_size } := by
  rw [RK4.stepToEpoch_ok_iff] at h
  obtain ⟨q, hs, rfl⟩ := h
  have hsec : SECONDS_IN_DAY = 86400 := by norm_num [SECONDS_IN_DAY]
  have hL := ceil_isLeast ((t.value - p.state.epoch.value) * SECONDS_IN_DAY)
  generalize ⌈|(t.value - p.state.epoch.value) * SECONDS_IN_DAY / 300|⌉₊ = n at hs hL
  rw [hsec] at hs hL
  have hle : |(t.value - p.state.epoch.value) * 86400| ≤ 300 * n := hL.1
  have hndt : (n : ℝ) * ((t.value - p.state.epoch.value) * 86400 / n) =
      (t.value - p.state.epoch.value) * 86400 := by
    rcases Nat.eq_zero_or_pos n with h0 | h0
    · subst h0
      simp only [Nat.cast_zero, mul_zero, abs_nonpos_iff] at hle
      simp [hle]
    · have : (n : ℝ) ≠ 0 := by positivity
      field_simp
  refine ⟨?_, rfl, n, (t.value - p.state.epoch.value) * 86400 / n, q, hL, hndt, ?_, hs, rfl⟩
  · have hf := hs.frame.2.2.2.2.2.1
    ext
    show q.state.epoch.value = t.value
    rw [hf]
    rcases Nat.eq_zero_or_pos n with h0 | h0
    · subst h0
      simp only [Nat.cast_zero, mul_zero, abs_nonpos_iff] at hle
      have : t.value - p.state.epoch.value = 0 := by linarith
      simp; linarith
    · have : (n : ℝ) ≠ 0 := by positivity
      simp only [h0, if_true, hsec]
      field_simp
      ring
  · rcases Nat.eq_zero_or_pos n with h0 | h0
    · subst h0; simp
    · have : (0 : ℝ) < n := by positivity
      rw [abs_div, abs_of_pos this, div_le_iff₀ this]
      exact hle

/-- asking for the current epoch does nothing at all -/
theorem C41_zero_span (p : RK4) : RK4.stepToEpoch p.state.epoch p = (.ok (), p) := by
  rw [RK4.stepToEpoch_ok_iff]
  refine ⟨p, ?_, rfl⟩
  simp only [sub_self, zero_mul, zero_div, abs_zero, Nat.ceil_zero, lt_irrefl, if_false]
  exact .zero p

/-! ## C42 -/

theorem derivative_congr {s s' : GCRF} (h1 : s.epoch = s'.epoch) (h2 : s.position = s'.position)
    (h3 : s.velocity = s'.velocity) (h4 : s.thrust = s'.thrust) (h5 : s.srp_scalar = s'.srp_scalar)
    (h6 : s.use_perturbations = s'.use_perturbations) : s.derivative = s'.derivative := by
  unfold GCRF.derivative GCRF.accelerationFromThrust GCRF.accelerationFromEarth GCRF.accelerationFromMoon
    GCRF.accelerationFromSun GCRF.accelerationFromSrp GCRF.accelerationFromGravity GCRF.sunVector
  rw [h1, h2, h3, h4, h5, h6]

/-- a force law in the phase space: `f tau (r, v)` is `(velocity, acceleration)` of a state at
`tau` seconds after the epoch of the propagator, wherever the library can evaluate it -/
def Represents (p : RK4) (f : ℝ → Spec.Phase → Spec.Phase) : Prop :=
  ∀ (tau : ℝ) (r v T : Vec3) (d : Vec3 × Vec3), p.thrustVector tau = .ok T →
    ({ GCRF.new (p.state.epoch.plusDays (tau / 86400)) r v with thrust := T } : GCRF).derivative = .ok d →
    f tau (Spec.phase r v) = Spec.phase d.1 d.2

theorem toFun_plus (a b : Vec3) : (a.plus b).toFun = a.toFun + b.toFun := by
  ext i; fin_cases i <;> rfl

theorem toFun_scaled (a : Vec3) (k : ℝ) : (a.scaled k).toFun = k • a.toFun := by
  ext i; fin_cases i <;> simp [Vec3.scaled, Vec3.toFun, mul_comm]

theorem phase_add (r v k l : Vec3) (h : ℝ) :
    Spec.phase (r.plus (k.scaled h)) (v.plus (l.scaled h)) = Spec.phase r v + h • Spec.phase k l := by
  simp only [Spec.phase, toFun_plus, toFun_scaled, Prod.smul_mk, Prod.mk_add_mk]

/-- every successful step is the classical Runge-Kutta step of the force law, and advances the
epoch by the step size (the two hypotheses on the state hold for the state of every propagator that
the user has not tampered with, see C39 and C40) -/
theorem C42_classical (p p' : RK4) (f : ℝ → Spec.Phase → Spec.Phase) (hf : Represents p f)
    (hsrp : p.state.srp_scalar = 0) (hpert : p.state.use_perturbations = true)
    (h : RK4.step p = (.ok (), p')) :
    Spec.phase p'.state.position p'.state.velocity =
      Spec.rk4 f 0 p.step_size (Spec.phase p.state.position p.state.velocity) ∧
    p'.state.epoch.value = p.state.epoch.value + p.step_size / 86400 := by
  have hsec : SECONDS_IN_DAY = 86400 := by norm_num [SECONDS_IN_DAY]
  have hep := (RK4.step_frame h).2.2.2.2.2.1
  rw [hsec] at hep
  refine ⟨?_, hep⟩
  rw [RK4.step_ok_iff] at h
  obtain ⟨t0, k1, k2, k3, k4, h0, h1, h2, h3, h4, rfl⟩ := h
  have e0 : p.state.epoch.plusDays ((0 : ℝ) / 86400) = p.state.epoch := by
    ext; simp [Epoch.plusDays]
  have f1 : f 0 (Spec.phase p.state.position p.state.velocity) = Spec.phase k1.1 k1.2 := by
    refine hf 0 _ _ t0 k1 h0 ?_
    rw [← h1, e0]
    apply derivative_congr <;> try rfl
    · exact hsrp.symm
    · exact hpert.symm
  have stg : ∀ (ep : Epoch) (r v : Vec3) (dt : ℝ) (k : Vec3 × Vec3), p.stage ep r v dt = .ok k →
      ep = p.state.epoch.plusDays (dt / 86400) →
      f dt (Spec.phase r v) = Spec.phase k.1 k.2 := by
    intro ep r v dt k hk he
    simp only [RK4.stage, bind_eq_ok] at hk
    obtain ⟨T, hT, hd⟩ := hk
    subst he
    exact hf dt r v T k hT hd
  have f2 := stg _ _ _ _ _ h2 (by rw [hsec])
  have f3 := stg _ _ _ _ _ h3 (by rw [hsec])
  have f4 := stg _ _ _ _ _ h4 (by
    rw [hsec]; ext; simp only [Epoch.plusDays]; ring)
  rw [phase_add] at f2 f3 f4
  have e2 : p.step_size / 2 * 2 = p.step_size := by ring
  rw [e2] at f4
  simp only [Spec.rk4, zero_add, f1, f2, f3, f4]
  simp only [RK4.stepped, GCRF.new, State.new, Vec3.copy_eq]
  rw [phase_add]
  have e3 : Spec.phase ((k1.1.plus ((k2.1.scaled 2).plus ((k3.1.scaled 2).plus k4.1))).scaled (1 / 6))
      ((k1.2.plus ((k2.2.scaled 2).plus ((k3.2.scaled 2).plus k4.2))).scaled (1 / 6)) =
      (1 / 6 : ℝ) • (Spec.phase k1.1 k1.2 + ((2 : ℝ) • Spec.phase k2.1 k2.2 +
        ((2 : ℝ) • Spec.phase k3.1 k3.2 + Spec.phase k4.1 k4.2))) := by
    simp only [Spec.phase, toFun_plus, toFun_scaled, Prod.smul_mk, Prod.mk_add_mk]
  rw [e3]
  module

/-- a force law that represents the propagator always exists -/
theorem exists_represents (p : RK4) : ∃ f, Represents p f := by
  classical
  refine ⟨fun tau y => if h : ∃ (r v T : Vec3) (d : Vec3 × Vec3), y = Spec.phase r v ∧
      p.thrustVector tau = .ok T ∧
      ({ GCRF.new (p.state.epoch.plusDays (tau / 86400)) r v with thrust := T } : GCRF).derivative = .ok d
      then Spec.phase h.choose_spec.choose_spec.choose_spec.choose.1 h.choose_spec.choose_spec.choose_spec.choose.2
      else 0, ?_⟩
  intro tau r v T d hT hd
  have hex : ∃ (r' v' T : Vec3) (d : Vec3 × Vec3), Spec.phase r v = Spec.phase r' v' ∧
      p.thrustVector tau = .ok T ∧
      ({ GCRF.new (p.state.epoch.plusDays (tau / 86400)) r' v' with thrust := T } : GCRF).derivative = .ok d :=
    ⟨r, v, T, d, rfl, hT, hd⟩
  simp only [hex, dif_pos]
  obtain ⟨g1, g2, g3⟩ := hex.choose_spec.choose_spec.choose_spec.choose_spec
  generalize hex.choose_spec.choose_spec.choose_spec.choose = d' at g3 ⊢
  generalize hex.choose_spec.choose_spec.choose = T' at g2 g3
  generalize hex.choose_spec.choose = v' at g1 g3
  generalize hex.choose = r' at g1 g3
  simp only [Spec.phase, Prod.mk.injEq] at g1
  have hr := Mat3.toFun_injective g1.1
  have hv := Mat3.toFun_injective g1.2
  subst hr hv
  rw [hT] at g2; cases g2
  rw [hd] at g3; cases g3
  rfl

/-- the scheme integrates exactly an acceleration that is a cubic polynomial of time (velocity),
and the position too if the polynomial is quadratic -/
theorem C42_quadrature (r v c0 c1 c2 c3 : Fin 3 → ℝ) (h : ℝ) :
    let a : ℝ → Fin 3 → ℝ := fun s => c0 + s • c1 + s ^ 2 • c2 + s ^ 3 • c3
    let y := Spec.rk4 (fun t (y : Spec.Phase) => (y.2, a t)) 0 h (r, v)
    y.2 = v + h • c0 + (h ^ 2 / 2) • c1 + (h ^ 3 / 3) • c2 + (h ^ 4 / 4) • c3 ∧
    (c3 = 0 → y.1 = r + h • v + (h ^ 2 / 2) • c0 + (h ^ 3 / 6) • c1 + (h ^ 4 / 12) • c2) := by
  simp only [Spec.rk4]
  constructor
  · simp only [Prod.smul_mk, Prod.mk_add_mk, zero_add]
    module
  · intro h3
    subst h3
    simp only [Prod.smul_mk, Prod.mk_add_mk, zero_add, smul_zero, add_zero]
    module

/-- for linear dynamics the step is the Taylor polynomial of degree 4 of the exact flow -/
theorem C42_linear {E : Type} [AddCommGroup E] [Module ℝ E] (A : E →ₗ[ℝ] E) (t h : ℝ) (y : E) :
    Spec.rk4 (fun _ y => A y) t h y =
      y + h • A y + (h ^ 2 / 2) • A (A y) + (h ^ 3 / 6) • A (A (A y)) + (h ^ 4 / 24) • A (A (A (A y))) := by
  simp only [Spec.rk4, map_add, map_smul]
  module

/-! ## C43 -/

theorem g_pos : 0 < SEA_LEVEL_G := by norm_num [SEA_LEVEL_G]

theorem C43_thrust (p : RK4) (dt : ℝ) (hm : p.m_dot ≠ 0) (h0 : 0 < p.m0) (hdt : p.m_dot * dt < p.m0)
    (hd : p.thrust_direction ≠ ⟨0, 0, 0⟩) :
    ∃ u, p.thrust_direction.normalized = .ok u ∧
      p.thrustVector dt = .ok (u.scaled (p.m_dot * p.isp * SEA_LEVEL_G / (p.m0 - p.m_dot * dt))) := by
  refine ⟨_, Vec3.normalized_ok hd, ?_⟩
  by_cases hz : dt = 0
  · subst hz
    simp only [RK4.thrustVector, hm, ne_eq, not_false_eq_true, if_true, Vec3.normalized_ok hd, ok_bind,
      pyDiv_ok h0.ne', pure_eq_ok, mul_zero, sub_zero]
  · have hq : 0 < 1 - p.m_dot * dt / p.m0 := by
      rw [sub_pos, div_lt_one h0]; exact hdt
    have hne1 : 1 - p.m_dot * dt / p.m0 ≠ 1 := by
      have : p.m_dot * dt / p.m0 ≠ 0 := by
        apply div_ne_zero (mul_ne_zero hm hz) h0.ne'
      intro h; apply this; linarith
    have hl : log (1 - p.m_dot * dt / p.m0) ≠ 0 := log_ne_zero_of_pos_of_ne_one hq hne1
    have hmt : p.m0 - p.m_dot * dt ≠ 0 := by linarith
    simp only [RK4.thrustVector, hm, ne_eq, not_false_eq_true, if_true, hz, if_false, Vec3.normalized_ok hd,
      ok_bind, pyDiv_ok h0.ne', pyLog_ok hq, pyDiv_ok hm, pyDiv_ok hmt, pyDiv_ok (neg_ne_zero.mpr hl),
      pure_eq_ok, Except.ok.injEq]
    generalize log (1 - p.m_dot * dt / p.m0) = l at hl
    ext <;> simp only [Vec3.scaled] <;> field_simp

/-- no engine, no thrust -/
theorem C43_off (p : RK4) (dt : ℝ) (hm : p.m_dot = 0) : p.thrustVector dt = .ok ⟨0, 0, 0⟩ := by
  simp [RK4.thrustVector, hm]

/-- the value at `dt = 0`, which has its own branch, is the limit of the other branch -/
theorem C43_limit (p : RK4) (hm : p.m_dot ≠ 0) (h0 : 0 < p.m0) (hd : p.thrust_direction ≠ ⟨0, 0, 0⟩) :
    ∃ (a : ℝ → Vec3) (e : ℝ), 0 < e ∧ (∀ dt, |dt| < e → p.thrustVector dt = .ok (a dt)) ∧
      Filter.Tendsto (fun dt => (a dt).toFun) (nhds 0) (nhds (a 0).toFun) := by
  refine ⟨fun dt => (p.thrust_direction.scaled (1 / p.thrust_direction.magnitude)).scaled
    (p.m_dot * p.isp * SEA_LEVEL_G / (p.m0 - p.m_dot * dt)), p.m0 / |p.m_dot|, by positivity, ?_, ?_⟩
  · intro dt h
    have : p.m_dot * dt < p.m0 := by
      have h1 : |dt| * |p.m_dot| < p.m0 := by rwa [lt_div_iff₀ (by positivity)] at h
      have h2 := le_abs_self (p.m_dot * dt)
      rw [abs_mul] at h2
      nlinarith
    obtain ⟨u, hu, h2⟩ := C43_thrust p dt hm h0 this hd
    rw [Vec3.normalized_eq_ok] at hu
    rw [h2, hu.2]
  · have hc : ContinuousAt (fun dt : ℝ => p.m_dot * p.isp * SEA_LEVEL_G / (p.m0 - p.m_dot * dt)) 0 := by
      apply ContinuousAt.div
      · fun_prop
      · fun_prop
      · simp [h0.ne']
    simp only [toFun_scaled]
    exact (hc.smul continuousAt_const).tendsto

/-- the default engine burning along `(1, 2, 3)`, ten seconds into the burn -/
noncomputable def burning : RK4 :=
  ⟨GCRF.new ⟨59932⟩ ⟨42164, 0, 0⟩ ⟨0, 3.0747, 0⟩, 300, 0.003, 800, ⟨1, 2, 3⟩, 350⟩

example : ∃ a, burning.thrustVector 10 = .ok a := by
  obtain ⟨u, -, h⟩ := C43_thrust burning 10 (by norm_num [burning]) (by norm_num [burning])
    (by norm_num [burning]) (by simp [burning])
  exact ⟨_, h⟩

/-! ## C44 -/

/-- burn time from the rocket equation -/
noncomputable def Spec.burnTime (dv m_dot m0 isp : ℝ) : ℝ :=
  m0 / m_dot * (1 - exp (-dv / (isp * SEA_LEVEL_G)))

theorem burnDuration_ok (dv : Vec3) {m_dot m0 isp : ℝ} (hm : m_dot ≠ 0) (h0 : m0 ≠ 0) (hi : isp ≠ 0) :
    RK4.burnDuration dv m_dot m0 isp = .ok (Spec.burnTime dv.magnitude m_dot m0 isp) := by
  have hg := g_pos.ne'
  have h1 : m_dot / m0 ≠ 0 := div_ne_zero hm h0
  have h2 : -isp * (m_dot / m0) * SEA_LEVEL_G ≠ 0 := by
    apply mul_ne_zero (mul_ne_zero (neg_ne_zero.mpr hi) h1) hg
  simp only [RK4.burnDuration, pyDiv_ok h0, ok_bind, pyDiv_ok h1, pyDiv_ok h2, pure_eq_ok, pyExp,
    Spec.burnTime, Except.ok.injEq]
  have e1 : 1 / (m_dot / m0) = m0 / m_dot := by field_simp
  have e2 : m_dot / m0 * dv.magnitude / (-isp * (m_dot / m0) * SEA_LEVEL_G) =
      -dv.magnitude / (isp * SEA_LEVEL_G) := by field_simp
  rw [e1, e2]

theorem maneuver_ok_iff {dv : Vec3} {m_dot m0 isp : ℝ} {p p' : RK4} :
    RK4.maneuver dv m_dot m0 isp p = (.ok (), p') ↔ ∃ T q,
      RK4.burnDuration dv m_dot m0 isp = .ok T ∧
      RK4.stepToEpoch (p.state.epoch.plusDays (T / SECONDS_IN_DAY))
        { p with thrust_direction := dv, m0 := m0, m_dot := m_dot, isp := isp } = (.ok (), q) ∧
      p' = { q with m0 := 0, m_dot := 0 } := by
  unfold RK4.maneuver
  rw [PyM.bind_eq_ok]
  constructor
  · rintro ⟨T, s', hT, h⟩
    rw [PyM.lift_eq_ok] at hT
    obtain ⟨hT, rfl⟩ := hT
    simp only [PyM.modify_bind_apply, PyM.get_bind_apply] at h
    rw [PyM.bind_eq_ok] at h
    obtain ⟨⟨⟩, q, h1, h2⟩ := h
    simp only [PyM.modify_apply, Prod.mk.injEq, true_and] at h2
    exact ⟨T, q, hT, h1, h2.symm⟩
  · rintro ⟨T, q, hT, h1, rfl⟩
    refine ⟨T, p, PyM.lift_eq_ok.mpr ⟨hT, rfl⟩, ?_⟩
    simp only [PyM.modify_bind_apply, PyM.get_bind_apply]
    rw [PyM.bind_eq_ok]
    exact ⟨(), q, h1, rfl⟩

/-- a burn lasts exactly the time of the rocket equation, and the engine is off afterwards -/
theorem C44_duration (p p' : RK4) (dv : Vec3) (m_dot m0 isp : ℝ) (hm : m_dot ≠ 0) (h0 : m0 ≠ 0)
    (hi : isp ≠ 0) (h : RK4.maneuver dv m_dot m0 isp p = (.ok (), p')) :
    (p'.state.epoch.value - p.state.epoch.value) * 86400 =
      m0 / m_dot * (1 - exp (-dv.magnitude / (isp * SEA_LEVEL_G))) ∧
    (∀ dt, p'.thrustVector dt = .ok ⟨0, 0, 0⟩) ∧ p'.step_size = p.step_size := by
  rw [maneuver_ok_iff] at h
  obtain ⟨T, q, hT, h1, rfl⟩ := h
  rw [burnDuration_ok dv hm h0 hi, Except.ok.injEq] at hT
  have hl := C41_lands _ _ _ h1
  refine ⟨?_, fun dt => C43_off _ dt rfl, hl.2.1⟩
  show (q.state.epoch.value - p.state.epoch.value) * 86400 = _
  rw [hl.1, ← hT]
  have hsec : SECONDS_IN_DAY = 86400 := by norm_num [SECONDS_IN_DAY]
  simp only [Epoch.plusDays, hsec, Spec.burnTime]
  ring

/-- the rocket equation: integrating thrust over current mass for the burn time gives `|dv|` -/
theorem C44_rocket (dv m_dot m0 isp : ℝ) (hdv : 0 ≤ dv) (hm : 0 < m_dot) (h0 : 0 < m0) (hi : 0 < isp) :
    0 ≤ Spec.burnTime dv m_dot m0 isp ∧
    (∀ t ∈ Set.Icc 0 (Spec.burnTime dv m_dot m0 isp), m_dot * t < m0) ∧
    ∫ t in (0 : ℝ)..(Spec.burnTime dv m_dot m0 isp), m_dot * isp * SEA_LEVEL_G / (m0 - m_dot * t) = dv := by
  have hg := g_pos
  have he : exp (-dv / (isp * SEA_LEVEL_G)) ≤ 1 := by
    rw [exp_le_one_iff, div_nonpos_iff]; right; exact ⟨by linarith, by positivity⟩
  have he0 := exp_pos (-dv / (isp * SEA_LEVEL_G))
  have hT : 0 ≤ Spec.burnTime dv m_dot m0 isp := by
    unfold Spec.burnTime; apply mul_nonneg (by positivity); linarith
  have hend : m0 - m_dot * Spec.burnTime dv m_dot m0 isp = m0 * exp (-dv / (isp * SEA_LEVEL_G)) := by
    unfold Spec.burnTime; field_simp; ring
  have hmass : ∀ t ∈ Set.Icc 0 (Spec.burnTime dv m_dot m0 isp), m_dot * t < m0 := by
    intro t ht
    have : m_dot * t ≤ m_dot * Spec.burnTime dv m_dot m0 isp := by gcongr; exact ht.2
    have : 0 < m0 * exp (-dv / (isp * SEA_LEVEL_G)) := by positivity
    linarith
  refine ⟨hT, hmass, ?_⟩
  have hder : ∀ t ∈ Set.uIcc 0 (Spec.burnTime dv m_dot m0 isp),
      HasDerivAt (fun t => -(isp * SEA_LEVEL_G) * log (m0 - m_dot * t))
        (m_dot * isp * SEA_LEVEL_G / (m0 - m_dot * t)) t := by
    intro t ht
    rw [Set.uIcc_of_le hT] at ht
    have hne : m0 - m_dot * t ≠ 0 := by linarith [hmass t ht]
    have h1 : HasDerivAt (fun t => m0 - m_dot * t) (-m_dot) t := by
      simpa using ((hasDerivAt_id t).const_mul m_dot).const_sub m0
    refine ((h1.log hne).const_mul (-(isp * SEA_LEVEL_G))).congr_deriv ?_
    ring
  rw [intervalIntegral.integral_eq_sub_of_hasDerivAt hder]
  · rw [hend, log_mul h0.ne' he0.ne', log_exp, mul_zero, sub_zero]
    field_simp
    ring
  · apply ContinuousOn.intervalIntegrable
    intro t ht
    rw [Set.uIcc_of_le hT] at ht
    have hne : m0 - m_dot * t ≠ 0 := by linarith [hmass t ht]
    apply ContinuousAt.continuousWithinAt
    apply ContinuousAt.div
    · fun_prop
    · fun_prop
    · exact hne

/-- a zero burn is a no-op on the state -/
theorem C44_zero_burn (p : RK4) (m_dot m0 isp : ℝ) (hm : m_dot ≠ 0) (h0 : m0 ≠ 0) (hi : isp ≠ 0) :
    ∃ p', RK4.maneuver ⟨0, 0, 0⟩ m_dot m0 isp p = (.ok (), p') ∧ p'.state = p.state ∧
      p'.step_size = p.step_size := by
  have hz : Spec.burnTime (⟨0, 0, 0⟩ : Vec3).magnitude m_dot m0 isp = 0 := by
    rw [Vec3.magnitude_eq_zero.mpr rfl]; simp [Spec.burnTime]
  refine ⟨{ p with thrust_direction := ⟨0, 0, 0⟩, isp := isp, m0 := 0, m_dot := 0 },
    maneuver_ok_iff.mpr ⟨0, { p with thrust_direction := ⟨0, 0, 0⟩, m0 := m0, m_dot := m_dot, isp := isp },
      ?_, ?_, rfl⟩, rfl, rfl⟩
  · rw [burnDuration_ok _ hm h0 hi, hz]
  · have e : p.state.epoch.plusDays (0 / SECONDS_IN_DAY) = p.state.epoch := by
      ext; simp [Epoch.plusDays]
    rw [e]
    exact C41_zero_span { p with thrust_direction := ⟨0, 0, 0⟩, m0 := m0, m_dot := m_dot, isp := isp }

/-! ## C47 -/

/-- what does hold: within one step the mass decreases linearly and continuously -/
theorem C47_within_step_partial (p : RK4) (hm : 0 < p.m_dot) (h0 : 0 < p.m0) (hi : 0 < p.isp)
    (hd : p.thrust_direction ≠ ⟨0, 0, 0⟩) (s t : ℝ) (hs : p.m_dot * s < p.m0) (ht : p.m_dot * t < p.m0)
    (hst : s < t) :
    ∃ a b, p.thrustVector s = .ok a ∧ p.thrustVector t = .ok b ∧ a.magnitude < b.magnitude := by
  obtain ⟨u, hu, h1⟩ := C43_thrust p s hm.ne' h0 hs hd
  obtain ⟨u', hu', h2⟩ := C43_thrust p t hm.ne' h0 ht hd
  rw [hu] at hu'; cases hu'
  refine ⟨_, _, h1, h2, ?_⟩
  have hg := g_pos
  have hf : 0 < p.m_dot * p.isp * SEA_LEVEL_G := by positivity
  rw [Vec3.magnitude_scaled, Vec3.magnitude_scaled, Vec3.magnitude_unit (Vec3.normalized_dot_self hu),
    abs_of_pos (div_pos hf (by linarith)), abs_of_pos (div_pos hf (by linarith)), mul_one, mul_one]
  apply div_lt_div_of_pos_left hf (by linarith)
  nlinarith

/-- the property is false: after every step of a burn the thrust law starts again from the mass at
the beginning of the burn, so the acceleration at the start of a step differs from the one reached
at the end of the previous step -/
theorem C47_violated (p q : RK4) (hm : 0 < p.m_dot) (h0 : 0 < p.m0) (hi : 0 < p.isp)
    (hd : p.thrust_direction ≠ ⟨0, 0, 0⟩) (hh : 0 < p.step_size) (hmass : p.m_dot * p.step_size < p.m0)
    (h : RK4.step p = (.ok (), q)) :
    q.thrustVector 0 = p.thrustVector 0 ∧ q.thrustVector 0 ≠ p.thrustVector p.step_size := by
  obtain ⟨-, a2, a3, a4, a5, -⟩ := RK4.step_frame h
  have e : ∀ dt, q.thrustVector dt = p.thrustVector dt := by
    intro dt; simp only [RK4.thrustVector, a2, a3, a4, a5]
  refine ⟨e 0, ?_⟩
  rw [e 0]
  obtain ⟨a, b, h1, h2, h3⟩ := C47_within_step_partial p hm h0 hi hd 0 p.step_size (by simpa using h0) hmass hh
  rw [h1, h2]
  intro hc
  cases hc
  exact lt_irrefl _ h3

end Openspace
