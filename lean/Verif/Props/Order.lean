import Verif.Lemmas.RKOrder
import Verif.Lemmas.SmoothForces
import Verif.Props.Propagation
import Verif.Props.StepSucceeds

/-!
# C95, C96: the propagator is of fourth order

One step follows the trajectory of the library's own equations of motion to within a constant times the fifth power
of the step size, and many steps over a fixed span to within a constant times the fourth power.
-/

namespace Openspace

open Real Filter Topology
open scoped ContDiff

/-- `y` is, from `a` to `b` seconds after the epoch of the propagator, the motion that passes through its state at that
epoch and whose rate of change is what `derivative()` returns, with the thrust that the propagator applies at that
time -/
structure RK4.Trajectory (p : RK4) (y : ℝ → Spec.Phase) (a b : ℝ) : Prop where
  before : a < 0
  after : 0 < b
  start : y 0 = Spec.phase p.state.position p.state.velocity
  motion : ∀ s, a < s → s < b → ∃ (r v T : Vec3) (d : Vec3 × Vec3), y s = Spec.phase r v ∧ p.thrustVector s = .ok T ∧
    ({ GCRF.new (p.state.epoch.plusDays (s / 86400)) r v with thrust := T } : GCRF).derivative = .ok d ∧
    HasDerivAt y (Spec.phase d.1 d.2) s

/-- a triple of numbers as a `Vector3D` -/
def ofFun (a : Fin 3 → ℝ) : Vec3 := ⟨a 0, a 1, a 2⟩

theorem ofFun_toFun (v : Vec3) : ofFun v.toFun = v := rfl

theorem toFun_ofFun (a : Fin 3 → ℝ) : (ofFun a).toFun = a := by
  ext i; fin_cases i <;> rfl

theorem smooth_ofFun {W : Type} [NormedAddCommGroup W] [NormedSpace ℝ W] {n : WithTop ℕ∞} {w : W}
    {f : W → Fin 3 → ℝ} (hf : ContDiffAt ℝ n f w) : Smooth n (fun u => ofFun (f u)) w :=
  ⟨contDiffAt_pi.mp hf 0, contDiffAt_pi.mp hf 1, contDiffAt_pi.mp hf 2⟩

theorem Smooth.toFun {W : Type} [NormedAddCommGroup W] [NormedSpace ℝ W] {n : WithTop ℕ∞} {w : W}
    {X : W → Vec3} (hX : Smooth n X w) : ContDiffAt ℝ n (fun u => (X u).toFun) w := by
  refine contDiffAt_pi.mpr fun i => ?_
  fin_cases i
  · exact hX.x
  · exact hX.y
  · exact hX.z

/-- the thrust is a smooth function of the time since the epoch of the propagator -/
theorem smooth_thrust (p : RK4) (h : p.m_dot = 0 ∨ 0 < p.m0 ∧ p.thrust_direction ≠ ⟨0, 0, 0⟩) {n : WithTop ℕ∞} :
    ∃ T : ℝ → Vec3, Smooth n T 0 ∧ ∀ᶠ s in 𝓝 0, p.thrustVector s = .ok (T s) := by
  by_cases hm : p.m_dot = 0
  · exact ⟨fun _ => ⟨0, 0, 0⟩, Smooth.const _, Eventually.of_forall fun s => C43_off p s hm⟩
  · obtain ⟨h0, hd⟩ := h.resolve_left hm
    have hk : ContDiffAt ℝ n (fun s : ℝ => p.m_dot * p.isp * SEA_LEVEL_G / (p.m0 - p.m_dot * s)) 0 :=
      contDiffAt_const.div (by fun_prop) (by simpa using h0.ne')
    refine ⟨_, (Smooth.const (p.thrust_direction.scaled (1 / p.thrust_direction.magnitude))).scaled hk, ?_⟩
    have hc : ContinuousAt (fun s : ℝ => p.m_dot * s) 0 := by fun_prop
    filter_upwards [hc.eventually (gt_mem_nhds (by simpa using h0 : p.m_dot * 0 < p.m0))] with s hs
    obtain ⟨u, hu, h2⟩ := C43_thrust p s hm h0 hs hd
    rw [Vec3.normalized_eq_ok] at hu
    rw [h2, hu.2]

/-- the library can evaluate the force law at `u`, a time after the epoch of the propagator and a point of phase
space, and `f` gives its value -/
def Good (p : RK4) (f : ℝ × Spec.Phase → Spec.Phase) (u : ℝ × Spec.Phase) : Prop :=
  ∃ T d, p.thrustVector u.1 = .ok T ∧ f u = Spec.phase d.1 d.2 ∧
    ({ GCRF.new (p.state.epoch.plusDays (u.1 / 86400)) (ofFun u.2.1) (ofFun u.2.2) with thrust := T } :
      GCRF).derivative = .ok d

/-- near the state of a propagator, the force law is smooth and everything can be evaluated -/
theorem force_law (p : RK4) (f : ℝ → Spec.Phase → Spec.Phase) (hf : Represents p f)
    (heng : p.m_dot = 0 ∨ 0 < p.m0 ∧ p.thrust_direction ≠ ⟨0, 0, 0⟩)
    (hm : ∀ k : ℤ, p.state.epoch.value - 69.184 / 86400 ≠ k) (hhi : p.state.position.magnitude ≤ 350000)
    (hax : ∀ z, PositionConvert.gcrfToItrf p.state.position p.state.epoch ≠ .ok ⟨0, 0, z⟩) :
    ContDiffAt ℝ ∞ (fun u : ℝ × Spec.Phase => f u.1 u.2) (0, Spec.phase p.state.position p.state.velocity) ∧
    ∀ᶠ u in 𝓝 ((0 : ℝ), Spec.phase p.state.position p.state.velocity), Good p (fun u => f u.1 u.2) u := by
  obtain ⟨w, hw⟩ : ∃ w : ℝ × Spec.Phase, w = (0, Spec.phase p.state.position p.state.velocity) := ⟨_, rfl⟩
  obtain ⟨T, hT, eT⟩ := smooth_thrust p heng (n := ∞)
  have hw1 : w.1 = 0 := by rw [hw]
  have hT' : Smooth ∞ (fun u : ℝ × Spec.Phase => T u.1) w :=
    ⟨ContDiffAt.comp (g := fun s => (T s).x) w (by rw [hw1]; exact hT.x) contDiffAt_fst,
     ContDiffAt.comp (g := fun s => (T s).y) w (by rw [hw1]; exact hT.y) contDiffAt_fst,
     ContDiffAt.comp (g := fun s => (T s).z) w (by rw [hw1]; exact hT.z) contDiffAt_fst⟩
  have ew : p.state.epoch.plusDays (w.1 / 86400) = p.state.epoch := by
    rw [hw1]; ext; simp [Epoch.plusDays]
  have er : ofFun w.2.1 = p.state.position := by rw [hw]; rfl
  obtain ⟨A, hA, eA⟩ := smooth_derivative (n := ∞) (w := w)
    (t := fun u : ℝ × Spec.Phase => p.state.epoch.plusDays (u.1 / 86400))
    (R := fun u => ofFun u.2.1) (V := fun u => ofFun u.2.2) (T := fun u => T u.1)
    (by simp only [Epoch.plusDays]; fun_prop)
    (smooth_ofFun (contDiffAt_fst.comp w contDiffAt_snd)) (smooth_ofFun (contDiffAt_snd.comp w contDiffAt_snd)) hT'
    (by rw [ew]; exact hm) (by rw [er]; exact hhi) (by rw [er, ew]; exact hax)
  have eT' : ∀ᶠ u in 𝓝 w, p.thrustVector u.1 = .ok (T u.1) := by
    have hc : ContinuousAt (fun u : ℝ × Spec.Phase => u.1) w := continuousAt_fst
    rw [ContinuousAt, hw1] at hc
    exact hc.eventually eT
  have ef : ∀ᶠ u in 𝓝 w, f u.1 u.2 = Spec.phase (ofFun u.2.2) (A u) := by
    filter_upwards [eA, eT'] with u h1 h2
    have := hf u.1 _ _ _ _ h2 h1
    rw [← this, Spec.phase, toFun_ofFun, toFun_ofFun]
  rw [← hw]
  constructor
  · refine ContDiffAt.congr_of_eventuallyEq ?_ ef
    simp only [Spec.phase, toFun_ofFun]
    exact (contDiffAt_snd.comp w contDiffAt_snd).prodMk hA.toFun
  · filter_upwards [eA, eT', ef] with u h1 h2 h3
    exact ⟨T u.1, (ofFun u.2.2, A u), h2, h3, h1⟩

/-- a step succeeds if the force law can be evaluated at its four points -/
theorem step_of_stages (p : RK4) (f : ℝ × Spec.Phase → Spec.Phase) (hsrp : p.state.srp_scalar = 0)
    (hpert : p.state.use_perturbations = true)
    (hs : RKOrder.Stages (Good p f) f 0 p.step_size (Spec.phase p.state.position p.state.velocity)) :
    ∃ p', RK4.step p = (.ok (), p') := by
  obtain ⟨h, hh⟩ : ∃ h, h = p.step_size := ⟨_, rfl⟩
  obtain ⟨y0, hy0⟩ : ∃ y0, y0 = Spec.phase p.state.position p.state.velocity := ⟨_, rfl⟩
  rw [← hh, ← hy0] at hs
  obtain ⟨c2, c3, c4, c5⟩ := hs
  simp only [zero_add] at c3 c4 c5
  obtain ⟨T0, k1, t0, e1, d1⟩ := c2
  obtain ⟨T1, k2, t1, e2, d2⟩ := c3
  obtain ⟨T1', k3, t1', e3, d3⟩ := c4
  obtain ⟨T2, k4, t2, e4, d4⟩ := c5
  simp only at t0 t1 t1' t2 d1 d2 d3 d4
  have hsec : SECONDS_IN_DAY = 86400 := by norm_num [SECONDS_IN_DAY]
  have add1 : ∀ (k : Vec3 × Vec3) (x : ℝ), ofFun (y0 + x • Spec.phase k.1 k.2).1 =
      p.state.position.plus (k.1.scaled x) := fun k x => by
    rw [hy0, ← phase_add]; rfl
  have add2 : ∀ (k : Vec3 × Vec3) (x : ℝ), ofFun (y0 + x • Spec.phase k.1 k.2).2 =
      p.state.velocity.plus (k.2.scaled x) := fun k x => by
    rw [hy0, ← phase_add]; rfl
  rw [e1, add1, add2] at d2
  rw [e1] at e2 d3 e3 d4 e4
  rw [e2, add1, add2] at d3
  rw [e2] at e3 d4 e4
  rw [e3, add1, add2] at d4
  have ez : p.state.epoch.plusDays (0 / 86400) = p.state.epoch := by ext; simp [Epoch.plusDays]
  refine ⟨_, (RK4.step_ok_iff _ _).mpr ⟨T0, k1, k2, k3, k4, t0, ?_, ?_, ?_, ?_, rfl⟩⟩
  · rw [← d1, ez, hy0]
    apply derivative_congr <;> try rfl
    · exact hsrp
    · exact hpert
  · rw [hsec, ← hh, RK4.stage, t1, ok_bind]
    exact d2
  · rw [hsec, ← hh, RK4.stage, t1', ok_bind]
    exact d3
  · rw [hsec, ← hh, RK4.stage]
    have ee : (p.state.epoch.plusDays (h / 2 / 86400)).plusDays (h / 2 / 86400) =
        p.state.epoch.plusDays (h / 86400) := by ext; simp only [Epoch.plusDays]; ring
    have eh : h / 2 * 2 = h := by ring
    rw [ee, eh, t2, ok_bind]
    exact d4

/-- a trajectory solves the equation of a force law -/
theorem RK4.Trajectory.ode {p : RK4} {y : ℝ → Spec.Phase} {a b : ℝ} (hy : p.Trajectory y a b)
    {f : ℝ → Spec.Phase → Spec.Phase} (hf : Represents p f) {t : ℝ} (h1 : a < t) (h2 : t < b) :
    ∀ᶠ s in 𝓝 t, HasDerivAt y (f s (y s)) s := by
  filter_upwards [Ioo_mem_nhds h1 h2] with s hs
  obtain ⟨r, v, T, d, b1, b2, b3, b4⟩ := hy.motion s hs.1 hs.2
  have := hf s r v T d b2 b3
  rw [b1, this]; exact b4

/-- For a propagator as the library builds it, at a position off the polar axis of the Earth and at most 350 000 km
away, and not exactly at midnight UTC: the equations of motion have a solution, and a step of `h` seconds succeeds
for all small `h` and ends within `C |h|⁵` of the solution (largest difference of a coordinate) -/
theorem C95_order (p : RK4) (hsrp : p.state.srp_scalar = 0) (hpert : p.state.use_perturbations = true)
    (heng : p.m_dot = 0 ∨ 0 < p.m0 ∧ p.thrust_direction ≠ ⟨0, 0, 0⟩)
    (hm : ∀ k : ℤ, p.state.epoch.value - 69.184 / 86400 ≠ k) (hhi : p.state.position.magnitude ≤ 350000)
    (hax : ∀ z, PositionConvert.gcrfToItrf p.state.position p.state.epoch ≠ .ok ⟨0, 0, z⟩) :
    (∃ y a b, p.Trajectory y a b) ∧
    ∀ y a b, p.Trajectory y a b → ∃ C d : ℝ, 0 < d ∧ ∀ h, |h| < d → ∃ p',
      RK4.step { p with step_size := h } = (.ok (), p') ∧
      ‖Spec.phase p'.state.position p'.state.velocity - y h‖ ≤ C * |h| ^ 5 := by
  obtain ⟨f, hf⟩ := exists_represents p
  obtain ⟨hsm, hok⟩ := force_law p f hf heng hm hhi hax
  obtain ⟨y0, hy0⟩ : ∃ y0, y0 = Spec.phase p.state.position p.state.velocity := ⟨_, rfl⟩
  rw [← hy0] at hsm hok
  have h1 := hsm.of_le (m := 1) (by exact_mod_cast le_top)
  constructor
  · obtain ⟨y, hy, hode⟩ := RKOrder.solution_exists h1
    have hq : Tendsto (fun s => ((s, y s) : ℝ × Spec.Phase)) (𝓝 0) (𝓝 (0, y0)) := by
      rw [← hy]; exact tendsto_id.prodMk_nhds hode.self_of_nhds.continuousAt.tendsto
    obtain ⟨e, he, hball⟩ := Metric.eventually_nhds_iff_ball.mp (hode.and (hq.eventually hok))
    refine ⟨y, -e, e, by linarith, he, hy.trans hy0, fun s hs hs' => ?_⟩
    obtain ⟨a1, T, d, a2, a3, a4⟩ := hball s (by simpa using abs_lt.mpr ⟨hs, hs'⟩)
    refine ⟨_, _, T, d, ?_, a2, a4, ?_⟩
    · simp only [Spec.phase, toFun_ofFun]
    · rw [← a3]; exact a1
  · intro y a b hy
    have hys : y 0 = y0 := by rw [hy0]; exact hy.start
    obtain ⟨C, r, -, hr, hu⟩ := RKOrder.uniform (isCompact_singleton (x := (0 : ℝ)))
      (f := fun u => f u.1 u.2) (y := y) (P := Good p fun u => f u.1 u.2)
      (by rintro s rfl; rw [hys]; exact hsm)
      (by rintro s rfl; exact hy.ode hf hy.before hy.after) (by rintro s rfl; rw [hys]; exact hok)
    refine ⟨C, r, hr, fun h hh => ?_⟩
    obtain ⟨hst, herr⟩ := hu 0 rfl h hh (y 0) (by simpa using hr)
    rw [hys, hy0] at hst herr
    obtain ⟨p', hp'⟩ := step_of_stages { p with step_size := h } (fun u => f u.1 u.2) hsrp hpert hst
    refine ⟨p', hp', ?_⟩
    rw [(C42_classical { p with step_size := h } p' f hf hsrp hpert hp').1]
    simpa using herr

/-! ## many steps -/

theorem RK4.Steps.snoc {n : ℕ} {p q r : RK4} (h : RK4.Steps n p q) (h' : RK4.step q = (.ok (), r)) :
    RK4.Steps (n + 1) p r := by
  induction h with
  | zero p => exact .succ h' (.zero r)
  | succ h1 _ ih => exact .succ h1 (ih h')

/-- the force law seen from a propagator that coasts from a later (or earlier) state -/
theorem represents_shift {p q : RK4} {t : ℝ} (hp : p.m_dot = 0) (hq : q.m_dot = 0)
    (he : q.state.epoch = p.state.epoch.plusDays (t / 86400)) {f : ℝ → Spec.Phase → Spec.Phase}
    (hf : Represents p f) : Represents q fun s y => f (t + s) y := by
  intro s r v T d hT hd
  rw [C43_off q s hq] at hT
  have e : q.state.epoch.plusDays (s / 86400) = p.state.epoch.plusDays ((t + s) / 86400) := by
    rw [he]; ext; simp only [Epoch.plusDays]; ring
  rw [e] at hd
  exact hf (t + s) r v T d ((C43_off p _ hp).trans hT) hd

theorem good_shift {p q : RK4} {t : ℝ} (hp : p.m_dot = 0) (hq : q.m_dot = 0)
    (he : q.state.epoch = p.state.epoch.plusDays (t / 86400)) (f : ℝ → Spec.Phase → Spec.Phase) (s : ℝ)
    (y : Spec.Phase) : Good q (fun u => f (t + u.1) u.2) (s, y) ↔ Good p (fun u => f u.1 u.2) (t + s, y) := by
  have e : q.state.epoch.plusDays (s / 86400) = p.state.epoch.plusDays ((t + s) / 86400) := by
    rw [he]; ext; simp only [Epoch.plusDays]; ring
  simp only [Good, C43_off p _ hp, C43_off q _ hq, e]

/-- For a coasting propagator as the library builds it and a solution `y` of the equations of motion that, from its
epoch to `T` seconds later (or earlier), does not meet the axis of the Earth, leave the sphere of 350 000 km or cross
midnight UTC: when the span is divided into enough equal steps, every call of `step()` succeeds, and after each of
them the state is within `C h⁴` of the solution, `h` being the step size -/
theorem C96_convergence (p : RK4) (hsrp : p.state.srp_scalar = 0) (hpert : p.state.use_perturbations = true)
    (hoff : p.m_dot = 0) (y : ℝ → Spec.Phase) (a b T : ℝ) (hy : p.Trajectory y a b) (hTa : a < T) (hTb : T < b)
    (hm : ∀ s ∈ Set.uIcc 0 T, ∀ k : ℤ, p.state.epoch.value + s / 86400 - 69.184 / 86400 ≠ k)
    (hr : ∀ s ∈ Set.uIcc 0 T, ∀ r v, y s = Spec.phase r v → r.magnitude ≤ 350000 ∧
      ∀ z, PositionConvert.gcrfToItrf r (p.state.epoch.plusDays (s / 86400)) ≠ .ok ⟨0, 0, z⟩) :
    ∃ (C : ℝ) (N0 : ℕ), 0 < N0 ∧ ∀ N, N0 ≤ N → ∀ n ≤ N, ∃ q,
      PyM.repeatN n RK4.step { p with step_size := T / N } = (.ok (), q) ∧
      q.state.epoch = p.state.epoch.plusDays (n * (T / N) / 86400) ∧
      ‖Spec.phase q.state.position q.state.velocity - y (n * (T / N))‖ ≤ C * |T / N| ^ 4 := by
  obtain ⟨f, hf⟩ := exists_represents p
  have hin : ∀ s ∈ Set.uIcc 0 T, a < s ∧ s < b := by
    intro s hs
    rw [Set.mem_uIcc] at hs
    rcases hs with ⟨h1, h2⟩ | ⟨h1, h2⟩
    · exact ⟨by linarith [hy.before], by linarith⟩
    · exact ⟨by linarith, by linarith [hy.after]⟩
  -- the propagator that coasts from a point of the solution
  have local_law : ∀ s ∈ Set.uIcc 0 T, ContDiffAt ℝ ∞ (fun u : ℝ × Spec.Phase => f u.1 u.2) (s, y s) ∧
      ∀ᶠ u in 𝓝 ((s, y s) : ℝ × Spec.Phase), Good p (fun u => f u.1 u.2) u := by
    intro s hs
    obtain ⟨r, v, -, -, hrv, -⟩ := hy.motion s (hin s hs).1 (hin s hs).2
    obtain ⟨h1, h2⟩ := hr s hs r v hrv
    obtain ⟨q, hq⟩ : ∃ q : RK4, q = { p with state := GCRF.new (p.state.epoch.plusDays (s / 86400)) r v } := ⟨_, rfl⟩
    have he : q.state.epoch = p.state.epoch.plusDays (s / 86400) := by rw [hq]; rfl
    have hqo : q.m_dot = 0 := by rw [hq]; exact hoff
    have hqp : q.state.position = r := by rw [hq]; rfl
    have hqv : q.state.velocity = v := by rw [hq]; rfl
    obtain ⟨c, g⟩ := force_law q (fun x y => f (s + x) y) (represents_shift hoff hqo he hf) (.inl hqo)
      (by rw [he]; exact hm s hs) (by rw [hqp]; exact h1) (by rw [hqp, he]; exact h2)
    rw [hqp, hqv, ← hrv] at c g
    have back : Tendsto (fun u : ℝ × Spec.Phase => (u.1 - s, u.2)) (𝓝 (s, y s)) (𝓝 (0, y s)) := by
      have : Continuous fun u : ℝ × Spec.Phase => (u.1 - s, u.2) := by fun_prop
      simpa using this.tendsto (s, y s)
    constructor
    · have hsub : ContDiffAt ℝ ∞ (fun u : ℝ × Spec.Phase => (u.1 - s, u.2)) (s, y s) := by fun_prop
      have := ContDiffAt.comp (g := fun u : ℝ × Spec.Phase => f (s + u.1) u.2) (s, y s)
        (by rw [sub_self]; exact c) hsub
      refine this.congr_of_eventuallyEq (Eventually.of_forall fun u => ?_)
      simp
    · filter_upwards [back.eventually g] with u hu
      rw [good_shift hoff hqo he, add_sub_cancel] at hu
      exact hu
  obtain ⟨C, N0, hN0, hg⟩ := RKOrder.global_error (f := fun u => f u.1 u.2) (y := y) (T := T)
    (P := Good p fun u => f u.1 u.2) (fun s hs => (local_law s hs).1)
    (fun s hs => hy.ode hf (hin s hs).1 (hin s hs).2) (fun s hs => (local_law s hs).2)
  refine ⟨C, N0, hN0, fun N hN => ?_⟩
  obtain ⟨h, hh⟩ : ∃ h, h = T / N := ⟨_, rfl⟩
  -- the exact sequence of Runge-Kutta steps
  obtain ⟨Y, hY0, hYs⟩ : ∃ Y : ℕ → Spec.Phase, Y 0 = y 0 ∧
      ∀ n : ℕ, Y (n + 1) = Spec.rk4 (fun s y => f s y) (n * h) h (Y n) :=
    ⟨fun n => Nat.rec (y 0) (fun n Y => Spec.rk4 (fun s y => f s y) (n * h) h Y) n, rfl, fun n => rfl⟩
  have hall := hg N hN Y hY0 (by rw [← hh]; exact hYs)
  rw [← hh] at hall ⊢
  have key : ∀ n ≤ N, ∃ q, RK4.Steps n { p with step_size := h } q ∧
      q.state.epoch = p.state.epoch.plusDays (n * h / 86400) ∧ q.state.srp_scalar = 0 ∧
      q.state.use_perturbations = true ∧ q.m_dot = 0 ∧ q.step_size = h ∧
      Spec.phase q.state.position q.state.velocity = Y n := by
    intro n
    induction n with
    | zero =>
      intro _
      refine ⟨_, .zero _, ?_, hsrp, hpert, hoff, rfl, ?_⟩
      · ext; simp [Epoch.plusDays]
      · rw [hY0, hy.start]
    | succ n ih =>
      intro hn
      obtain ⟨q, q1, q2, q3, q4, q5, q6, q7⟩ := ih (by omega)
      have st := (hall n (by omega)).2
      have st' : RKOrder.Stages (Good q fun u => f (n * h + u.1) u.2) (fun u => f (n * h + u.1) u.2) 0 q.step_size
          (Spec.phase q.state.position q.state.velocity) := by
        rw [q6, q7]
        obtain ⟨a1, a2, a3, a4⟩ := st
        refine ⟨(good_shift hoff q5 q2 f _ _).mpr ?_, (good_shift hoff q5 q2 f _ _).mpr ?_,
          (good_shift hoff q5 q2 f _ _).mpr ?_, (good_shift hoff q5 q2 f _ _).mpr ?_⟩ <;>
          simp only [zero_add, add_zero] <;> assumption
      obtain ⟨q', hq'⟩ := step_of_stages q _ q3 q4 st'
      obtain ⟨a1, a2, -, -, -, a6, a7, a8, -, -⟩ := RK4.step_frame hq'
      have rk := (C42_classical q q' _ (represents_shift hoff q5 q2 hf) q3 q4 hq').1
      refine ⟨q', q1.snoc hq', ?_, a8, a7, a2.trans q5, a1.trans q6, ?_⟩
      · ext
        rw [a6, q2, q6]
        simp only [Epoch.plusDays, SECONDS_IN_DAY]
        push_cast
        ring
      · rw [rk, q6, q7, hYs n]
        simp only [Spec.rk4, zero_add, add_zero]
  intro n hn
  obtain ⟨q, q1, q2, -, -, -, -, q7⟩ := key n hn
  refine ⟨q, RK4.repeatN_ok_iff.mpr q1, q2, ?_⟩
  rw [q7]
  exact (hall n hn).1

/-! ## the hypotheses are met -/

/-- a geosynchronous satellite, in the middle of a UTC day -/
noncomputable def geoNoon : RK4 := RK4.new (GCRF.new ⟨59932.5⟩ ⟨42164, 0, 0⟩ ⟨0, 3.07, 0⟩)

theorem geoNoon_meets : (∀ k : ℤ, geoNoon.state.epoch.value - 69.184 / 86400 ≠ k) ∧
    geoNoon.state.position.magnitude ≤ 350000 ∧
    ∀ z, PositionConvert.gcrfToItrf geoNoon.state.position geoNoon.state.epoch ≠ .ok ⟨0, 0, z⟩ := by
  refine ⟨fun k hk => ?_, ?_, off_axis ?_ ?_ ?_⟩
  · have h : (59932.5 : ℝ) - 69.184 / 86400 = k := hk
    have h1 : ((59932 : ℤ) : ℝ) < k := by rw [← h]; norm_num
    have h2 : (k : ℝ) < ((59933 : ℤ) : ℝ) := by rw [← h]; norm_num
    rw [Int.cast_lt] at h1 h2
    omega
  · exact geoExample_data.1.le.trans (by norm_num)
  · show |(Epoch.mk 59932.5).julianCenturies| ≤ _
    norm_num [Epoch.julianCenturies, Epoch.julianValue, Epoch.JULIAN_CENTURY, Epoch.MJD_ZERO,
      Epoch.J2000_JULIAN_DATE, abs_of_pos]
  · show 0 < geoExample.state.position.axial
    rw [geoExample_data.2.2.1]; norm_num
  · show |(0 : ℝ)| ≤ 8 * geoExample.state.position.axial
    rw [geoExample_data.2.2.1]; norm_num

/-- coasting -/
example : ∃ (y : ℝ → Spec.Phase) (C d : ℝ), 0 < d ∧ ∀ h, |h| < d → ∃ p',
    RK4.step { geoNoon with step_size := h } = (.ok (), p') ∧
    ‖Spec.phase p'.state.position p'.state.velocity - y h‖ ≤ C * |h| ^ 5 := by
  obtain ⟨a, b, c⟩ := geoNoon_meets
  obtain ⟨⟨y, l, u, hy⟩, h⟩ := C95_order geoNoon rfl rfl (.inl rfl) a b c
  exact ⟨y, h y l u hy⟩

/-- and during a burn -/
example : ∃ y l u, RK4.Trajectory
    { geoNoon with m_dot := 0.1, m0 := 1000, isp := 300, thrust_direction := ⟨0, 1, 0⟩ } y l u := by
  obtain ⟨a, b, c⟩ := geoNoon_meets
  exact (C95_order { geoNoon with m_dot := 0.1, m0 := 1000, isp := 300, thrust_direction := ⟨0, 1, 0⟩ } rfl rfl
    (.inr ⟨by norm_num, by simp⟩) a b c).1

/-- positions within 100 km of the geosynchronous one -/
theorem geoNoon_near {r : Vec3} {t : Epoch} (hx : |r.x - 42164| < 100) (hy : |r.y| < 100) (hz : |r.z| < 100)
    (ht : |t.julianCenturies| ≤ 5) : r.magnitude ≤ 350000 ∧ ∀ z, PositionConvert.gcrfToItrf r t ≠ .ok ⟨0, 0, z⟩ := by
  rw [abs_lt] at hx hy
  have h1 : (40000 : ℝ) ≤ r.axial := by
    rw [Vec3.axial]
    refine Real.le_sqrt_of_sq_le ?_
    nlinarith [sq_nonneg r.y]
  refine ⟨?_, off_axis ht (by linarith) (by linarith)⟩
  rw [abs_lt] at hz
  have h2 := r.magnitude_sq
  by_contra h3
  rw [not_le] at h3
  nlinarith

/-- an hour before or after, it is the same UTC day -/
theorem geoNoon_day {s : ℝ} (hs : |s| ≤ 3600) :
    (∀ k : ℤ, geoNoon.state.epoch.value + s / 86400 - 69.184 / 86400 ≠ k) ∧
    |(geoNoon.state.epoch.plusDays (s / 86400)).julianCenturies| ≤ 5 := by
  rw [abs_le] at hs
  constructor
  · intro k hk
    have h : (59932.5 : ℝ) + s / 86400 - 69.184 / 86400 = k := hk
    have h1 : ((59932 : ℤ) : ℝ) < k := by rw [← h]; norm_num; linarith
    have h2 : (k : ℝ) < ((59933 : ℤ) : ℝ) := by rw [← h]; norm_num; linarith
    rw [Int.cast_lt] at h1 h2
    omega
  · show |(Epoch.mk (59932.5 + s / 86400)).julianCenturies| ≤ 5
    rw [abs_le]
    norm_num [Epoch.julianCenturies, Epoch.julianValue, Epoch.JULIAN_CENTURY, Epoch.MJD_ZERO,
      Epoch.J2000_JULIAN_DATE]
    constructor <;> linarith

/-- some of the flight of the geosynchronous satellite is in the scope of the convergence theorem -/
example : ∃ (y : ℝ → Spec.Phase) (T C : ℝ) (N0 : ℕ), 0 < T ∧ ∀ N, N0 ≤ N → ∃ q,
    PyM.repeatN N RK4.step { geoNoon with step_size := T / N } = (.ok (), q) ∧
    ‖Spec.phase q.state.position q.state.velocity - y (N * (T / N))‖ ≤ C * |T / N| ^ 4 := by
  obtain ⟨a, b, c⟩ := geoNoon_meets
  obtain ⟨⟨y, l, u, hy⟩, -⟩ := C95_order geoNoon rfl rfl (.inl rfl) a b c
  obtain ⟨r, v, T, d, -, -, -, hd⟩ := hy.motion 0 hy.before hy.after
  obtain ⟨e, he, hball⟩ := Metric.continuousAt_iff.mp hd.continuousAt 100 (by norm_num)
  obtain ⟨S, hS⟩ : ∃ S, S = min (min (e / 2) (u / 2)) 3600 := ⟨_, rfl⟩
  have hu := hy.after
  have S0 : 0 < S := by rw [hS]; exact lt_min (lt_min (by linarith) (by linarith)) (by norm_num)
  have S1 : S ≤ e / 2 := by rw [hS]; exact (min_le_left _ _).trans (min_le_left _ _)
  have S2 : S ≤ u / 2 := by rw [hS]; exact (min_le_left _ _).trans (min_le_right _ _)
  have S3 : S ≤ 3600 := by rw [hS]; exact min_le_right _ _
  have hseg : ∀ s ∈ Set.uIcc 0 S, |s| ≤ S := fun s hs => by
    rw [Set.uIcc_of_le S0.le] at hs
    rw [abs_of_nonneg hs.1]; exact hs.2
  obtain ⟨C, N0, -, h⟩ := C96_convergence geoNoon rfl rfl rfl y l u S hy (by linarith [hy.before]) (by linarith)
    (fun s hs => (geoNoon_day ((hseg s hs).trans S3)).1)
    (fun s hs r v hrv => by
      have hn := hball (x := s) (by rw [Real.dist_eq, sub_zero]; linarith [hseg s hs])
      rw [hrv, hy.start, Prod.dist_eq, max_lt_iff] at hn
      have h3 := fun i => (dist_le_pi_dist (Spec.phase r v).1
        (Spec.phase geoNoon.state.position geoNoon.state.velocity).1 i).trans_lt hn.1
      refine geoNoon_near ?_ ?_ ?_ (geoNoon_day ((hseg s hs).trans S3)).2
      · exact h3 0
      · have := h3 1
        rw [Real.dist_eq] at this
        have e0 : (Spec.phase geoNoon.state.position geoNoon.state.velocity).1 1 = 0 := rfl
        rw [e0, sub_zero] at this
        exact this
      · have := h3 2
        rw [Real.dist_eq] at this
        have e0 : (Spec.phase geoNoon.state.position geoNoon.state.velocity).1 2 = 0 := rfl
        rw [e0, sub_zero] at this
        exact this)
  exact ⟨y, S, C, N0, S0, fun N hN => by
    obtain ⟨q, q1, -, q3⟩ := h N hN N le_rfl
    exact ⟨q, q1, q3⟩⟩

end Openspace
