import Verif.Lemmas.Burn
import Verif.Props.StepSucceeds

/-!
# Property C105: what velocity a finite burn delivers

The velocity change of a burn is split in two: what the other forces contribute (`coastingChange`:
the same combination of the accelerations at the same points, evaluated with the thrust taken away)
and the rest, which is what the engine delivers.
-/

namespace Openspace

open Real

/-! ## The contribution of the forces other than thrust -/

/-- acceleration of a state with its thrust taken away -/
noncomputable def coastAcceleration (s : GCRF) : Py Vec3 := do
  let d ← ({ s with thrust := ⟨0, 0, 0⟩ } : GCRF).derivative
  pure d.2

/-- what the forces other than thrust contribute to the velocity in one step: the classical
combination of their values at the four points that the step visits -/
noncomputable def coastImpulse (p : RK4) : Py Vec3 := do
  let h := p.step_size
  let r := p.state.position
  let v := p.state.velocity
  let e1 := p.state.epoch.plusDays (h / 2 / SECONDS_IN_DAY)
  let e2 := e1.plusDays (h / 2 / SECONDS_IN_DAY)
  let t0 ← p.thrustVector 0
  let k1 ← (p.thrusted t0).derivative
  let k2 ← p.stage e1 (r.plus (k1.1.scaled (h / 2))) (v.plus (k1.2.scaled (h / 2))) (h / 2)
  let k3 ← p.stage e1 (r.plus (k2.1.scaled (h / 2))) (v.plus (k2.2.scaled (h / 2))) (h / 2)
  let g1 ← coastAcceleration p.state
  let g2 ← coastAcceleration (GCRF.new e1 (r.plus (k1.1.scaled (h / 2))) (v.plus (k1.2.scaled (h / 2))))
  let g3 ← coastAcceleration (GCRF.new e1 (r.plus (k2.1.scaled (h / 2))) (v.plus (k2.2.scaled (h / 2))))
  let g4 ← coastAcceleration (GCRF.new e2 (r.plus (k3.1.scaled h)) (v.plus (k3.2.scaled h)))
  pure ((((g1.plus (g2.scaled 2)).plus (g3.scaled 2)).plus g4).scaled (h / 6))

/-- the same over `n` steps one after the other -/
noncomputable def coastImpulses : ℕ → RK4 → Py Vec3
  | 0, _ => pure ⟨0, 0, 0⟩
  | n + 1, p => do
    let G ← coastImpulse p
    let R ← coastImpulses n (RK4.step p).2
    pure (G.plus R)

/-- the same over a whole burn, which consists of the least number of equal steps of at most 300 s -/
noncomputable def coastingChange (p : RK4) (dv : Vec3) (m_dot m0 isp : ℝ) : Py Vec3 :=
  let T := Spec.burnTime dv.magnitude m_dot m0 isp
  coastImpulses ⌈T / 300⌉₊
    { p with thrust_direction := dv, m0 := m0, m_dot := m_dot, isp := isp, step_size := T / ⌈T / 300⌉₊ }

/-! ## Splitting a step and a burn -/

theorem derivative_split (s : GCRF) (T : Vec3) (d : Vec3 × Vec3)
    (h : ({ s with thrust := T } : GCRF).derivative = .ok d) :
    ∃ g, coastAcceleration s = .ok g ∧ d.2 = g.plus T := by
  unfold coastAcceleration
  unfold GCRF.derivative at h ⊢
  have e1 : ∀ t, ({ s with thrust := t } : GCRF).accelerationFromEarth = s.accelerationFromEarth := fun _ => rfl
  have e2 : ∀ t, ({ s with thrust := t } : GCRF).accelerationFromMoon = s.accelerationFromMoon := fun _ => rfl
  have e3 : ∀ t, ({ s with thrust := t } : GCRF).accelerationFromSun = s.accelerationFromSun := fun _ => rfl
  have e4 : ∀ t, ({ s with thrust := t } : GCRF).accelerationFromSrp = s.accelerationFromSrp := fun _ => rfl
  have e5 : ∀ t, ({ s with thrust := t } : GCRF).accelerationFromGravity = s.accelerationFromGravity := fun _ => rfl
  simp only [e1, e2, e3, e4, e5, GCRF.accelerationFromThrust, Vec3.copy_eq] at h ⊢
  by_cases hp : s.use_perturbations = true
  · simp only [hp, if_true, bind_eq_ok, pure_eq_ok, Except.ok.injEq] at h ⊢
    obtain ⟨ae, he, am, hm, as, hs, ap, hsrp, ag, hg, rfl⟩ := h
    refine ⟨_, ⟨_, ⟨ae, he, am, hm, as, hs, ap, hsrp, ag, hg, rfl⟩, rfl⟩, ?_⟩
    ext <;> simp only [Vec3.plus] <;> ring
  · simp only [hp, if_false, bind_eq_ok, pure_eq_ok, Except.ok.injEq, Bool.false_eq_true] at h ⊢
    obtain ⟨ae, he, rfl⟩ := h
    refine ⟨_, ⟨_, ⟨ae, he, rfl⟩, rfl⟩, ?_⟩
    ext <;> simp only [Vec3.plus] <;> ring

theorem stage_split (p : RK4) (e : Epoch) (r v a : Vec3) (dt : ℝ) (k : Vec3 × Vec3)
    (ha : p.thrustVector dt = .ok a) (h : p.stage e r v dt = .ok k) :
    ∃ g, coastAcceleration (GCRF.new e r v) = .ok g ∧ k.2 = g.plus a := by
  simp only [RK4.stage, bind_eq_ok] at h
  obtain ⟨T, hT, hd⟩ := h
  rw [ha] at hT; cases hT
  exact derivative_split _ _ _ hd

/-- the velocity after a step: the other forces, plus Simpson's rule for the thrust -/
theorem step_split (p p' : RK4) (a0 a1 a2 : Vec3) (h : RK4.step p = (.ok (), p'))
    (h0 : p.thrustVector 0 = .ok a0) (h1 : p.thrustVector (p.step_size / 2) = .ok a1)
    (h2 : p.thrustVector p.step_size = .ok a2) :
    ∃ G, coastImpulse p = .ok G ∧ p'.state.velocity = (p.state.velocity.plus G).plus
      (((a0.plus (a1.scaled 4)).plus a2).scaled (p.step_size / 6)) := by
  rw [RK4.step_ok_iff] at h
  obtain ⟨t0, k1, k2, k3, k4, b0, b1, b2, b3, b4, rfl⟩ := h
  rw [h0] at b0; cases b0
  obtain ⟨g1, c1, d1⟩ := derivative_split _ _ _ b1
  obtain ⟨g2, c2, d2⟩ := stage_split _ _ _ _ _ _ _ h1 b2
  obtain ⟨g3, c3, d3⟩ := stage_split _ _ _ _ _ _ _ h1 b3
  obtain ⟨g4, c4, d4⟩ := stage_split _ _ _ _ _ _ _ (by rw [div_mul_cancel₀ _ two_ne_zero]; exact h2) b4
  refine ⟨(((g1.plus (g2.scaled 2)).plus (g3.scaled 2)).plus g4).scaled (p.step_size / 6), ?_, ?_⟩
  · simp only [coastImpulse, h0, b1, b2, b3, c1, c2, c3, c4, ok_bind, pure_eq_ok]
  · simp only [RK4.stepped, GCRF.new, State.new, Vec3.copy_eq, d1, d2, d3, d4]
    ext <;> simp only [Vec3.plus, Vec3.scaled] <;> ring

theorem thrust_frame {p q : RK4} (a2 : q.m_dot = p.m_dot) (a3 : q.m0 = p.m0) (a4 : q.isp = p.isp)
    (a5 : q.thrust_direction = p.thrust_direction) (dt : ℝ) : q.thrustVector dt = p.thrustVector dt := by
  simp only [RK4.thrustVector, a2, a3, a4, a5]

theorem steps_split {n : ℕ} {p p' : RK4} (h : RK4.Steps n p p') (a0 a1 a2 : Vec3)
    (h0 : p.thrustVector 0 = .ok a0) (h1 : p.thrustVector (p.step_size / 2) = .ok a1)
    (h2 : p.thrustVector p.step_size = .ok a2) :
    ∃ G, coastImpulses n p = .ok G ∧ p'.state.velocity = (p.state.velocity.plus G).plus
      (((a0.plus (a1.scaled 4)).plus a2).scaled (n * (p.step_size / 6))) := by
  induction h with
  | zero p =>
    refine ⟨⟨0, 0, 0⟩, rfl, ?_⟩
    ext <;> simp [Vec3.plus, Vec3.scaled]
  | @succ n p q r hs ht ih =>
    obtain ⟨b1, b2, b3, b4, b5, -⟩ := RK4.step_frame hs
    obtain ⟨G, hG, hv⟩ := step_split p q a0 a1 a2 hs h0 h1 h2
    have e := thrust_frame b2 b3 b4 b5
    obtain ⟨R, hR, hw⟩ := ih (by rw [e, h0]) (by rw [e, b1, h1]) (by rw [e, b1, h2])
    refine ⟨G.plus R, ?_, ?_⟩
    · have : (RK4.step p).2 = q := by rw [hs]
      simp only [coastImpulses, hG, this, hR, ok_bind, pure_eq_ok]
    · rw [hw, hv, b1]
      push_cast
      ext <;> simp only [Vec3.plus, Vec3.scaled] <;> ring

/-- the thrust of a burn, summed by Simpson's rule -/
theorem thrust_sum (u : Vec3) (m_dot m0 isp h n : ℝ) (h0 : 0 < m0) (hx : m_dot * h < m0) (hm : 0 < m_dot)
    (hh : 0 ≤ h) :
    (((u.scaled (m_dot * isp * SEA_LEVEL_G / (m0 - m_dot * 0))).plus
      ((u.scaled (m_dot * isp * SEA_LEVEL_G / (m0 - m_dot * (h / 2)))).scaled 4)).plus
      (u.scaled (m_dot * isp * SEA_LEVEL_G / (m0 - m_dot * h)))).scaled (n * (h / 6)) =
    u.scaled (isp * SEA_LEVEL_G * (n * Burn.simpson (m_dot * h / m0))) := by
  have q1 : m0 - m_dot * h ≠ 0 := by linarith
  have q2 : m0 - m_dot * (h / 2) ≠ 0 := by
    have : m_dot * (h / 2) = m_dot * h / 2 := by ring
    have : 0 ≤ m_dot * h := by positivity
    intro; linarith
  have e1 : 1 - m_dot * h / m0 = (m0 - m_dot * h) / m0 := by field_simp
  have e2 : 1 - m_dot * h / m0 / 2 = (m0 - m_dot * (h / 2)) / m0 := by field_simp
  have key : (m_dot * isp * SEA_LEVEL_G / (m0 - m_dot * 0) + m_dot * isp * SEA_LEVEL_G / (m0 - m_dot * (h / 2)) * 4 +
      m_dot * isp * SEA_LEVEL_G / (m0 - m_dot * h)) * (n * (h / 6)) =
      isp * SEA_LEVEL_G * (n * Burn.simpson (m_dot * h / m0)) := by
    rw [Burn.simpson, e1, e2, mul_zero, sub_zero]
    generalize m0 - m_dot * h = A at q1
    generalize m0 - m_dot * (h / 2) = B at q2
    field_simp
  rw [← key]
  ext <;> simp only [Vec3.plus, Vec3.scaled] <;> ring

/-! ## C105 -/

/-- what the engine delivers in a burn: along the commanded direction, of a size that depends only on
the commanded size, the exhaust velocity and the number of steps.  A burn of one step delivers a
little too much; a burn of more steps delivers too little. -/
theorem C105_delivered_partial (p p' : RK4) (dv : Vec3) (m_dot m0 isp : ℝ) (hdv : dv ≠ ⟨0, 0, 0⟩)
    (hm : 0 < m_dot) (h0 : 0 < m0) (hi : 0 < isp) (h : RK4.maneuver dv m_dot m0 isp p = (.ok (), p')) :
    ∃ (n : ℕ) (T c X D : ℝ) (u G : Vec3),
      -- burn time, number of steps, exhaust velocity, propellant fraction, direction
      T = m0 / m_dot * X ∧ IsLeast {k : ℕ | T ≤ 300 * k} n ∧ c = isp * SEA_LEVEL_G ∧
      X = 1 - exp (-dv.magnitude / c) ∧ u.dot u = 1 ∧ dv = u.scaled dv.magnitude ∧
      -- the velocity after the burn: the other forces contribute `G`, the engine `D` along `u`
      coastingChange p dv m_dot m0 isp = .ok G ∧
      p'.state.velocity = (p.state.velocity.plus G).plus (u.scaled D) ∧
      (n = 1 → dv.magnitude < D ∧ D ≤ dv.magnitude + c * (X ^ 5 / (120 * (1 - X) ^ 4))) ∧
      (2 ≤ n → c * X < D ∧ D < dv.magnitude ∧ D < -(c * (n / 2)) * log (1 - 2 * (X / n))) := by
  have hg := g_pos
  have hc : 0 < isp * SEA_LEVEL_G := by positivity
  have hmag : 0 < dv.magnitude := Vec3.magnitude_pos.mpr hdv
  obtain ⟨X, hX⟩ : ∃ X, X = 1 - exp (-dv.magnitude / (isp * SEA_LEVEL_G)) := ⟨_, rfl⟩
  have hexp : exp (-dv.magnitude / (isp * SEA_LEVEL_G)) < 1 := by
    rw [exp_lt_one_iff]; exact div_neg_of_neg_of_pos (by linarith) hc
  have hexp0 := exp_pos (-dv.magnitude / (isp * SEA_LEVEL_G))
  have hX0 : 0 < X := by linarith
  have hX1 : X < 1 := by linarith
  have hlog : -log (1 - X) = dv.magnitude / (isp * SEA_LEVEL_G) := by
    rw [hX, sub_sub_cancel, log_exp]; ring
  obtain ⟨T, hT⟩ : ∃ T, T = m0 / m_dot * X := ⟨_, rfl⟩
  have hT0 : 0 < T := by rw [hT]; positivity
  have hbt : Spec.burnTime dv.magnitude m_dot m0 isp = T := by rw [hT, hX]; rfl
  rw [maneuver_ok_iff] at h
  obtain ⟨T', q, hT', h1, rfl⟩ := h
  rw [burnDuration_ok dv hm.ne' h0.ne' hi.ne', hbt, Except.ok.injEq] at hT'
  subst hT'
  rw [RK4.stepToEpoch_ok_iff] at h1
  obtain ⟨q, hs, rfl⟩ := h1
  have hsec : SECONDS_IN_DAY = 86400 := by norm_num [SECONDS_IN_DAY]
  have hspan : ((p.state.epoch.plusDays (T / SECONDS_IN_DAY)).value - p.state.epoch.value) * SECONDS_IN_DAY = T := by
    simp only [Epoch.plusDays, hsec]; ring
  rw [hspan, abs_of_nonneg (by positivity)] at hs
  have hL := ceil_isLeast T
  rw [abs_of_nonneg (show 0 ≤ T / 300 by positivity), abs_of_pos hT0] at hL
  have hcc : coastingChange p dv m_dot m0 isp = coastImpulses ⌈T / 300⌉₊
    { p with thrust_direction := dv, m0 := m0, m_dot := m_dot, isp := isp, step_size := T / ⌈T / 300⌉₊ } := by
    rw [← hbt]; rfl
  have hn0 : 0 < ⌈T / 300⌉₊ := Nat.ceil_pos.mpr (by positivity)
  rw [if_pos hn0] at hs
  generalize ⌈T / 300⌉₊ = n at hs hL hcc hn0
  have hn : (1 : ℝ) ≤ n := by exact_mod_cast hn0
  have hstep : m_dot * (T / n) / m0 = X / n := by rw [hT]; field_simp
  have hXn : X / n < 1 := by rw [div_lt_one (by linarith)]; linarith
  have hXn0 : 0 < X / n := by positivity
  have hmass : m_dot * (T / n) < m0 := by
    rw [← hstep, div_lt_one h0] at hXn; exact hXn
  have hmass2 : m_dot * (T / n / 2) < m0 := by
    have : 0 < m_dot * (T / n) := by positivity
    have e : m_dot * (T / n / 2) = m_dot * (T / n) / 2 := by ring
    rw [e]; linarith
  obtain ⟨p0, hp0⟩ : ∃ p0 : RK4, p0 = { p with thrust_direction := dv, m0 := m0, m_dot := m_dot, isp := isp, step_size := T / n } :=
    ⟨_, rfl⟩
  rw [← hp0] at hcc
  have hs' : RK4.Steps n p0 q := by rw [hp0]; exact hs
  have hu := Vec3.normalized_ok hdv
  have thr : ∀ dt, m_dot * dt < m0 → p0.thrustVector dt =
      .ok ((dv.scaled (1 / dv.magnitude)).scaled (m_dot * isp * SEA_LEVEL_G / (m0 - m_dot * dt))) := by
    intro dt hdt
    obtain ⟨u, hu', ht⟩ := C43_thrust p0 dt (by rw [hp0]; exact hm.ne') (by rw [hp0]; exact h0)
      (by rw [hp0]; exact hdt) (by rw [hp0]; exact hdv)
    have : p0.thrust_direction = dv := by rw [hp0]
    rw [this, hu] at hu'; cases hu'
    rw [ht, hp0]
  have hstep0 : p0.step_size = T / n := by rw [hp0]
  obtain ⟨G, hG, hv⟩ := steps_split hs' _ _ _ (thr 0 (by simpa using h0)) (by rw [hstep0]; exact thr _ hmass2)
    (by rw [hstep0]; exact thr _ hmass)
  rw [hstep0, thrust_sum _ _ _ _ _ _ h0 hmass hm (by positivity), hstep] at hv
  refine ⟨n, T, isp * SEA_LEVEL_G, X, isp * SEA_LEVEL_G * (n * Burn.simpson (X / n)), dv.scaled (1 / dv.magnitude), G,
    hT, hL, rfl, hX, Vec3.unit_dot hdv, ?_, hcc.trans hG, ?_, ?_, ?_⟩
  · ext <;> simp only [Vec3.scaled] <;> field_simp
  · have : p0.state = p.state := by rw [hp0]
    rw [this] at hv
    exact hv
  · intro h1
    subst h1
    simp only [Nat.cast_one, div_one, one_mul]
    have a := Burn.lt_simpson hX0 hX1
    have b := Burn.simpson_le hX0.le hX1
    rw [hlog] at a b
    constructor
    · rw [div_lt_iff₀ hc] at a; linarith
    · have := mul_le_mul_of_nonneg_left b hc.le
      rw [mul_add, mul_div_cancel₀ _ hc.ne'] at this
      exact this
  · intro h2
    have e : (n : ℝ) * (X / n) = X := by field_simp
    obtain ⟨a, b, c⟩ := Burn.simpson_parts h2 hXn0 (by rw [e]; exact hX1)
    rw [e] at a c
    rw [hlog] at c
    refine ⟨mul_lt_mul_of_pos_left a hc, ?_, ?_⟩
    · have := b.trans_le c
      rw [lt_div_iff₀ hc] at this
      linarith
    · have := mul_lt_mul_of_pos_left b hc
      calc _ < _ := this
        _ = _ := by ring

/-- the property is false: no burn at all delivers exactly what was commanded -/
theorem C105_violated (p p' : RK4) (dv G : Vec3) (m_dot m0 isp : ℝ) (hdv : dv ≠ ⟨0, 0, 0⟩)
    (hm : 0 < m_dot) (h0 : 0 < m0) (hi : 0 < isp) (h : RK4.maneuver dv m_dot m0 isp p = (.ok (), p'))
    (hG : coastingChange p dv m_dot m0 isp = .ok G) :
    p'.state.velocity ≠ (p.state.velocity.plus G).plus dv := by
  obtain ⟨n, T, c, X, D, u, G', hT, hn, hc, hX, hu, hdu, hG', hv, h1, h2⟩ :=
    C105_delivered_partial p p' dv m_dot m0 isp hdv hm h0 hi h
  rw [hG] at hG'; cases hG'
  have hD : D ≠ dv.magnitude := by
    rcases Nat.lt_or_ge n 2 with hlt | hge
    · have hT0 : 0 < T := by
        have hg := g_pos
        rw [hT, hX, hc]
        apply mul_pos (by positivity)
        rw [sub_pos, exp_lt_one_iff]
        exact div_neg_of_neg_of_pos (by linarith [Vec3.magnitude_pos.mpr hdv]) (by positivity)
      have hn1 : n = 1 := by
        have h3 : T ≤ 300 * n := hn.1
        have : n ≠ 0 := by rintro rfl; simp at h3; linarith
        omega
      exact (h1 hn1).1.ne'
    · exact (h2 hge).2.1.ne
  rw [hv]
  intro hc
  apply hD
  have hx := congrArg Vec3.x hc
  have hy := congrArg Vec3.y hc
  have hz := congrArg Vec3.z hc
  rw [hdu] at hx hy hz
  simp only [Vec3.plus, Vec3.scaled] at hx hy hz
  simp only [Vec3.dot] at hu
  have : (D - dv.magnitude) * (u.x * u.x + u.y * u.y + u.z * u.z) = 0 := by
    linear_combination u.x * hx + u.y * hy + u.z * hz
  rw [hu] at this
  linarith

/-- the hypotheses are met: the default engine gives 10 m/s from geosynchronous orbit, in more than
two steps, and delivers too little -/
theorem geoExample_default_burn : ∃ p', RK4.maneuver ⟨0, 0.01, 0⟩ Spacecraft.DEFAULT_M_DOT
      (Spacecraft.DEFAULT_MASS + Spacecraft.DEFAULT_PROP_MASS) Spacecraft.DEFAULT_ISP geoExample = (.ok (), p') ∧
    300 < Spec.burnTime (⟨0, 0.01, 0⟩ : Vec3).magnitude Spacecraft.DEFAULT_M_DOT
      (Spacecraft.DEFAULT_MASS + Spacecraft.DEFAULT_PROP_MASS) Spacecraft.DEFAULT_ISP := by
  obtain ⟨h1, h2, h3, h4⟩ := geoExample_data
  have hdv : (⟨0, 0.01, 0⟩ : Vec3).magnitude = 0.01 :=
    Vec3.magnitude_of_dot (by norm_num) (by simp only [Vec3.dot]; norm_num)
  rw [show Spacecraft.DEFAULT_MASS + Spacecraft.DEFAULT_PROP_MASS = 800 by
    norm_num [Spacecraft.DEFAULT_MASS, Spacecraft.DEFAULT_PROP_MASS],
    show Spacecraft.DEFAULT_M_DOT = 0.003 from rfl, show Spacecraft.DEFAULT_ISP = 350 from rfl]
  obtain ⟨E, hE⟩ : ∃ E, E = exp (-(⟨0, 0.01, 0⟩ : Vec3).magnitude / (350 * SEA_LEVEL_G)) := ⟨_, rfl⟩
  have hE1 : 0.997 ≤ E := by
    rw [hE, hdv]
    refine le_trans ?_ (add_one_le_exp _)
    norm_num [SEA_LEVEL_G]
  have hE2 : E ≤ 0.998 := by
    have e1 : E * exp (0.01 / (350 * SEA_LEVEL_G)) = 1 := by
      rw [hE, hdv, ← exp_add, neg_div, neg_add_cancel, exp_zero]
    have e2 : (1.0029 : ℝ) ≤ exp (0.01 / (350 * SEA_LEVEL_G)) := by
      refine le_trans ?_ (add_one_le_exp _)
      norm_num [SEA_LEVEL_G]
    have e3 : 0 ≤ E := by norm_num at hE1; linarith
    have e4 := mul_le_mul_of_nonneg_left e2 e3
    rw [e1] at e4
    norm_num at e4 ⊢; linarith
  have hSb : 800 / 0.003 * (1 - E) ≤ 800 := by norm_num at hE1 ⊢; linarith
  have hSl : 300 < 800 / 0.003 * (1 - E) := by norm_num at hE2 ⊢; linarith
  have hTb : 0.003 * 350 * SEA_LEVEL_G / (800 * E) + 0 ≤ 1e-4 := by
    rw [add_zero, div_le_iff₀ (by norm_num at hE1; linarith)]
    norm_num [SEA_LEVEL_G] at hE1 ⊢; linarith
  have hT0 : 0 ≤ 0.003 * 350 * SEA_LEVEL_G / (800 * E) + 0 := by
    have := g_pos
    have : 0 ≤ E := by norm_num at hE1; linarith
    positivity
  obtain ⟨S, hS⟩ : ∃ S, S = 800 / 0.003 * (1 - E) := ⟨_, rfl⟩
  obtain ⟨T, hT⟩ : ∃ T, T = 0.003 * 350 * SEA_LEVEL_G / (800 * E) + 0 := ⟨_, rfl⟩
  rw [← hS] at hSb hSl
  rw [← hT] at hTb hT0
  have hS0 : 0 ≤ S := by linarith
  have hb : S * 3.07 + S ^ 2 * (Earth.MU / 42164 ^ 2 + T) ≤ 3000 := by
    have q1 : S ^ 2 ≤ 800 ^ 2 := pow_le_pow_left₀ hS0 hSb 2
    have q2 : Earth.MU / 42164 ^ 2 + T ≤ 3.25e-4 := by
      have : Earth.MU / 42164 ^ 2 ≤ 2.25e-4 := by norm_num [Earth.MU]
      norm_num at this hTb ⊢; linarith
    have q3 : S ^ 2 * (Earth.MU / 42164 ^ 2 + T) ≤ 800 ^ 2 * 3.25e-4 :=
      mul_le_mul q1 q2 (add_nonneg (by norm_num [Earth.MU]) hT0) (by norm_num)
    norm_num at q3 ⊢; linarith
  obtain ⟨p', hp, -⟩ := C90_burn geoExample ⟨0, 0.01, 0⟩ 0.003 800 350 S (Earth.MU / 42164 ^ 2)
    (S * 3.07 + S ^ 2 * (Earth.MU / 42164 ^ 2 + T)) T
    (by intro h; have := congrArg Vec3.y h; norm_num at this) (by norm_num) (by norm_num) (by norm_num)
    (by rw [h1]; norm_num) (by rw [h1]; norm_num) h4 (by rw [hS, hE]) (by rw [h1])
    (by
      rw [hT, ← hE]
      have : geoExample.state.srp_scalar = 0 := rfl
      rw [this, abs_zero, mul_zero]) (by rw [h2]) (by rw [h1]; linarith)
    (by
      have : |geoExample.state.position.z| = 0 := by
        simp [geoExample, RK4.new, GCRF.copy, GCRF.new, State.new, Vec3.copy]
      rw [this, h3]; linarith)
  refine ⟨p', hp, ?_⟩
  show 300 < 800 / 0.003 * (1 - exp (-(⟨0, 0.01, 0⟩ : Vec3).magnitude / (350 * SEA_LEVEL_G)))
  rw [← hE, ← hS]; exact hSl

example : ∃ (p' : RK4) (D : ℝ) (u G : Vec3),
    RK4.maneuver ⟨0, 0.01, 0⟩ Spacecraft.DEFAULT_M_DOT (Spacecraft.DEFAULT_MASS + Spacecraft.DEFAULT_PROP_MASS)
      Spacecraft.DEFAULT_ISP geoExample = (.ok (), p') ∧ u.dot u = 1 ∧
    p'.state.velocity = (geoExample.state.velocity.plus G).plus (u.scaled D) ∧ D < 0.01 := by
  obtain ⟨p', hp, hT⟩ := geoExample_default_burn
  have hdv : (⟨0, 0.01, 0⟩ : Vec3).magnitude = 0.01 :=
    Vec3.magnitude_of_dot (by norm_num) (by simp only [Vec3.dot]; norm_num)
  obtain ⟨n, T, c, X, D, u, G, h1, hn, hc, hX, hu, -, -, hv, -, h2⟩ := C105_delivered_partial _ _ _ _ _ _
    (by intro h; have := congrArg Vec3.y h; norm_num at this) (by norm_num [Spacecraft.DEFAULT_M_DOT])
    (by norm_num [Spacecraft.DEFAULT_MASS, Spacecraft.DEFAULT_PROP_MASS]) (by norm_num [Spacecraft.DEFAULT_ISP]) hp
  refine ⟨p', D, u, G, hp, hu, hv, ?_⟩
  have hT' : 300 < T := by rw [h1, hX, hc]; exact hT
  have h3 : T ≤ 300 * n := hn.1
  have h4 : (1 : ℝ) < n := by linarith
  have := (h2 (by exact_mod_cast h4)).2.1
  rwa [hdv] at this

end Openspace
