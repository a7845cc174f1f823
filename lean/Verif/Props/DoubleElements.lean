import Verif.Lemmas.DoubleElements

/-!
# Property C103: classical elements in double precision
-/

namespace Openspace

open Real

namespace F64

/-- a speed of 7.546 km/s, a double -/
noncomputable def speed : ℝ := 63300883 / 2 ^ 23

theorem rnd_quot (m : ℤ) (k : ℕ) (hm : |m| < 2 ^ 53) : rnd (m / 2 ^ k) = m / 2 ^ k := by
  have := rnd_exact m (-k) hm
  rwa [zpow_neg, zpow_natCast, ← div_eq_mul_inv] at this

theorem mu_value : mu = 6847903446808605 / 2 ^ 34 := by
  unfold mu
  rw [rnd_eq 6847903446808605 (-34)] <;> norm_num [Earth.MU, abs_lt]

theorem radius_value : magnitude ⟨7000, 0, 0⟩ = 7000 := by
  have h1 : rnd (7000 * 7000) = 49000000 := by
    have := rnd_quot 49000000 0 (by norm_num); norm_num at this ⊢; exact this
  have h2 : rnd 49000000 = 49000000 := by
    have := rnd_quot 49000000 0 (by norm_num); norm_num at this ⊢; exact this
  have h3 : rnd 7000 = 7000 := by
    have := rnd_quot 7000 0 (by norm_num); norm_num at this ⊢; exact this
  have h4 : √(49000000 : ℝ) = 7000 := by
    rw [show (49000000 : ℝ) = 7000 * 7000 by norm_num]; exact Real.sqrt_mul_self (by norm_num)
  simp only [magnitude, dot, sqrtNN, h1, mul_zero, rnd_zero, add_zero, h2, h4, h3]

theorem speed_sq : rnd (speed * speed) = 4007001788579689 / 2 ^ 46 := by
  have := rnd_quot 4007001788579689 46 (by norm_num)
  rw [show speed * speed = ((4007001788579689 : ℤ) : ℝ) / 2 ^ 46 by norm_num [speed], this]
  norm_num

theorem speed_value : magnitude ⟨0, speed, 0⟩ = speed := by
  have h2 : rnd (4007001788579689 / 2 ^ 46) = 4007001788579689 / 2 ^ 46 := by
    have := rnd_quot 4007001788579689 46 (by norm_num); norm_num at this ⊢; exact this
  have h3 : rnd speed = speed := by
    have := rnd_quot 63300883 23 (by norm_num); unfold speed; norm_num at this ⊢; exact this
  have h4 : √(4007001788579689 / 2 ^ 46 : ℝ) = speed := by
    rw [show (4007001788579689 / 2 ^ 46 : ℝ) = speed * speed by norm_num [speed]]
    exact Real.sqrt_mul_self (by norm_num [speed])
  simp only [magnitude, dot, sqrtNN, speed_sq, mul_zero, rnd_zero, add_zero, zero_add, h2, h4, h3]

theorem momentum_value : cross ⟨7000, 0, 0⟩ ⟨0, speed, 0⟩ = ⟨0, 0, 443106181000 / 2 ^ 23⟩ := by
  have h1 : rnd (7000 * speed) = 443106181000 / 2 ^ 23 := by
    have := rnd_quot 443106181000 23 (by norm_num)
    rw [show 7000 * speed = ((443106181000 : ℤ) : ℝ) / 2 ^ 23 by norm_num [speed], this]; norm_num
  have h2 : rnd (443106181000 / 2 ^ 23) = 443106181000 / 2 ^ 23 := by
    have := rnd_quot 443106181000 23 (by norm_num); norm_num at this ⊢; exact this
  simp only [cross, mul_zero, zero_mul, rnd_zero, sub_zero, h1, h2]

theorem momentum_sq : rnd (443106181000 / 2 ^ 23 * (443106181000 / 2 ^ 23)) = 5851479996454858 / 2 ^ 21 := by
  rw [rnd_eq 5851479996454858 (-21)] <;> norm_num [abs_lt]

theorem momentum_magnitude : magnitude ⟨0, 0, 443106181000 / 2 ^ 23⟩ = 443106181000 / 2 ^ 23 := by
  have h2 : rnd (5851479996454858 / 2 ^ 21) = 5851479996454858 / 2 ^ 21 := by
    have := rnd_quot 5851479996454858 21 (by norm_num); norm_num at this ⊢; exact this
  have h4 : rnd (√(5851479996454858 / 2 ^ 21)) = 443106181000 / 2 ^ 23 := by
    have l1 : (7259851669504000 - 1 / 4) * 2 ^ (-37 : ℤ) < √(5851479996454858 / 2 ^ 21 : ℝ) :=
      Real.lt_sqrt_of_sq_lt (by norm_num)
    have l2 : √(5851479996454858 / 2 ^ 21 : ℝ) < (7259851669504000 + 1 / 4) * 2 ^ (-37 : ℤ) :=
      (Real.sqrt_lt' (by norm_num)).mpr (by norm_num)
    rw [rnd_eq 7259851669504000 (-37)]
    · norm_num
    · refine le_trans ?_ l1.le; norm_num
    · refine l2.trans ?_; norm_num
    · rw [abs_lt]
      norm_num at l1 l2 ⊢
      constructor <;> linarith
  simp only [magnitude, dot, sqrtNN, momentum_sq, mul_zero, rnd_zero, zero_add, h2, h4]

theorem axis_value : aFromMuRV mu 7000 speed = .ok (7696581394961525 / 2 ^ 40) := by
  have h1 : rnd (2 / 7000) = 5270498306774158 / 2 ^ 64 := by
    rw [rnd_eq 5270498306774158 (-64)] <;> norm_num [abs_lt]
  have h2 : rnd (4007001788579689 / 2 ^ 46 / mu) = 5270498307136769 / 2 ^ 65 := by
    rw [mu_value, rnd_eq 5270498307136769 (-65)] <;> norm_num [abs_lt]
  have h3 : rnd (5270498306774158 / 2 ^ 64 - 5270498307136769 / 2 ^ 65) = 5270498306411547 / 2 ^ 65 := by
    rw [rnd_eq 5270498306411547 (-65)] <;> norm_num [abs_lt]
  have h4 : rnd (1 / (5270498306411547 / 2 ^ 65)) = 7696581394961525 / 2 ^ 40 := by
    rw [rnd_eq 7696581394961525 (-40)] <;> norm_num [abs_lt]
  have hm : mu ≠ 0 := by rw [mu_value]; norm_num
  rw [aFromMuRV, div_ok (by norm_num), ok_bind, speed_sq, div_ok hm, ok_bind, h1, h2, h3, div_ok (by norm_num), h4]

theorem parameter_value : pFromMuH mu (443106181000 / 2 ^ 23) = .ok (7696581394961527 / 2 ^ 40) := by
  have hm : mu ≠ 0 := by rw [mu_value]; norm_num
  have h1 : rnd (5851479996454858 / 2 ^ 21 / mu) = 7696581394961527 / 2 ^ 40 := by
    rw [mu_value, rnd_eq 7696581394961527 (-40)] <;> norm_num [abs_lt]
  rw [pFromMuH, momentum_sq, div_ok hm, h1]

theorem eccentricity_error :
    eFromAP (7696581394961525 / 2 ^ 40) (7696581394961527 / 2 ^ 40) = .error .valueError := by
  have h1 : rnd (7696581394961527 / 2 ^ 40 / (7696581394961525 / 2 ^ 40)) = 4503599627370497 / 2 ^ 52 := by
    rw [rnd_eq 4503599627370497 (-52)] <;> norm_num [abs_lt]
  have h2 : rnd (1 - 4503599627370497 / 2 ^ 52) < 0 := rnd_neg (by norm_num)
  rw [eFromAP, div_ok (by norm_num), ok_bind, h1]
  simp [sqrt, pySqrt, h2]

theorem crash (lib : Libm) (ep : Epoch) :
    fromIjk lib (State.new ep ⟨7000, 0, 0⟩ ⟨0, speed, 0⟩) = .error .valueError := by
  have hp : (State.new ep ⟨7000, 0, 0⟩ ⟨0, speed, 0⟩).position = ⟨7000, 0, 0⟩ := rfl
  have hv : (State.new ep ⟨7000, 0, 0⟩ ⟨0, speed, 0⟩).velocity = ⟨0, speed, 0⟩ := rfl
  have hn : ∃ w, normalized ⟨0, 0, 443106181000 / 2 ^ 23⟩ = .ok w := by
    rw [normalized, momentum_magnitude, div_ok (by norm_num), ok_bind]; exact ⟨_, rfl⟩
  obtain ⟨w, hw⟩ := hn
  simp only [fromIjk, hp, hv, momentum_value, hw, ok_bind, radius_value, speed_value, axis_value, momentum_magnitude,
    parameter_value, eccentricity_error, error_bind]

end F64

/-- **C103 is false of the code.** A state with double coordinates on an orbit that is circular up to 7e-11: its
elements exist in exact arithmetic, but `from_ijk` raises `ValueError` in double precision, with any C library. -/
theorem C103_violated (ep : Epoch) :
    ∃ (s : State) (v : ℝ), s = State.new ep ⟨7000, 0, 0⟩ ⟨0, v, 0⟩ ∧ F64.IsDouble 7000 ∧ F64.IsDouble v ∧
      (∃ el, ClassicalElements.fromIjk s = .ok el ∧ 0 < el.semimajor_axis ∧ el.eccentricity < 1e-10) ∧
      ∀ lib, F64.fromIjk lib s = .error .valueError := by
  have hv0 : (0 : ℝ) < F64.speed := by norm_num [F64.speed]
  have hpm : (Vec3.mk 7000 0 0).magnitude = 7000 :=
    Vec3.magnitude_of_dot (by norm_num) (by norm_num [Vec3.dot])
  have hvm : (Vec3.mk 0 F64.speed 0).magnitude = F64.speed :=
    Vec3.magnitude_of_dot hv0.le (by simp only [Vec3.dot]; ring)
  have hcr : (Vec3.mk 7000 0 0).cross ⟨0, F64.speed, 0⟩ = ⟨0, 0, 7000 * F64.speed⟩ := by
    ext <;> simp [Vec3.cross]
  obtain ⟨s, hs⟩ : ∃ s : State, s = State.new ep ⟨7000, 0, 0⟩ ⟨0, F64.speed, 0⟩ := ⟨_, rfl⟩
  have hsp : s.position = ⟨7000, 0, 0⟩ := by rw [hs]; rfl
  have hsv : s.velocity = ⟨0, F64.speed, 0⟩ := by rw [hs]; rfl
  refine ⟨s, F64.speed, hs, ?_, ?_, ?_, fun lib => by rw [hs]; exact F64.crash lib ep⟩
  · have := F64.rnd_quot 7000 0 (by norm_num); norm_num [F64.IsDouble] at this ⊢; exact this
  · have := F64.rnd_quot 63300883 23 (by norm_num); unfold F64.IsDouble F64.speed; norm_num at this ⊢; exact this
  · obtain ⟨el, E, nu, w, h1, h2, ha, he, he', hen, hrE, hqE, hE0, hE1, hM, hnu, hwu, hc, hi, hO, haop⟩ :=
      fromIjk_bound s (by rw [hsp]; simp) (by rw [hsp, hsv, hcr]; simp [hv0.ne'])
        (by rw [hsp, hsv, hpm, hvm]; norm_num [F64.speed, Earth.MU])
    refine ⟨el, h1, ha, ?_⟩
    have hm := congrArg (fun v : Vec3 => v.magnitude ^ 2) hc
    have hmu := mu_pos
    have h2e : (0 : ℝ) < 1 - el.eccentricity ^ 2 := by nlinarith
    have hpp : 0 < Earth.MU * (el.semimajor_axis * (1 - el.eccentricity ^ 2)) := by positivity
    simp only [Vec3.magnitude_scaled, Vec3.magnitude_unit hwu, mul_one, sq_abs, Real.sq_sqrt hpp.le] at hm
    rw [hsp, hsv, hcr, Vec3.magnitude_sq] at hm
    rw [hsp, hsv, hpm, hvm] at hen
    have hA : 1 / el.semimajor_axis = 2 / 7000 - F64.speed ^ 2 / Earth.MU := by
      have e2 : -Earth.MU / (2 * el.semimajor_axis) = -(Earth.MU / 2) * (1 / el.semimajor_axis) := by ring
      rw [e2] at hen
      field_simp
      field_simp at hen
      linarith
    have he2 : el.eccentricity ^ 2 = 1 - (7000 * F64.speed) ^ 2 / Earth.MU * (1 / el.semimajor_axis) := by
      field_simp
      linarith
    rw [hA] at he2
    apply lt_of_pow_lt_pow_left₀ 2 (by norm_num)
    rw [he2]
    norm_num [F64.speed, Earth.MU]

/-- what `from_ijk` computes on the way -/
theorem F64.fromIjk_parts (lib : F64.Libm) (s : State) (el : ClassicalElements)
    (hh : s.position.cross s.velocity ≠ ⟨0, 0, 0⟩)
    (hb : s.velocity.magnitude ^ 2 / 2 < Earth.MU / s.position.magnitude)
    (hel : ClassicalElements.fromIjk s = .ok el) (h1 : 2e-7 ≤ el.eccentricity) (h2 : el.eccentricity ≤ 1 - 1e-12) :
    ∃ a' e' n' ea' nu' w', F64.fromIjk lib s = .ok ⟨s.epoch, a', e', F64.incFromW lib w', F64.raanFromW lib w',
        F64.wFromUNu (F64.uFromRW lib s.position w') nu', F64.maFromEaE lib ea' e'⟩ ∧
      F64.normalized (F64.cross s.position s.velocity) = .ok w' ∧ F64.nFromAMu a' F64.mu = .ok n' ∧ 0 < n' ∧
      F64.eaFromRdvRAN lib (F64.dot s.position s.velocity) (F64.magnitude s.position) a' n' = .ok ea' ∧
      F64.nuFromEEa lib e' ea' = .ok nu' ∧ 0 < a' ∧ 0 ≤ e' ∧ |e' ^ 2 - el.eccentricity ^ 2| ≤ 2e-14 ∧
      |1 / a' - 1 / el.semimajor_axis| ≤ 40 * F64.u / s.position.magnitude ∧ el.epoch = s.epoch := by
  have hr : s.position ≠ ⟨0, 0, 0⟩ := by
    intro h; rw [h] at hh; simp [Vec3.cross] at hh
  obtain ⟨el₀, E, nu, w, g1, g2, ha, he, he', hen, hrE, hqE, hE0, hE1, hM, hnu, hwu, hc, hi, hO, haop⟩ :=
    fromIjk_bound s hr hh hb
  have : el₀ = el := by rw [hel, Except.ok.injEq] at g1; exact g1.symm
  subst this
  have hmu := mu_pos
  have hu := F64.u_pos
  have hu' := F64.u_small
  have hr0 := Vec3.magnitude_pos.mpr hr
  have h2e : (0 : ℝ) < 1 - el₀.eccentricity ^ 2 := by nlinarith
  have hpp : 0 < Earth.MU * (el₀.semimajor_axis * (1 - el₀.eccentricity ^ 2)) := by positivity
  have hm := congrArg (fun v : Vec3 => v.magnitude ^ 2) hc
  simp only [Vec3.magnitude_scaled, Vec3.magnitude_unit hwu, mul_one, sq_abs, Real.sq_sqrt hpp.le] at hm
  have nr := F64.magnitude_near s.position
  have nv := F64.magnitude_near s.velocity
  have nh := F64.momentum_near s.position s.velocity
  have hh0 := Vec3.magnitude_pos.mpr hh
  have hhB : (s.position.cross s.velocity).magnitude ≤ s.position.magnitude * s.velocity.magnitude := by
    apply abs_le_of_sq_le_sq' _ (mul_nonneg (Vec3.magnitude_nonneg _) (Vec3.magnitude_nonneg _)) |>.2
    rw [mul_pow, Vec3.magnitude_sq_dot, Vec3.magnitude_sq_dot, Vec3.magnitude_sq_dot, Vec3.lagrange]
    nlinarith [sq_nonneg (s.position.dot s.velocity)]
  have hv0 := Vec3.magnitude_nonneg s.velocity
  obtain ⟨r, hrd⟩ : ∃ r, r = s.position.magnitude := ⟨_, rfl⟩
  obtain ⟨v, hvd⟩ : ∃ v, v = s.velocity.magnitude := ⟨_, rfl⟩
  obtain ⟨h, hhd⟩ : ∃ h, h = (s.position.cross s.velocity).magnitude := ⟨_, rfl⟩
  obtain ⟨a, had⟩ : ∃ a, a = el₀.semimajor_axis := ⟨_, rfl⟩
  obtain ⟨e, hed⟩ : ∃ e, e = el₀.eccentricity := ⟨_, rfl⟩
  rw [← hrd] at nr nh hhB hr0 hb hen hrE
  rw [← hvd] at nv nh hhB hb hen hv0
  rw [← hhd] at nh hhB hh0 hm
  rw [← had] at hm hen hrE ha
  rw [← hed] at h1 h2 hm hrE h2e he he'
  rw [← hrd, ← had, ← hed]
  have hx : 1 / a = 2 / r - v * v / Earth.MU := by
    have e2 : -Earth.MU / (2 * a) = -(Earth.MU / 2) * (1 / a) := by ring
    rw [e2] at hen
    field_simp at hen ⊢
    linarith
  obtain ⟨har, har'⟩ := F64.radius_bounds E ha he h2
  rw [← hrE] at har har'
  have hx0 : 1e-12 / r ≤ 1 / a := by
    rw [div_le_div_iff₀ hr0 ha]; linarith
  obtain ⟨a', ka, ka0, ka1, ka2⟩ := F64.axis_near hr0 nr nv hx hx0
  have hBr : (r * v) * (r * v) / Earth.MU ≤ 2 * r := by
    have hxp : 0 < 2 / r - v * v / Earth.MU := by rw [← hx]; positivity
    have : r * r * (v * v / Earth.MU) ≤ r * r * (2 / r) :=
      mul_le_mul_of_nonneg_left (by linarith) (by positivity)
    calc _ = r * r * (v * v / Earth.MU) := by ring
      _ ≤ r * r * (2 / r) := this
      _ = 2 * r := by field_simp
  obtain ⟨p', kp, kp1⟩ := F64.parameter_near (r := r) (mul_nonneg hr0.le hv0) hh0.le hhB nh hBr
  have hp2 : h * h / Earth.MU ≤ 2 * r := by
    refine le_trans ?_ hBr
    gcongr
  have hee : e ^ 2 = 1 - h * h / Earth.MU * (1 / a) := by
    rw [← sq h, hm]; field_simp; ring
  obtain ⟨e', ke, ke0, ke1⟩ := F64.eccentricity_near hr0 ka0 ka1 ka2 (by positivity) hp2 kp1 hee h1 h2
  -- the normal
  have hn0 : F64.magnitude (F64.cross s.position s.velocity) ≠ 0 := by
    intro h0
    rw [h0, zero_sub, abs_neg, abs_of_pos hh0] at nh
    exact F64.momentum_large ha he h2 hr0.le hv0 hh0 (by rwa [div_le_iff₀ mu_pos] at hBr) har' (by rw [← sq h, hm]; ring) nh
  obtain ⟨w', kw⟩ : ∃ w', F64.normalized (F64.cross s.position s.velocity) = .ok w' := by
    rw [F64.normalized, F64.div_ok hn0, ok_bind]; exact ⟨_, rfl⟩
  -- the mean motion
  obtain ⟨n', kn, kn0⟩ : ∃ n', F64.nFromAMu a' F64.mu = .ok n' ∧ 0 < n' := by
    have q1 : 0 < F64.rnd (F64.rnd (a' * a') * a') := F64.rnd_pos (mul_pos (F64.rnd_pos (by positivity)) ka0)
    have q2 : 0 < F64.rnd (F64.mu / F64.rnd (F64.rnd (a' * a') * a')) := F64.rnd_pos (div_pos F64.mu_pos' q1)
    refine ⟨_, ?_, F64.rnd_pos (Real.sqrt_pos.mpr q2)⟩
    rw [F64.nFromAMu, F64.div_ok q1.ne', ok_bind, F64.sqrt_ok q2.le]
  obtain ⟨ea', kE⟩ : ∃ ea', F64.eaFromRdvRAN lib (F64.dot s.position s.velocity) (F64.magnitude s.position) a' n'
      = .ok ea' := by
    have q1 : 0 < F64.rnd (F64.rnd (a' * a') * n') := F64.rnd_pos (mul_pos (F64.rnd_pos (by positivity)) kn0)
    rw [F64.eaFromRdvRAN, F64.div_ok q1.ne', ok_bind, F64.div_ok ka0.ne', ok_bind]
    exact ⟨_, rfl⟩
  obtain ⟨nu', kN⟩ : ∃ nu', F64.nuFromEEa lib e' ea' = .ok nu' := by
    have q1 : 0 ≤ F64.rnd (1 - F64.rnd (e' * e')) := by
      exact F64.rnd_nonneg (F64.one_sub_sq_nonneg he h2 ke1)
    rw [F64.nuFromEEa, F64.sqrt_ok q1, ok_bind]
    exact ⟨_, rfl⟩
  refine ⟨a', e', n', ea', nu', w', ?_, kw, kn, kn0, kE, kN, ka0, ke0, ke1, ka1, g2⟩
  simp only [F64.fromIjk, kw, ok_bind, ka, kp, ke, kn, kE, kN, pure_eq_ok]

/-- **C103, what holds.** For every bound state with an eccentricity from 2e-7 up to 1 - 1e-12, `from_ijk` returns in
double precision, whatever the C library's sine, cosine and arctangent do.  The square of the eccentricity is accurate to
2e-14, and the reciprocal of the semi-major axis to 5e-15 divided by the distance.  Missing: eccentricities below 2e-7,
see `C103_violated`. -/
theorem C103_returns_partial (lib : F64.Libm) (s : State) (el : ClassicalElements)
    (hh : s.position.cross s.velocity ≠ ⟨0, 0, 0⟩)
    (hb : s.velocity.magnitude ^ 2 / 2 < Earth.MU / s.position.magnitude)
    (hel : ClassicalElements.fromIjk s = .ok el) (h1 : 2e-7 ≤ el.eccentricity) (h2 : el.eccentricity ≤ 1 - 1e-12) :
    ∃ el', F64.fromIjk lib s = .ok el' ∧ el'.epoch = el.epoch ∧ 0 < el'.semimajor_axis ∧ 0 ≤ el'.eccentricity ∧
      |el'.eccentricity ^ 2 - el.eccentricity ^ 2| ≤ 2e-14 ∧
      |1 / el'.semimajor_axis - 1 / el.semimajor_axis| ≤ 5e-15 / s.position.magnitude := by
  have hr : s.position ≠ ⟨0, 0, 0⟩ := by
    intro h; rw [h] at hh; simp [Vec3.cross] at hh
  have hr0 := Vec3.magnitude_pos.mpr hr
  have hu := F64.u_pos
  have hu' := F64.u_small
  obtain ⟨a', e', n', ea', nu', w', k1, -, -, -, -, -, ka0, ke0, ke1, ka1, g2⟩ := F64.fromIjk_parts lib s el hh hb hel h1 h2
  refine ⟨_, k1, g2.symm, ka0, ke0, ke1, ?_⟩
  show |1 / a' - 1 / el.semimajor_axis| ≤ 5e-15 / s.position.magnitude
  refine ka1.trans ?_
  gcongr
  linarith

/-- an elliptic orbit that meets the hypotheses -/
theorem sample_orbit (s : State) (hs : s = State.new ⟨0⟩ ⟨7000, 0, 0⟩ ⟨0, 6, 5⟩) :
    s.position.cross s.velocity ≠ ⟨0, 0, 0⟩ ∧ s.velocity.magnitude ^ 2 / 2 < Earth.MU / s.position.magnitude ∧
      ∃ el, ClassicalElements.fromIjk s = .ok el ∧ 0.07 ≤ el.eccentricity ∧ el.eccentricity ≤ 0.08 := by
  have hpm : (Vec3.mk 7000 0 0).magnitude = 7000 :=
    Vec3.magnitude_of_dot (by norm_num) (by norm_num [Vec3.dot])
  have hsp : s.position = ⟨7000, 0, 0⟩ := by rw [hs]; rfl
  have hsv : s.velocity = ⟨0, 6, 5⟩ := by rw [hs]; rfl
  have hb : s.velocity.magnitude ^ 2 / 2 < Earth.MU / s.position.magnitude := by
    rw [hsp, hsv, hpm, Vec3.magnitude_sq]; norm_num [Earth.MU]
  have hh : s.position.cross s.velocity ≠ ⟨0, 0, 0⟩ := by rw [hsp, hsv]; norm_num [Vec3.cross]
  obtain ⟨el, E, nu, w, g1, g2, ha, he, he', hen, hrE, hqE, hE0, hE1, hM, hnu, hwu, hc, -⟩ :=
    fromIjk_bound s (by rw [hsp]; norm_num) hh hb
  have hmu := mu_pos
  have h2e : (0 : ℝ) < 1 - el.eccentricity ^ 2 := by nlinarith
  have hpp : 0 < Earth.MU * (el.semimajor_axis * (1 - el.eccentricity ^ 2)) := by positivity
  have hm := congrArg (fun v : Vec3 => v.magnitude ^ 2) hc
  simp only [Vec3.magnitude_scaled, Vec3.magnitude_unit hwu, mul_one, sq_abs, Real.sq_sqrt hpp.le] at hm
  rw [hsp, hsv, Vec3.magnitude_sq] at hm
  rw [hsp, hsv, hpm, Vec3.magnitude_sq] at hen
  have hA : 1 / el.semimajor_axis = 2 / 7000 - 61 / Earth.MU := by
    have e2 : -Earth.MU / (2 * el.semimajor_axis) = -(Earth.MU / 2) * (1 / el.semimajor_axis) := by ring
    rw [e2] at hen
    field_simp
    field_simp at hen
    linarith
  have he2 : el.eccentricity ^ 2 = 1 - 61 * 7000 ^ 2 / Earth.MU * (1 / el.semimajor_axis) := by
    simp only [Vec3.cross] at hm
    field_simp
    linarith
  rw [hA] at he2
  have b1 : (0.07 : ℝ) ^ 2 ≤ el.eccentricity ^ 2 ∧ el.eccentricity ^ 2 ≤ 0.08 ^ 2 := by
    rw [he2]; norm_num [Earth.MU]
  have b2 := abs_le_of_sq_le_sq' b1.2 (by norm_num)
  have b3 : (0.07 : ℝ) ≤ el.eccentricity := by nlinarith [b1.1]
  exact ⟨hh, hb, el, g1, b3, b2.2⟩

example (lib : F64.Libm) : ∃ el', F64.fromIjk lib (State.new ⟨0⟩ ⟨7000, 0, 0⟩ ⟨0, 6, 5⟩) = .ok el' := by
  obtain ⟨hh, hb, el, g1, b3, b2⟩ := sample_orbit _ rfl
  obtain ⟨el', h, -⟩ := C103_returns_partial lib _ el hh hb g1 (by linarith) (by linarith)
  exact ⟨el', h⟩

end Openspace
