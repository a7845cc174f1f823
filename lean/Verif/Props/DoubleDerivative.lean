import Verif.Lemmas.DoubleDerivative
import Verif.Props.DoubleGravity

/-! # C144: the derivative of a state in double precision -/

namespace Openspace

open Real

/-- With perturbations off the rounded acceleration is correct to 4e-15 of the thrust and of the attraction, everywhere
but at the centre. -/
theorem C144_two_body (lib : F64.Libm) (tan : ℝ → ℝ) (s : GCRF) (h : s.position ≠ ⟨0, 0, 0⟩)
    (hu : s.use_perturbations = false) :
    ∃ a' a, F64.derivative lib tan s = .ok (s.velocity, a') ∧ s.derivative = .ok (s.velocity, a) ∧
      (a'.minus a).magnitude ≤ 4e-15 * (s.thrust.magnitude + Earth.MU / s.position.magnitude ^ 2) := by
  obtain ⟨e', e, e1, e2, e3⟩ := C141_earth s h
  obtain ⟨b1, b2, b3⟩ := earth_magnitude s h
  obtain rfl : b1 = e := by rw [e2, Except.ok.injEq] at b2; exact b2.symm
  obtain ⟨s1, -⟩ := F64.plus_error (F64.self_minus s.thrust) e3 le_rfl le_rfl
  refine ⟨_, _, ?_, ?_, s1.trans ?_⟩
  · simp [F64.derivative, e1, ok_bind, pure_eq_ok, hu]
  · simp [GCRF.derivative, GCRF.accelerationFromThrust, Vec3.copy, e2, ok_bind, pure_eq_ok, hu]
  · rw [b3]
    have h1 := s.thrust.magnitude_nonneg
    have h2 : 0 ≤ Earth.MU / s.position.magnitude ^ 2 := div_nonneg (by norm_num [Earth.MU]) (by positivity)
    norm_num
    linarith

theorem F64.derivative_total {lib : F64.Libm} {tan : ℝ → ℝ} (hlib : Spec.Accurate lib) (s : GCRF) (h0 : 1 ≤ s.epoch.value)
    (h1 : s.epoch.value ≤ 131072) (h5 : 5000 ≤ s.position.magnitude) (h6 : s.position.magnitude ≤ 125000) {q : Vec3}
    {c d : ℝ} (c0 : 1 / 1000 ≤ c) (hq : PositionConvert.gcrfToItrf s.position s.epoch = .ok q)
    (hc : c * q.magnitude ≤ √(q.x ^ 2 + q.y ^ 2)) (hu : s.use_perturbations = true)
    (hg : ∃ a' a, F64.accelerationFromGravity lib tan s.position s.epoch.value = .ok a' ∧
      s.accelerationFromGravity = .ok a ∧ (a'.minus a).magnitude ≤ d / c * (Earth.MU / s.position.magnitude ^ 2)) :
    ∃ a' a, F64.derivative lib tan s = .ok (s.velocity, a') ∧ s.derivative = .ok (s.velocity, a) ∧
      (a'.minus a).magnitude ≤ (1.0001 * (d / c) + 1e-14) * (Earth.MU / s.position.magnitude ^ 2) + 5e-15 +
        1e-18 * |s.srp_scalar| + 1e-15 * s.thrust.magnitude := by
  have hc0 : 0 < c := by linarith
  have hne : s.position ≠ ⟨0, 0, 0⟩ := Vec3.magnitude_pos.mp (by linarith)
  obtain ⟨e', e, e1, e2, e3⟩ := C141_earth s hne
  obtain ⟨m', m, m1, m2, m3⟩ := C141_moon hlib s h0 h1 h6
  obtain ⟨w', w, w1, w2, w3⟩ := C141_sun hlib s h0 h1 h6
  obtain ⟨p', p, p1, p2, p3⟩ := C141_srp hlib s h0 h1 h6
  obtain ⟨g', g, g1, g2, g3⟩ := hg
  have hax0 : 0 < q.x ^ 2 + q.y ^ 2 := by
    have m1 := (gcrfToItrf_magnitude _ hq).1
    exact Real.sqrt_pos.mp (lt_of_lt_of_le (mul_pos hc0 (by linarith)) hc)
  have hG0 : 0 < Earth.MU / s.position.magnitude ^ 2 := div_pos (by norm_num [Earth.MU]) (by positivity)
  obtain ⟨b1, b2, b3⟩ := earth_magnitude s hne
  obtain rfl : b1 = e := by rw [e2, Except.ok.injEq] at b2; exact b2.symm
  obtain ⟨b4, b5, b6⟩ := moon_bound s h6
  obtain rfl : b4 = m := by rw [m2, Except.ok.injEq] at b5; exact b5.symm
  obtain ⟨b7, b8, b9⟩ := sun_bound s h6
  obtain rfl : b7 = w := by rw [w2, Except.ok.injEq] at b8; exact b8.symm
  obtain ⟨b13, b14, b15⟩ := srp_bound s h6
  obtain rfl : b13 = p := by rw [p2, Except.ok.injEq] at b14; exact b14.symm
  obtain ⟨b10, b11, b12⟩ := gravity_bound s h5 (by
    intro z hz
    rw [hq, Except.ok.injEq] at hz
    rw [hz] at hax0
    norm_num at hax0)
  obtain rfl : b10 = g := by rw [g2, Except.ok.injEq] at b11; exact b11.symm
  rw [b3] at e3
  rw [b15] at p3
  obtain ⟨s1, -⟩ := F64.sum_error (F64.self_minus s.thrust) e3 m3 w3 p3 g3 le_rfl b3.le b6 b9 b15.le b12
  refine ⟨_, _, ?_, ?_, s1.trans ?_⟩
  · simp only [F64.derivative, e1, m1, w1, p1, g1, ok_bind, pure_eq_ok, hu, if_true]
  · simp only [GCRF.derivative, GCRF.accelerationFromThrust, Vec3.copy, e2, m2, w2, p2, g2, ok_bind, pure_eq_ok, hu, if_true]
  · have h2 := abs_nonneg s.srp_scalar
    have h3 := s.thrust.magnitude_nonneg
    norm_num
    linarith

/-- With perturbations on, at a position 5000 to 125000 km from the centre of the Earth whose distance from the polar axis
is the fraction `c` of it, the rounded acceleration is correct to `1.8e-9 / c` of the central attraction, 5e-15 km/s²,
1e-18 of the radiation pressure coefficient and 1e-15 of the thrust, -/
theorem C144_derivative {lib : F64.Libm} {tan : ℝ → ℝ} (hlib : Spec.Accurate lib) (hatan : Spec.Atan2Accurate lib)
    (hpow : Spec.PowAccurate lib) (htan : Spec.TanAccurate tan) (s : GCRF) (h0 : 1 ≤ s.epoch.value)
    (h1 : s.epoch.value ≤ 131072) (h5 : 5000 ≤ s.position.magnitude) (h6 : s.position.magnitude ≤ 125000) {q : Vec3}
    {c : ℝ} (c0 : 1 / 1000 ≤ c) (hq : PositionConvert.gcrfToItrf s.position s.epoch = .ok q)
    (hc : c * q.magnitude ≤ √(q.x ^ 2 + q.y ^ 2)) (hu : s.use_perturbations = true) :
    ∃ a' a, F64.derivative lib tan s = .ok (s.velocity, a') ∧ s.derivative = .ok (s.velocity, a) ∧
      (a'.minus a).magnitude ≤ 1.8e-9 / c * (Earth.MU / s.position.magnitude ^ 2) + 5e-15 +
        1e-18 * |s.srp_scalar| + 1e-15 * s.thrust.magnitude := by
  have hc0 : 0 < c := by linarith
  obtain ⟨a', a, e1, e2, e3⟩ := F64.derivative_total hlib s h0 h1 h5 h6 c0 hq hc hu
    (C143_gravity hlib hatan hpow htan s h0 h1 h5 c0 hq hc)
  refine ⟨a', a, e1, e2, e3.trans ?_⟩
  have hG : 0 ≤ Earth.MU / s.position.magnitude ^ 2 := div_nonneg (by norm_num [Earth.MU]) (by positivity)
  have c1 : c ≤ 1 := by
    have m1 := (gcrfToItrf_magnitude _ hq).1
    have : √(q.x ^ 2 + q.y ^ 2) ≤ q.magnitude := q.axial_le
    nlinarith
  have : 1.0001 * (1.7e-9 / c) + 1e-14 ≤ 1.8e-9 / c := by
    rw [← mul_div_assoc, div_add' _ _ _ hc0.ne', div_le_div_iff_of_pos_right hc0]
    norm_num
    linarith
  gcongr

/-- and to `7.1e-11 / c` of the central attraction unless the UTC epoch is within two microseconds of midnight. -/
theorem C144_derivative_daytime {lib : F64.Libm} {tan : ℝ → ℝ} (hlib : Spec.Accurate lib)
    (hatan : Spec.Atan2Accurate lib) (hpow : Spec.PowAccurate lib) (htan : Spec.TanAccurate tan) (s : GCRF)
    (h0 : 1 ≤ s.epoch.value) (h1 : s.epoch.value ≤ 131072) (n : ℤ)
    (h2 : n + 16 / 10 ^ 12 < s.epoch.value - 69.184 / 86400)
    (h3 : s.epoch.value - 69.184 / 86400 < n + 1 - 16 / 10 ^ 12) (h5 : 5000 ≤ s.position.magnitude)
    (h6 : s.position.magnitude ≤ 125000) {q : Vec3} {c : ℝ} (c0 : 1 / 1000 ≤ c)
    (hq : PositionConvert.gcrfToItrf s.position s.epoch = .ok q) (hc : c * q.magnitude ≤ √(q.x ^ 2 + q.y ^ 2))
    (hu : s.use_perturbations = true) :
    ∃ a' a, F64.derivative lib tan s = .ok (s.velocity, a') ∧ s.derivative = .ok (s.velocity, a) ∧
      (a'.minus a).magnitude ≤ 7.1e-11 / c * (Earth.MU / s.position.magnitude ^ 2) + 5e-15 +
        1e-18 * |s.srp_scalar| + 1e-15 * s.thrust.magnitude := by
  have hc0 : 0 < c := by linarith
  obtain ⟨a', a, e1, e2, e3⟩ := F64.derivative_total hlib s h0 h1 h5 h6 c0 hq hc hu
    (C143_gravity_daytime hlib hatan hpow htan s h0 h1 n h2 h3 h5 c0 hq hc)
  refine ⟨a', a, e1, e2, e3.trans ?_⟩
  have hG : 0 ≤ Earth.MU / s.position.magnitude ^ 2 := div_nonneg (by norm_num [Earth.MU]) (by positivity)
  have c1 : c ≤ 1 := by
    have m1 := (gcrfToItrf_magnitude _ hq).1
    have : √(q.x ^ 2 + q.y ^ 2) ≤ q.magnitude := q.axial_le
    nlinarith
  have : 1.0001 * (7e-11 / c) + 1e-14 ≤ 7.1e-11 / c := by
    rw [← mul_div_assoc, div_add' _ _ _ hc0.ne', div_le_div_iff_of_pos_right hc0]
    norm_num
    linarith
  gcongr

/-- a geostationary satellite -/
example : ∃ a' a, F64.derivative F64.rounded (fun x => F64.rnd (Real.tan x))
      (GCRF.new ⟨60000⟩ ⟨42164, 0, 0⟩ ⟨0, 3.07, 0⟩) = .ok (⟨0, 3.07, 0⟩, a') ∧
    (GCRF.new ⟨60000⟩ ⟨42164, 0, 0⟩ ⟨0, 3.07, 0⟩).derivative = .ok (⟨0, 3.07, 0⟩, a) ∧
    (a'.minus a).magnitude ≤ 1e-11 := by
  have hm : (⟨42164, 0, 0⟩ : Vec3).magnitude = 42164 := Vec3.magnitude_of_dot (by norm_num) (by norm_num [Vec3.dot])
  have hp : (GCRF.new ⟨60000⟩ ⟨42164, 0, 0⟩ ⟨0, 3.07, 0⟩).position = ⟨42164, 0, 0⟩ := rfl
  have he : (GCRF.new ⟨60000⟩ ⟨42164, 0, 0⟩ ⟨0, 3.07, 0⟩).epoch = ⟨60000⟩ := rfl
  obtain ⟨q, hq⟩ := gcrfToItrf_ok ⟨42164, 0, 0⟩ ⟨60000⟩
  have hx : Vec3.axial ⟨42164, 0, 0⟩ = 42164 := by
    rw [Vec3.axial, show ((42164 : ℝ) ^ 2 + 0 ^ 2) = 42164 ^ 2 by ring]
    exact Real.sqrt_sq (by norm_num)
  have := C144_derivative F64.rounded_accurate.1 F64.rounded_accurate.2 F64.rounded_pow F64.rounded_tan
    (GCRF.new ⟨60000⟩ ⟨42164, 0, 0⟩ ⟨0, 3.07, 0⟩) (by rw [he]; norm_num) (by rw [he]; norm_num) (by rw [hp, hm]; norm_num)
    (by rw [hp, hm]; norm_num) (c := 0.05) (by norm_num) hq (F64.axis_of_inertial (t := ⟨60000⟩)
      (by norm_num [Epoch.julianCenturies, Epoch.julianValue, Epoch.JULIAN_CENTURY, Epoch.MJD_ZERO,
        Epoch.J2000_JULIAN_DATE, abs_of_pos]) (by rw [hx]; norm_num) hq) rfl
  obtain ⟨a', a, h1, h2, h3⟩ := this
  refine ⟨a', a, h1, h2, h3.trans ?_⟩
  rw [hp, hm, show (GCRF.new ⟨60000⟩ ⟨42164, 0, 0⟩ ⟨0, 3.07, 0⟩).srp_scalar = 0 from rfl,
    show (GCRF.new ⟨60000⟩ ⟨42164, 0, 0⟩ ⟨0, 3.07, 0⟩).thrust = ⟨0, 0, 0⟩ from rfl,
    show (⟨0, 0, 0⟩ : Vec3).magnitude = 0 from Vec3.magnitude_of_dot le_rfl (by simp [Vec3.dot])]
  norm_num [Earth.MU]

end Openspace
