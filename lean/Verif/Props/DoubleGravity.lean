import Verif.Lemmas.DoubleGravityFrame
import Verif.Props.DoubleSpherical

/-! # C143: the geopotential acceleration in double precision -/

namespace Openspace

open Real

/-- The rounded acceleration by the uneven Earth at a position at least 5000 km from the centre and off the polar
axis: if the distance from the axis is the fraction `c` of the distance from the centre in the Earth-fixed frame, the
error is at most `1.7e-9 / c` of the central attraction, -/
theorem C143_gravity {lib : F64.Libm} {tan : ℝ → ℝ} (hlib : Spec.Accurate lib) (hatan : Spec.Atan2Accurate lib)
    (hpow : Spec.PowAccurate lib) (htan : Spec.TanAccurate tan) (s : GCRF) (h0 : 1 ≤ s.epoch.value)
    (h1 : s.epoch.value ≤ 131072) (h5 : 5000 ≤ s.position.magnitude) {q : Vec3} {c : ℝ} (c0 : 1 / 1000 ≤ c)
    (hq : PositionConvert.gcrfToItrf s.position s.epoch = .ok q) (hc : c * q.magnitude ≤ √(q.x ^ 2 + q.y ^ 2)) :
    ∃ a' a, F64.accelerationFromGravity lib tan s.position s.epoch.value = .ok a' ∧ s.accelerationFromGravity = .ok a ∧
      (a'.minus a).magnitude ≤ 1.7e-9 / c * (Earth.MU / s.position.magnitude ^ 2) := by
  have hc0 : 0 < c := by linarith
  obtain ⟨a', a, e1, e2, e3⟩ := F64.gravity_error (e := s.epoch.value) (f := 3.4e-9) (ε := 0) (p' := s.position) (s := s)
    hlib hatan hpow htan rfl rfl (C139_to_itrf hlib h0 h1) (C139_to_gcrf hlib h0 h1) (by norm_num) le_rfl
    (by rw [show s.position.minus s.position = ⟨0, 0, 0⟩ by ext <;> simp [Vec3.minus], zero_mul]
        exact (Vec3.magnitude_of_dot le_rfl (by simp [Vec3.dot])).le) h5 hq hc0
    (by rw [F64.axis, ← sq, ← sq]; exact hc) (by norm_num; linarith)
  refine ⟨a', a, e1, e2, e3.trans ?_⟩
  have hG : 0 ≤ Earth.MU / s.position.magnitude ^ 2 := div_nonneg (by norm_num [Earth.MU]) (by positivity)
  gcongr
  norm_num

/-- and at most `7e-11 / c` of it unless the UTC epoch is within two microseconds of midnight. -/
theorem C143_gravity_daytime {lib : F64.Libm} {tan : ℝ → ℝ} (hlib : Spec.Accurate lib) (hatan : Spec.Atan2Accurate lib)
    (hpow : Spec.PowAccurate lib) (htan : Spec.TanAccurate tan) (s : GCRF) (h0 : 1 ≤ s.epoch.value)
    (h1 : s.epoch.value ≤ 131072) (n : ℤ) (h2 : n + 16 / 10 ^ 12 < s.epoch.value - 69.184 / 86400)
    (h3 : s.epoch.value - 69.184 / 86400 < n + 1 - 16 / 10 ^ 12) (h5 : 5000 ≤ s.position.magnitude) {q : Vec3} {c : ℝ}
    (c0 : 1 / 1000 ≤ c) (hq : PositionConvert.gcrfToItrf s.position s.epoch = .ok q)
    (hc : c * q.magnitude ≤ √(q.x ^ 2 + q.y ^ 2)) :
    ∃ a' a, F64.accelerationFromGravity lib tan s.position s.epoch.value = .ok a' ∧ s.accelerationFromGravity = .ok a ∧
      (a'.minus a).magnitude ≤ 7e-11 / c * (Earth.MU / s.position.magnitude ^ 2) := by
  have hc0 : 0 < c := by linarith
  obtain ⟨a', a, e1, e2, e3⟩ := F64.gravity_error (e := s.epoch.value) (f := 1.4e-10) (ε := 0) (p' := s.position) (s := s)
    hlib hatan hpow htan rfl rfl (C139_to_itrf_daytime hlib h0 h1 n h2 h3) (C139_to_gcrf_daytime hlib h0 h1 n h2 h3)
    (by norm_num) le_rfl
    (by rw [show s.position.minus s.position = ⟨0, 0, 0⟩ by ext <;> simp [Vec3.minus], zero_mul]
        exact (Vec3.magnitude_of_dot le_rfl (by simp [Vec3.dot])).le) h5 hq hc0
    (by rw [F64.axis, ← sq, ← sq]; exact hc) (by norm_num; linarith)
  refine ⟨a', a, e1, e2, e3.trans ?_⟩
  have hG : 0 ≤ Earth.MU / s.position.magnitude ^ 2 := div_nonneg (by norm_num [Earth.MU]) (by positivity)
  gcongr
  norm_num

/-- within five centuries of the year 2000, a position less than eight times as far from the equatorial plane as from
the axis, in the inertial frame, is a twentieth of its distance off the axis of the Earth-fixed frame -/
theorem F64.axis_of_inertial {p q : Vec3} {t : Epoch} (ht : |t.julianCenturies| ≤ 5) (h : |p.z| ≤ 8 * p.axial)
    (hq : PositionConvert.gcrfToItrf p t = .ok q) : 0.05 * q.magnitude ≤ q.axial := by
  have hm := (gcrfToItrf_magnitude t hq).1
  obtain ⟨m, hmr, -⟩ := rotation_isRotation t
  simp only [PositionConvert.gcrfToItrf, PositionConvert.gcrfToTod, PositionConvert.gcrfToMod, hmr, ok_bind, pure_eq_ok,
    Except.ok.injEq] at hq
  have hz : q.z = ((Earth.nutation t).mulVec ((Earth.precession t).mulVec p)).z := by
    rw [← hq, rotation_third hmr]
  rw [nutation_mulVec] at hz
  have h1 := precession_third t p ht
  have h2 := ((nutAxis t).cross ((Earth.precession t).mulVec p)).abs_z_le.trans (cross_magnitude_le _ _)
  rw [(precession_orth t).magnitude_mulVec] at h2
  have h3 : (nutAxis t).magnitude ≤ 1.1e-4 := by
    refine (pow_le_pow_iff_left₀ (Vec3.magnitude_nonneg _) (by norm_num) two_ne_zero).mp ?_
    rw [Vec3.magnitude_sq_dot]
    exact (nutAxis_bound t).trans (by norm_num)
  have h4 : |q.z| ≤ |((Earth.precession t).mulVec p).z| +
      |((nutAxis t).cross ((Earth.precession t).mulVec p)).z| := by
    rw [hz]; exact abs_add_le _ _
  have h5 := mul_le_mul_of_nonneg_right h3 p.magnitude_nonneg
  have h6 := p.magnitude_sq_axial
  have h7 := p.magnitude_nonneg
  rw [← sq_abs p.z] at h6
  have h9 := abs_nonneg p.z
  have h10 : |p.z| + 0.05 * p.axial ≤ 0.9985 * p.magnitude := by
    have k1 := mul_le_mul_of_nonneg_right h h9
    have k2 := mul_le_mul_of_nonneg_right h p.axial_nonneg
    refine abs_le_of_sq_le_sq' (a := |p.z| + 0.05 * p.axial) ?_ (by positivity) |>.2
    rw [mul_pow, h6]
    generalize |p.z| = Z at *
    norm_num
    nlinarith
  have h11 : |q.z| ≤ 0.99862 * q.magnitude := by
    norm_num at h5 h10 ⊢
    linarith
  have h12 := q.magnitude_sq_axial
  rw [← sq_abs q.z] at h12
  have h13 : |q.z| ^ 2 ≤ (0.99862 * q.magnitude) ^ 2 := pow_le_pow_left₀ (abs_nonneg _) h11 2
  refine abs_le_of_sq_le_sq' (a := 0.05 * q.magnitude) ?_ q.axial_nonneg |>.2
  generalize |q.z| = Z at *
  norm_num at h13 ⊢
  nlinarith [sq_nonneg q.magnitude]

/-- At declinations up to 82 degrees the error is below `3.4e-8` of the central attraction. -/
theorem C143_gravity_inertial {lib : F64.Libm} {tan : ℝ → ℝ} (hlib : Spec.Accurate lib) (hatan : Spec.Atan2Accurate lib)
    (hpow : Spec.PowAccurate lib) (htan : Spec.TanAccurate tan) (s : GCRF) (h0 : 1 ≤ s.epoch.value)
    (h1 : s.epoch.value ≤ 131072) (h5 : 5000 ≤ s.position.magnitude)
    (hz : |s.position.z| ≤ 8 * √(s.position.x ^ 2 + s.position.y ^ 2)) :
    ∃ a' a, F64.accelerationFromGravity lib tan s.position s.epoch.value = .ok a' ∧ s.accelerationFromGravity = .ok a ∧
      (a'.minus a).magnitude ≤ 3.4e-8 * (Earth.MU / s.position.magnitude ^ 2) := by
  obtain ⟨q, hq⟩ := gcrfToItrf_ok s.position s.epoch
  have ht : |s.epoch.julianCenturies| ≤ 5 := by
    simp only [Epoch.julianCenturies, Epoch.julianValue, Epoch.JULIAN_CENTURY, Epoch.MJD_ZERO, Epoch.J2000_JULIAN_DATE]
    rw [abs_le]; constructor <;> norm_num <;> linarith
  have := C143_gravity hlib hatan hpow htan s h0 h1 h5 (c := 0.05) (by norm_num) hq (F64.axis_of_inertial ht hz hq)
  norm_num at this ⊢
  exact this

/-- a library all of whose functions are correctly rounded meets the assumptions -/
theorem F64.rounded_pow : Spec.PowAccurate F64.rounded := by
  intro x y hx
  have h := F64.rnd_near (x ^ y)
  have h0 : 0 ≤ x ^ y := Real.rpow_nonneg hx.le y
  rw [abs_of_nonneg h0] at h
  refine h.trans ?_
  gcongr
  norm_num

theorem F64.rounded_tan : Spec.TanAccurate fun x => F64.rnd (Real.tan x) := by
  intro x
  refine (F64.rnd_near _).trans ?_
  gcongr
  norm_num

/-- a satellite 7000 km from the centre at a declination of 53 degrees -/
example : ∃ a' a, F64.accelerationFromGravity F64.rounded (fun x => F64.rnd (Real.tan x)) ⟨0, 4200, 5600⟩ 60000 = .ok a' ∧
    (GCRF.new ⟨60000⟩ ⟨0, 4200, 5600⟩ ⟨7, 0, 0⟩).accelerationFromGravity = .ok a ∧ (a'.minus a).magnitude ≤ 2.8e-10 := by
  have hm : (⟨0, 4200, 5600⟩ : Vec3).magnitude = 7000 := Vec3.magnitude_of_dot (by norm_num) (by norm_num [Vec3.dot])
  have hp : (GCRF.new ⟨60000⟩ ⟨0, 4200, 5600⟩ ⟨7, 0, 0⟩).position = ⟨0, 4200, 5600⟩ := rfl
  have he : (GCRF.new ⟨60000⟩ ⟨0, 4200, 5600⟩ ⟨7, 0, 0⟩).epoch = ⟨60000⟩ := rfl
  have := C143_gravity_inertial F64.rounded_accurate.1 F64.rounded_accurate.2 F64.rounded_pow F64.rounded_tan
    (GCRF.new ⟨60000⟩ ⟨0, 4200, 5600⟩ ⟨7, 0, 0⟩) (by rw [he]; norm_num) (by rw [he]; norm_num) (by rw [hp, hm]; norm_num)
    (by
      rw [hp]
      have : (√((0 : ℝ) ^ 2 + 4200 ^ 2)) = 4200 := by
        rw [show ((0 : ℝ) ^ 2 + 4200 ^ 2) = 4200 ^ 2 by ring]; exact Real.sqrt_sq (by norm_num)
      simp only [this]
      norm_num)
  rw [hp, he, hm] at this
  obtain ⟨a', a, h1, h2, h3⟩ := this
  exact ⟨a', a, h1, h2, h3.trans (by norm_num [Earth.MU])⟩

end Openspace
