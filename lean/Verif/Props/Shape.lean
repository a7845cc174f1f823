import Verif.Props.Functions
import Verif.Props.Elements
import Verif.Props.Linalg
import Verif.Props.Time
import Verif.Model.Celestial
import Mathlib.Analysis.Real.Pi.Bounds

/-!
# C85 and C86: ellipse shape, angular momentum and the geostationary radius
-/

namespace Openspace

open Real

/-! ## C85 -/

/-- the eccentricity from the focal distance is the one from the axes, and both agree with the flattening -/
theorem C85_foci (a b c : ℝ) (ha : 0 < a) (hb : 0 ≤ b) (hc : 0 ≤ c)
    -- `c` is the distance from the centre to a focus: an end of the minor axis is `a` away from the focus
    (h : b ^ 2 + c ^ 2 = a ^ 2) :
    ∃ e f, eFromAC a c = .ok e ∧ eFromAB a b = .ok e ∧ fFromAB a b = .ok f ∧ 0 ≤ e ∧ e ≤ 1 ∧ 0 ≤ f ∧ f ≤ 1 ∧
      bFromAE a e = .ok b ∧ a * (1 - f) = b ∧ e ^ 2 = 2 * f - f ^ 2 ∧ a * e = c := by
  have hca : c ≤ a := by nlinarith
  have hba : b ≤ a := by nlinarith
  have e1 : a * a - b * b = c * c := by nlinarith
  have e2 : 1 - c / a * (c / a) = (b / a) * (b / a) := by field_simp; nlinarith
  refine ⟨c / a, (a - b) / a, pyDiv_ok ha.ne', ?_, pyDiv_ok ha.ne', by positivity, (div_le_one ha).mpr hca,
    div_nonneg (by linarith) ha.le, (div_le_one ha).mpr (by linarith), ?_, by field_simp; ring, ?_, by field_simp⟩
  · simp only [eFromAB, e1, pySqrt_ok (mul_self_nonneg c), sqrt_mul_self hc, ok_bind, pyDiv_ok ha.ne']
  · simp only [bFromAE, e2, pySqrt_ok (mul_self_nonneg (b / a)), sqrt_mul_self (div_nonneg hb ha.le), ok_bind, pure_eq_ok]
    congr 1; field_simp
  · field_simp; nlinarith

example : (3 : ℝ) ^ 2 + 4 ^ 2 = 5 ^ 2 := by norm_num

/-- the scalar and the vector angular momentum agree: `phi` is the flight path angle, the complement of the angle
between position and velocity -/
theorem C85_momentum (r v : Vec3) (hr : r ≠ ⟨0, 0, 0⟩) (hv : v ≠ ⟨0, 0, 0⟩) :
    ∃ t, r.angle v = .ok t ∧ hFromRVPhi r.magnitude v.magnitude (π / 2 - t) = (hFromRV r v).magnitude ∧
      (hFromRV r v).dot r = 0 ∧ (hFromRV r v).dot v = 0 := by
  obtain ⟨t, ht⟩ : ∃ t, r.angle v = .ok t := ⟨_, Vec3.angle_ok hr hv⟩
  refine ⟨t, ht, ?_, ?_, ?_⟩
  · have h1 := (C04_angle r v).1 hr hv
    rw [ht, Except.ok.injEq] at h1
    have hc := InnerProductGeometry.cos_angle_mul_norm_mul_norm r.toE v.toE
    have hs := InnerProductGeometry.sin_angle_nonneg r.toE v.toE
    rw [← h1, Vec3.norm_toE, Vec3.norm_toE, Vec3.inner_toE] at hc
    rw [← h1] at hs
    symm
    refine Vec3.magnitude_of_dot ?_ ?_
    · simp only [hFromRVPhi, pyCos, cos_pi_div_two_sub]
      exact mul_nonneg (mul_nonneg r.magnitude_nonneg v.magnitude_nonneg) hs
    · simp only [hFromRVPhi, pyCos, cos_pi_div_two_sub, hFromRV]
      have hrr := r.magnitude_sq_dot
      have hvv := v.magnitude_sq_dot
      have hl : (r.cross v).dot (r.cross v) = r.dot r * v.dot v - r.dot v ^ 2 := by
        simp only [Vec3.cross, Vec3.dot]; ring
      rw [hl, ← hc, ← hrr, ← hvv]
      have := sin_sq_add_cos_sq t
      linear_combination (-(r.magnitude ^ 2 * v.magnitude ^ 2)) * this
  · simp only [hFromRV, Vec3.cross, Vec3.dot]; ring
  · simp only [hFromRV, Vec3.cross, Vec3.dot]; ring

/-- the state produced from a set of elements has the angular momentum of its semi-parameter -/
theorem C85_orbit_momentum (fuel : ℕ) (el : ClassicalElements) (s : State) (ha : 0 < el.semimajor_axis)
    (he : 0 ≤ el.eccentricity) (he' : el.eccentricity < 1) (h : el.toIjk fuel = .ok s) :
    hFromMuP Earth.MU (pFromAE el.semimajor_axis el.eccentricity)
      = .ok (hFromRV s.position s.velocity).magnitude := by
  obtain ⟨E, -, -, -, -, hx, -⟩ := C22_orbit fuel el s ha he he' h
  have hmu := mu_pos
  have hp : 0 ≤ Earth.MU * (el.semimajor_axis * (1 - el.eccentricity ^ 2)) := by
    have : 0 ≤ 1 - el.eccentricity ^ 2 := by nlinarith
    positivity
  have hn : (Vec3.mk (sin el.inclination * sin el.raan) (-(sin el.inclination * cos el.raan))
      (cos el.inclination)).magnitude = 1 := by
    refine Vec3.magnitude_of_dot (by norm_num) ?_
    have h1 := sin_sq_add_cos_sq el.inclination
    have h2 := sin_sq_add_cos_sq el.raan
    simp only [Vec3.dot]
    linear_combination h1 + sin el.inclination ^ 2 * h2
  rw [hFromRV, hx, Vec3.magnitude_scaled, hn, mul_one, abs_of_nonneg (sqrt_nonneg _), hFromMuP, pFromAE]
  rw [show el.semimajor_axis * (1 - el.eccentricity * el.eccentricity) =
    el.semimajor_axis * (1 - el.eccentricity ^ 2) by ring, pySqrt_ok hp]

/-! ## C86 -/

/-- `geo_radius()` is the radius of a circular orbit whose period is the sidereal day of the library, and it is
between 42164 and 42165 km -/
theorem C86_period :
    ∃ a, Earth.geoRadius = .ok a ∧ 42164 < a ∧ a < 42165 ∧
      tauFromAMu a Earth.MU = .ok SECONDS_IN_SIDEREAL_DAY := by
  have hmu := mu_pos
  have hp := pi_pos
  have hS : (0 : ℝ) < SECONDS_IN_SIDEREAL_DAY := by norm_num [SECONDS_IN_SIDEREAL_DAY]
  obtain ⟨q, hq⟩ : ∃ q, q = Earth.MU * (SECONDS_IN_SIDEREAL_DAY / (2 * π)) * (SECONDS_IN_SIDEREAL_DAY / (2 * π)) :=
    ⟨_, rfl⟩
  have hq0 : 0 < q := by rw [hq]; positivity
  obtain ⟨a, ha⟩ : ∃ a, a = q ^ ((1 : ℝ) / 3) := ⟨_, rfl⟩
  have ha0 : 0 < a := by rw [ha]; positivity
  have ha3 : a ^ 3 = q := by
    rw [ha, ← Real.rpow_natCast, ← Real.rpow_mul hq0.le]; norm_num
  have hqpi : q * (4 * π ^ 2) = 398600.4418 * 86164.090518 ^ 2 := by
    rw [hq]; simp only [Earth.MU, SECONDS_IN_SIDEREAL_DAY]; field_simp; ring
  have p1 := pi_gt_d6
  have p2 := pi_lt_d6
  have s1 : (3.141592 : ℝ) ^ 2 < π ^ 2 := pow_lt_pow_left₀ p1 (by norm_num) (by norm_num)
  have s2 : π ^ 2 < (3.141593 : ℝ) ^ 2 := pow_lt_pow_left₀ p2 hp.le (by norm_num)
  have q1 : (42164 : ℝ) ^ 3 < q := by
    by_contra hcon
    have : q * (4 * π ^ 2) ≤ 42164 ^ 3 * (4 * (3.141593 : ℝ) ^ 2) :=
      mul_le_mul (not_lt.mp hcon) (by linarith) (by positivity) (by norm_num)
    rw [hqpi] at this; norm_num at this
  have q2 : q < (42165 : ℝ) ^ 3 := by
    by_contra hcon
    have : 42165 ^ 3 * (4 * (3.141592 : ℝ) ^ 2) ≤ q * (4 * π ^ 2) :=
      mul_le_mul (not_lt.mp hcon) (by linarith) (by positivity) hq0.le
    rw [hqpi] at this; norm_num at this
  refine ⟨a, ?_, ?_, ?_, ?_⟩
  · rw [Earth.geoRadius, aFromMuTau, ha]
    show pyPow (Earth.MU * (SECONDS_IN_SIDEREAL_DAY / (2 * π)) * (SECONDS_IN_SIDEREAL_DAY / (2 * π))) (1 / 3) = _
    rw [← hq, pyPow_ok hq0.le]
  · exact lt_of_pow_lt_pow_left₀ 3 ha0.le (by rw [ha3]; exact q1)
  · exact lt_of_pow_lt_pow_left₀ 3 (by norm_num) (by rw [ha3]; exact q2)
  · obtain ⟨tau, ht, htp, hk, -⟩ := C13_period a Earth.MU ha0 hmu
    rw [ht, Except.ok.injEq]
    have h2 : tau ^ 2 = SECONDS_IN_SIDEREAL_DAY ^ 2 := by
      have : tau ^ 2 * Earth.MU = SECONDS_IN_SIDEREAL_DAY ^ 2 * Earth.MU := by
        rw [hk, ha3, hq]; field_simp; ring
      exact mul_right_cancel₀ hmu.ne' this
    exact (pow_left_inj₀ htp.le hS.le (by norm_num)).mp h2

/-- in the time a satellite at `geo_radius()` goes once around, the hour angle used to rotate into the Earth-fixed
frame goes once around too, to 3e-6 degrees: a geostationary satellite stays over its longitude -/
theorem C86_stationary (e f : Epoch) (h : f.value = e.value + SECONDS_IN_SIDEREAL_DAY / 86400)
    (hc : |((utcDay e : ℝ) + 2400000.5 - 2451545) / 36525| ≤ 50) :
    ∃ k : ℤ, |(f.gha - e.gha) * 180 / π - 360 * k| < 3e-6 := by
  have hd : f.value - e.value = 86164.090518 / 86400 := by rw [h, SECONDS_IN_SIDEREAL_DAY]; ring
  have h1 : utcDay f = utcDay e ∨ utcDay f = utcDay e + 1 := by
    have a1 := Int.floor_le (e.value - 69.184 / 86400)
    have a2 := Int.lt_floor_add_one (e.value - 69.184 / 86400)
    have b1 := Int.floor_le (f.value - 69.184 / 86400)
    have b2 := Int.lt_floor_add_one (f.value - 69.184 / 86400)
    have c1 : (utcDay e : ℝ) < utcDay f + 1 := by
      simp only [utcDay]; linarith
    have c2 : (utcDay f : ℝ) < utcDay e + 2 := by
      simp only [utcDay]; linarith
    have c1' : utcDay e < utcDay f + 1 := by exact_mod_cast c1
    have c2' : utcDay f < utcDay e + 2 := by exact_mod_cast c2
    omega
  rcases h1 with h1 | h1
  · obtain ⟨k, hk⟩ := C10_rate e f h1.symm
    refine ⟨k + 1, ?_⟩
    rw [hk, hd, abs_lt]; push_cast
    constructor <;> linarith
  · obtain ⟨k, hk⟩ := C10_midnight e f h1 hc
    refine ⟨k + 1, ?_⟩
    rw [hd, abs_lt] at hk
    rw [abs_lt]; push_cast
    constructor <;> linarith [hk.1, hk.2]

example : |((utcDay ⟨59932⟩ : ℝ) + 2400000.5 - 2451545) / 36525| ≤ 50 := by
  have h1 : utcDay ⟨59932⟩ = 59931 := by
    rw [utcDay, Int.floor_eq_iff]; norm_num
  rw [h1]; norm_num [abs_le]

end Openspace
