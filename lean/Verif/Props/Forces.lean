import Verif.Lemmas.GravityBound
import Verif.Props.Gravity
import Verif.Props.ThirdBody

/-!
# C89: every force is defined, and bounded, near the Earth
-/

namespace Openspace

open Real Spec

theorem toE_plus (a b : Vec3) : (a.plus b).toE = a.toE + b.toE := by
  ext i; fin_cases i <;> rfl

theorem Vec3.magnitude_plus_le (a b : Vec3) : (a.plus b).magnitude ≤ a.magnitude + b.magnitude := by
  rw [← Vec3.norm_toE, ← Vec3.norm_toE, ← Vec3.norm_toE, toE_plus]; exact norm_add_le _ _

theorem Vec3.magnitude_minus_le (a b : Vec3) : (a.minus b).magnitude ≤ a.magnitude + b.magnitude := by
  rw [← Vec3.norm_toE, ← Vec3.norm_toE, ← Vec3.norm_toE, toE_minus]; exact norm_sub_le _ _

theorem Vec3.magnitude_plus_ge (a b : Vec3) : a.magnitude - b.magnitude ≤ (a.plus b).magnitude := by
  rw [← Vec3.norm_toE, ← Vec3.norm_toE, ← Vec3.norm_toE, toE_plus]
  have := norm_sub_le (a.toE + b.toE) b.toE
  rw [add_sub_cancel_right] at this
  linarith

theorem Vec3.magnitude_scaled_abs (v : Vec3) (k : ℝ) : (v.scaled k).magnitude = |k| * v.magnitude := by
  rw [← Vec3.norm_toE, ← Vec3.norm_toE, toE_scaled, norm_smul, Real.norm_eq_abs]

/-! ## the Earth's axis -/

/-- distance from the third axis -/
noncomputable def Vec3.axial (v : Vec3) : ℝ := √(v.x ^ 2 + v.y ^ 2)

theorem Vec3.axial_nonneg (v : Vec3) : 0 ≤ v.axial := Real.sqrt_nonneg _

theorem Vec3.axial_sq (v : Vec3) : v.axial ^ 2 = v.x ^ 2 + v.y ^ 2 := Real.sq_sqrt (by positivity)

theorem Vec3.magnitude_sq_axial (v : Vec3) : v.magnitude ^ 2 = v.axial ^ 2 + v.z ^ 2 := by
  rw [Vec3.axial_sq, Vec3.magnitude_sq_dot]; simp only [Vec3.dot]; ring

theorem Vec3.abs_z_le (v : Vec3) : |v.z| ≤ v.magnitude := by
  refine abs_le_of_sq_le_sq ?_ v.magnitude_nonneg
  rw [Vec3.magnitude_sq_axial]; nlinarith [sq_nonneg v.axial]

theorem Vec3.axial_le (v : Vec3) : v.axial ≤ v.magnitude := by
  refine (pow_le_pow_iff_left₀ v.axial_nonneg v.magnitude_nonneg two_ne_zero).mp ?_
  rw [Vec3.magnitude_sq_axial]; nlinarith [sq_nonneg v.z]

theorem abs_combination_le (v : Vec3) (x : ℝ) : |cos x * v.x - sin x * v.y| ≤ v.axial := by
  refine abs_le_of_sq_le_sq ?_ v.axial_nonneg
  rw [Vec3.axial_sq]
  nlinarith [sq_nonneg (sin x * v.x + cos x * v.y), sin_sq_add_cos_sq x]

/-- moving a point changes its height and its distance from the axis by no more than the distance moved -/
theorem Vec3.axial_plus (a b : Vec3) :
    |(a.plus b).z| ≤ |a.z| + b.magnitude ∧ a.axial - b.magnitude ≤ (a.plus b).axial := by
  constructor
  · exact (abs_add_le _ _).trans (add_le_add le_rfl b.abs_z_le)
  · have h : a.axial ≤ (a.plus b).axial + b.axial := by
      refine (pow_le_pow_iff_left₀ a.axial_nonneg (add_nonneg (axial_nonneg _) (axial_nonneg _)) two_ne_zero).mp ?_
      have h1 := (a.plus b).axial_sq
      have h2 := b.axial_sq
      have h3 : -(((a.plus b).x) * b.x + (a.plus b).y * b.y) ≤ (a.plus b).axial * b.axial := by
        refine (neg_le_abs _).trans (abs_le_of_sq_le_sq ?_ (mul_nonneg (axial_nonneg _) (axial_nonneg _)))
        rw [mul_pow, h1, h2]
        nlinarith [sq_nonneg ((a.plus b).x * b.y - (a.plus b).y * b.x)]
      have h4 := a.axial_sq
      have e1 : (a.plus b).x = a.x + b.x := rfl
      have e2 : (a.plus b).y = a.y + b.y := rfl
      rw [e1, e2] at h1 h3
      nlinarith
    linarith [b.axial_le]

theorem precession_third (t : Epoch) (v : Vec3) (ht : |t.julianCenturies| ≤ 5) :
    |((Earth.precession t).mulVec v).z| ≤ |v.z| + 0.05 * v.axial := by
  obtain ⟨T, hT⟩ : ∃ T, T = t.julianCenturies := ⟨_, rfl⟩
  rw [← hT] at ht
  obtain ⟨y, hy⟩ : ∃ y, y = dmsToRadians 0 0 2004.3109 * T - dmsToRadians 0 0 0.42665 * T * T
    - dmsToRadians 0 0 0.041833 * T * T * T := ⟨_, rfl⟩
  obtain ⟨x, hx⟩ : ∃ x, x = dmsToRadians 0 0 2306.2181 * T + dmsToRadians 0 0 0.30188 * T * T
    + dmsToRadians 0 0 0.017998 * T * T * T := ⟨_, rfl⟩
  have hp := pi_pos
  have hp2 := pi_lt_d2
  have e : ((Earth.precession t).mulVec v).z = sin y * (cos x * v.x - sin x * v.y) + cos y * v.z := by
    simp only [Earth.precession, Mat3.mulVec, Vec3.dot, pySin, pyCos, ← hT, ← hy, ← hx]; ring
  have hyb : |y| ≤ 0.05 := by
    have e1 : y = π / 648000 * (2004.3109 * T - 0.42665 * T ^ 2 - 0.041833 * T ^ 3) := by
      rw [hy]; simp only [dmsToRadians, pyRadians, pyPi, MINUTES_IN_HOUR, SECONDS_IN_HOUR]; norm_num; ring
    have b1 : |T ^ 2| ≤ 25 := by rw [abs_pow]; nlinarith [abs_nonneg T]
    have b2 : |T ^ 3| ≤ 125 := by
      rw [abs_pow]; exact (pow_le_pow_left₀ (abs_nonneg T) ht 3).trans (by norm_num)
    have b3 : |2004.3109 * T - 0.42665 * T ^ 2 - 0.041833 * T ^ 3| ≤ 10040 := by
      obtain ⟨c1, c2⟩ := abs_le.mp ht
      obtain ⟨c3, c4⟩ := abs_le.mp b1
      obtain ⟨c5, c6⟩ := abs_le.mp b2
      rw [abs_le]; constructor <;> norm_num <;> linarith
    rw [e1, abs_mul, abs_of_pos (by positivity)]
    calc π / 648000 * _ ≤ 3.15 / 648000 * 10040 :=
          mul_le_mul (by norm_num at hp2 ⊢; linarith) b3 (abs_nonneg _) (by norm_num)
      _ ≤ 0.05 := by norm_num
  have hs : |sin y| ≤ 0.05 := (Real.abs_sin_le_abs).trans hyb
  rw [e]
  calc |sin y * (cos x * v.x - sin x * v.y) + cos y * v.z|
      ≤ |sin y| * |cos x * v.x - sin x * v.y| + |cos y| * |v.z| := by
        rw [← abs_mul, ← abs_mul]; exact abs_add_le _ _
    _ ≤ 0.05 * v.axial + 1 * |v.z| := add_le_add
        (mul_le_mul hs (abs_combination_le v x) (abs_nonneg _) (by norm_num))
        (mul_le_mul_of_nonneg_right (abs_cos_le_one y) (abs_nonneg _))
    _ = _ := by ring

theorem rotation_third {t : Epoch} {m : Mat3} (h : Earth.rotation t = .ok m) (v : Vec3) : (m.mulVec v).z = v.z := by
  have hz : (⟨0, 0, 1⟩ : Vec3).magnitude = 1 := Vec3.magnitude_of_dot (by norm_num) (by simp [Vec3.dot])
  simp only [Earth.rotation] at h
  rw [Vec3.rotationMatrix_ok z_ne, hz] at h
  cases h
  simp only [Vec3.rotUM_mulVec, Vec3.rotU, Vec3.scaled, Vec3.dot, Vec3.plus, Vec3.cross]
  norm_num
  ring

/-- within five centuries of the year 2000, a position less than eight times as far from the equatorial plane as
from the axis, in the inertial frame, is off the axis of the Earth-fixed frame -/
theorem off_axis {p : Vec3} {t : Epoch} (ht : |t.julianCenturies| ≤ 5) (h0 : 0 < p.axial) (h : |p.z| ≤ 8 * p.axial)
    (z : ℝ) : PositionConvert.gcrfToItrf p t ≠ .ok ⟨0, 0, z⟩ := by
  intro hq
  have hm := (gcrfToItrf_magnitude t hq).1
  have hzm : (⟨0, 0, z⟩ : Vec3).magnitude = |z| :=
    Vec3.magnitude_of_dot (abs_nonneg z) (by simp [Vec3.dot, ← sq])
  rw [hzm] at hm
  obtain ⟨m, hmr, -⟩ := rotation_isRotation t
  simp only [PositionConvert.gcrfToItrf, PositionConvert.gcrfToTod, PositionConvert.gcrfToMod, hmr, ok_bind, pure_eq_ok,
    Except.ok.injEq] at hq
  have hz : z = ((Earth.nutation t).mulVec ((Earth.precession t).mulVec p)).z := by
    rw [← rotation_third hmr, hq]
  rw [nutation_mulVec] at hz
  have h1 := precession_third t p ht
  have h2 := ((nutAxis t).cross ((Earth.precession t).mulVec p)).abs_z_le.trans (cross_magnitude_le _ _)
  rw [(precession_orth t).magnitude_mulVec] at h2
  have h3 : (nutAxis t).magnitude ≤ 1.1e-4 := by
    refine (pow_le_pow_iff_left₀ (Vec3.magnitude_nonneg _) (by norm_num) two_ne_zero).mp ?_
    rw [Vec3.magnitude_sq_dot]
    exact (nutAxis_bound t).trans (by norm_num)
  have h4 : |z| ≤ |((Earth.precession t).mulVec p).z| +
      |((nutAxis t).cross ((Earth.precession t).mulVec p)).z| := by
    rw [hz]; exact abs_add_le _ _
  have h5 := mul_le_mul_of_nonneg_right h3 p.magnitude_nonneg
  have h6 := p.magnitude_sq_axial
  have h7 := p.magnitude_nonneg
  rw [← sq_abs p.z] at h6
  have h8 : 0.9998 * p.magnitude ≤ |p.z| + 0.05 * p.axial := by norm_num at h5 ⊢; linarith
  have h9 := abs_nonneg p.z
  have h10 : (0.9998 * p.magnitude) ^ 2 ≤ (|p.z| + 0.05 * p.axial) ^ 2 :=
    pow_le_pow_left₀ (by positivity) h8 2
  norm_num at h10
  nlinarith [mul_le_mul_of_nonneg_right h h0.le, mul_le_mul_of_nonneg_right h h9, mul_pos h0 h0]

/-! ## bounds of the forces -/

theorem itrfToGcrf_magnitude_le (t : Epoch) {a b : Vec3} (h : PositionConvert.itrfToGcrf a t = .ok b) :
    b.magnitude ≤ (1 + 5.5e-9) * a.magnitude := by
  obtain ⟨m, hm, hr⟩ := rotation_isRotation t
  simp only [PositionConvert.itrfToGcrf, PositionConvert.itrfToMod, PositionConvert.itrfToTod, hm, ok_bind, pure_eq_ok,
    Except.ok.injEq] at h
  rw [← h, (precession_orth t).transpose.magnitude_mulVec, nutation_transpose_mulVec]
  obtain ⟨w, hw⟩ : ∃ w, w = m.transpose.mulVec a := ⟨_, rfl⟩
  have hwa : w.magnitude = a.magnitude := by rw [hw, hr.orth.transpose.magnitude_mulVec]
  rw [← hw, ← hwa]
  have e : (w.minus ((nutAxis t).cross w)).magnitude = ((Earth.nutation t).mulVec w).magnitude := by
    rw [nutation_mulVec]
    refine Vec3.magnitude_of_dot (Vec3.magnitude_nonneg _) ?_
    rw [Vec3.magnitude_sq_dot]
    simp only [Vec3.dot, Vec3.plus, Vec3.minus, Vec3.cross]; ring
  rw [e]
  exact (nutation_magnitude t w).2

/-- non-spherical gravity is at most a hundredth of the central attraction, from 5000 km outward -/
theorem gravity_bound (s : GCRF) (h : 5000 ≤ s.position.magnitude)
    (hax : ∀ z, PositionConvert.gcrfToItrf s.position s.epoch ≠ .ok ⟨0, 0, z⟩) :
    ∃ a, s.accelerationFromGravity = .ok a ∧ a.magnitude ≤ 0.01 * (Earth.MU / s.position.magnitude ^ 2) := by
  obtain ⟨q, hq⟩ := gcrfToItrf_ok s.position s.epoch
  obtain ⟨h1, h2⟩ := gcrfToItrf_magnitude s.epoch hq
  have hxy : 0 < q.x * q.x + q.y * q.y := by
    by_contra hc
    have hx : q.x = 0 := by nlinarith [mul_self_nonneg q.x, mul_self_nonneg q.y]
    have hy : q.y = 0 := by nlinarith [mul_self_nonneg q.x, mul_self_nonneg q.y]
    exact hax q.z (by rw [hq]; congr 1; exact Vec3.ext hx hy rfl)
  obtain ⟨g, hg, hgb⟩ := gravityItrf_bound q h hxy h1 h2
  obtain ⟨a, ha⟩ := itrfToGcrf_ok g s.epoch
  refine ⟨a, by simp only [GCRF.accelerationFromGravity, hq, ok_bind, hg, ha], ?_⟩
  have hM : 0 ≤ Earth.MU / s.position.magnitude ^ 2 := div_nonneg (by norm_num [Earth.MU]) (by positivity)
  have h3 := itrfToGcrf_magnitude_le _ ha
  norm_num at h3 hgb ⊢
  linarith

theorem attraction_norm (mu : ℝ) (hmu : 0 ≤ mu) (s x : EuclideanSpace ℝ (Fin 3)) :
    ‖attraction mu s x‖ = mu / ‖s - x‖ ^ 2 := by
  rw [attraction, norm_smul, Real.norm_eq_abs, abs_of_nonneg (by positivity)]
  by_cases h : ‖s - x‖ = 0
  · rw [h]; simp
  · field_simp

theorem thirdBody_bound {s p a : Vec3} {mu D : ℝ} (hmu : 0 ≤ mu) (hD : 0 < D) (h1 : D ≤ s.magnitude)
    (h2 : D ≤ (s.minus p).magnitude) (h : a.toE = attraction mu s.toE p.toE - attraction mu s.toE 0) :
    a.magnitude ≤ 2 * mu / D ^ 2 := by
  rw [← Vec3.norm_toE, h]
  refine (norm_sub_le _ _).trans ?_
  rw [attraction_norm mu hmu, attraction_norm mu hmu, sub_zero, ← toE_minus, Vec3.norm_toE, Vec3.norm_toE]
  have a1 : mu / (s.minus p).magnitude ^ 2 ≤ mu / D ^ 2 := by gcongr
  have a2 : mu / s.magnitude ^ 2 ≤ mu / D ^ 2 := by gcongr
  calc _ ≤ mu / D ^ 2 + mu / D ^ 2 := add_le_add a1 a2
    _ = _ := by ring

theorem moon_bound (s : GCRF) (h : s.position.magnitude ≤ 125000) :
    ∃ a, s.accelerationFromMoon = .ok a ∧ a.magnitude ≤ 2e-7 := by
  obtain ⟨m, hm, h1, -⟩ := C30_moon s.epoch
  have h2 := magnitude_minus_ge m s.position
  have hp : s.position ≠ m := by intro e; rw [← e] at h1; linarith
  obtain ⟨a, ha, he, -⟩ := C80_moon s hm hp
  refine ⟨a, ha, (thirdBody_bound (D := 231000) (by norm_num [Moon.MU]) (by norm_num) (by linarith) (by linarith) he).trans ?_⟩
  norm_num [Moon.MU]

theorem sun_bound (s : GCRF) (h : s.position.magnitude ≤ 125000) :
    ∃ a, s.accelerationFromSun = .ok a ∧ a.magnitude ≤ 1.25e-5 := by
  have h1 := (C30_sun s.epoch).1
  norm_num at h1
  have h2 := magnitude_minus_ge (Sun.getPosition s.epoch) s.position
  have hp : s.position ≠ Sun.getPosition s.epoch := by intro e; rw [← e] at h1; linarith
  obtain ⟨a, ha, he, -⟩ := C80_sun s hp
  refine ⟨a, ha, (thirdBody_bound (D := 146800000) (by norm_num [Sun.MU]) (by norm_num) (by linarith) (by linarith) he).trans ?_⟩
  norm_num [Sun.MU]

theorem srp_bound (s : GCRF) (h : s.position.magnitude ≤ 125000) :
    ∃ a, s.accelerationFromSrp = .ok a ∧ a.magnitude = 4.56e-9 * |s.srp_scalar| := by
  have h1 := (C30_sun s.epoch).1
  norm_num at h1
  have hp : s.position ≠ Sun.getPosition s.epoch := by intro e; rw [← e] at h1; linarith
  obtain ⟨h2, h3⟩ := srp_eq s hp
  refine ⟨_, h3, ?_⟩
  rw [Vec3.magnitude_scaled_abs, Vec3.magnitude_scaled_abs,
    abs_of_pos (by positivity : 0 < 1 / s.sunVector.magnitude), one_div, inv_mul_cancel₀ h2.ne', abs_div, abs_mul, abs_neg]
  norm_num [Sun.P]; ring

theorem earth_magnitude (s : GCRF) (h : s.position ≠ ⟨0, 0, 0⟩) :
    ∃ a, s.accelerationFromEarth = .ok a ∧ a.magnitude = Earth.MU / s.position.magnitude ^ 2 := by
  have h0 := Vec3.magnitude_pos.mpr h
  refine ⟨_, accelerationFromEarth_ok h, ?_⟩
  have hM : (0 : ℝ) < Earth.MU := by norm_num [Earth.MU]
  rw [Vec3.magnitude_scaled_abs, abs_div, abs_neg, abs_of_pos hM, abs_of_pos (by positivity)]
  field_simp

/-- the computed acceleration differs from central attraction plus thrust by at most a hundredth of the central
attraction, plus 0.013 mm/s² for Moon and Sun, plus the radiation pressure -/
theorem C89_perturbation (s : GCRF) (hlo : 5000 ≤ s.position.magnitude) (hhi : s.position.magnitude ≤ 125000)
    (ht : |s.epoch.julianCenturies| ≤ 5) (h0 : 0 < s.position.axial) (hz : |s.position.z| ≤ 8 * s.position.axial) :
    ∃ a, s.derivative = .ok (s.velocity, a) ∧
      ((a.minus s.thrust).minus (s.position.scaled (-Earth.MU / s.position.magnitude ^ 3))).magnitude ≤
        0.01 * (Earth.MU / s.position.magnitude ^ 2) + 1.3e-5 + 4.56e-9 * |s.srp_scalar| := by
  have hne : s.position ≠ ⟨0, 0, 0⟩ := Vec3.magnitude_pos.mp (by linarith)
  have hM : 0 ≤ Earth.MU / s.position.magnitude ^ 2 := div_nonneg (by norm_num [Earth.MU]) (by positivity)
  have he := accelerationFromEarth_ok hne
  obtain ⟨am, hm, bm⟩ := moon_bound s hhi
  obtain ⟨as, hs, bs⟩ := sun_bound s hhi
  obtain ⟨ap, hp, bp⟩ := srp_bound s hhi
  obtain ⟨ag, hg, bg⟩ := gravity_bound s hlo (off_axis ht h0 hz)
  have hsr : 0 ≤ |s.srp_scalar| := abs_nonneg _
  obtain ⟨ae, hae⟩ : ∃ ae, ae = s.position.scaled (-Earth.MU / s.position.magnitude ^ 3) := ⟨_, rfl⟩
  rw [← hae] at he ⊢
  have ht : s.accelerationFromThrust = s.thrust := rfl
  cases hu : s.use_perturbations
  · refine ⟨s.thrust.plus ae, by simp [GCRF.derivative, he, hu, Vec3.copy, pure_eq_ok, ht], ?_⟩
    have e : ((s.thrust.plus ae).minus s.thrust).minus ae = ⟨0, 0, 0⟩ := by
      ext <;> simp only [Vec3.plus, Vec3.minus] <;> ring
    rw [e, Vec3.magnitude_eq_zero.mpr rfl]
    positivity
  · refine ⟨((((s.thrust.plus ae).plus am).plus as).plus ap).plus ag, by
      simp [GCRF.derivative, he, hm, hs, hp, hg, hu, Vec3.copy, pure_eq_ok, ht], ?_⟩
    have e : ((((((s.thrust.plus ae).plus am).plus as).plus ap).plus ag).minus s.thrust).minus ae =
        ((am.plus as).plus ap).plus ag := by
      ext <;> simp only [Vec3.plus, Vec3.minus] <;> ring
    rw [e]
    have b2 := Vec3.magnitude_plus_le am as
    have b3 := Vec3.magnitude_plus_le (am.plus as) ap
    have b4 := Vec3.magnitude_plus_le ((am.plus as).plus ap) ag
    norm_num at bm bs bp bg ⊢; linarith

theorem derivative_bound (s : GCRF) (hlo : 5000 ≤ s.position.magnitude) (hhi : s.position.magnitude ≤ 125000)
    (ht : |s.epoch.julianCenturies| ≤ 5) (h0 : 0 < s.position.axial) (hz : |s.position.z| ≤ 8 * s.position.axial) :
    ∃ a, s.derivative = .ok (s.velocity, a) ∧
      a.magnitude ≤ 1.01 * (Earth.MU / s.position.magnitude ^ 2) + 1.3e-5 + s.thrust.magnitude +
        4.56e-9 * |s.srp_scalar| := by
  obtain ⟨a, ha, hb⟩ := C89_perturbation s hlo hhi ht h0 hz
  refine ⟨a, ha, ?_⟩
  have hne : s.position ≠ ⟨0, 0, 0⟩ := Vec3.magnitude_pos.mp (by linarith)
  obtain ⟨ae, he, be⟩ := earth_magnitude s hne
  cases he.symm.trans (accelerationFromEarth_ok hne)
  have b1 := magnitude_minus_ge a s.thrust
  have b2 := magnitude_minus_ge (a.minus s.thrust) (s.position.scaled (-Earth.MU / s.position.magnitude ^ 3))
  norm_num at hb ⊢; linarith

theorem derivative_defined (s : GCRF) (h0 : s.position ≠ ⟨0, 0, 0⟩) (hhi : s.position.magnitude ≤ 350000)
    (hax : ∀ z, PositionConvert.gcrfToItrf s.position s.epoch ≠ .ok ⟨0, 0, z⟩) :
    ∃ a, s.derivative = .ok (s.velocity, a) := by
  obtain ⟨ae, he, -⟩ := earth_magnitude s h0
  obtain ⟨⟨am, hm⟩, ⟨as, hs⟩, ⟨ap, hp⟩⟩ := C30_no_division s hhi
  obtain ⟨ag, hg⟩ : ∃ ag, s.accelerationFromGravity = .ok ag := by
    cases hg : s.accelerationFromGravity with
    | ok a => exact ⟨a, rfl⟩
    | error e =>
      obtain ⟨-, z, hz⟩ := (C35_raises s e).mp hg
      exact absurd hz (hax z)
  cases hu : s.use_perturbations
  · exact ⟨_, by simp [GCRF.derivative, he, hu, Vec3.copy, pure_eq_ok]; rfl⟩
  · exact ⟨_, by simp [GCRF.derivative, he, hm, hs, hp, hg, hu, Vec3.copy, pure_eq_ok]; rfl⟩

/-- a geosynchronous state meets the hypotheses -/
example : ∃ a, (GCRF.new ⟨59932⟩ ⟨42164, 0, 0⟩ ⟨0, 3.07, 0⟩).derivative = .ok (⟨0, 3.07, 0⟩, a) := by
  have hm : (⟨42164, 0, 0⟩ : Vec3).magnitude = 42164 :=
    Vec3.magnitude_of_dot (by norm_num) (by simp only [Vec3.dot]; norm_num)
  have hx : Vec3.axial ⟨42164, 0, 0⟩ = 42164 := by
    rw [Vec3.axial, show ((42164 : ℝ) ^ 2 + 0 ^ 2) = 42164 ^ 2 by ring]
    exact Real.sqrt_sq (by norm_num)
  have hp : (GCRF.new ⟨59932⟩ ⟨42164, 0, 0⟩ ⟨0, 3.07, 0⟩).position = ⟨42164, 0, 0⟩ := rfl
  obtain ⟨a, ha, -⟩ := C89_perturbation (GCRF.new ⟨59932⟩ ⟨42164, 0, 0⟩ ⟨0, 3.07, 0⟩) (by rw [hp, hm]; norm_num)
    (by rw [hp, hm]; norm_num)
    (by
      show |(Epoch.mk 59932).julianCenturies| ≤ _
      norm_num [Epoch.julianCenturies, Epoch.julianValue, Epoch.JULIAN_CENTURY, Epoch.MJD_ZERO,
        Epoch.J2000_JULIAN_DATE, abs_of_pos])
    (by rw [hp, hx]; norm_num) (by rw [hp, hx]; norm_num)
  exact ⟨a, ha⟩

end Openspace
