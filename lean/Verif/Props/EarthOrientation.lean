import Verif.Props.Celestial
import Verif.Props.Frames
import Verif.Props.Time
import Verif.Spec.EarthOrientation

/-!
# Properties C91–C93: sense of the Earth's rotation, precession, and the whole reduction
-/

namespace Openspace

open Real

/-- days from J2000 -/
noncomputable def Epoch.days (t : Epoch) : ℝ := t.value + 2400000.5 - 2451545

theorem Epoch.julianCenturies_eq (t : Epoch) : t.julianCenturies = t.days / 36525 := rfl

theorem dms_arcsec (x : ℝ) : dmsToRadians 0 0 x = Spec.arcsec x := by
  simp only [dmsToRadians, Spec.arcsec, Spec.deg, pyRadians, pyPi, SECONDS_IN_HOUR, MINUTES_IN_HOUR]
  norm_num
  ring

theorem obliquity_spec (t : Epoch) : Earth.obliquityAt t = Spec.meanObliquity (t.days / 36525) := by
  simp only [Earth.obliquityAt, dms_arcsec, ← Epoch.julianCenturies_eq, Spec.meanObliquity, Spec.arcsec, Spec.deg,
    Earth.OBLIQUITY_OF_ECLIPTIC, pyRadians, pyPi]
  ring

theorem dpsi_spec (t : Epoch) : Earth.dpsiAt t = Spec.nutLongitude t.days := by
  have e : t.julianValue - Epoch.J2000_JULIAN_DATE = t.days := rfl
  have h : ∀ x, pyRadians x = Spec.deg x := by intro x; simp only [pyRadians, pyPi, Spec.deg]; ring
  have h125 : (125.0 : ℝ) = 125 := by norm_num
  simp only [Earth.dpsiAt, e, h, pySin, Spec.nutLongitude, h125]
  simp only [Spec.deg]; ring

theorem deps_spec (t : Epoch) : Earth.depsAt t = Spec.nutObliquity t.days := by
  have e : t.julianValue - Epoch.J2000_JULIAN_DATE = t.days := rfl
  have h : ∀ x, pyRadians x = Spec.deg x := by intro x; simp only [pyRadians, pyPi, Spec.deg]; ring
  have h125 : (125.0 : ℝ) = 125 := by norm_num
  simp only [Earth.depsAt, e, h, pyCos, Spec.nutObliquity, h125]
  simp only [Spec.deg]; ring

/-! ## C91 -/

/-- apparent sidereal time as the library computes it -/
noncomputable def gastOf (t : Epoch) : ℝ := Spec.apparentSidereal t.gha (Earth.obliquityAt t) (Earth.dpsiAt t)

theorem rotation_eq (t : Epoch) : Earth.rotation t =
    .ok ⟨⟨cos (gastOf t), sin (gastOf t), 0⟩, ⟨-sin (gastOf t), cos (gastOf t), 0⟩, ⟨0, 0, 1⟩⟩ := by
  have hz : (⟨0, 0, 1⟩ : Vec3).magnitude = 1 := Vec3.magnitude_of_dot (by norm_num) (by simp [Vec3.dot])
  have hg : Earth.dpsiAt t * pyCos (Earth.obliquityAt t) + t.gha = gastOf t := by
    simp only [gastOf, Spec.apparentSidereal, pyCos]; ring
  simp only [Earth.rotation, hg]
  rw [Vec3.rotationMatrix_ok z_ne, hz]
  simp [Vec3.rotUM, Vec3.scaled]

theorem dpsi_small (t : Epoch) : |Earth.dpsiAt t| ≤ 1.05e-4 := by
  have h := nutAxis_bound t
  rw [nutAxis_sq] at h
  refine abs_le_of_sq_le_sq ?_ (by norm_num)
  norm_num at h ⊢
  nlinarith [sq_nonneg (Earth.depsAt t)]

theorem gast_near (t : Epoch) : |gastOf t - t.gha| ≤ 1.05e-4 := by
  have e : gastOf t - t.gha = Earth.dpsiAt t * cos (Earth.obliquityAt t) := by
    simp only [gastOf, Spec.apparentSidereal]; ring
  rw [e, abs_mul]
  calc |Earth.dpsiAt t| * |cos (Earth.obliquityAt t)| ≤ |Earth.dpsiAt t| * 1 := by
        gcongr; exact abs_cos_le_one _
    _ ≤ _ := by rw [mul_one]; exact dpsi_small t

/-- a point of longitude `lon` has right ascension `lon` plus the hour angle of Greenwich: exactly in the IJK frame,
to 1.05e-4 rad (the equation of the equinoxes) in the true-of-date frame -/
theorem C91_longitude (t : Epoch) : ∃ g, |g - t.gha| ≤ 1.05e-4 ∧ ∀ rho lon z : ℝ,
    PositionConvert.itrfToTod ⟨rho * cos lon, rho * sin lon, z⟩ t =
      .ok ⟨rho * cos (lon + g), rho * sin (lon + g), z⟩ ∧
    PositionConvert.itrfToIjk ⟨rho * cos lon, rho * sin lon, z⟩ t =
      .ok ⟨rho * cos (lon + t.gha), rho * sin (lon + t.gha), z⟩ := by
  refine ⟨gastOf t, gast_near t, fun rho lon z => ⟨?_, ?_⟩⟩
  · simp only [PositionConvert.itrfToTod, rotation_eq, ok_bind, pure_eq_ok, Except.ok.injEq]
    ext <;> simp only [Mat3.mulVec, Mat3.transpose, Vec3.dot, cos_add, sin_add] <;> ring
  · have hz : (⟨0, 0, 1⟩ : Vec3).magnitude = 1 := Vec3.magnitude_of_dot (by norm_num) (by simp [Vec3.dot])
    rw [PositionConvert.itrfToIjk, Vec3.rotationAboutAxis_ok _ z_ne, Except.ok.injEq]
    simp only [Vec3.rotate, hz]
    ext <;> simp [Vec3.rotU, Vec3.scaled, Vec3.dot, Vec3.plus, Vec3.cross, cos_add, sin_add] <;> ring

/-- within a UTC day, a point fixed to the Earth turns eastward by 360.98564724 degrees per day -/
theorem C91_eastward (a b : Epoch) (h : utcDay a = utcDay b) (p : Vec3) : ∃ q r,
    PositionConvert.itrfToIjk p a = .ok q ∧ PositionConvert.itrfToIjk p b = .ok r ∧
    r = ⟨cos (Spec.deg (360.98564724 * (b.value - a.value))) * q.x -
          sin (Spec.deg (360.98564724 * (b.value - a.value))) * q.y,
        sin (Spec.deg (360.98564724 * (b.value - a.value))) * q.x +
          cos (Spec.deg (360.98564724 * (b.value - a.value))) * q.y, q.z⟩ := by
  have hz : (⟨0, 0, 1⟩ : Vec3).magnitude = 1 := Vec3.magnitude_of_dot (by norm_num) (by simp [Vec3.dot])
  obtain ⟨k, hk⟩ := C10_rate a b h
  have hb : b.gha = a.gha + Spec.deg (360.98564724 * (b.value - a.value)) + k * (2 * π) := by
    have := pi_pos
    simp only [Spec.deg]
    field_simp at hk ⊢
    linarith
  have key : ∀ t : Epoch, PositionConvert.itrfToIjk p t =
      .ok ⟨cos t.gha * p.x - sin t.gha * p.y, sin t.gha * p.x + cos t.gha * p.y, p.z⟩ := by
    intro t
    rw [PositionConvert.itrfToIjk, Vec3.rotationAboutAxis_ok _ z_ne, Except.ok.injEq]
    simp only [Vec3.rotate, hz]
    ext <;> simp [Vec3.rotU, Vec3.scaled, Vec3.dot, Vec3.plus, Vec3.cross] <;> ring
  refine ⟨_, _, key a, key b, ?_⟩
  rw [hb, cos_add_int_mul_two_pi, sin_add_int_mul_two_pi, cos_add, sin_add]
  ext <;> simp only <;> ring

/-- six hours after 2022-12-19, 0h TT, the day is the same -/
example : utcDay ⟨59932.1⟩ = utcDay ⟨59932.35⟩ := by
  unfold utcDay
  rw [show ⌊((59932.1 : ℝ)) - 69.184 / 86400⌋ = 59932 by rw [Int.floor_eq_iff]; norm_num,
    show ⌊((59932.35 : ℝ)) - 69.184 / 86400⌋ = 59932 by rw [Int.floor_eq_iff]; norm_num]

/-! ## C92 -/

/-- the precession matrix is that of the IAU 1976 angles -/
theorem C92_precession (t : Epoch) : (Earth.precession t).toMatrix = Spec.precession (t.days / 36525) := by
  have hx : ∀ T, dmsToRadians 0 0 2306.2181 * T + dmsToRadians 0 0 0.30188 * T * T
      + dmsToRadians 0 0 0.017998 * T * T * T = Spec.zetaA T := by
    intro T; simp only [dms_arcsec, Spec.zetaA, Spec.arcsec, Spec.deg]; ring
  have hy : ∀ T, dmsToRadians 0 0 2004.3109 * T - dmsToRadians 0 0 0.42665 * T * T
      - dmsToRadians 0 0 0.041833 * T * T * T = Spec.thetaA T := by
    intro T; simp only [dms_arcsec, Spec.thetaA, Spec.arcsec, Spec.deg]; ring
  have hz : ∀ T, Spec.zetaA T + dmsToRadians 0 0 0.7928 * T * T + dmsToRadians 0 0 0.000205 * T * T * T
      = Spec.zA T := by
    intro T; simp only [dms_arcsec, Spec.zetaA, Spec.zA, Spec.arcsec, Spec.deg]; ring
  simp only [Earth.precession, Epoch.julianCenturies_eq, hx, hy, hz, Spec.precession, pySin, pyCos]
  obtain ⟨x, -⟩ : ∃ x, x = Spec.zetaA (t.days / 36525) := ⟨_, rfl⟩
  ext i j
  fin_cases i <;> fin_cases j <;>
    simp [Mat3.toMatrix, Vec3.toFun, Spec.R2, Spec.R3, Matrix.mul_apply, Fin.sum_univ_three] <;> ring

/-! ## C93 -/

theorem one_sub_cos_le (x : ℝ) : |1 - cos x| ≤ x ^ 2 / 2 := by
  rw [abs_of_nonneg (by linarith [cos_le_one x])]
  linarith [one_sub_sq_div_two_le_cos (x := x)]

theorem sub_sin_le {x : ℝ} (h : |x| ≤ 2e-4) : |x - sin x| ≤ 1e-11 := by
  have h1 : |x| ≤ 1 := h.trans (by norm_num)
  have h2 := sin_bound h1
  have h3 : |x| ^ 3 ≤ 2e-4 ^ 3 := pow_le_pow_left₀ (abs_nonneg x) h 3
  have h4 : |x| ^ 5 ≤ 2e-4 ^ 5 := pow_le_pow_left₀ (abs_nonneg x) h 5
  have h5 : |x - sin x| ≤ |sin x - (x - x ^ 3 / 6)| + |x| ^ 3 / 6 := by
    have e : x - sin x = -(sin x - (x - x ^ 3 / 6)) + x ^ 3 / 6 := by ring
    rw [e]
    refine (abs_add_le _ _).trans ?_
    rw [abs_neg, abs_div, abs_pow, abs_of_pos (by norm_num : (0 : ℝ) < 6)]
  norm_num at h3 h4 ⊢
  linarith

/-- the entries of the linearised nutation are within 6e-9 of those of the rotation it stands for -/
theorem nutation_entry (t : Epoch) (i j : Fin 3) : |(Earth.nutation t).toMatrix i j -
    Spec.nutation (Earth.obliquityAt t) (Earth.dpsiAt t) (Earth.depsAt t) i j| ≤ 6e-9 := by
  have hb := nutAxis_bound t
  rw [nutAxis_sq] at hb
  simp only [Earth.nutation, Spec.nutation, pySin, pyCos]
  obtain ⟨e, he⟩ : ∃ e, e = Earth.obliquityAt t := ⟨_, rfl⟩
  obtain ⟨s, hs⟩ : ∃ s, s = Earth.dpsiAt t := ⟨_, rfl⟩
  obtain ⟨d, hd⟩ : ∃ d, d = Earth.depsAt t := ⟨_, rfl⟩
  rw [← hs, ← hd] at hb
  rw [← he, ← hs, ← hd]
  clear he hs hd
  have hs1 : |s| ≤ 2e-4 := by
    refine abs_le_of_sq_le_sq ?_ (by norm_num)
    norm_num at hb ⊢; nlinarith [sq_nonneg d]
  have hd1 : |d| ≤ 2e-4 := by
    refine abs_le_of_sq_le_sq ?_ (by norm_num)
    norm_num at hb ⊢; nlinarith [sq_nonneg s]
  have a1 := sub_sin_le hs1
  have a2 := sub_sin_le hd1
  have a3 := one_sub_cos_le s
  have a4 := one_sub_cos_le d
  have ec : cos d = cos (e + d) * cos e + sin (e + d) * sin e := by
    rw [← cos_sub]; congr 1; ring
  have es : sin d = sin (e + d) * cos e - cos (e + d) * sin e := by
    rw [← sin_sub]; congr 1; ring
  have w1 := abs_cos_le_one e
  have w2 := abs_sin_le_one e
  have w3 := abs_cos_le_one (e + d)
  have w4 := abs_sin_le_one (e + d)
  have b1 : |cos e - cos (e + d)| ≤ |d| := by
    have := abs_cos_sub_cos_le e (e + d)
    rwa [show e - (e + d) = -d by ring, abs_neg] at this
  have b2 : |sin e - sin (e + d)| ≤ |d| := by
    have := abs_sin_sub_sin_le e (e + d)
    rwa [show e - (e + d) = -d by ring, abs_neg] at this
  have b3 : |sin s| ≤ |s| := abs_sin_le_abs
  have b4 : |d| * |s| ≤ 5.5e-9 := by
    have := sq_abs s
    have := sq_abs d
    norm_num at hb ⊢; nlinarith [sq_nonneg (|s| - |d|)]
  have sq1 : s ^ 2 / 2 + d ^ 2 / 2 ≤ 5.5e-9 := by norm_num at hb ⊢; linarith
  have sqd := sq_nonneg d
  have one : ∀ k x : ℝ, |k| ≤ 1 → |k * x| ≤ |x| := fun k x hk => by
    rw [abs_mul]; exact mul_le_of_le_one_left (abs_nonneg x) hk
  have two : ∀ k l x : ℝ, |k| ≤ 1 → |l| ≤ 1 → |k * l * x| ≤ |x| := fun k l x hk hl => by
    rw [mul_assoc]; exact (one _ _ hk).trans (one _ _ hl)
  have prod : ∀ x, |x| ≤ |d| → |x * sin s| ≤ 5.5e-9 := fun x hx => by
    rw [abs_mul]; exact (mul_le_mul hx b3 (abs_nonneg _) (abs_nonneg _)).trans b4
  have t1 : ∀ x y : ℝ, |x| ≤ 1e-11 → |y| ≤ 5.5e-9 → |x + y| ≤ 6e-9 := fun x y hx hy => by
    refine (abs_add_le _ _).trans ?_; norm_num at hx hy ⊢; linarith
  have t2 : ∀ x y : ℝ, |x| ≤ d ^ 2 / 2 → |y| ≤ s ^ 2 / 2 → |x + y| ≤ 6e-9 := fun x y hx hy => by
    refine (abs_add_le _ _).trans ?_; norm_num at sq1 ⊢; linarith
  have t3 : ∀ x y : ℝ, |x| ≤ 1e-11 → |y| ≤ s ^ 2 / 2 → |x + y| ≤ 6e-9 := fun x y hx hy => by
    refine (abs_add_le _ _).trans ?_; norm_num at sq1 hx ⊢; linarith
  have t0 : ∀ x : ℝ, |x| ≤ 1e-11 → |x| ≤ 6e-9 := fun x hx => hx.trans (by norm_num)
  have h00 : |1 - cos s| ≤ 6e-9 := by simpa using t2 0 (1 - cos s) (by simpa using by positivity) a3
  have h01 : |-(cos e * (s - sin s))| ≤ 6e-9 := t0 _ (by rw [abs_neg]; exact (one _ _ w1).trans a1)
  have h02 : |-(sin e * (s - sin s))| ≤ 6e-9 := t0 _ (by rw [abs_neg]; exact (one _ _ w2).trans a1)
  have h10 := t1 _ _ ((one _ _ w1).trans a1) (prod _ b1)
  have h11 := t2 _ _ a4 ((two _ _ _ w3 w1).trans a3)
  have h12 := t3 (-(d - sin d)) _ (by rwa [abs_neg]) ((two _ _ _ w3 w2).trans a3)
  have h20 := t1 _ _ ((one _ _ w2).trans a1) (prod _ b2)
  have h21 := t3 _ _ a2 ((two _ _ _ w4 w1).trans a3)
  have h22 := t2 _ _ a4 ((two _ _ _ w4 w2).trans a3)
  rw [ec] at h11 h22
  rw [es] at h12 h21
  have hone : (1.0 : ℝ) = 1 := by norm_num
  have fin : ∀ x y : ℝ, |x| ≤ 6e-9 → x = y → |y| ≤ 6e-9 := fun x y h e => e ▸ h
  fin_cases i <;> fin_cases j <;>
    simp only [Mat3.toMatrix, Vec3.toFun, Spec.R1, Spec.R3, Matrix.mul_apply, Fin.sum_univ_three, hone]
  · refine fin _ _ h00 ?_; simp
  · refine fin _ _ h01 ?_; simp; ring
  · refine fin _ _ h02 ?_; simp; ring
  · refine fin _ _ h10 ?_; simp [-neg_add_rev]; ring_nf
  · refine fin _ _ h11 ?_; simp [-neg_add_rev]; ring_nf
  · refine fin _ _ h12 ?_; simp [-neg_add_rev]; ring_nf
  · refine fin _ _ h20 ?_; simp [-neg_add_rev]; ring_nf
  · refine fin _ _ h21 ?_; simp [-neg_add_rev]; ring_nf
  · refine fin _ _ h22 ?_; simp [-neg_add_rev]; ring_nf

theorem toFun_mulVec (m : Mat3) (v : Vec3) : (m.mulVec v).toFun = m.toMatrix.mulVec v.toFun := by
  ext i
  fin_cases i <;> simp [Vec3.toFun, Mat3.mulVec, Mat3.toMatrix, Vec3.dot, Matrix.mulVec, dotProduct,
    Fin.sum_univ_three]

theorem abs_toFun_le (v : Vec3) (i : Fin 3) : |v.toFun i| ≤ v.magnitude := by
  refine abs_le_of_sq_le_sq ?_ v.magnitude_nonneg
  rw [Vec3.magnitude_sq_dot]
  fin_cases i <;> simp only [Vec3.toFun, Vec3.dot] <;> simp <;>
    nlinarith [sq_nonneg v.x, sq_nonneg v.y, sq_nonneg v.z]

/-- `to_itrf` never raises, and is the classical reduction to 4e-8 of the distance in every component (0.3 m at the
surface, 1.7 m at the geostationary radius) -/
theorem C93_reduction (p : Vec3) (t : Epoch) : ∃ q, PositionConvert.gcrfToItrf p t = .ok q ∧
    ∀ i, |q.toFun i - (Spec.toEarthFixed t.days t.gha).mulVec p.toFun i| ≤ 4e-8 * p.magnitude := by
  obtain ⟨R, hRe⟩ : ∃ R : Mat3, R = ⟨⟨cos (gastOf t), sin (gastOf t), 0⟩, ⟨-sin (gastOf t), cos (gastOf t), 0⟩, ⟨0, 0, 1⟩⟩ :=
    ⟨_, rfl⟩
  have hR : R.toMatrix = Spec.R3 (gastOf t) := by
    rw [hRe]; ext i j; fin_cases i <;> fin_cases j <;> simp [Mat3.toMatrix, Vec3.toFun, Spec.R3]
  have hr := rotation_eq t
  rw [← hRe] at hr
  refine ⟨R.mulVec ((Earth.nutation t).mulVec ((Earth.precession t).mulVec p)), by
    simp only [PositionConvert.gcrfToItrf, hr, ok_bind, pure_eq_ok, PositionConvert.gcrfToTod,
      PositionConvert.gcrfToMod], ?_⟩
  obtain ⟨w, hw⟩ : ∃ w, w = (Earth.precession t).mulVec p := ⟨_, rfl⟩
  have hwm : w.magnitude = p.magnitude := by rw [hw]; exact (precession_orth t).magnitude_mulVec p
  obtain ⟨N, hN⟩ : ∃ N, N = Spec.nutation (Earth.obliquityAt t) (Earth.dpsiAt t) (Earth.depsAt t) := ⟨_, rfl⟩
  have e1 : (Spec.toEarthFixed t.days t.gha).mulVec p.toFun = (Spec.R3 (gastOf t)).mulVec (N.mulVec w.toFun) := by
    rw [Spec.toEarthFixed, hw, toFun_mulVec, C92_precession, hN, ← obliquity_spec, ← dpsi_spec, ← deps_spec,
      Matrix.mulVec_mulVec, Matrix.mulVec_mulVec]
    rfl
  obtain ⟨D, hD⟩ : ∃ D : Fin 3 → ℝ, D = fun i => (Earth.nutation t).toMatrix.mulVec w.toFun i - N.mulVec w.toFun i :=
    ⟨_, rfl⟩
  have hDb : ∀ i, |D i| ≤ 1.8e-8 * p.magnitude := by
    intro i
    have e : D i = ∑ j, ((Earth.nutation t).toMatrix i j - N i j) * w.toFun j := by
      rw [hD]; simp only [Matrix.mulVec, dotProduct, Fin.sum_univ_three]; ring
    have b : ∀ j, |((Earth.nutation t).toMatrix i j - N i j) * w.toFun j| ≤ 6e-9 * p.magnitude := by
      intro j
      rw [abs_mul, ← hwm, hN]
      exact mul_le_mul (nutation_entry t i j) (abs_toFun_le w j) (abs_nonneg _) (by norm_num)
    rw [e]
    refine (Finset.abs_sum_le_sum_abs _ _).trans ?_
    rw [Fin.sum_univ_three]
    have b0 := b 0
    have b1 := b 1
    have b2 := b 2
    norm_num at b0 b1 b2 ⊢
    linarith
  intro i
  rw [e1, ← hw, toFun_mulVec, toFun_mulVec, hR]
  have e2 : (Spec.R3 (gastOf t)).mulVec ((Earth.nutation t).toMatrix.mulVec w.toFun) i -
      (Spec.R3 (gastOf t)).mulVec (N.mulVec w.toFun) i = (Spec.R3 (gastOf t)).mulVec D i := by
    rw [hD, show (fun i => (Earth.nutation t).toMatrix.mulVec w.toFun i - N.mulVec w.toFun i) =
      (Earth.nutation t).toMatrix.mulVec w.toFun - N.mulVec w.toFun from rfl, Matrix.mulVec_sub]
    rfl
  rw [e2]
  have d0 := hDb 0
  have d1 := hDb 1
  have d2 := hDb 2
  have hp := p.magnitude_nonneg
  have hc := abs_cos_le_one (gastOf t)
  have hs := abs_sin_le_one (gastOf t)
  have le : ∀ k x : ℝ, |k| ≤ 1 → |k * x| ≤ |x| := fun k x hk => by
    rw [abs_mul]; exact mul_le_of_le_one_left (abs_nonneg x) hk
  have c0 := le _ (D 0) hc
  have c1 := le _ (D 1) hc
  have s0 := le _ (D 0) hs
  have s1 := le _ (D 1) hs
  have l2 : ∀ x y : ℝ, |x| ≤ |D 0| → |y| ≤ |D 1| → |x + y| ≤ 4e-8 * p.magnitude := fun x y hx hy => by
    refine (abs_add_le x y).trans ?_
    norm_num at d0 d1 ⊢; linarith
  fin_cases i <;> simp [Spec.R3, Matrix.mulVec, dotProduct, Fin.sum_univ_three]
  · exact l2 _ _ c0 s1
  · exact l2 _ _ (by rwa [abs_neg]) c1
  · norm_num at d2 ⊢; linarith

end Openspace
