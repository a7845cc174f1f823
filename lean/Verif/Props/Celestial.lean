import Verif.Lemmas.Rotation
import Verif.Model.States
import Mathlib.Analysis.Real.Pi.Bounds

/-!
# Properties C28–C30: Earth orientation, Sun and Moon
-/

namespace Openspace

open Real

/-! ## C28 -/

theorem euler_orth (x y z : ℝ) : Mat3.Orth
    ⟨⟨-sin z * sin x + cos z * cos y * cos x, -sin z * cos x - cos z * cos y * sin x, -cos z * sin y⟩,
     ⟨cos z * sin x + sin z * cos y * cos x, cos z * cos x - sin z * cos y * sin x, -sin z * sin y⟩,
     ⟨sin y * cos x, -sin y * sin x, cos y⟩⟩ := by
  have hx := sin_sq_add_cos_sq x
  have hy := sin_sq_add_cos_sq y
  have hz := sin_sq_add_cos_sq z
  constructor <;> simp only [Vec3.dot]
  · linear_combination (sin z ^ 2 + cos z ^ 2 * cos y ^ 2) * hx + cos z ^ 2 * hy + hz
  · linear_combination (cos z ^ 2 + sin z ^ 2 * cos y ^ 2) * hx + sin z ^ 2 * hy + hz
  · linear_combination sin y ^ 2 * hx + hy
  · linear_combination (-sin z * cos z + sin z * cos z * cos y ^ 2) * hx + sin z * cos z * hy
  · linear_combination (cos z * cos y * sin y) * hx
  · linear_combination (sin z * cos y * sin y) * hx

theorem precession_orth (t : Epoch) : (Earth.precession t).Orth := euler_orth _ _ _

theorem precession_isRotation (t : Epoch) : (Earth.precession t).IsRotation := by
  apply (precession_orth t).isRotation
  have key : ∀ x y z : ℝ, Mat3.determinant
    ⟨⟨-sin z * sin x + cos z * cos y * cos x, -sin z * cos x - cos z * cos y * sin x, -cos z * sin y⟩,
     ⟨cos z * sin x + sin z * cos y * cos x, cos z * cos x - sin z * cos y * sin x, -sin z * sin y⟩,
     ⟨sin y * cos x, -sin y * sin x, cos y⟩⟩ = 1 := by
    intro x y z
    have hx := sin_sq_add_cos_sq x
    have hy := sin_sq_add_cos_sq y
    have hz := sin_sq_add_cos_sq z
    simp only [Mat3.determinant]
    have : ∀ a b c d e f : ℝ, a ^ 2 + b ^ 2 = 1 → c ^ 2 + d ^ 2 = 1 → e ^ 2 + f ^ 2 = 1 →
        (-e * a + f * d * b) * ((f * b - e * d * a) * d - (-e * c) * (-c * a))
        - (-e * b - f * d * a) * ((f * a + e * d * b) * d - (-e * c) * (c * b))
        + (-f * c) * ((f * a + e * d * b) * (-c * a) - (f * b - e * d * a) * (c * b)) = 1 := by
      intro a b c d e f h1 h2 h3
      have hb : b ^ 2 = 1 - a ^ 2 := by linarith
      have hd : d ^ 2 = 1 - c ^ 2 := by linarith
      have hf : f ^ 2 = 1 - e ^ 2 := by linarith
      linear_combination (f ^ 2 * c ^ 2 + f ^ 2 * d ^ 2 + e ^ 2 * d ^ 2 + e ^ 2 * c ^ 2) * h1
        + (e ^ 2 + f ^ 2) * h2 + h3
    linarith [this (sin x) (cos x) (sin y) (cos y) (sin z) (cos z) hx hy hz]
  exact key _ _ _

theorem z_ne : (⟨0, 0, 1⟩ : Vec3) ≠ ⟨0, 0, 0⟩ := by simp

theorem x_ne : (⟨1, 0, 0⟩ : Vec3) ≠ ⟨0, 0, 0⟩ := by simp

theorem rotationMatrix_isRotation {axis : Vec3} (h : axis ≠ ⟨0, 0, 0⟩) (th : ℝ) :
    ∃ m, Vec3.rotationMatrix axis th = .ok m ∧ m.IsRotation :=
  ⟨_, Vec3.rotationMatrix_ok h th, Vec3.rotUM_isRotation (Vec3.unit_dot h) (sin_sq_add_cos_sq th)⟩

theorem rotation_isRotation (t : Epoch) : ∃ m, Earth.rotation t = .ok m ∧ m.IsRotation :=
  rotationMatrix_isRotation z_ne _

/-- precession and Earth rotation are proper rotations at every epoch, without exception -/
theorem C28_rotations (t : Epoch) :
    (Earth.precession t).IsRotation ∧ ∃ m, Earth.rotation t = .ok m ∧ m.IsRotation :=
  ⟨precession_isRotation t, rotation_isRotation t⟩

/-- ITRF to TOD undoes the Earth rotation and conversely; distances are preserved -/
theorem C28_itrf_tod (t : Epoch) (p : Vec3) :
    (∃ m q, Earth.rotation t = .ok m ∧ PositionConvert.itrfToTod p t = .ok q ∧
      m.mulVec q = p ∧ q.magnitude = p.magnitude) ∧
    (∃ m, Earth.rotation t = .ok m ∧ PositionConvert.itrfToTod (m.mulVec p) t = .ok p) := by
  obtain ⟨m, hm, hr⟩ := rotation_isRotation t
  refine ⟨⟨m, m.transpose.mulVec p, hm, ?_, hr.orth.mulVec_transpose p, hr.transpose.orth.magnitude_mulVec p⟩,
    ⟨m, hm, ?_⟩⟩
  · simp [PositionConvert.itrfToTod, hm]
  · simp [PositionConvert.itrfToTod, hm, hr.orth.transpose_mulVec p]

/-- GCRF to MOD preserves distances and is undone by the transposed matrix, which is the last
step of ITRF to GCRF -/
theorem C28_gcrf_mod (t : Epoch) (p : Vec3) :
    (PositionConvert.gcrfToMod p t).magnitude = p.magnitude ∧
    (Earth.precession t).transpose.mulVec (PositionConvert.gcrfToMod p t) = p ∧
    PositionConvert.gcrfToMod ((Earth.precession t).transpose.mulVec p) t = p ∧
    (∀ q m, PositionConvert.itrfToMod q t = .ok m →
      PositionConvert.itrfToGcrf q t = .ok ((Earth.precession t).transpose.mulVec m)) := by
  refine ⟨(precession_orth t).magnitude_mulVec p, (precession_orth t).transpose_mulVec p,
    (precession_orth t).mulVec_transpose p, ?_⟩
  intro q m h
  simp [PositionConvert.itrfToGcrf, h]

/-! ## C29 -/

/-- axis of the linearised nutation -/
noncomputable def nutAxis (t : Epoch) : Vec3 :=
  ⟨Earth.depsAt t, -(Earth.dpsiAt t * sin (Earth.obliquityAt t)), Earth.dpsiAt t * cos (Earth.obliquityAt t)⟩

theorem nutation_mulVec (t : Epoch) (v : Vec3) :
    (Earth.nutation t).mulVec v = v.plus ((nutAxis t).cross v) := by
  have h1 : (1.0 : ℝ) = 1 := by norm_num
  ext <;> simp only [Earth.nutation, Mat3.mulVec, Vec3.dot, Vec3.plus, Vec3.cross, nutAxis, pySin, pyCos, h1] <;>
    ring

theorem nutation_transpose_mulVec (t : Epoch) (v : Vec3) :
    (Earth.nutation t).transpose.mulVec v = v.minus ((nutAxis t).cross v) := by
  have h1 : (1.0 : ℝ) = 1 := by norm_num
  ext <;> simp only [Earth.nutation, Mat3.transpose, Mat3.mulVec,
    Vec3.dot, Vec3.minus, Vec3.cross, nutAxis, pySin, pyCos, h1] <;>
    ring

/-- the exact result of the round trip -/
theorem C29_exact (t : Epoch) (p : Vec3) :
    (PositionConvert.gcrfToItrf p t >>= fun q => PositionConvert.itrfToGcrf q t) =
      .ok (p.minus ((Earth.precession t).transpose.mulVec
        ((nutAxis t).cross ((nutAxis t).cross ((Earth.precession t).mulVec p))))) := by
  obtain ⟨m, hm, hr⟩ := rotation_isRotation t
  simp only [PositionConvert.gcrfToItrf, PositionConvert.itrfToGcrf, PositionConvert.itrfToMod,
    PositionConvert.itrfToTod, hm, ok_bind, pure_eq_ok, hr.orth.transpose_mulVec, PositionConvert.gcrfToTod,
    PositionConvert.gcrfToMod, nutation_mulVec, nutation_transpose_mulVec, Except.ok.injEq]
  have e : ∀ k v : Vec3, (v.plus (k.cross v)).minus (k.cross (v.plus (k.cross v)))
      = v.minus (k.cross (k.cross v)) := by
    intro k v
    ext <;> simp only [Vec3.plus, Vec3.minus, Vec3.cross] <;> ring
  rw [e, Mat3.mulVec_minus, (precession_orth t).transpose_mulVec]

theorem nutAxis_sq (t : Epoch) : (nutAxis t).dot (nutAxis t) = Earth.dpsiAt t ^ 2 + Earth.depsAt t ^ 2 := by
  simp only [nutAxis, Vec3.dot]
  linear_combination Earth.dpsiAt t ^ 2 * sin_sq_add_cos_sq (Earth.obliquityAt t)

theorem abs_comb_le {a b x y : ℝ} (hx : |x| ≤ 1) (hy : |y| ≤ 1) : |a * x + b * y| ≤ |a| + |b| := by
  calc |a * x + b * y| ≤ |a * x| + |b * y| := abs_add_le _ _
    _ ≤ |a| + |b| := by
      rw [abs_mul, abs_mul]
      nlinarith [abs_nonneg a, abs_nonneg b]

theorem nutAxis_bound (t : Epoch) : (nutAxis t).dot (nutAxis t) ≤ 1.1e-8 := by
  rw [nutAxis_sq]
  have hp := pi_pos
  have hp2 := pi_lt_d2
  have h1 : |Earth.dpsiAt t| ≤ 0.0052 * π / 180 := by
    have e : ∃ x y : ℝ, |x| ≤ 1 ∧ |y| ≤ 1 ∧
        Earth.dpsiAt t = (-(0.0048 * π / 180)) * x + (-(0.0004 * π / 180)) * y := by
      refine ⟨sin (pyRadians (125.0 - 0.05295 * (t.julianValue - Epoch.J2000_JULIAN_DATE))),
        sin (pyRadians (200.9 + 1.97129 * (t.julianValue - Epoch.J2000_JULIAN_DATE))),
        abs_sin_le_one _, abs_sin_le_one _, ?_⟩
      simp only [Earth.dpsiAt, pySin]
      have k1 : pyRadians (-0.0048) = -(0.0048 * π / 180) := by simp only [pyRadians, pyPi]; ring
      have k2 : pyRadians 0.0004 = 0.0004 * π / 180 := by simp only [pyRadians, pyPi]
      rw [k1, k2]; ring
    obtain ⟨x, y, hx, hy, e⟩ := e
    rw [e]
    refine (abs_comb_le hx hy).trans ?_
    rw [abs_neg, abs_neg, abs_of_pos (by positivity), abs_of_pos (by positivity)]
    linarith
  have h2 : |Earth.depsAt t| ≤ 0.0028 * π / 180 := by
    have e : ∃ x y : ℝ, |x| ≤ 1 ∧ |y| ≤ 1 ∧
        Earth.depsAt t = (0.0026 * π / 180) * x + (0.0002 * π / 180) * y := by
      refine ⟨cos (pyRadians (125.0 - 0.05295 * (t.julianValue - Epoch.J2000_JULIAN_DATE))),
        cos (pyRadians (200.9 + 1.97129 * (t.julianValue - Epoch.J2000_JULIAN_DATE))),
        abs_cos_le_one _, abs_cos_le_one _, ?_⟩
      simp only [Earth.depsAt, pyCos, pyRadians, pyPi]
    obtain ⟨x, y, hx, hy, e⟩ := e
    rw [e]
    refine (abs_comb_le hx hy).trans ?_
    rw [abs_of_pos (by positivity), abs_of_pos (by positivity)]
    linarith
  have h3 : Earth.dpsiAt t ^ 2 ≤ (0.0052 * π / 180) ^ 2 := by
    rw [← sq_abs]; exact pow_le_pow_left₀ (abs_nonneg _) h1 2
  have h4 : Earth.depsAt t ^ 2 ≤ (0.0028 * π / 180) ^ 2 := by
    rw [← sq_abs]; exact pow_le_pow_left₀ (abs_nonneg _) h2 2
  have h5 : π ^ 2 ≤ 3.15 ^ 2 := by gcongr
  have h6 : (0.0052 * π / 180) ^ 2 + (0.0028 * π / 180) ^ 2 = (0.0052 ^ 2 + 0.0028 ^ 2) / 180 ^ 2 * π ^ 2 := by
    ring
  have h7 : (0.0052 ^ 2 + 0.0028 ^ 2) / 180 ^ 2 * π ^ 2 ≤ (0.0052 ^ 2 + 0.0028 ^ 2) / 180 ^ 2 * (3.15 ^ 2 : ℝ) := by
    gcongr
  have h8 : (0.0052 ^ 2 + 0.0028 ^ 2) / 180 ^ 2 * (3.15 ^ 2 : ℝ) ≤ 1.1e-8 := by norm_num
  linarith

theorem cross_magnitude_le (k v : Vec3) : (k.cross v).magnitude ≤ k.magnitude * v.magnitude := by
  have h := Vec3.lagrange k v
  have h1 := (k.cross v).magnitude_sq_dot
  have h2 := k.magnitude_sq_dot
  have h3 := v.magnitude_sq_dot
  have : (k.cross v).magnitude ^ 2 ≤ (k.magnitude * v.magnitude) ^ 2 := by
    rw [mul_pow, h1, h2, h3]; nlinarith [sq_nonneg (k.dot v)]
  exact (pow_le_pow_iff_left₀ (Vec3.magnitude_nonneg _)
    (mul_nonneg k.magnitude_nonneg v.magnitude_nonneg) two_ne_zero).mp this

/-- what does hold: the round trip misses by at most 1.1e-8 of the distance from the Earth's
centre (half a metre in geosynchronous orbit) -/
theorem C75_bound (t : Epoch) (p : Vec3) :
    ∃ q r, PositionConvert.gcrfToItrf p t = .ok q ∧ PositionConvert.itrfToGcrf q t = .ok r ∧
      (r.minus p).magnitude ≤ 1.1e-8 * p.magnitude := by
  have h := C29_exact t p
  rw [bind_eq_ok] at h
  obtain ⟨q, h1, h2⟩ := h
  refine ⟨q, _, h1, h2, ?_⟩
  set w := (Earth.precession t).mulVec p with hw
  have e : ((p.minus ((Earth.precession t).transpose.mulVec ((nutAxis t).cross ((nutAxis t).cross w)))).minus p)
      = ((Earth.precession t).transpose.mulVec ((nutAxis t).cross ((nutAxis t).cross w))).scaled (-1) := by
    ext <;> simp only [Vec3.minus, Vec3.scaled] <;> ring
  have hwm : w.magnitude = p.magnitude := (precession_orth t).magnitude_mulVec p
  rw [e, Vec3.magnitude_scaled, abs_neg, abs_one, one_mul,
    (precession_orth t).transpose.magnitude_mulVec]
  have a1 := cross_magnitude_le (nutAxis t) ((nutAxis t).cross w)
  have a2 := cross_magnitude_le (nutAxis t) w
  have a3 := nutAxis_bound t
  rw [← Vec3.magnitude_sq_dot] at a3
  have a4 := (nutAxis t).magnitude_nonneg
  have a5 := p.magnitude_nonneg
  rw [hwm] at a2
  nlinarith

/-- the part of C29 that holds -/
theorem C29_bound_partial (t : Epoch) (p : Vec3) :
    ∃ q r, PositionConvert.gcrfToItrf p t = .ok q ∧ PositionConvert.itrfToGcrf q t = .ok r ∧
      (r.minus p).magnitude ≤ 1.1e-8 * p.magnitude := C75_bound t p

/-- the property itself is false: there is a position which the round trip does not recover -/
theorem C29_violated : ∃ (t : Epoch) (p q r : Vec3),
    PositionConvert.gcrfToItrf p t = .ok q ∧ PositionConvert.itrfToGcrf q t = .ok r ∧ r ≠ p := by
  -- the epoch at which the argument of the main term is 90 degrees
  let t : Epoch := ⟨2451545 - 2400000.5 + 35 / 0.05295⟩
  have hd : t.julianValue - Epoch.J2000_JULIAN_DATE = 35 / 0.05295 := by
    simp only [t, Epoch.julianValue, Epoch.MJD_ZERO, Epoch.J2000_JULIAN_DATE]; ring
  have hps : Earth.dpsiAt t < 0 := by
    simp only [Earth.dpsiAt, hd, pySin]
    have e1 : pyRadians (125.0 - 0.05295 * (35 / 0.05295)) = π / 2 := by
      simp only [pyRadians, pyPi]; norm_num; ring
    rw [e1, sin_pi_div_two]
    have k1 : pyRadians (-0.0048) = -(0.0048 * π / 180) := by simp only [pyRadians, pyPi]; ring
    have k2 : pyRadians 0.0004 = 0.0004 * π / 180 := by simp only [pyRadians, pyPi]
    rw [k1, k2]
    have := neg_one_le_sin (pyRadians (200.9 + 1.97129 * (35 / 0.05295)))
    have hp := pi_pos
    nlinarith
  have hk : 0 < (nutAxis t).dot (nutAxis t) := by
    rw [nutAxis_sq]; nlinarith [sq_nonneg (Earth.depsAt t)]
  -- a vector that is moved
  have hex : ∃ v : Vec3, (nutAxis t).cross ((nutAxis t).cross v) ≠ ⟨0, 0, 0⟩ := by
    by_contra hc
    push Not at hc
    have c1 := hc ⟨1, 0, 0⟩
    have c2 := hc ⟨0, 1, 0⟩
    have c3 := hc ⟨0, 0, 1⟩
    simp only [Vec3.cross, Vec3.mk.injEq] at c1 c2 c3
    have : (nutAxis t).dot (nutAxis t) = 0 := by
      simp only [Vec3.dot]; linarith [c1.1, c2.2.1, c3.2.2]
    linarith
  obtain ⟨v, hv⟩ := hex
  have h := C29_exact t ((Earth.precession t).transpose.mulVec v)
  rw [bind_eq_ok] at h
  obtain ⟨q, h1, h2⟩ := h
  refine ⟨t, _, q, _, h1, h2, ?_⟩
  rw [(precession_orth t).mulVec_transpose]
  intro hc
  apply hv
  have hz : (Earth.precession t).transpose.mulVec ((nutAxis t).cross ((nutAxis t).cross v)) = ⟨0, 0, 0⟩ := by
    have := congrArg (fun u => ((Earth.precession t).transpose.mulVec v).minus u) hc
    rw [show ∀ a b : Vec3, a.minus (a.minus b) = b by
      intro a b; ext <;> simp [Vec3.minus]] at this
    rw [this]; ext <;> simp [Vec3.minus]
  have := congrArg (Earth.precession t).mulVec hz
  rw [(precession_orth t).mulVec_transpose] at this
  rw [this]; ext <;> simp [Mat3.mulVec, Vec3.dot]

/-- and it does miss: the round trip is not exact -/
theorem C75_not_exact : ∃ (t : Epoch) (p q r : Vec3),
    PositionConvert.gcrfToItrf p t = .ok q ∧ PositionConvert.itrfToGcrf q t = .ok r ∧ r ≠ p := C29_violated

/-! ## C30 -/

/-- radius factor of the Sun -/
theorem sun_magnitude (t : Epoch) : ∃ c : ℝ, |c| ≤ 1 ∧
    (Sun.getPosition t).magnitude = (149.619 - 2.499 * c - 0.021 * (2 * c ^ 2 - 1)) * 1e6 := by
  refine ⟨cos (pyRadians (357.5256 + 35999.049 * t.julianCenturies)), abs_cos_le_one _, ?_⟩
  have hc := abs_le.mp (abs_cos_le_one (pyRadians (357.5256 + 35999.049 * t.julianCenturies)))
  apply Vec3.magnitude_of_dot
  · nlinarith [hc.1, hc.2]
  · simp only [Sun.getPosition, Vec3.dot, Sun.COS_OBLIQUITY, Sun.SIN_OBLIQUITY, pySin, pyCos, cos_two_mul]
    generalize pyRadians (357.5256 + 35999.049 * t.julianCenturies) = m
    generalize Sun.W_PLUS_W + m + dmsToRadians 0 0 6892 * sin m + dmsToRadians 0 0 72 * 2 * sin m * cos m = l
    generalize Earth.OBLIQUITY_OF_ECLIPTIC = ε
    have h1 := sin_sq_add_cos_sq l
    have h2 := sin_sq_add_cos_sq ε
    generalize ((149.619 - 2.499 * cos m - 0.021 * (2 * cos m ^ 2 - 1)) * 1e6 : ℝ) = R
    linear_combination R ^ 2 * h1 + R ^ 2 * sin l ^ 2 * h2

/-- the Sun is between 1.470e8 and 1.522e8 km away, in the fixed ecliptic plane -/
theorem C30_sun (t : Epoch) :
    1.470e8 ≤ (Sun.getPosition t).magnitude ∧ (Sun.getPosition t).magnitude ≤ 1.522e8 ∧
    (Sun.getPosition t).dot ⟨0, -sin Earth.OBLIQUITY_OF_ECLIPTIC, cos Earth.OBLIQUITY_OF_ECLIPTIC⟩ = 0 := by
  obtain ⟨c, hc, h⟩ := sun_magnitude t
  obtain ⟨h1, h2⟩ := abs_le.mp hc
  refine ⟨?_, ?_, ?_⟩
  · rw [h]; nlinarith
  · rw [h]; nlinarith
  · simp only [Sun.getPosition, Vec3.dot, Sun.COS_OBLIQUITY, Sun.SIN_OBLIQUITY, pySin, pyCos]; ring

/-- the Moon is between 356096 and 413904 km away, and its position never raises -/
theorem C30_moon (t : Epoch) :
    ∃ m, Moon.getPosition t = .ok m ∧ 356096 ≤ m.magnitude ∧ m.magnitude ≤ 413904 := by
  have hrot : ∀ v : Vec3, ∃ m, Vec3.rotationAboutAxis v ⟨1, 0, 0⟩ Earth.OBLIQUITY_OF_ECLIPTIC = .ok m ∧
      m.magnitude = v.magnitude := by
    intro v
    obtain ⟨M, hM, hR⟩ := rotationMatrix_isRotation x_ne Earth.OBLIQUITY_OF_ECLIPTIC
    refine ⟨M.mulVec v, ?_, hR.orth.magnitude_mulVec v⟩
    simp [Vec3.rotationAboutAxis, hM]
  have hmag : ∀ r l b : ℝ, 0 ≤ r →
      Vec3.magnitude ⟨r * cos l * cos b, r * sin l * cos b, r * sin b⟩ = r := by
    intro r l b hr
    apply Vec3.magnitude_of_dot hr
    simp only [Vec3.dot]
    linear_combination r ^ 2 * cos b ^ 2 * sin_sq_add_cos_sq l + r ^ 2 * sin_sq_add_cos_sq b
  unfold Moon.getPosition
  simp only [pyCos, pySin]
  generalize pyRadians (134.96292 + 477198.86753 * t.julianCenturies) = l
  generalize pyRadians (357.52543 + 35999.04944 * t.julianCenturies) = lp
  generalize pyRadians (297.85027 + 445267.11135 * t.julianCenturies) = d
  have hr1 : 356096 ≤ 385000.0 - 20905.0 * cos l - 3699.0 * cos (2.0 * d - l) - 2956.0 * cos (2.0 * d)
      - 570.0 * cos (2.0 * l) + 246.0 * cos (2.0 * l - 2.0 * d) - 205.0 * cos (lp - 2.0 * d)
      - 171.0 * cos (l + 2.0 * d) - 152.0 * cos (l + lp - 2.0 * d) := by
    linarith [cos_le_one l, cos_le_one (2.0 * d - l), cos_le_one (2.0 * d), cos_le_one (2.0 * l),
      neg_one_le_cos (2.0 * l - 2.0 * d), cos_le_one (lp - 2.0 * d), cos_le_one (l + 2.0 * d),
      cos_le_one (l + lp - 2.0 * d)]
  have hr2 : 385000.0 - 20905.0 * cos l - 3699.0 * cos (2.0 * d - l) - 2956.0 * cos (2.0 * d)
      - 570.0 * cos (2.0 * l) + 246.0 * cos (2.0 * l - 2.0 * d) - 205.0 * cos (lp - 2.0 * d)
      - 171.0 * cos (l + 2.0 * d) - 152.0 * cos (l + lp - 2.0 * d) ≤ 413904 := by
    linarith [neg_one_le_cos l, neg_one_le_cos (2.0 * d - l), neg_one_le_cos (2.0 * d),
      neg_one_le_cos (2.0 * l), cos_le_one (2.0 * l - 2.0 * d), neg_one_le_cos (lp - 2.0 * d),
      neg_one_le_cos (l + 2.0 * d), neg_one_le_cos (l + lp - 2.0 * d)]
  obtain ⟨m, h1, h2⟩ := hrot _
  refine ⟨m, h1, ?_⟩
  rw [h2, hmag _ _ _ (by linarith)]
  exact ⟨hr1, hr2⟩

theorem magnitude_minus_ge (a b : Vec3) : a.magnitude - b.magnitude ≤ (a.minus b).magnitude := by
  have h1 := Vec3.norm_toE a
  have h2 := Vec3.norm_toE b
  have h3 := Vec3.norm_toE (a.minus b)
  have h4 : (a.minus b).toE = a.toE - b.toE := by
    ext i; fin_cases i <;> rfl
  rw [← h1, ← h2, ← h3, h4]
  exact norm_sub_norm_le _ _

theorem thirdBody_ok {s pos : Vec3} (mu : ℝ) (h : pos.magnitude < s.magnitude) :
    ∃ a, GCRF.thirdBody s pos mu = .ok a := by
  have h1 : 0 < (s.minus pos).magnitude := by linarith [magnitude_minus_ge s pos]
  have h2 : 0 < s.magnitude := by linarith [pos.magnitude_nonneg]
  simp only [GCRF.thirdBody, pyDiv_ok (by positivity :
    (s.minus pos).magnitude * (s.minus pos).magnitude * (s.minus pos).magnitude ≠ 0),
    pyDiv_ok (by positivity : s.magnitude * s.magnitude * s.magnitude ≠ 0), ok_bind, pure_eq_ok]
  exact ⟨_, rfl⟩

/-- hence the Sun, Moon and radiation-pressure accelerations never divide by zero near the Earth -/
theorem C30_no_division (s : GCRF) (h : s.position.magnitude ≤ 350000) :
    (∃ a, s.accelerationFromMoon = .ok a) ∧ (∃ a, s.accelerationFromSun = .ok a) ∧
    (∃ a, s.accelerationFromSrp = .ok a) := by
  obtain ⟨m, hm, hm1, _⟩ := C30_moon s.epoch
  have hs := (C30_sun s.epoch).1
  refine ⟨?_, ?_, ?_⟩
  · obtain ⟨a, ha⟩ := thirdBody_ok (s := m) (pos := s.position) Moon.MU (by linarith)
    exact ⟨a, by simp [GCRF.accelerationFromMoon, hm, ha]⟩
  · exact thirdBody_ok _ (by norm_num at hs; linarith)
  · have h1 : 0 < (s.sunVector).magnitude := by
      have := magnitude_minus_ge (Sun.getPosition s.epoch) s.position
      unfold GCRF.sunVector
      norm_num at hs; linarith
    have hne := Vec3.magnitude_pos.mp h1
    have hu := Vec3.unit_dot hne
    simp only [GCRF.accelerationFromSrp, Vec3.normalized_ok hne, ok_bind, Vec3.magnitude_unit hu]
    have : (1 * 1 * BASE_IN_KILO : ℝ) ≠ 0 := by norm_num [BASE_IN_KILO]
    rw [pyDiv_ok this]
    exact ⟨_, rfl⟩

example : ∃ a, (GCRF.new ⟨59932⟩ ⟨42164, 0, 0⟩ ⟨0, 3, 0⟩).accelerationFromMoon = .ok a :=
  (C30_no_division _ (by
    have : (GCRF.new ⟨59932⟩ ⟨42164, 0, 0⟩ ⟨0, 3, 0⟩).position.magnitude = 42164 :=
      Vec3.magnitude_of_dot (by norm_num) (by simp [GCRF.new, State.new, Vec3.dot, Vec3.copy]; norm_num)
    rw [this]; norm_num)).1

end Openspace
