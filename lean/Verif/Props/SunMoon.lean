import Verif.Props.EarthOrientation
import Verif.Spec.SunMoon

/-!
# Properties C120–C122: the Sun and the Moon follow the published series
-/

namespace Openspace

open Real

/-! ## The frame -/

theorem fromEcliptic_eq (eps lon lat r : ℝ) : Spec.fromEcliptic eps lon lat r =
    ![r * cos lon * cos lat, cos eps * (r * sin lon * cos lat) - sin eps * (r * sin lat),
      sin eps * (r * sin lon * cos lat) + cos eps * (r * sin lat)] := by
  simp only [Spec.fromEcliptic, Spec.R1]
  ext i
  match i with
  | 0 => simp
  | 1 => simp; ring
  | 2 => simp; ring

theorem obliquity_eq : Earth.OBLIQUITY_OF_ECLIPTIC = Spec.obliquity := by
  simp [Earth.OBLIQUITY_OF_ECLIPTIC, Spec.obliquity, Spec.deg, pyRadians, pyPi, mul_div_assoc]

theorem radians_deg (x : ℝ) : pyRadians x = Spec.deg x := by simp [Spec.deg, pyRadians, pyPi, mul_div_assoc]

theorem rotate_x (x y z eps : ℝ) : (⟨x, y, z⟩ : Vec3).rotate ⟨1, 0, 0⟩ eps =
    ⟨x, cos eps * y - sin eps * z, sin eps * y + cos eps * z⟩ := by
  have hm : (⟨1, 0, 0⟩ : Vec3).magnitude = 1 := Vec3.magnitude_of_dot zero_le_one (by simp [Vec3.dot])
  simp only [Vec3.rotate, hm, Vec3.rotU, Vec3.scaled, Vec3.plus, Vec3.cross, Vec3.dot]
  ext <;> simp <;> ring

theorem sin_lip (x y : ℝ) : |sin x - sin y| ≤ |x - y| := by
  have h : sin x - sin y = 2 * sin ((x - y) / 2) * cos ((x + y) / 2) := sin_sub_sin x y
  rw [h, abs_mul, abs_mul, abs_two]
  have h1 : |sin ((x - y) / 2)| ≤ |(x - y) / 2| := abs_sin_le_abs
  have h2 := abs_cos_le_one ((x + y) / 2)
  rw [abs_div, abs_two] at h1
  nlinarith [abs_nonneg (sin ((x - y) / 2)), abs_nonneg (cos ((x + y) / 2))]

/-! ## C120 -/

/-- the Sun is where the published series puts it -/
theorem C120_sun (t : Epoch) : (Sun.getPosition t).toFun = Spec.sunPosition (t.days / 36525) := by
  rw [Spec.sunPosition, fromEcliptic_eq]
  simp only [Sun.getPosition, dms_arcsec, radians_deg, Sun.W_PLUS_W, Sun.COS_OBLIQUITY, Sun.SIN_OBLIQUITY,
    obliquity_eq, pySin, pyCos, Epoch.julianCenturies_eq, Spec.sunLongitude, Spec.sunDistance]
  obtain ⟨M, hM⟩ : ∃ M, M = Spec.deg (357.5256 + 35999.049 * (t.days / 36525)) := ⟨_, rfl⟩
  have hM' : Spec.sunAnomaly (t.days / 36525) = M := by rw [hM, Spec.sunAnomaly]
  rw [← hM, hM', sin_two_mul, show Spec.arcsec 72 * 2 * sin M * cos M = Spec.arcsec 72 * (2 * sin M * cos M) by ring]
  ext i
  match i with
  | 0 => simp [Vec3.toFun]; norm_num
  | 1 => simp [Vec3.toFun]; ring
  | 2 => simp [Vec3.toFun]; ring

theorem arcsec_eq (x : ℝ) : Spec.arcsec x = x * (π / 648000) := by rw [Spec.arcsec, Spec.deg]; ring

/-- it never stands still or turns back: it advances along the ecliptic by 0.951 to 1.020 degrees a day, -/
theorem C120_advances (a b : ℝ) (h : a ≤ b) :
    Spec.deg (0.951 * (b - a)) ≤ Spec.sunLongitude (b / 36525) - Spec.sunLongitude (a / 36525) ∧
    Spec.sunLongitude (b / 36525) - Spec.sunLongitude (a / 36525) ≤ Spec.deg (1.020 * (b - a)) := by
  simp only [Spec.sunLongitude]
  obtain ⟨M, hM⟩ : ∃ M, M = Spec.sunAnomaly (a / 36525) := ⟨_, rfl⟩
  obtain ⟨N, hN⟩ : ∃ N, N = Spec.sunAnomaly (b / 36525) := ⟨_, rfl⟩
  rw [← hM, ← hN]
  have hd : N - M = 35999.049 / 36525 * (b - a) * (π / 180) := by
    rw [hM, hN, Spec.sunAnomaly, Spec.sunAnomaly, Spec.deg, Spec.deg]; ring
  have hp := pi_pos
  have hp2 := pi_lt_d4
  have hp0 : 0 ≤ (b - a) * (π / 180) := mul_nonneg (by linarith) (by positivity)
  have hd0 : 0 ≤ N - M := by rw [hd]; nlinarith
  have h1 := sin_lip N M
  have h2 := sin_lip (2 * N) (2 * M)
  rw [show 2 * N - 2 * M = 2 * (N - M) by ring, abs_mul, abs_two] at h2
  rw [abs_of_nonneg hd0] at h1 h2
  obtain ⟨h1a, h1b⟩ := abs_le.mp h1
  obtain ⟨h2a, h2b⟩ := abs_le.mp h2
  rw [arcsec_eq, arcsec_eq]
  have hk : 0 ≤ π / 648000 := by positivity
  have hk2 : π / 648000 ≤ 3.1416 / 648000 := by linarith
  obtain ⟨k, hke⟩ : ∃ k, k = π / 648000 := ⟨_, rfl⟩
  rw [← hke] at hk hk2 ⊢
  have e1 := mul_le_mul_of_nonneg_left h1a hk
  have e2 := mul_le_mul_of_nonneg_left h1b hk
  have e3 := mul_le_mul_of_nonneg_left h2a hk
  have e4 := mul_le_mul_of_nonneg_left h2b hk
  have e5 := mul_le_mul_of_nonneg_right hk2 hd0
  have hd' : N - M = 35999.049 / 36525 * ((b - a) * (π / 180)) := by rw [hd]; ring
  simp only [Spec.deg]
  constructor <;> nlinarith

/-- and returns to the same place after 365.2596 days -/
theorem C120_year (t : Epoch) :
    Sun.getPosition (t.plusDays (360 / 35999.049 * 36525)) = Sun.getPosition t := by
  have hj : (t.plusDays (360 / 35999.049 * 36525)).julianCenturies = t.julianCenturies + 360 / 35999.049 := by
    simp only [Epoch.julianCenturies, Epoch.julianValue, Epoch.plusDays, Epoch.JULIAN_CENTURY]; ring
  have hm : pyRadians (357.5256 + 35999.049 * (t.julianCenturies + 360 / 35999.049)) =
      pyRadians (357.5256 + 35999.049 * t.julianCenturies) + 2 * π := by
    simp only [pyRadians, pyPi]; ring
  simp only [Sun.getPosition, hj, hm, pySin, pyCos]
  obtain ⟨M, hM⟩ : ∃ M, M = pyRadians (357.5256 + 35999.049 * t.julianCenturies) := ⟨_, rfl⟩
  simp only [← hM]
  have e2 : cos (2 * (M + 2 * π)) = cos (2 * M) := by
    rw [show 2 * (M + 2 * π) = 2 * M + 2 * π + 2 * π by ring, cos_add_two_pi, cos_add_two_pi]
  simp only [sin_add_two_pi, cos_add_two_pi, e2]
  rw [show Sun.W_PLUS_W + (M + 2 * π) + dmsToRadians 0 0 6892 * sin M + dmsToRadians 0 0 72 * 2 * sin M * cos M
    = Sun.W_PLUS_W + M + dmsToRadians 0 0 6892 * sin M + dmsToRadians 0 0 72 * 2 * sin M * cos M + 2 * π by ring,
    sin_add_two_pi, cos_add_two_pi]

/-! ## C121, C122 -/

/-- the latitude that `Moon.get_position` computes -/
noncomputable def codeLatitude (T : ℝ) : ℝ :=
  Spec.arcsec 18520 * sin (Spec.moonF T + Spec.moonLongitude T - Spec.moonL0 T
      + Spec.arcsec 412 * sin (2 * Spec.moonF T + Spec.arcsec 541 * sin (Spec.moonL' T)))
    + Spec.arcsec (Spec.moonMinor (Spec.moonL T) (Spec.moonL' T) (Spec.moonF T) (Spec.moonD T))

theorem moon_code (t : Epoch) : ∃ m, Moon.getPosition t = .ok m ∧
    m.toFun = Spec.fromEcliptic Spec.obliquity (Spec.moonLongitude (t.days / 36525)) (codeLatitude (t.days / 36525))
      (Spec.moonDistance (t.days / 36525)) := by
  simp only [fromEcliptic_eq, Moon.getPosition, Vec3.rotationAboutAxis_ok _ x_ne, rotate_x, obliquity_eq]
  refine ⟨_, rfl, ?_⟩
  simp only [dms_arcsec, radians_deg, pySin, pyCos, Epoch.julianCenturies_eq, codeLatitude, Spec.moonLongitude,
    Spec.moonDistance, Spec.moonInequality, Spec.moonMinor]
  obtain ⟨T, hT⟩ : ∃ T, T = t.days / 36525 := ⟨_, rfl⟩
  rw [← hT]
  have e1 : Spec.deg (218.31617 + 481267.88088 * T - 1.3972 * T) = Spec.moonL0 T := rfl
  have e2 : Spec.deg (134.96292 + 477198.86753 * T) = Spec.moonL T := rfl
  have e3 : Spec.deg (357.52543 + 35999.04944 * T) = Spec.moonL' T := rfl
  have e4 : Spec.deg (93.27283 + 483202.01873 * T) = Spec.moonF T := rfl
  have e5 : Spec.deg (297.85027 + 445267.11135 * T) = Spec.moonD T := rfl
  simp only [e1, e2, e3, e4, e5, arcsec_eq]
  generalize Spec.moonL0 T = l0
  generalize Spec.moonL T = l
  generalize Spec.moonL' T = p
  generalize Spec.moonF T = f
  generalize Spec.moonD T = d
  generalize π / 648000 = k
  have e6 : (2.0 : ℝ) = 2 := by norm_num
  simp only [e6]
  obtain ⟨s, hs⟩ : ∃ s, s = l0 + (22640 * sin l + 769 * sin (2 * l) - 4586 * sin (l - 2 * d) + 2370 * sin (2 * d)
    - 668 * sin p - 412 * sin (2 * f) - 212 * sin (2 * l - 2 * d) - 206 * sin (l + p - 2 * d) + 192 * sin (l + 2 * d)
    - 165 * sin (p - 2 * d) + 148 * sin (l - p) - 125 * sin d - 110 * sin (l + p) - 55 * sin (2 * f - 2 * d)) * k :=
    ⟨_, rfl⟩
  rw [← hs]
  have hs' : l0 + 22640.0 * k * sin l + 769.0 * k * sin (2 * l) - 4586.0 * k * sin (l - 2 * d)
      + 2370.0 * k * sin (2 * d) - 668.0 * k * sin p - 412.0 * k * sin (2 * f) - 212.0 * k * sin (2 * l - 2 * d)
      - 206.0 * k * sin (l + p - 2 * d) + 192.0 * k * sin (l + 2 * d) - 165.0 * k * sin (p - 2 * d)
      + 148.0 * k * sin (l - p) - 125.0 * k * sin d - 110.0 * k * sin (l + p) - 55.0 * k * sin (2 * f - 2 * d) = s := by
    rw [hs]; norm_num only; ring
  rw [hs']
  obtain ⟨b, hb⟩ : ∃ b, b = 18520 * k * sin (f + s - l0 + 412 * k * sin (2 * f + 541 * k * sin p))
    + (-526 * sin (f - 2 * d) + 44 * sin (l + f - 2 * d) - 31 * sin (-l + f - 2 * d) - 25 * sin (-2 * l + f)
    - 23 * sin (p + f - 2 * d) + 21 * sin (-l + f) + 11 * sin (-p + f - 2 * d)) * k := ⟨_, rfl⟩
  rw [← hb]
  have hb' : 18520.0 * k * sin (f + s - l0 + 412.0 * k * sin (2 * f + 541.0 * k * sin p)) - 526.0 * k * sin (f - 2 * d)
      + 44.0 * k * sin (l + f - 2 * d) - 31.0 * k * sin (-l + f - 2 * d) - 25.0 * k * sin (-2 * l + f)
      - 23.0 * k * sin (p + f - 2 * d) + 21.0 * k * sin (-l + f) + 11.0 * k * sin (-p + f - 2 * d) = b := by
    rw [hb]; norm_num only; ring
  rw [hb']
  norm_num only
  rfl

theorem pi_k : 3.1415 / 648000 ≤ π / 648000 ∧ π / 648000 ≤ 3.1416 / 648000 ∧ 0 < π / 648000 :=
  ⟨by linarith [pi_gt_d4], by linarith [pi_lt_d4], by linarith [pi_pos]⟩

/-- the distance of two points at the same longitude and distance -/
theorem meridian_distance (eps lon b c r : ℝ) :
    ∑ i, (Spec.fromEcliptic eps lon b r i - Spec.fromEcliptic eps lon c r i) ^ 2 =
      (2 * r * sin ((b - c) / 2)) ^ 2 := by
  simp only [fromEcliptic_eq, Fin.sum_univ_three]
  simp
  have h1 := sin_sub_sin b c
  have h2 := cos_sub_cos b c
  have h3 := sin_sq_add_cos_sq eps
  have h4 := sin_sq_add_cos_sq lon
  have h5 := sin_sq_add_cos_sq ((b + c) / 2)
  have e1 : sin b = sin c + 2 * sin ((b - c) / 2) * cos ((b + c) / 2) := by linarith
  have e2 : cos b = cos c - 2 * sin ((b + c) / 2) * sin ((b - c) / 2) := by linarith
  rw [e1, e2]
  generalize sin ((b - c) / 2) = u
  generalize sin ((b + c) / 2) = p at *
  generalize cos ((b + c) / 2) = q at *
  generalize sin lon = v at *
  generalize cos lon = w at *
  generalize sin eps = x at *
  generalize cos eps = y at *
  linear_combination (4 * r ^ 2 * u ^ 2 * (v ^ 2 * p ^ 2 + q ^ 2)) * h3 + (4 * r ^ 2 * u ^ 2 * p ^ 2) * h4 +
    (4 * r ^ 2 * u ^ 2) * h5

theorem moonDistance_bounds (T : ℝ) : 356096 ≤ Spec.moonDistance T ∧ Spec.moonDistance T ≤ 413904 := by
  rw [Spec.moonDistance]
  generalize Spec.moonL T = l
  generalize Spec.moonL' T = p
  generalize Spec.moonD T = d
  constructor
  · linarith [cos_le_one l, cos_le_one (2 * d - l), cos_le_one (2 * d), cos_le_one (2 * l),
      neg_one_le_cos (2 * l - 2 * d), cos_le_one (p - 2 * d), cos_le_one (l + 2 * d), cos_le_one (l + p - 2 * d)]
  · linarith [neg_one_le_cos l, neg_one_le_cos (2 * d - l), neg_one_le_cos (2 * d), neg_one_le_cos (2 * l),
      cos_le_one (2 * l - 2 * d), neg_one_le_cos (p - 2 * d), neg_one_le_cos (l + 2 * d),
      neg_one_le_cos (l + p - 2 * d)]

/-- how far the two latitudes can be apart -/
theorem latitude_error (T : ℝ) : |codeLatitude T - Spec.moonLatitude T| ≤ Spec.arcsec 48.68 := by
  obtain ⟨hk1, hk2, hk0⟩ := pi_k
  simp only [codeLatitude, Spec.moonLatitude, arcsec_eq]
  obtain ⟨k, hke⟩ : ∃ k, k = π / 648000 := ⟨_, rfl⟩
  simp only [← hke] at hk1 hk2 hk0 ⊢
  rw [add_sub_add_right_eq_sub, ← mul_sub, abs_mul, abs_of_nonneg (by positivity)]
  obtain ⟨s, hs⟩ : ∃ s, s = sin (Spec.moonL' T) := ⟨_, rfl⟩
  have hs1 : |s| ≤ 1 := hs ▸ abs_sin_le_one _
  rw [← hs]
  generalize Spec.moonF T + Spec.moonLongitude T - Spec.moonL0 T = S
  generalize 2 * Spec.moonF T = F
  have h1 := sin_lip (S + 412 * k * sin (F + 541 * k * s)) (S + 412 * k * sin F + 541 * k * s)
  have h2 := sin_lip (F + 541 * k * s) F
  rw [add_sub_cancel_left] at h2
  have h3 : |541 * k * s| ≤ 541 * k := by
    rw [abs_mul, abs_of_nonneg (by positivity)]
    nlinarith
  have h4 : |S + 412 * k * sin (F + 541 * k * s) - (S + 412 * k * sin F + 541 * k * s)| ≤
      412 * k * (541 * k) + 541 * k := by
    rw [show S + 412 * k * sin (F + 541 * k * s) - (S + 412 * k * sin F + 541 * k * s) =
      412 * k * (sin (F + 541 * k * s) - sin F) - 541 * k * s by ring]
    refine (abs_sub _ _).trans (add_le_add ?_ h3)
    rw [abs_mul, abs_of_nonneg (by positivity)]
    exact mul_le_mul_of_nonneg_left (h2.trans h3) (by positivity)
  have h5 := mul_le_mul_of_nonneg_left (h1.trans h4) (by positivity : 0 ≤ 18520 * k)
  refine h5.trans ?_
  have h6 : k * k ≤ 3.1416 / 648000 * (3.1416 / 648000) := mul_le_mul hk2 hk2 hk0.le (by norm_num)
  have h7 : 18520 * (412 * 541 * (k * k) + 541 * k) ≤ 48.68 := by linarith
  nlinarith

/-- `Moon.get_position` always succeeds; the Moon has the longitude and the distance of the published series, its
latitude is within 48.7 seconds of arc and the position within 98 km -/
theorem C121_partial (t : Epoch) : ∃ m β, Moon.getPosition t = .ok m ∧
    m.toFun = Spec.fromEcliptic Spec.obliquity (Spec.moonLongitude (t.days / 36525)) β
      (Spec.moonDistance (t.days / 36525)) ∧
    |β - Spec.moonLatitude (t.days / 36525)| ≤ Spec.arcsec 48.7 ∧
    ∑ i, (m.toFun i - Spec.moonPosition (t.days / 36525) i) ^ 2 ≤ 98 ^ 2 := by
  obtain ⟨m, h1, h2⟩ := moon_code t
  obtain ⟨hk1, hk2, hk0⟩ := pi_k
  have h3 := latitude_error (t.days / 36525)
  refine ⟨m, _, h1, h2, h3.trans (by rw [arcsec_eq, arcsec_eq]; linarith), ?_⟩
  rw [h2, Spec.moonPosition, meridian_distance]
  obtain ⟨hr1, hr2⟩ := moonDistance_bounds (t.days / 36525)
  rw [arcsec_eq] at h3
  generalize Spec.moonDistance (t.days / 36525) = r at *
  generalize codeLatitude (t.days / 36525) - Spec.moonLatitude (t.days / 36525) = x at *
  have h4 : |sin (x / 2)| ≤ |x / 2| := abs_sin_le_abs
  rw [abs_div, abs_two] at h4
  apply sq_le_sq'
  all_goals obtain ⟨h5, h6⟩ := abs_le.mp (h4.trans (by linarith : |x| / 2 ≤ 48.68 * (3.1416 / 648000) / 2))
  all_goals nlinarith

theorem moonInequality_bound (l p F D : ℝ) : |Spec.moonInequality l p F D| ≤ 32658 := by
  rw [Spec.moonInequality, abs_le]
  constructor
  · linarith [neg_one_le_sin l, neg_one_le_sin (2 * l), sin_le_one (l - 2 * D), neg_one_le_sin (2 * D), sin_le_one p,
      sin_le_one (2 * F), sin_le_one (2 * l - 2 * D), sin_le_one (l + p - 2 * D), neg_one_le_sin (l + 2 * D),
      sin_le_one (p - 2 * D), neg_one_le_sin (l - p), sin_le_one D, sin_le_one (l + p), sin_le_one (2 * F - 2 * D)]
  · linarith [sin_le_one l, sin_le_one (2 * l), neg_one_le_sin (l - 2 * D), sin_le_one (2 * D), neg_one_le_sin p,
      neg_one_le_sin (2 * F), neg_one_le_sin (2 * l - 2 * D), neg_one_le_sin (l + p - 2 * D), sin_le_one (l + 2 * D),
      neg_one_le_sin (p - 2 * D), sin_le_one (l - p), neg_one_le_sin D, neg_one_le_sin (l + p),
      neg_one_le_sin (2 * F - 2 * D)]

/-- 5 April 2022, when the mean anomaly of the Sun is ninety degrees -/
noncomputable def moonEpoch : Epoch := ⟨51544.5 + 36525 * (8012.47457 / 35999.04944)⟩

theorem moonEpoch_T : moonEpoch.days / 36525 = 8012.47457 / 35999.04944 := by
  simp only [Epoch.days, moonEpoch]; ring

/-- the latitudes at that epoch -/
theorem latitude_differs : Spec.arcsec 47 ≤
    Spec.moonLatitude (8012.47457 / 35999.04944) - codeLatitude (8012.47457 / 35999.04944) := by
  obtain ⟨hk1, hk2, hk0⟩ := pi_k
  have hL : sin (Spec.moonL' (8012.47457 / 35999.04944)) = 1 := by
    rw [show Spec.moonL' (8012.47457 / 35999.04944) = π / 2 + (23 : ℕ) * (2 * π) by
      rw [Spec.moonL', Spec.deg]; push_cast; ring, sin_add_nat_mul_two_pi, sin_pi_div_two]
  simp only [codeLatitude, Spec.moonLatitude]
  rw [add_sub_add_right_eq_sub, ← mul_sub, hL, mul_one]
  obtain ⟨S, hS⟩ : ∃ S, S = Spec.moonF (8012.47457 / 35999.04944) + Spec.moonLongitude (8012.47457 / 35999.04944)
    - Spec.moonL0 (8012.47457 / 35999.04944) := ⟨_, rfl⟩
  obtain ⟨e, he⟩ : ∃ e, e = S - (299 : ℕ) * (2 * π) := ⟨_, rfl⟩
  have he1 : |e| ≤ 0.19 := by
    rw [he, hS, Spec.moonLongitude, Spec.moonF]
    have h := moonInequality_bound (Spec.moonL (8012.47457 / 35999.04944)) (Spec.moonL' (8012.47457 / 35999.04944))
      (Spec.moonF (8012.47457 / 35999.04944)) (Spec.moonD (8012.47457 / 35999.04944))
    rw [← Spec.moonF]
    generalize Spec.moonInequality _ _ _ _ = y at h
    rw [Spec.moonF, arcsec_eq, Spec.deg]
    obtain ⟨h1, h2⟩ := abs_le.mp h
    have h3 : π / 648000 * y ≤ π / 648000 * 32658 := mul_le_mul_of_nonneg_left h2 hk0.le
    have h4 : π / 648000 * -32658 ≤ π / 648000 * y := mul_le_mul_of_nonneg_left h1 hk0.le
    have hp := pi_gt_d4
    have hp2 := pi_lt_d4
    rw [abs_le]
    push_cast
    constructor <;> linarith
  rw [← hS]
  simp only [arcsec_eq]
  obtain ⟨k, hke⟩ : ∃ k, k = π / 648000 := ⟨_, rfl⟩
  simp only [← hke] at hk1 hk2 hk0 ⊢
  generalize 2 * Spec.moonF (8012.47457 / 35999.04944) = F
  have h2 := sin_lip (F + 541 * k) F
  rw [add_sub_cancel_left, abs_of_nonneg (by positivity : 0 ≤ 541 * k)] at h2
  obtain ⟨g, hg⟩ : ∃ g, g = sin (F + 541 * k) - sin F := ⟨_, rfl⟩
  have hs1 := abs_le.mp (abs_sin_le_one F)
  rw [← hg] at h2
  rw [show sin (F + 541 * k) = sin F + g by rw [hg]; ring]
  rw [sin_sub_sin]
  have hx : (S + 412 * k * sin F + 541 * k - (S + 412 * k * (sin F + g))) / 2 = (541 * k - 412 * k * g) / 2 := by ring
  have hy : (S + 412 * k * sin F + 541 * k + (S + 412 * k * (sin F + g))) / 2 =
      e + 412 * k * sin F + 541 / 2 * k + 206 * k * g + (299 : ℕ) * (2 * π) := by rw [he]; ring
  rw [hx, hy, cos_add_nat_mul_two_pi]
  obtain ⟨g1, g2⟩ := abs_le.mp h2
  have hkg1 : k * (-(541 * k)) ≤ k * g := mul_le_mul_of_nonneg_left g1 hk0.le
  have hkg2 : k * g ≤ k * (541 * k) := mul_le_mul_of_nonneg_left g2 hk0.le
  have hkk : k * k ≤ k * (3.1416 / 648000) := mul_le_mul_of_nonneg_left hk2 hk0.le
  have hkF1 : k * (-1) ≤ k * sin F := mul_le_mul_of_nonneg_left hs1.1 hk0.le
  have hkF2 : k * sin F ≤ k * 1 := mul_le_mul_of_nonneg_left hs1.2 hk0.le
  obtain ⟨e1, e2⟩ := abs_le.mp he1
  have hc : 0.98 ≤ cos (e + 412 * k * sin F + 541 / 2 * k + 206 * k * g) := by
    have hb : |e + 412 * k * sin F + 541 / 2 * k + 206 * k * g| ≤ 0.195 := by
      rw [abs_le]; constructor <;> linarith
    have hq := one_sub_sq_div_two_le_cos (x := e + 412 * k * sin F + 541 / 2 * k + 206 * k * g)
    have hb2 := sq_le_sq' (abs_le.mp hb).1 (abs_le.mp hb).2
    linarith
  obtain ⟨z, hz⟩ : ∃ z, z = (541 * k - 412 * k * g) / 2 := ⟨_, rfl⟩
  rw [← hz]
  have hz1 : 269.9 * k ≤ z := by linarith
  have hz2 : z ≤ 0.002 := by linarith
  have hz0 : 0 < z := by linarith
  have hsz : z - z ^ 3 / 6 < sin z := sin_gt_sub_cube hz0
  have hsz' : 0.99999 * z ≤ sin z := by
    have : z ^ 3 ≤ z * (0.002 * 0.002) := by
      rw [pow_succ, pow_two, mul_assoc]
      exact mul_le_mul_of_nonneg_left (mul_le_mul hz2 hz2 hz0.le (by norm_num)) hz0.le
    linarith
  have hs0 : 269.89 * k ≤ sin z := by linarith
  have hprod : 269.89 * k * 0.98 ≤ sin z * cos (e + 412 * k * sin F + 541 / 2 * k + 206 * k * g) :=
    mul_le_mul hs0 hc (by norm_num) (by linarith)
  have hfin := mul_le_mul_of_nonneg_left hprod (by positivity : 0 ≤ 18520 * k * 2)
  have hkk' : k * (3.1415 / 648000) ≤ k * k := mul_le_mul_of_nonneg_left hk1 hk0.le
  nlinarith

/-- the Moon is not where the published series puts it: 80 km off on 5 April 2022 -/
theorem C121_violated : ∃ t m, Moon.getPosition t = .ok m ∧
    80 ^ 2 ≤ ∑ i, (m.toFun i - Spec.moonPosition (t.days / 36525) i) ^ 2 := by
  obtain ⟨m, h1, h2⟩ := moon_code moonEpoch
  refine ⟨moonEpoch, m, h1, ?_⟩
  rw [h2, Spec.moonPosition, meridian_distance, moonEpoch_T]
  have h3 := latitude_differs
  have h4 := latitude_error (8012.47457 / 35999.04944)
  obtain ⟨hr1, hr2⟩ := moonDistance_bounds (8012.47457 / 35999.04944)
  obtain ⟨hk1, hk2, hk0⟩ := pi_k
  rw [arcsec_eq] at h3 h4
  generalize Spec.moonDistance (8012.47457 / 35999.04944) = r at *
  rw [show (codeLatitude (8012.47457 / 35999.04944) - Spec.moonLatitude (8012.47457 / 35999.04944)) / 2 =
    -((Spec.moonLatitude (8012.47457 / 35999.04944) - codeLatitude (8012.47457 / 35999.04944)) / 2) by ring, sin_neg]
  rw [abs_sub_comm] at h4
  obtain ⟨h5, h6⟩ := abs_le.mp h4
  generalize Spec.moonLatitude (8012.47457 / 35999.04944) - codeLatitude (8012.47457 / 35999.04944) = x at *
  have hx0 : 0 < x / 2 := by linarith
  have hx1 : x / 2 ≤ 0.001 := by linarith
  have hsz : x / 2 - (x / 2) ^ 3 / 6 < sin (x / 2) := sin_gt_sub_cube hx0
  have hc : (x / 2) ^ 3 ≤ x / 2 * (0.001 * 0.001) := by
    rw [pow_succ, pow_two, mul_assoc]
    exact mul_le_mul_of_nonneg_left (mul_le_mul hx1 hx1 hx0.le (by norm_num)) hx0.le
  have hs : 46.9 * (3.1415 / 648000) / 2 ≤ sin (x / 2) := by linarith
  have hm : 356096 * (46.9 * (3.1415 / 648000) / 2) ≤ r * sin (x / 2) := mul_le_mul hr1 hs (by norm_num) (by linarith)
  have : 80 ≤ 2 * r * sin (x / 2) := by linarith
  rw [show (2 * r * -sin (x / 2)) ^ 2 = (2 * r * sin (x / 2)) ^ 2 by ring]
  exact pow_le_pow_left₀ (by norm_num) this 2

/-! ## C122 -/

theorem sin_lip_of {a b w δ : ℝ} (h : b - a = w * δ ∨ b - a = -(w * δ)) (hd : 0 ≤ w * δ) :
    -(w * δ) ≤ sin b - sin a ∧ sin b - sin a ≤ w * δ := by
  have h1 := sin_lip b a
  have h2 : |b - a| = w * δ := by rcases h with h | h <;> simp [h, abs_of_nonneg hd]
  rw [h2] at h1
  exact abs_le.mp h1

/-- how fast the periodic part of the longitude can change -/
theorem inequality_lip {l p F D l' p' F' D' δ : ℝ} (hd : 0 ≤ δ) (hl : l' - l = 477198.86753 * δ)
    (hp : p' - p = 35999.04944 * δ) (hF : F' - F = 483202.01873 * δ) (hD : D' - D = 445267.11135 * δ) :
    |Spec.moonInequality l' p' F' D' - Spec.moonInequality l p F D| ≤ 16642500000 * δ := by
  obtain ⟨a1, b1⟩ := sin_lip_of (δ := δ) (a := l) (b := l') (w := 477198.86753) (.inl (by linarith)) (by positivity)
  obtain ⟨a2, b2⟩ := sin_lip_of (δ := δ) (a := 2 * l) (b := 2 * l') (w := 954397.73506) (.inl (by linarith)) (by positivity)
  obtain ⟨a3, b3⟩ := sin_lip_of (δ := δ) (a := l - 2 * D) (b := l' - 2 * D') (w := 413335.35517) (.inr (by linarith)) (by positivity)
  obtain ⟨a4, b4⟩ := sin_lip_of (δ := δ) (a := 2 * D) (b := 2 * D') (w := 890534.2227) (.inl (by linarith)) (by positivity)
  obtain ⟨a5, b5⟩ := sin_lip_of (δ := δ) (a := p) (b := p') (w := 35999.04944) (.inl (by linarith)) (by positivity)
  obtain ⟨a6, b6⟩ := sin_lip_of (δ := δ) (a := 2 * F) (b := 2 * F') (w := 966404.03746) (.inl (by linarith)) (by positivity)
  obtain ⟨a7, b7⟩ := sin_lip_of (δ := δ) (a := 2 * l - 2 * D) (b := 2 * l' - 2 * D') (w := 63863.51236) (.inl (by linarith)) (by positivity)
  obtain ⟨a8, b8⟩ := sin_lip_of (δ := δ) (a := l + p - 2 * D) (b := l' + p' - 2 * D') (w := 377336.30573) (.inr (by linarith)) (by positivity)
  obtain ⟨a9, b9⟩ := sin_lip_of (δ := δ) (a := l + 2 * D) (b := l' + 2 * D') (w := 1367733.09023) (.inl (by linarith)) (by positivity)
  obtain ⟨a10, b10⟩ := sin_lip_of (δ := δ) (a := p - 2 * D) (b := p' - 2 * D') (w := 854535.17326) (.inr (by linarith)) (by positivity)
  obtain ⟨a11, b11⟩ := sin_lip_of (δ := δ) (a := l - p) (b := l' - p') (w := 441199.81809) (.inl (by linarith)) (by positivity)
  obtain ⟨a12, b12⟩ := sin_lip_of (δ := δ) (a := D) (b := D') (w := 445267.11135) (.inl (by linarith)) (by positivity)
  obtain ⟨a13, b13⟩ := sin_lip_of (δ := δ) (a := l + p) (b := l' + p') (w := 513197.91697) (.inl (by linarith)) (by positivity)
  obtain ⟨a14, b14⟩ := sin_lip_of (δ := δ) (a := 2 * F - 2 * D) (b := 2 * F' - 2 * D') (w := 75869.81476) (.inl (by linarith)) (by positivity)
  rw [Spec.moonInequality, Spec.moonInequality, abs_le]
  constructor <;> linarith

/-- the Moon advances along the ecliptic by 10.9 to 15.4 degrees a day, -/
theorem C122_advances (a b : ℝ) (h : a ≤ b) :
    Spec.deg (10.9 * (b - a)) ≤ Spec.moonLongitude (b / 36525) - Spec.moonLongitude (a / 36525) ∧
    Spec.moonLongitude (b / 36525) - Spec.moonLongitude (a / 36525) ≤ Spec.deg (15.4 * (b - a)) := by
  obtain ⟨hk1, hk2, hk0⟩ := pi_k
  have hd : 0 ≤ (b - a) / 36525 * (π / 180) :=
    mul_nonneg (div_nonneg (by linarith) (by norm_num)) (by linarith [pi_pos])
  obtain ⟨δ, hδ⟩ : ∃ δ, δ = (b - a) / 36525 * (π / 180) := ⟨_, rfl⟩
  rw [← hδ] at hd
  have hq := inequality_lip (l := Spec.moonL (a / 36525)) (p := Spec.moonL' (a / 36525)) (F := Spec.moonF (a / 36525))
    (D := Spec.moonD (a / 36525)) (l' := Spec.moonL (b / 36525)) (p' := Spec.moonL' (b / 36525))
    (F' := Spec.moonF (b / 36525)) (D' := Spec.moonD (b / 36525)) hd
    (by simp only [Spec.moonL, Spec.deg, hδ]; ring) (by simp only [Spec.moonL', Spec.deg, hδ]; ring)
    (by simp only [Spec.moonF, Spec.deg, hδ]; ring) (by simp only [Spec.moonD, Spec.deg, hδ]; ring)
  simp only [Spec.moonLongitude, arcsec_eq]
  generalize Spec.moonInequality (Spec.moonL (a / 36525)) _ _ _ = x at *
  generalize Spec.moonInequality _ _ _ _ = y at *
  have hl : Spec.moonL0 (b / 36525) - Spec.moonL0 (a / 36525) = (481267.88088 - 1.3972) * δ := by
    simp only [Spec.moonL0, Spec.deg, hδ]; ring
  have h1 : Spec.deg (10.9 * (b - a)) = 10.9 * 36525 * δ := by simp only [Spec.deg, hδ]; ring
  have h2 : Spec.deg (15.4 * (b - a)) = 15.4 * 36525 * δ := by simp only [Spec.deg, hδ]; ring
  obtain ⟨q1, q2⟩ := abs_le.mp hq
  have e1 := mul_le_mul_of_nonneg_left q1 hk0.le
  have e2 := mul_le_mul_of_nonneg_left q2 hk0.le
  have e3 := mul_le_mul_of_nonneg_right hk2 hd
  rw [h1, h2]
  constructor <;> linarith

/-- and it stays within 5.34 degrees of the ecliptic: its position is the point at the longitude of
`C122_advances`, at a latitude so bounded, at the distance of C30 -/
theorem C122_latitude (t : Epoch) : ∃ m β r, Moon.getPosition t = .ok m ∧
    m.toFun = Spec.fromEcliptic Spec.obliquity (Spec.moonLongitude (t.days / 36525)) β r ∧
    |β| ≤ Spec.deg 5.34 ∧ 356096 ≤ r ∧ r ≤ 413904 := by
  obtain ⟨m, h1, h2⟩ := moon_code t
  refine ⟨m, _, _, h1, h2, ?_, moonDistance_bounds _⟩
  rw [codeLatitude, Spec.moonMinor, Spec.deg]
  simp only [arcsec_eq]
  generalize Spec.moonL (t.days / 36525) = l
  generalize Spec.moonD (t.days / 36525) = d
  generalize Spec.moonF (t.days / 36525) + _ - _ + _ = y
  generalize Spec.moonF (t.days / 36525) = f
  generalize Spec.moonL' (t.days / 36525) = p
  rw [show 18520 * (π / 648000) * sin y + (-526 * sin (f - 2 * d) + 44 * sin (l + f - 2 * d)
    - 31 * sin (-l + f - 2 * d) - 25 * sin (-2 * l + f) - 23 * sin (p + f - 2 * d) + 21 * sin (-l + f)
    + 11 * sin (-p + f - 2 * d)) * (π / 648000) = (18520 * sin y - 526 * sin (f - 2 * d) + 44 * sin (l + f - 2 * d)
    - 31 * sin (-l + f - 2 * d) - 25 * sin (-2 * l + f) - 23 * sin (p + f - 2 * d) + 21 * sin (-l + f)
    + 11 * sin (-p + f - 2 * d)) * (π / 648000) by ring, abs_mul, abs_of_pos pi_k.2.2]
  have hb : |18520 * sin y - 526 * sin (f - 2 * d) + 44 * sin (l + f - 2 * d)
    - 31 * sin (-l + f - 2 * d) - 25 * sin (-2 * l + f) - 23 * sin (p + f - 2 * d) + 21 * sin (-l + f)
    + 11 * sin (-p + f - 2 * d)| ≤ 19201 := by
    rw [abs_le]
    constructor
    · linarith [neg_one_le_sin y, sin_le_one (f - 2 * d), neg_one_le_sin (l + f - 2 * d), sin_le_one (-l + f - 2 * d),
        sin_le_one (-2 * l + f), sin_le_one (p + f - 2 * d), neg_one_le_sin (-l + f), neg_one_le_sin (-p + f - 2 * d)]
    · linarith [sin_le_one y, neg_one_le_sin (f - 2 * d), sin_le_one (l + f - 2 * d), neg_one_le_sin (-l + f - 2 * d),
        neg_one_le_sin (-2 * l + f), neg_one_le_sin (p + f - 2 * d), sin_le_one (-l + f), sin_le_one (-p + f - 2 * d)]
  have := mul_le_mul_of_nonneg_right hb pi_k.2.2.le
  linarith [pi_pos]

/-- between J2000 and 30 days later the Moon gains more than 326 degrees and the Sun less than 31 -/
example : Spec.deg 326 ≤ Spec.moonLongitude (30 / 36525) - Spec.moonLongitude 0 ∧
    Spec.sunLongitude (30 / 36525) - Spec.sunLongitude 0 ≤ Spec.deg 31 := by
  have h1 := (C122_advances 0 30 (by norm_num)).1
  have h2 := (C120_advances 0 30 (by norm_num)).2
  simp only [Spec.deg, zero_div] at *
  constructor <;> linarith [pi_pos]

end Openspace
