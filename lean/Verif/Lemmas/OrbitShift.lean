import Verif.Props.KeplerMotion
import Verif.Lemmas.DoubleFrames
import Verif.Lemmas.DoubleElementAngles

/-!
# How the point and the velocity of an orbit change with its elements
-/

namespace Openspace

open Real

/-- rotation about the third axis -/
noncomputable def turnZ (t : ℝ) (v : Vec3) : Vec3 := ⟨cos t * v.x - sin t * v.y, sin t * v.x + cos t * v.y, v.z⟩

/-- rotation about the first axis -/
noncomputable def turnX (t : ℝ) (v : Vec3) : Vec3 := ⟨v.x, cos t * v.y - sin t * v.z, sin t * v.y + cos t * v.z⟩

theorem magnitude_le_of_dot {v : Vec3} {k : ℝ} (hk : 0 ≤ k) (h : v.dot v ≤ k ^ 2) : v.magnitude ≤ k := by
  refine (abs_le_of_sq_le_sq' ?_ hk).2
  rw [Vec3.magnitude_sq_dot]; exact h

theorem magnitude_eq_of_dot {v w : Vec3} (h : v.dot v = w.dot w) : v.magnitude = w.magnitude :=
  Vec3.magnitude_of_dot w.magnitude_nonneg (by rw [h, ← Vec3.magnitude_sq_dot])

theorem turnZ_iso (t : ℝ) (v w : Vec3) : ((turnZ t v).minus (turnZ t w)).magnitude = (v.minus w).magnitude := by
  apply magnitude_eq_of_dot
  simp only [turnZ, Vec3.minus, Vec3.dot]
  linear_combination ((v.x - w.x) ^ 2 + (v.y - w.y) ^ 2) * sin_sq_add_cos_sq t

theorem turnX_iso (t : ℝ) (v w : Vec3) : ((turnX t v).minus (turnX t w)).magnitude = (v.minus w).magnitude := by
  apply magnitude_eq_of_dot
  simp only [turnX, Vec3.minus, Vec3.dot]
  linear_combination ((v.y - w.y) ^ 2 + (v.z - w.z) ^ 2) * sin_sq_add_cos_sq t

theorem turnZ_magnitude (t : ℝ) (v : Vec3) : (turnZ t v).magnitude = v.magnitude := by
  apply magnitude_eq_of_dot
  simp only [turnZ, Vec3.dot]
  linear_combination (v.x ^ 2 + v.y ^ 2) * sin_sq_add_cos_sq t

theorem turnX_magnitude (t : ℝ) (v : Vec3) : (turnX t v).magnitude = v.magnitude := by
  apply magnitude_eq_of_dot
  simp only [turnX, Vec3.dot]
  linear_combination (v.y ^ 2 + v.z ^ 2) * sin_sq_add_cos_sq t

/-- the chord between two points of a circle -/
theorem chord_near {s t d : ℝ} (h : Spec.AngleNear s t d) :
    0 ≤ d ∧ (cos s - cos t) ^ 2 + (sin s - sin t) ^ 2 ≤ d ^ 2 := by
  obtain ⟨k, hk⟩ := h
  have d0 : 0 ≤ d := (abs_nonneg _).trans hk
  refine ⟨d0, ?_⟩
  rw [← cos_turn t k, ← sin_turn t k]
  have h1 := chord_le s (t + 2 * π * k)
  rw [cos_sub] at h1
  have h2 : (s - (t + 2 * π * k)) ^ 2 ≤ d ^ 2 := sq_le_sq' (abs_le.mp hk).1 (abs_le.mp hk).2
  nlinarith [sin_sq_add_cos_sq s, sin_sq_add_cos_sq (t + 2 * π * k)]

theorem turnZ_shift {s t d : ℝ} (h : Spec.AngleNear s t d) (v : Vec3) :
    ((turnZ s v).minus (turnZ t v)).magnitude ≤ d * v.magnitude := by
  obtain ⟨d0, hc⟩ := chord_near h
  refine magnitude_le_of_dot (mul_nonneg d0 v.magnitude_nonneg) ?_
  rw [mul_pow, Vec3.magnitude_sq_dot]
  simp only [turnZ, Vec3.minus, Vec3.dot]
  have h1 : ((cos s - cos t) ^ 2 + (sin s - sin t) ^ 2) * (v.x ^ 2 + v.y ^ 2) ≤ d ^ 2 * (v.x ^ 2 + v.y ^ 2) :=
    mul_le_mul_of_nonneg_right hc (by positivity)
  have h2 : 0 ≤ d ^ 2 * v.z ^ 2 := by positivity
  linarith

theorem turnX_shift {s t d : ℝ} (h : Spec.AngleNear s t d) (v : Vec3) :
    ((turnX s v).minus (turnX t v)).magnitude ≤ d * v.magnitude := by
  obtain ⟨d0, hc⟩ := chord_near h
  refine magnitude_le_of_dot (mul_nonneg d0 v.magnitude_nonneg) ?_
  rw [mul_pow, Vec3.magnitude_sq_dot]
  simp only [turnX, Vec3.minus, Vec3.dot]
  have h1 : ((cos s - cos t) ^ 2 + (sin s - sin t) ^ 2) * (v.y ^ 2 + v.z ^ 2) ≤ d ^ 2 * (v.y ^ 2 + v.z ^ 2) :=
    mul_le_mul_of_nonneg_right hc (by positivity)
  have h2 : 0 ≤ d ^ 2 * v.x ^ 2 := by positivity
  linarith

/-- from the perifocal axes to the axes of the elements -/
noncomputable def orient (el : ClassicalElements) (v : Vec3) : Vec3 :=
  turnZ el.raan (turnX el.inclination (turnZ el.argument_of_perigee v))

theorem orient_plane (el : ClassicalElements) (x y : ℝ) :
    (el.dirP.scaled x).plus (el.semilatusRectumVector.scaled y) = orient el ⟨x, y, 0⟩ := by
  ext <;> simp [ClassicalElements.dirP, ClassicalElements.semilatusRectumVector, orient, turnZ, turnX, Vec3.plus,
    Vec3.scaled, pyCos, pySin] <;> ring

theorem orient_magnitude (el : ClassicalElements) (v : Vec3) : (orient el v).magnitude = v.magnitude := by
  rw [orient, turnZ_magnitude, turnX_magnitude, turnZ_magnitude]

/-- a vector given in slightly different axes by slightly different components -/
theorem orient_shift {el' el : ClassicalElements} {dO di dw : ℝ} (hO : Spec.AngleNear el'.raan el.raan dO)
    (hi : Spec.AngleNear el'.inclination el.inclination di)
    (hw : Spec.AngleNear el'.argument_of_perigee el.argument_of_perigee dw) (v' v : Vec3) :
    ((orient el' v').minus (orient el v)).magnitude ≤ (v'.minus v).magnitude + (dO + di + dw) * v.magnitude := by
  have t1 := F64.minus_triangle (orient el' v') (orient el' v) (orient el v)
  have e1 : ((orient el' v').minus (orient el' v)).magnitude = (v'.minus v).magnitude := by
    simp only [orient]; rw [turnZ_iso, turnX_iso, turnZ_iso]
  rw [e1] at t1
  have t2 := F64.minus_triangle (orient el' v)
    (turnZ el'.raan (turnX el'.inclination (turnZ el.argument_of_perigee v))) (orient el v)
  have t3 := F64.minus_triangle (turnZ el'.raan (turnX el'.inclination (turnZ el.argument_of_perigee v)))
    (turnZ el'.raan (turnX el.inclination (turnZ el.argument_of_perigee v))) (orient el v)
  have s1 := turnZ_shift hw v
  have s2 := turnX_shift hi (turnZ el.argument_of_perigee v)
  have s3 := turnZ_shift hO (turnX el.inclination (turnZ el.argument_of_perigee v))
  rw [turnZ_magnitude] at s2
  rw [turnX_magnitude, turnZ_magnitude] at s3
  rw [orient, turnZ_iso, turnX_iso] at t2
  rw [turnZ_iso] at t3
  simp only [orient] at t1 t2 t3 ⊢
  linarith

theorem magnitude_plane (x y : ℝ) : (Vec3.mk x y 0).magnitude ^ 2 = x ^ 2 + y ^ 2 := by
  rw [Vec3.magnitude_sq_dot]; simp only [Vec3.dot]; ring

theorem magnitude_plane_le (x y : ℝ) : (Vec3.mk x y 0).magnitude ≤ |x| + |y| := by
  refine magnitude_le_of_dot (by positivity) ?_
  simp only [Vec3.dot]
  nlinarith [abs_nonneg x, abs_nonneg y, sq_abs x, sq_abs y, mul_nonneg (abs_nonneg x) (abs_nonneg y)]

/-- the perifocal components of the point, in units of the semi-major axis -/
theorem plane_point {e b E e' b' E' dE : ℝ} (hb : 0 ≤ b) (hb1 : b ≤ 1) (h : Spec.AngleNear E' E dE) :
    ((Vec3.mk (cos E' - e') (b' * sin E') 0).minus ⟨cos E - e, b * sin E, 0⟩).magnitude ≤ dE + |e' - e| + |b' - b| := by
  obtain ⟨d0, hc⟩ := chord_near h
  have e1 : (Vec3.mk (cos E' - e') (b' * sin E') 0).minus ⟨cos E - e, b * sin E, 0⟩
      = (Vec3.mk (cos E' - cos E) (b * (sin E' - sin E)) 0).plus ⟨-(e' - e), (b' - b) * sin E', 0⟩ := by
    ext <;> simp [Vec3.minus, Vec3.plus] <;> ring
  rw [e1]
  refine (Vec3.magnitude_plus_le _ _).trans ?_
  have h1 : (Vec3.mk (cos E' - cos E) (b * (sin E' - sin E)) 0).magnitude ≤ dE := by
    refine magnitude_le_of_dot d0 ?_
    simp only [Vec3.dot]
    have hbb : b ^ 2 ≤ 1 := pow_le_one₀ hb hb1
    have : b ^ 2 * (sin E' - sin E) ^ 2 ≤ 1 * (sin E' - sin E) ^ 2 := by gcongr
    linarith
  have h2 := magnitude_plane_le (-(e' - e)) ((b' - b) * sin E')
  rw [abs_neg, abs_mul] at h2
  have h3 : |b' - b| * |sin E'| ≤ |b' - b| * 1 := by gcongr; exact abs_sin_le_one _
  linarith

/-- the direction of the velocity -/
theorem plane_velocity {b E b' E' dE : ℝ} (hb : 0 ≤ b) (hb1 : b ≤ 1) (h : Spec.AngleNear E' E dE) :
    ((Vec3.mk (-sin E') (b' * cos E') 0).minus ⟨-sin E, b * cos E, 0⟩).magnitude ≤ dE + |b' - b| := by
  obtain ⟨d0, hc⟩ := chord_near h
  have e1 : (Vec3.mk (-sin E') (b' * cos E') 0).minus ⟨-sin E, b * cos E, 0⟩
      = (Vec3.mk (-(sin E' - sin E)) (b * (cos E' - cos E)) 0).plus ⟨0, (b' - b) * cos E', 0⟩ := by
    ext <;> simp [Vec3.minus, Vec3.plus] <;> ring
  rw [e1]
  refine (Vec3.magnitude_plus_le _ _).trans ?_
  have h1 : (Vec3.mk (-(sin E' - sin E)) (b * (cos E' - cos E)) 0).magnitude ≤ dE := by
    refine magnitude_le_of_dot d0 ?_
    simp only [Vec3.dot]
    have hbb : b ^ 2 ≤ 1 := pow_le_one₀ hb hb1
    have : b ^ 2 * (cos E' - cos E) ^ 2 ≤ 1 * (cos E' - cos E) ^ 2 := by gcongr
    linarith
  have h2 := magnitude_plane_le 0 ((b' - b) * cos E')
  rw [abs_zero, abs_mul] at h2
  have h3 : |b' - b| * |cos E'| ≤ |b' - b| * 1 := by gcongr; exact abs_cos_le_one _
  linarith

/-- scaled vectors -/
theorem scaled_shift (k' k : ℝ) (v' v : Vec3) :
    ((v'.scaled k').minus (v.scaled k)).magnitude ≤ |k' - k| * v'.magnitude + |k| * (v'.minus v).magnitude := by
  have e1 : (v'.scaled k').minus (v.scaled k) = (v'.scaled (k' - k)).plus ((v'.minus v).scaled k) := by
    ext <;> simp [Vec3.minus, Vec3.plus, Vec3.scaled] <;> ring
  rw [e1]
  refine (Vec3.magnitude_plus_le _ _).trans ?_
  rw [Vec3.magnitude_scaled, Vec3.magnitude_scaled]

/-- solutions of two close Kepler equations -/
theorem kepler_shift {e e' E E' M M' dM : ℝ} {k k' : ℤ} (he : 0 ≤ e) (he' : e < 1)
    (hE : E - e * sin E = M + 2 * π * k) (hE' : E' - e' * sin E' = M' + 2 * π * k') (hM : Spec.AngleNear M' M dM) :
    Spec.AngleNear E' E ((dM + |e' - e|) / (1 - e)) := by
  obtain ⟨j, hj⟩ := hM
  refine ⟨k' + j - k, ?_⟩
  rw [le_div_iff₀ (by linarith), mul_comm]
  refine (kepler_expand he he' _ _).trans ?_
  unfold kepler
  rw [sin_turn]
  have e1 : E' - e * sin E' - (E + 2 * π * ((k' + j - k : ℤ) : ℝ) - e * sin E) = (M' - (M + 2 * π * j)) + (e' - e) * sin E' := by
    push_cast; linear_combination hE' - hE
  rw [e1]
  refine (abs_add_le _ _).trans (add_le_add hj ?_)
  rw [abs_mul]
  exact mul_le_of_le_one_right (abs_nonneg _) (abs_sin_le_one _)

theorem coef_point {el : ClassicalElements} (E : ℝ) :
    orbitPos el E = orient el ((Vec3.mk (cos E - el.eccentricity) (√(1 - el.eccentricity * el.eccentricity) * sin E) 0).scaled
      el.semimajor_axis) := by
  rw [orbitPos, orient_plane]
  congr 1
  ext <;> simp [Vec3.scaled] <;> ring

theorem coef_velocity {el : ClassicalElements} (n E : ℝ) :
    orbitVel el n E = orient el ((Vec3.mk (-sin E) (√(1 - el.eccentricity * el.eccentricity) * cos E) 0).scaled
      (n * el.semimajor_axis / (1 - el.eccentricity * cos E))) := by
  rw [orbitVel, orient_plane]
  congr 1
  ext <;> simp [Vec3.scaled] <;> ring

theorem plane_point_le {e E : ℝ} (he : 0 ≤ e) (he' : e ≤ 0.9) :
    (Vec3.mk (cos E - e) (√(1 - e * e) * sin E) 0).magnitude ≤ 1.9 := by
  have h2e : (0 : ℝ) ≤ 1 - e * e := by norm_num at he'; nlinarith
  refine magnitude_le_of_dot (by norm_num) ?_
  have e1 : (Vec3.mk (cos E - e) (√(1 - e * e) * sin E) 0).dot (Vec3.mk (cos E - e) (√(1 - e * e) * sin E) 0)
      = (1 - e * cos E) ^ 2 := by
    simp only [Vec3.dot]
    linear_combination sin E ^ 2 * Real.mul_self_sqrt h2e + (1 - e ^ 2) * sin_sq_add_cos_sq E
  rw [e1]
  have h1 := neg_one_le_cos E
  have h2 := cos_le_one E
  refine sq_le_sq' ?_ ?_ <;> norm_num at he' ⊢ <;> nlinarith

theorem plane_velocity_le {e E : ℝ} (he : 0 ≤ e) (he' : e ≤ 0.9) :
    (Vec3.mk (-sin E) (√(1 - e * e) * cos E) 0).magnitude ≤ 1 := by
  have h2e : (0 : ℝ) ≤ 1 - e * e := by norm_num at he'; nlinarith
  refine magnitude_le_of_dot (by norm_num) ?_
  have e1 : (Vec3.mk (-sin E) (√(1 - e * e) * cos E) 0).dot (Vec3.mk (-sin E) (√(1 - e * e) * cos E) 0)
      = 1 - (e * cos E) ^ 2 := by
    simp only [Vec3.dot]
    linear_combination cos E ^ 2 * Real.mul_self_sqrt h2e + sin_sq_add_cos_sq E
  rw [e1]
  nlinarith [sq_nonneg (e * cos E)]

theorem radius_ge {e E : ℝ} (he : 0 ≤ e) (he' : e ≤ 0.9) : 0.1 ≤ 1 - e * cos E := by
  have h2 := cos_le_one E
  norm_num at he' ⊢
  nlinarith

/-- the point of an orbit with slightly different elements -/
theorem orbitPos_shift {el' el : ClassicalElements} {dO di dw da de db dE E' E : ℝ}
    (hO : Spec.AngleNear el'.raan el.raan dO) (hi : Spec.AngleNear el'.inclination el.inclination di)
    (hw : Spec.AngleNear el'.argument_of_perigee el.argument_of_perigee dw) (hE : Spec.AngleNear E' E dE)
    (ha : 0 < el.semimajor_axis) (hda : |el'.semimajor_axis - el.semimajor_axis| ≤ da * el.semimajor_axis)
    (he : 0 ≤ el.eccentricity) (he9 : el.eccentricity ≤ 0.9) (he' : 0 ≤ el'.eccentricity) (he9' : el'.eccentricity ≤ 0.9)
    (hde : |el'.eccentricity - el.eccentricity| ≤ de)
    (hdb : |√(1 - el'.eccentricity * el'.eccentricity) - √(1 - el.eccentricity * el.eccentricity)| ≤ db) :
    ((orbitPos el' E').minus (orbitPos el E)).magnitude
      ≤ el.semimajor_axis * (1.9 * da + dE + de + db + 1.9 * (dO + di + dw)) := by
  have dO0 := (chord_near hO).1
  have di0 := (chord_near hi).1
  have dw0 := (chord_near hw).1
  rw [coef_point, coef_point]
  refine (orient_shift hO hi hw _ _).trans ?_
  have h1 := scaled_shift el'.semimajor_axis el.semimajor_axis
    (Vec3.mk (cos E' - el'.eccentricity) (√(1 - el'.eccentricity * el'.eccentricity) * sin E') 0)
    (Vec3.mk (cos E - el.eccentricity) (√(1 - el.eccentricity * el.eccentricity) * sin E) 0)
  rw [abs_of_pos ha] at h1
  have h2 := plane_point (e := el.eccentricity) (e' := el'.eccentricity) (b' := √(1 - el'.eccentricity * el'.eccentricity))
    (Real.sqrt_nonneg (1 - el.eccentricity * el.eccentricity))
    (Real.sqrt_le_one.mpr (by nlinarith)) hE
  have h3 := plane_point_le (E := E') he' he9'
  have h4 := plane_point_le (E := E) he he9
  rw [Vec3.magnitude_scaled, abs_of_pos ha]
  have h5 : |el'.semimajor_axis - el.semimajor_axis| *
      (Vec3.mk (cos E' - el'.eccentricity) (√(1 - el'.eccentricity * el'.eccentricity) * sin E') 0).magnitude
      ≤ (da * el.semimajor_axis) * 1.9 :=
    mul_le_mul hda h3 (Vec3.magnitude_nonneg _) ((abs_nonneg _).trans hda)
  have h6 : el.semimajor_axis * ((Vec3.mk (cos E' - el'.eccentricity) (√(1 - el'.eccentricity * el'.eccentricity) * sin E') 0).minus
      ⟨cos E - el.eccentricity, √(1 - el.eccentricity * el.eccentricity) * sin E, 0⟩).magnitude
      ≤ el.semimajor_axis * (dE + de + db) := by
    gcongr; linarith
  have h7 : (dO + di + dw) * (el.semimajor_axis *
      (Vec3.mk (cos E - el.eccentricity) (√(1 - el.eccentricity * el.eccentricity) * sin E) 0).magnitude)
      ≤ (dO + di + dw) * (el.semimajor_axis * 1.9) := by gcongr
  linarith

/-- the velocity on an orbit with slightly different elements -/
theorem orbitVel_shift {el' el : ClassicalElements} {n' n dO di dw dk de db dE E' E : ℝ}
    (hO : Spec.AngleNear el'.raan el.raan dO) (hi : Spec.AngleNear el'.inclination el.inclination di)
    (hw : Spec.AngleNear el'.argument_of_perigee el.argument_of_perigee dw) (hE : Spec.AngleNear E' E dE)
    (hk : 0 < n * el.semimajor_axis)
    (hdk : |n' * el'.semimajor_axis - n * el.semimajor_axis| ≤ dk * (n * el.semimajor_axis))
    (he : 0 ≤ el.eccentricity) (he9 : el.eccentricity ≤ 0.9) (he' : 0 ≤ el'.eccentricity) (he9' : el'.eccentricity ≤ 0.9)
    (hde : |el'.eccentricity - el.eccentricity| ≤ de)
    (hdb : |√(1 - el'.eccentricity * el'.eccentricity) - √(1 - el.eccentricity * el.eccentricity)| ≤ db) :
    ((orbitVel el' n' E').minus (orbitVel el n E)).magnitude
      ≤ n * el.semimajor_axis * (10 * dk + 100 * de + 100 * dE + 10 * db + 10 * (dO + di + dw)) := by
  obtain ⟨dE0, hc⟩ := chord_near hE
  have dO0 := (chord_near hO).1
  have di0 := (chord_near hi).1
  have dw0 := (chord_near hw).1
  have hD := radius_ge (E := E) he he9
  have hD' := radius_ge (E := E') he' he9'
  rw [coef_velocity, coef_velocity]
  refine (orient_shift hO hi hw _ _).trans ?_
  have h2 := plane_velocity (b' := √(1 - el'.eccentricity * el'.eccentricity))
    (Real.sqrt_nonneg (1 - el.eccentricity * el.eccentricity))
    (Real.sqrt_le_one.mpr (by nlinarith)) hE
  have h3 := plane_velocity_le (E := E') he' he9'
  have h4 := plane_velocity_le (E := E) he he9
  obtain ⟨κ, hκ⟩ : ∃ κ, κ = n * el.semimajor_axis := ⟨_, rfl⟩
  obtain ⟨κ', hκ'⟩ : ∃ κ', κ' = n' * el'.semimajor_axis := ⟨_, rfl⟩
  obtain ⟨D, hDd⟩ : ∃ D, D = 1 - el.eccentricity * cos E := ⟨_, rfl⟩
  obtain ⟨D', hDd'⟩ : ∃ D', D' = 1 - el'.eccentricity * cos E' := ⟨_, rfl⟩
  rw [← hDd] at hD
  rw [← hDd'] at hD'
  rw [← hκ] at hk hdk
  rw [← hκ'] at hdk
  rw [← hκ, ← hκ', ← hDd, ← hDd']
  have D0 : 0 < D := lt_of_lt_of_le (by norm_num) hD
  have D0' : 0 < D' := lt_of_lt_of_le (by norm_num) hD'
  have i1 : 1 / D ≤ 10 := by rw [div_le_iff₀ D0]; norm_num at hD ⊢; linarith
  have i2 : 1 / D' ≤ 10 := by rw [div_le_iff₀ D0']; norm_num at hD' ⊢; linarith
  have dD : |D' - D| ≤ de + 0.9 * dE := by
    have cE : |cos E' - cos E| ≤ dE := abs_le_of_sq_le_sq (by nlinarith [sq_nonneg (sin E' - sin E)]) dE0
    rw [hDd, hDd', show 1 - el'.eccentricity * cos E' - (1 - el.eccentricity * cos E)
      = -((el'.eccentricity - el.eccentricity) * cos E') + -(el.eccentricity * (cos E' - cos E)) by ring]
    refine (abs_add_le _ _).trans ?_
    rw [abs_neg, abs_neg, abs_mul, abs_mul, abs_of_nonneg he]
    have j1 : |el'.eccentricity - el.eccentricity| * |cos E'| ≤ de * 1 := by
      gcongr; exacts [(abs_nonneg _).trans hde, abs_cos_le_one _]
    have j2 : el.eccentricity * |cos E' - cos E| ≤ 0.9 * dE := by gcongr
    linarith
  have hK : |κ' / D' - κ / D| ≤ κ * (10 * dk + 100 * de + 90 * dE) := by
    rw [show κ' / D' - κ / D = (κ' - κ) * (1 / D') + κ * (1 / D) * (1 / D') * (-(D' - D)) by field_simp; ring]
    refine (abs_add_le _ _).trans ?_
    rw [abs_mul, abs_mul, abs_neg, abs_of_pos (show 0 < 1 / D' by positivity),
      abs_of_pos (show 0 < κ * (1 / D) * (1 / D') by positivity)]
    have j1 : |κ' - κ| * (1 / D') ≤ dk * κ * 10 := by
      gcongr; exact (abs_nonneg _).trans hdk
    have j2 : κ * (1 / D) * (1 / D') * |D' - D| ≤ κ * 10 * 10 * (de + 0.9 * dE) := by gcongr
    linarith
  have h1 := scaled_shift (κ' / D') (κ / D) (Vec3.mk (-sin E') (√(1 - el'.eccentricity * el'.eccentricity) * cos E') 0)
    (Vec3.mk (-sin E) (√(1 - el.eccentricity * el.eccentricity) * cos E) 0)
  have q0 : 0 < κ / D := by positivity
  have q1 : κ / D ≤ κ * 10 := by
    rw [show κ / D = κ * (1 / D) by ring]; gcongr
  rw [abs_of_pos q0] at h1
  rw [Vec3.magnitude_scaled, abs_of_pos q0]
  have de0 := (abs_nonneg _).trans hde
  have db0 := (abs_nonneg _).trans hdb
  have h5 : |κ' / D' - κ / D| * (Vec3.mk (-sin E') (√(1 - el'.eccentricity * el'.eccentricity) * cos E') 0).magnitude
      ≤ κ * (10 * dk + 100 * de + 90 * dE) * 1 :=
    mul_le_mul hK h3 (Vec3.magnitude_nonneg _) ((abs_nonneg _).trans hK)
  have h6 : κ / D * ((Vec3.mk (-sin E') (√(1 - el'.eccentricity * el'.eccentricity) * cos E') 0).minus
      ⟨-sin E, √(1 - el.eccentricity * el.eccentricity) * cos E, 0⟩).magnitude ≤ κ * 10 * (dE + db) :=
    mul_le_mul q1 (by linarith) (Vec3.magnitude_nonneg _) (by positivity)
  have h7 : (dO + di + dw) * (κ / D * (Vec3.mk (-sin E) (√(1 - el.eccentricity * el.eccentricity) * cos E) 0).magnitude)
      ≤ (dO + di + dw) * (κ * 10 * 1) :=
    mul_le_mul_of_nonneg_left (mul_le_mul q1 h4 (Vec3.magnitude_nonneg _) (by positivity)) (by positivity)
  linarith

/-- the ratio of the axes -/
theorem axis_ratio {e e' d : ℝ} (he : 0 ≤ e) (he9 : e ≤ 0.9) (he' : 0 ≤ e') (he9' : e' ≤ 0.9) (h : |e' ^ 2 - e ^ 2| ≤ d) :
    |√(1 - e' * e') - √(1 - e * e)| ≤ 1.2 * d := by
  have k : ∀ x : ℝ, 0 ≤ x → x ≤ 0.9 → 0.43 ≤ √(1 - x * x) ∧ √(1 - x * x) * √(1 - x * x) = 1 - x * x := fun x h0 h1 => by
    have : x * x ≤ 0.9 * 0.9 := by gcongr
    refine ⟨Real.le_sqrt_of_sq_le (by norm_num at this ⊢; linarith), Real.mul_self_sqrt (by norm_num at this ⊢; linarith)⟩
  obtain ⟨a1, a2⟩ := k e he he9
  obtain ⟨b1, b2⟩ := k e' he' he9'
  obtain ⟨b, hb⟩ : ∃ b, b = √(1 - e * e) := ⟨_, rfl⟩
  obtain ⟨b', hb'⟩ : ∃ b, b = √(1 - e' * e') := ⟨_, rfl⟩
  rw [← hb] at a1 a2 ⊢
  rw [← hb'] at b1 b2 ⊢
  have f : |b' - b| * (b' + b) = |e' ^ 2 - e ^ 2| := by
    rw [← abs_of_nonneg (show 0 ≤ b' + b by norm_num at a1 b1; linarith), ← abs_mul, ← abs_neg]
    congr 1
    linear_combination a2 - b2
  have g : |b' - b| * 0.86 ≤ |b' - b| * (b' + b) := by gcongr; norm_num at a1 b1 ⊢; linarith
  have d0 := (abs_nonneg _).trans h
  norm_num at g ⊢
  linarith

end Openspace
