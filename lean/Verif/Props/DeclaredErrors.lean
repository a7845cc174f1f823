import Verif.Props.FilterOrder

/-!
# C184: larger declared errors can make the filter more certain
-/

namespace Openspace

open Real

namespace Declared

/-- the along-track coordinate of a position seen from the geosynchronous observer -/
theorem convert (t : Epoch) {d : Vec3} (hd : 0 < 42164 + d.x) :
    ∃ h, gcrfToHcw (geoAt t) (GCRF.new t ((geoAt t).position.plus d) (geoAt t).velocity) = .ok h ∧
      h.position.y = arctan (d.y / (42164 + d.x)) * 42164 := by
  have hpos : (geoAt t).position.plus d = ⟨42164 + d.x, d.y, d.z⟩ := by
    ext <;> simp [geoAt, GCRF.new, State.new, Vec3.copy, Vec3.plus]
  rw [hpos]
  obtain ⟨h, -, h1, -⟩ := C32_round_trip (geoAt t) (geoAt_nonDegenerate t)
    (GCRF.new t ⟨42164 + d.x, d.y, d.z⟩ (geoAt t).velocity)
    (by
      rw [geoAt_cross]
      intro h
      have := congrArg Vec3.y h
      simp only [GCRF.new, State.new, Vec3.cross, Vec3.copy] at this
      have h2 : 0 < 42164 * 3.0747 * (42164 + d.x) := by positivity
      linarith)
  refine ⟨h, h1, ?_⟩
  rw [gcrfToHcw_position (geoAt_frame t) h1, geoAt_magnitude]
  have hv : (⟨⟨1, 0, 0⟩, ⟨0, 1, 0⟩, ⟨0, 0, 1⟩⟩ : Mat3).mulVec
      (GCRF.new t ⟨42164 + d.x, d.y, d.z⟩ (geoAt t).velocity).position = ⟨42164 + d.x, d.y, d.z⟩ := by
    ext <;> simp [Mat3.mulVec, Vec3.dot, GCRF.new, State.new, Vec3.copy]
  simp only [hv]
  rw [pyAtan2_of_pos hd]

theorem spherical_along : SphericalPosition.fromCartesian ⟨0, 10, 0⟩ = ⟨10, π / 2, 0⟩ := by
  have hm : (⟨0, 10, 0⟩ : Vec3).magnitude = 10 := Vec3.magnitude_of_dot (by norm_num) (by simp [Vec3.dot]; norm_num)
  have h1 : pyAtan2 10 0 = π / 2 := pyAtan2_eq (r := 10) (by norm_num) (by linarith [pi_pos]) (by linarith [pi_pos])
    (by simp) (by simp)
  have h2 : sqrtNN (0 * 0 + 10 * 10) = 10 := by
    rw [sqrtNN, show (0 * 0 + 10 * 10 : ℝ) = 10 ^ 2 by norm_num, sqrt_sq (by norm_num)]
  have h3 : pyAtan2 0 10 = 0 := by rw [pyAtan2_of_pos (by norm_num)]; simp
  simp only [SphericalPosition.fromCartesian, hm, h1, h2, h3, wrapNeg]
  rw [if_neg (by linarith [pi_pos])]

/-- the along-track error assigned to the observation of a target ten kilometres ahead -/
theorem errors_along (t : Epoch) {ρ a : ℝ} (hx : (10 + ρ) * (cos a * sin a) < 42164) :
    (∃ z, RelativeKalman.hillMeasurement (SpaceObservation.new (geoAt t) ⟨0, 10, 0⟩ ρ a) = .ok z) ∧
    ∃ e, RelativeKalman.hillErrors (SpaceObservation.new (geoAt t) ⟨0, 10, 0⟩ ρ a) = .ok e ∧
      e.y = arctan (((10 + ρ) * cos a ^ 2 - 10) / (42164 - (10 + ρ) * (cos a * sin a))) * 42164 := by
  constructor
  · obtain ⟨h, h1, -⟩ := convert t (d := ⟨0, 10, 0⟩) (by norm_num)
    refine ⟨h.position, ?_⟩
    simp only [RelativeKalman.hillMeasurement, bind_eq_ok, pure_eq_ok, Except.ok.injEq]
    exact ⟨h, h1, rfl⟩
  · obtain ⟨h, h1, h2⟩ := convert t
      (d := ⟨-((10 + ρ) * (cos a * sin a)), (10 + ρ) * cos a ^ 2 - 10, (10 + ρ) * sin a⟩) (by simp only; linarith)
    refine ⟨h.position, ?_, by rw [h2, ← sub_eq_add_neg]⟩
    simp only [RelativeKalman.hillErrors, bind_eq_ok, pure_eq_ok, Except.ok.injEq]
    refine ⟨h, ?_, rfl⟩
    have hs : (SphericalPosition.toCartesian ⟨(SpaceObservation.new (geoAt t) ⟨0, 10, 0⟩ ρ a).range +
          (SpaceObservation.new (geoAt t) ⟨0, 10, 0⟩ ρ a).range_error,
        (SpaceObservation.new (geoAt t) ⟨0, 10, 0⟩ ρ a).right_ascension +
          (SpaceObservation.new (geoAt t) ⟨0, 10, 0⟩ ρ a).angular_error,
        (SpaceObservation.new (geoAt t) ⟨0, 10, 0⟩ ρ a).declination +
          (SpaceObservation.new (geoAt t) ⟨0, 10, 0⟩ ρ a).angular_error⟩).minus
        (SpaceObservation.new (geoAt t) ⟨0, 10, 0⟩ ρ a).observed_direction =
        ⟨-((10 + ρ) * (cos a * sin a)), (10 + ρ) * cos a ^ 2 - 10, (10 + ρ) * sin a⟩ := by
      simp only [SpaceObservation.new, spherical_along, zero_add]
      ext
      · simp only [SphericalPosition.toCartesian, Vec3.scaled, Vec3.minus, Vec3.copy, pyCos, pySin]
        rw [add_comm (π / 2) a, cos_add_pi_div_two]
        ring
      · simp only [SphericalPosition.toCartesian, Vec3.scaled, Vec3.minus, Vec3.copy, pyCos, pySin]
        rw [add_comm (π / 2) a, sin_add_pi_div_two]
        ring
      · simp only [SphericalPosition.toCartesian, Vec3.scaled, Vec3.minus, Vec3.copy, pyCos, pySin]
        ring
    rw [hs]
    exact h1

/-! ## Without an angular error -/

theorem arctan_abs (x : ℝ) : |arctan x| = arctan |x| := by
  rcases le_total 0 x with h | h
  · rw [abs_of_nonneg h, abs_of_nonneg (arctan_nonneg.mpr h)]
  · rw [abs_of_nonpos h, arctan_neg, abs_of_nonpos (by
      have := arctan_strictMono.monotone h
      rwa [arctan_zero] at this)]

theorem arcsin_abs (x : ℝ) : |arcsin x| = arcsin |x| := by
  rcases le_total 0 x with h | h
  · rw [abs_of_nonneg h, abs_of_nonneg (arcsin_nonneg.mpr h)]
  · rw [abs_of_nonpos h, arcsin_neg, abs_of_nonpos (arcsin_nonpos.mpr h)]

/-- the coordinates of a displacement from the observer that is not below its horizon grow with the displacement -/
theorem coordinates_mono {n a b c k k' : ℝ} (hn : 0 < n) (ha : 0 ≤ a) (hk : 0 ≤ k) (hkk : k ≤ k') {m m' : ℝ} (hm : 0 < m)
    (hm' : 0 < m') (hms : m ^ 2 = (n + k * a) ^ 2 + (k * b) ^ 2 + (k * c) ^ 2)
    (hms' : m' ^ 2 = (n + k' * a) ^ 2 + (k' * b) ^ 2 + (k' * c) ^ 2) :
    |m - n| ≤ |m' - n| ∧ |arctan (k * b / (n + k * a)) * n| ≤ |arctan (k' * b / (n + k' * a)) * n| ∧
      |arcsin (k * c / m) * n| ≤ |arcsin (k' * c / m') * n| := by
  have hk' : 0 ≤ k' := hk.trans hkk
  have h1 : n ≤ n + k * a := by nlinarith [mul_nonneg hk ha]
  have h2 : n + k * a ≤ n + k' * a := by nlinarith [mul_le_mul_of_nonneg_right hkk ha]
  have hkb : (k * b) ^ 2 ≤ (k' * b) ^ 2 := by
    rw [mul_pow, mul_pow]
    exact mul_le_mul_of_nonneg_right (pow_le_pow_left₀ hk hkk 2) (sq_nonneg b)
  have hkc : (k * c) ^ 2 ≤ (k' * c) ^ 2 := by
    rw [mul_pow, mul_pow]
    exact mul_le_mul_of_nonneg_right (pow_le_pow_left₀ hk hkk 2) (sq_nonneg c)
  have hsq : (n + k * a) ^ 2 ≤ (n + k' * a) ^ 2 := pow_le_pow_left₀ (by linarith) h2 2
  refine ⟨?_, ?_, ?_⟩
  · have h3 : n ≤ m := by
      refine le_of_sq_le_sq ?_ hm.le
      have := pow_le_pow_left₀ hn.le h1 2
      nlinarith [sq_nonneg (k * b), sq_nonneg (k * c)]
    have h4 : m ≤ m' := le_of_sq_le_sq (by rw [hms, hms']; linarith) hm'.le
    rw [abs_of_nonneg (sub_nonneg.mpr h3), abs_of_nonneg (sub_nonneg.mpr (h3.trans h4))]
    linarith
  · rw [abs_mul, abs_mul, arctan_abs, arctan_abs]
    refine mul_le_mul_of_nonneg_right (arctan_strictMono.monotone ?_) (abs_nonneg n)
    rw [abs_div, abs_div, abs_mul, abs_mul, abs_of_nonneg hk, abs_of_nonneg hk', abs_of_pos (by linarith : 0 < n + k * a),
      abs_of_pos (by linarith : 0 < n + k' * a), div_le_div_iff₀ (by linarith) (by linarith)]
    have : k * (n + k' * a) ≤ k' * (n + k * a) := by nlinarith
    nlinarith [mul_le_mul_of_nonneg_right this (abs_nonneg b)]
  · rw [abs_mul, abs_mul, arcsin_abs, arcsin_abs]
    refine mul_le_mul_of_nonneg_right (monotone_arcsin ?_) (abs_nonneg n)
    rw [abs_div, abs_div, abs_mul, abs_mul, abs_of_nonneg hk, abs_of_nonneg hk', abs_of_pos hm, abs_of_pos hm',
      div_le_div_iff₀ hm hm']
    have h5 : k * m' ≤ k' * m := by
      refine le_of_sq_le_sq ?_ (by positivity)
      rw [mul_pow, mul_pow, hms, hms']
      have h6 : k * (n + k' * a) ≤ k' * (n + k * a) := by nlinarith
      have h7 : (k * (n + k' * a)) ^ 2 ≤ (k' * (n + k * a)) ^ 2 :=
        pow_le_pow_left₀ (mul_nonneg hk (by linarith)) h6 2
      nlinarith
    nlinarith [mul_le_mul_of_nonneg_right h5 (abs_nonneg c)]

/-- a place above the plane through the centre perpendicular to the position of the observer can be converted to its
frame -/
theorem convert_above {o : GCRF} (ho : o.NonDegenerate) {X : Vec3} (hX : 0 < o.position.dot X) :
    ∃ h, gcrfToHcw o (GCRF.new o.epoch X o.velocity) = .ok h := by
  have hc := nonDegenerate_iff.mp ho
  obtain ⟨h, -, h1, -⟩ := C32_round_trip o ho (GCRF.new o.epoch X o.velocity) (by
    intro hz
    have e1 : (GCRF.new o.epoch X o.velocity).position = X := rfl
    rw [e1] at hz
    obtain ⟨w, hw⟩ : ∃ w, w = o.position.cross o.velocity := ⟨_, rfl⟩
    have hwP : w.dot o.position = 0 := by
      rw [hw]
      simp only [Vec3.dot, Vec3.cross]
      ring
    rw [← hw] at hz hc
    have h1 := congrArg Vec3.x hz
    have h2 := congrArg Vec3.y hz
    have h3 := congrArg Vec3.z hz
    simp only [Vec3.cross] at h1 h2 h3
    have h4 : w.dot w * o.position.dot X = 0 := by
      simp only [Vec3.dot] at hwP ⊢
      linear_combination (w.x * X.x + w.y * X.y + w.z * X.z) * hwP + (w.y * o.position.z - w.z * o.position.y) * h1 +
        (w.z * o.position.x - w.x * o.position.z) * h2 + (w.x * o.position.y - w.y * o.position.x) * h3
    have h5 : 0 < w.dot w := by
      rw [← Vec3.magnitude_sq_dot]
      exact pow_pos (Vec3.magnitude_pos.mpr hc) 2
    exact (mul_pos h5 hX).ne' h4)
  exact ⟨h, h1⟩

/-- the errors assigned to an observation without angular error -/
theorem errors_range {o : GCRF} (ho : o.NonDegenerate) {d : Vec3} (hd : d ≠ ⟨0, 0, 0⟩) :
    ∃ a b c : ℝ, o.position.magnitude * (d.magnitude * a) = o.position.dot d ∧ a ^ 2 + b ^ 2 + c ^ 2 = 1 ∧
      ∀ ρ, 0 < o.position.magnitude + ρ * a → ∃ e m, RelativeKalman.hillErrors (SpaceObservation.new o d ρ 0) = .ok e ∧ 0 < m ∧
      m ^ 2 = (o.position.magnitude + ρ * a) ^ 2 + (ρ * b) ^ 2 + (ρ * c) ^ 2 ∧
      e = ⟨m - o.position.magnitude, arctan (ρ * b / (o.position.magnitude + ρ * a)) * o.position.magnitude,
        arcsin (ρ * c / m) * o.position.magnitude⟩ := by
  obtain ⟨M, hM, hrot, hr1, -⟩ := C33_frame o ho
  have hc := nonDegenerate_iff.mp ho
  have hn : 0 < o.position.magnitude := Vec3.magnitude_pos.mpr (position_ne_of_cross hc)
  have hdm : 0 < d.magnitude := Vec3.magnitude_pos.mpr hd
  have hMP : M.mulVec o.position = ⟨o.position.magnitude, 0, 0⟩ := by
    obtain ⟨n, hn⟩ : ∃ n, n = o.position.magnitude := ⟨_, rfl⟩
    rw [← hn] at hr1 ⊢
    rw [← hr1, Mat3.mulVec_scaled]
    have h1 := hrot.orth.r11
    have h2 := hrot.orth.r12
    have h3 := hrot.orth.r13
    simp only [Vec3.dot] at h1 h2 h3
    ext
    · simp only [Vec3.scaled, Mat3.mulVec, Vec3.dot]
      linear_combination n * h1
    · simp only [Vec3.scaled, Mat3.mulVec, Vec3.dot]
      linear_combination n * h2
    · simp only [Vec3.scaled, Mat3.mulVec, Vec3.dot]
      linear_combination n * h3
  have hdot : (M.mulVec o.position).dot (M.mulVec d) = o.position.dot d := hrot.orth.dot_mulVec _ _
  have ha : o.position.magnitude * (M.mulVec d).x = o.position.dot d := by
    rw [← hdot, hMP]
    simp only [Vec3.dot, zero_mul, add_zero]
  have hMd := hrot.orth.magnitude_mulVec d
  refine ⟨(M.mulVec d).x / d.magnitude, (M.mulVec d).y / d.magnitude, (M.mulVec d).z / d.magnitude, ?_, ?_, ?_⟩
  · rw [mul_div_cancel₀ _ hdm.ne', ha]
  · have h := Vec3.magnitude_sq (M.mulVec d)
    rw [hMd] at h
    field_simp
    linear_combination -h
  intro ρ hρ
  have hs : (SphericalPosition.toCartesian ⟨(SpaceObservation.new o d ρ 0).range + (SpaceObservation.new o d ρ 0).range_error,
      (SpaceObservation.new o d ρ 0).right_ascension + (SpaceObservation.new o d ρ 0).angular_error,
      (SpaceObservation.new o d ρ 0).declination + (SpaceObservation.new o d ρ 0).angular_error⟩).minus
      (SpaceObservation.new o d ρ 0).observed_direction = d.scaled (ρ / d.magnitude) := by
    have hsph := C23_cartesian d
    have hrad : (SphericalPosition.fromCartesian d).radius = d.magnitude := rfl
    simp only [SpaceObservation.new, add_zero, hrad]
    simp only [SphericalPosition.toCartesian, hrad] at hsph ⊢
    obtain ⟨u, hu⟩ : ∃ u : Vec3, u = ⟨pyCos (SphericalPosition.fromCartesian d).declination *
      pyCos (SphericalPosition.fromCartesian d).right_ascension, pyCos (SphericalPosition.fromCartesian d).declination *
      pySin (SphericalPosition.fromCartesian d).right_ascension, pySin (SphericalPosition.fromCartesian d).declination⟩ :=
      ⟨_, rfl⟩
    rw [← hu] at hsph ⊢
    have hx := congrArg Vec3.x hsph
    have hy := congrArg Vec3.y hsph
    have hz := congrArg Vec3.z hsph
    simp only [Vec3.scaled] at hx hy hz
    ext
    · simp only [Vec3.scaled, Vec3.minus, Vec3.copy]
      rw [← mul_div_assoc, eq_div_iff hdm.ne']
      linear_combination (d.magnitude + ρ) * hx
    · simp only [Vec3.scaled, Vec3.minus, Vec3.copy]
      rw [← mul_div_assoc, eq_div_iff hdm.ne']
      linear_combination (d.magnitude + ρ) * hy
    · simp only [Vec3.scaled, Vec3.minus, Vec3.copy]
      rw [← mul_div_assoc, eq_div_iff hdm.ne']
      linear_combination (d.magnitude + ρ) * hz
  obtain ⟨X, hX⟩ : ∃ X, X = o.position.plus (d.scaled (ρ / d.magnitude)) := ⟨_, rfl⟩
  have hMX : M.mulVec X = ⟨o.position.magnitude + ρ * ((M.mulVec d).x / d.magnitude),
      ρ * ((M.mulVec d).y / d.magnitude), ρ * ((M.mulVec d).z / d.magnitude)⟩ := by
    rw [hX, Mat3.mulVec_plus, Mat3.mulVec_scaled, hMP]
    ext <;> simp only [Vec3.plus, Vec3.scaled] <;> ring
  have hx0 : 0 < (M.mulVec X).x := by
    rw [hMX]
    exact hρ
  have hXm : (M.mulVec X).magnitude = X.magnitude := hrot.orth.magnitude_mulVec X
  have hX0 : 0 < X.magnitude := by
    rw [← hXm]
    refine Vec3.magnitude_pos.mpr fun h => ?_
    rw [h] at hx0
    exact lt_irrefl _ hx0
  have hXP : 0 < o.position.dot X := by
    rw [← hrot.orth.dot_mulVec, hMP]
    simp only [Vec3.dot, zero_mul, add_zero]
    positivity
  obtain ⟨h, h1⟩ := convert_above ho hXP
  refine ⟨h.position, X.magnitude, ?_, hX0, ?_, ?_⟩
  · simp only [RelativeKalman.hillErrors, bind_eq_ok, pure_eq_ok, Except.ok.injEq]
    refine ⟨h, ?_, rfl⟩
    rw [hs]
    rw [hX] at h1
    exact h1
  · rw [← hXm, Vec3.magnitude_sq, hMX]
    ring
  · rw [gcrfToHcw_position hM h1]
    have e1 : (GCRF.new o.epoch X o.velocity).position = X := rfl
    rw [e1, pyAtan2_of_pos hx0, hMX]

end Declared

/-- Without angular error, a larger range error never makes the filter more certain, as long as the target is not below
the plane perpendicular to the position of the observer: whatever the filter went through before, the variance in every
direction is at least as large with the larger range error. -/
theorem C184_range_partial (epoch : Epoch) (p : Hill) (s : RelativeKalman) (hs : RelativeKalman.new epoch p = .ok s)
    (cs : List RelativeKalman.Call) (o : GCRF) (ho : o.NonDegenerate) (d : Vec3) (hd : d ≠ ⟨0, 0, 0⟩)
    (hup : 0 ≤ o.position.dot d) (ρ ρ' : ℝ) (hρ : 0 ≤ ρ) (hρρ : ρ ≤ ρ') (s0 s1 : RelativeKalman)
    (h0 : RelativeKalman.process (SpaceObservation.new o d ρ 0) (RelativeKalman.after cs s) = (.ok (), s0))
    (h1 : RelativeKalman.process (SpaceObservation.new o d ρ' 0) (RelativeKalman.after cs s) = (.ok (), s1)) :
    ∀ w : Fin 6 → ℝ, w ⬝ᵥ s0.p00.toMatrix.mulVec w ≤ w ⬝ᵥ s1.p00.toMatrix.mulVec w := by
  have hi := (RelativeKalman.new_inv hs).1.after cs
  obtain ⟨a, b, c, ha, -, key⟩ := Declared.errors_range ho hd
  have hn : 0 < o.position.magnitude := Vec3.magnitude_pos.mpr (position_ne_of_cross (nonDegenerate_iff.mp ho))
  have hdm : 0 < d.magnitude := Vec3.magnitude_pos.mpr hd
  replace ha : 0 ≤ a := by
    by_contra h
    nlinarith [mul_pos hn hdm, mul_neg_of_pos_of_neg (mul_pos hn hdm) (not_le.mp h)]
  have hρ' := hρ.trans hρρ
  obtain ⟨e, m, he, hm, hms, rfl⟩ := key ρ (by positivity)
  obtain ⟨e', m', he', hm', hms', rfl⟩ := key ρ' (by positivity)
  obtain ⟨k1, k2, k3⟩ := Declared.coordinates_mono hn ha hρ hρρ hm hm' hms hms'
  have hacc : RelativeKalman.AtLeastAsAccurate (SpaceObservation.new o d ρ 0) (SpaceObservation.new o d ρ' 0) :=
    ⟨rfl, _, _, he, he', k1, k2, k3⟩
  have hle : RelativeKalman.AtLeastAsCertain s0 s1 := RelativeKalman.AtLeastAsCertain.process
    ⟨hi, hi, rfl, rfl, rfl, by rw [sub_self]; exact Matrix.PosSemidef.zero⟩ hacc h0 h1
  intro w
  have := quad_nonneg hle.p00 w
  rw [Matrix.sub_mulVec, dotProduct_sub] at this
  linarith

/-- the premises hold of a new filter and an observer on a geosynchronous orbit that looks along its velocity at a target
ten kilometres away, with range errors of one and of two kilometres -/
example (t : Epoch) : ∃ p s s0 s1, Hill.new (State.new t ⟨0, 9, 0⟩ ⟨0, 0, 0⟩) 42164 = .ok p ∧
    RelativeKalman.new t p = .ok s ∧ (geoAt t).NonDegenerate ∧ 0 ≤ (geoAt t).position.dot ⟨0, 10, 0⟩ ∧
    RelativeKalman.process (SpaceObservation.new (geoAt t) ⟨0, 10, 0⟩ 1 0) (RelativeKalman.after [] s) = (.ok (), s0) ∧
    RelativeKalman.process (SpaceObservation.new (geoAt t) ⟨0, 10, 0⟩ 2 0) (RelativeKalman.after [] s) = (.ok (), s1) := by
  obtain ⟨p, hp, hn, -⟩ := hill_new_ok (State.new t ⟨0, 9, 0⟩ ⟨0, 0, 0⟩) (show (0:ℝ) < 42164 by norm_num)
  obtain ⟨s, hs⟩ : ∃ s, RelativeKalman.new t p = .ok s := by
    simp only [RelativeKalman.new, Hill.systemMatrix_ok hn.ne', ok_bind, pure_eq_ok]
    exact ⟨_, rfl⟩
  have hi := (RelativeKalman.new_inv hs).1.after []
  obtain ⟨⟨z, hz⟩, e, he, -⟩ := Declared.errors_along t (ρ := 1) (a := 0) (by simp)
  obtain ⟨⟨z', hz'⟩, e', he', -⟩ := Declared.errors_along t (ρ := 2) (a := 0) (by simp)
  obtain ⟨_, _, _, _, _, -, -, -, -, -, -, h0⟩ := RelativeKalman.process_ok hi hz he
  obtain ⟨_, _, _, _, _, -, -, -, -, -, -, h1⟩ := RelativeKalman.process_ok hi hz' he'
  exact ⟨p, s, _, _, hp, hs, geoAt_nonDegenerate t, by simp [geoAt, GCRF.new, State.new, Vec3.copy, Vec3.dot], h0, h1⟩

/-- An observer on a geosynchronous orbit looks along its velocity at a target ten kilometres away and declares an angular
error `a`.  Whatever the filter went through before, it takes the distance to the target for exactly known if the observer
declares a range error of `10 tan² a` kilometres, one metre for ten milliradians, but not if it declares a range error of
zero. -/
theorem C184_violated (epoch : Epoch) (p : Hill) (s : RelativeKalman) (hs : RelativeKalman.new epoch p = .ok s)
    (cs : List RelativeKalman.Call) (t : Epoch) {a : ℝ} (ha : 0 < a) (ha' : a ≤ π / 4) :
    ∃ s0 s1, RelativeKalman.process (SpaceObservation.new (geoAt t) ⟨0, 10, 0⟩ 0 a) (RelativeKalman.after cs s) =
        (.ok (), s0) ∧
      RelativeKalman.process (SpaceObservation.new (geoAt t) ⟨0, 10, 0⟩ (10 * tan a ^ 2) a) (RelativeKalman.after cs s) =
        (.ok (), s1) ∧
      0 < 10 * tan a ^ 2 ∧ 0 < s0.p00.diagonal.y ∧ s1.p00.diagonal.y = 0 := by
  have hpi := pi_pos
  have hcos : 0 < cos a := cos_pos_of_mem_Ioo ⟨by linarith, by linarith⟩
  have hsin : 0 < sin a := sin_pos_of_pos_of_lt_pi ha (by linarith)
  have htan : tan a ≤ 1 := by
    rw [← tan_pi_div_four]
    exact strictMonoOn_tan.monotoneOn ⟨by linarith, by linarith⟩ ⟨by linarith, by linarith⟩ ha'
  have htan0 : 0 < tan a := by rw [tan_eq_sin_div_cos]; positivity
  have hc1 := cos_le_one a
  have hs1 := sin_le_one a
  have hcs := sin_sq_add_cos_sq a
  have e2 : (10 + 10 * tan a ^ 2) * cos a ^ 2 = 10 := by
    rw [tan_eq_sin_div_cos]
    field_simp
    linear_combination hcs
  have hi := (RelativeKalman.new_inv hs).1.after cs
  obtain ⟨⟨z, hz⟩, e, he, hy⟩ := Declared.errors_along t (ρ := 0) (a := a) (by nlinarith)
  obtain ⟨⟨z', hz'⟩, e', he', hy'⟩ := Declared.errors_along t (ρ := 10 * tan a ^ 2) (a := a) (by
    nlinarith [mul_le_one₀ hc1 hsin.le hs1, mul_pos hcos hsin])
  obtain ⟨_, _, _, _, _, -, -, -, -, -, -, h0⟩ := RelativeKalman.process_ok hi hz he
  obtain ⟨_, _, _, _, _, -, -, -, -, -, -, h1⟩ := RelativeKalman.process_ok hi hz' he'
  obtain ⟨s0, h0⟩ : ∃ s0, RelativeKalman.process (SpaceObservation.new (geoAt t) ⟨0, 10, 0⟩ 0 a)
    (RelativeKalman.after cs s) = (.ok (), s0) := ⟨_, h0⟩
  obtain ⟨s1, h1⟩ : ∃ s1, RelativeKalman.process (SpaceObservation.new (geoAt t) ⟨0, 10, 0⟩ (10 * tan a ^ 2) a)
    (RelativeKalman.after cs s) = (.ok (), s1) := ⟨_, h1⟩
  refine ⟨s0, s1, h0, h1, by positivity, ?_, ?_⟩
  · obtain ⟨f, hf, -, hyy, -⟩ := C107_certainty_partial epoch p s hs cs _ s0 h0
    rw [he, Except.ok.injEq] at hf
    subst hf
    have hne : s0.p00.diagonal.y ≠ 0 := by
      intro h
      have h2 := hyy.mp h
      rw [hy] at h2
      have h3 : arctan (((10 + 0) * cos a ^ 2 - 10) / (42164 - (10 + 0) * (cos a * sin a))) < 0 := by
        have h4 := pow_pos hsin 2
        have h5 := mul_le_one₀ hc1 hsin.le hs1
        have h6 : (10 + 0) * cos a ^ 2 - 10 < 0 := by linarith
        have h7 : 0 < 42164 - (10 + 0) * (cos a * sin a) := by linarith
        have h8 := arctan_strictMono (div_neg_of_neg_of_pos h6 h7)
        rwa [arctan_zero] at h8
      linarith
    have hi0 := hi.process (SpaceObservation.new (geoAt t) ⟨0, 10, 0⟩ 0 a)
    rw [h0] at hi0
    have hnn := quad_nonneg hi0.p00 (Pi.single 1 1)
    have hd : s0.p00.diagonal.y = s0.p00.toMatrix 1 1 := congrFun (Mat6.diagonal_toFun s0.p00) 1
    have : 0 ≤ s0.p00.diagonal.y := by
      rw [hd]
      simpa using hnn
    exact lt_of_le_of_ne this hne.symm
  · obtain ⟨f, hf, -, hyy, -⟩ := C107_certainty_partial epoch p s hs cs _ s1 h1
    rw [he', Except.ok.injEq] at hf
    subst hf
    refine hyy.mpr ?_
    rw [hy', e2]
    simp

/-- The target must not be below that plane: with a target as far from the Earth as the observer, less than ninety degrees
away, and without angular error, the filter takes the radial position for exactly known if the range error is declared as
large as the range, but not for any smaller positive range error, whatever the filter went through before. -/
theorem C184_range_violated (epoch : Epoch) (p : Hill) (s : RelativeKalman) (hs : RelativeKalman.new epoch p = .ok s)
    (cs : List RelativeKalman.Call) (o : GCRF) (ho : o.NonDegenerate) (d : Vec3) (hd : d ≠ ⟨0, 0, 0⟩)
    (hsame : (o.position.plus d).magnitude = o.position.magnitude) (hnear : 0 < o.position.dot (o.position.plus d))
    (ρ : ℝ) (hρ : 0 < ρ) (hρd : ρ < d.magnitude) :
    ∃ s0 s1, RelativeKalman.process (SpaceObservation.new o d ρ 0) (RelativeKalman.after cs s) = (.ok (), s0) ∧
      RelativeKalman.process (SpaceObservation.new o d d.magnitude 0) (RelativeKalman.after cs s) = (.ok (), s1) ∧
      0 < s0.p00.diagonal.x ∧ s1.p00.diagonal.x = 0 := by
  have hi := (RelativeKalman.new_inv hs).1.after cs
  obtain ⟨a, b, c, ha, habc, key⟩ := Declared.errors_range ho hd
  have hn : 0 < o.position.magnitude := Vec3.magnitude_pos.mpr (position_ne_of_cross (nonDegenerate_iff.mp ho))
  have hdm : 0 < d.magnitude := Vec3.magnitude_pos.mpr hd
  have h1 := Vec3.magnitude_sq (o.position.plus d)
  have h2 := Vec3.magnitude_sq o.position
  have h3 := Vec3.magnitude_sq d
  obtain ⟨h, hh⟩ := Declared.convert_above ho hnear
  have hz : ∀ r, RelativeKalman.hillMeasurement (SpaceObservation.new o d r 0) = .ok h.position := by
    intro r
    simp only [RelativeKalman.hillMeasurement, bind_eq_ok, pure_eq_ok, Except.ok.injEq]
    exact ⟨h, hh, rfl⟩
  rw [hsame] at h1
  simp only [Vec3.plus, Vec3.dot] at h1 hnear ha
  generalize o.position.magnitude = n at *
  generalize d.magnitude = D at *
  have e1 : 2 * (n * (D * a)) = -D ^ 2 := by linear_combination 2 * ha - h1 + h2 + h3
  have e2 : 2 * n * a = -D := by
    have : D * (2 * n * a) = D * -D := by linear_combination e1
    exact mul_left_cancel₀ hdm.ne' this
  have e3 : 0 < 2 * n ^ 2 - D ^ 2 := by nlinarith
  have pos : ∀ r, 0 < r → r ≤ D → 0 < n + r * a := by
    intro r hr hrD
    have : 0 < 2 * n * (n + r * a) := by
      have : 2 * n * (n + r * a) = 2 * n ^ 2 - r * D := by linear_combination r * e2
      rw [this]
      nlinarith
    exact (mul_pos_iff_of_pos_left (by positivity)).mp this
  have msq : ∀ r, (n + r * a) ^ 2 + (r * b) ^ 2 + (r * c) ^ 2 = n ^ 2 + r * (r - D) := by
    intro r
    linear_combination r ^ 2 * habc + r * e2
  obtain ⟨e, m, he, hm, hms, hee⟩ := key ρ (pos ρ hρ hρd.le)
  obtain ⟨e', m', he', hm', hms', hee'⟩ := key D (pos D hdm le_rfl)
  obtain ⟨_, _, _, _, _, -, -, -, -, -, -, h0⟩ := RelativeKalman.process_ok hi (hz ρ) he
  obtain ⟨_, _, _, _, _, -, -, -, -, -, -, h1⟩ := RelativeKalman.process_ok hi (hz D) he'
  obtain ⟨s0, h0⟩ : ∃ s0, RelativeKalman.process (SpaceObservation.new o d ρ 0) (RelativeKalman.after cs s) =
    (.ok (), s0) := ⟨_, h0⟩
  obtain ⟨s1, h1⟩ : ∃ s1, RelativeKalman.process (SpaceObservation.new o d D 0) (RelativeKalman.after cs s) =
    (.ok (), s1) := ⟨_, h1⟩
  refine ⟨s0, s1, h0, h1, ?_, ?_⟩
  · obtain ⟨f, hf, hxx, -⟩ := C107_certainty_partial epoch p s hs cs _ s0 h0
    rw [he, Except.ok.injEq] at hf
    subst hf
    have hne : s0.p00.diagonal.x ≠ 0 := by
      intro h
      have h4 := hxx.mp h
      rw [hee] at h4
      have h5 : m = n := by linarith [h4]
      rw [msq, h5] at hms
      nlinarith [mul_pos hρ (sub_pos.mpr hρd)]
    have hi0 := hi.process (SpaceObservation.new o d ρ 0)
    rw [h0] at hi0
    have hnn := quad_nonneg hi0.p00 (Pi.single 0 1)
    have hd : s0.p00.diagonal.x = s0.p00.toMatrix 0 0 := congrFun (Mat6.diagonal_toFun s0.p00) 0
    have : 0 ≤ s0.p00.diagonal.x := by
      rw [hd]
      simpa using hnn
    exact lt_of_le_of_ne this hne.symm
  · obtain ⟨f, hf, hxx, -⟩ := C107_certainty_partial epoch p s hs cs _ s1 h1
    rw [he', Except.ok.injEq] at hf
    subst hf
    refine hxx.mpr ?_
    rw [hee']
    rw [msq, sub_self, mul_zero, add_zero] at hms'
    have : m' = n := by nlinarith [sq_nonneg (m' - n), mul_pos hm' hn]
    simp [this]

/-- the premises hold of an observer on a geosynchronous orbit and a target on the same orbit, some 843 km ahead -/
example (t : Epoch) : (geoAt t).NonDegenerate ∧ (⟨-84328 / 10001, 8432800 / 10001, 0⟩ : Vec3) ≠ ⟨0, 0, 0⟩ ∧
    ((geoAt t).position.plus ⟨-84328 / 10001, 8432800 / 10001, 0⟩).magnitude = (geoAt t).position.magnitude ∧
    0 < (geoAt t).position.dot ((geoAt t).position.plus ⟨-84328 / 10001, 8432800 / 10001, 0⟩) := by
  have h1 : (geoAt t).position = ⟨42164, 0, 0⟩ := rfl
  have h2 : (⟨42164, 0, 0⟩ : Vec3).magnitude = 42164 := Vec3.magnitude_of_dot (by norm_num) (by simp [Vec3.dot]; norm_num)
  refine ⟨geoAt_nonDegenerate t, fun h => ?_, ?_, ?_⟩
  · have := congrArg Vec3.x h
    norm_num at this
  · rw [h1, h2]
    exact Vec3.magnitude_of_dot (by norm_num) (by simp only [Vec3.plus, Vec3.dot]; norm_num)
  · rw [h1]
    simp only [Vec3.plus, Vec3.dot]
    norm_num

end Openspace
