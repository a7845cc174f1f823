import Verif.Props.Kalman
import Verif.Props.HillPosition

/-!
# C107: what the relative Kalman filter claims to know after a noisy observation
-/

namespace Openspace

open Real

/-! ## The updated covariance as a quadratic form -/

section

open Matrix

set_option linter.unusedSectionVars false

variable {m n : Type} [Fintype m] [Fintype n] [DecidableEq m] [DecidableEq n]

theorem quad_congr (A : Matrix n m ℝ) (P : Matrix m m ℝ) (v : n → ℝ) :
    v ⬝ᵥ ((A * P * Aᵀ) *ᵥ v) = (Aᵀ *ᵥ v) ⬝ᵥ (P *ᵥ (Aᵀ *ᵥ v)) := by
  rw [← Matrix.mulVec_mulVec, ← Matrix.mulVec_mulVec, Matrix.dotProduct_mulVec, Matrix.mulVec_transpose]

theorem quad_pos {P : Matrix n n ℝ} (hP : P.PosDef) {v : n → ℝ} (hv : v ≠ 0) : 0 < v ⬝ᵥ (P *ᵥ v) := by
  simpa using hP.dotProduct_mulVec_pos hv

theorem quad_nonneg {P : Matrix n n ℝ} (hP : P.PosSemidef) (v : n → ℝ) : 0 ≤ v ⬝ᵥ (P *ᵥ v) := by
  simpa using hP.dotProduct_mulVec_nonneg v

/-- a direction in which the updated covariance vanishes is measured, and measured without error -/
theorem updated_zero {P : Matrix n n ℝ} {R : Matrix m m ℝ} {H : Matrix m n ℝ} {K : Matrix n m ℝ} (hP : P.PosDef)
    (hR : R.PosSemidef) (hH : H * Hᵀ = 1) {v : n → ℝ}
    (h : v ⬝ᵥ (Spec.updatedCovariance P H R K *ᵥ v) = 0) :
    v = Hᵀ *ᵥ (H *ᵥ v) ∧ (H *ᵥ v) ⬝ᵥ (R *ᵥ (H *ᵥ v)) = 0 := by
  rw [Spec.updatedCovariance, Matrix.add_mulVec, dotProduct_add, quad_congr, quad_congr] at h
  have h2 := quad_nonneg hR (Kᵀ *ᵥ v)
  have hw : (1 - K * H)ᵀ *ᵥ v = 0 := by
    by_contra hw
    have := quad_pos hP hw
    linarith
  rw [hw] at h
  simp only [zero_dotProduct, zero_add] at h
  rw [transpose_sub, transpose_one, transpose_mul, Matrix.sub_mulVec, Matrix.one_mulVec, ← Matrix.mulVec_mulVec,
    sub_eq_zero] at hw
  have hHv : H *ᵥ v = Kᵀ *ᵥ v := by
    conv_lhs => rw [hw]
    rw [Matrix.mulVec_mulVec, hH, Matrix.one_mulVec]
  rw [hHv]
  exact ⟨hw, h⟩

/-- and conversely, with the gain of the filter -/
theorem updated_exact {P : Matrix n n ℝ} {R : Matrix m m ℝ} {H : Matrix m n ℝ} {K : Matrix n m ℝ}
    (hP : P.IsHermitian) (hR : R.IsHermitian) (hK : K * (H * P * Hᵀ + R) = P * Hᵀ) {u : m → ℝ} (hu : R *ᵥ u = 0) :
    Spec.updatedCovariance P H R K *ᵥ (Hᵀ *ᵥ u) = 0 := by
  have h : (P * Hᵀ) *ᵥ u = (K * H * (P * Hᵀ)) *ᵥ u := by
    conv_lhs => rw [← hK, Matrix.mul_add, Matrix.add_mulVec, ← Matrix.mulVec_mulVec u K R, hu, Matrix.mulVec_zero,
      add_zero]
    simp only [Matrix.mul_assoc]
  rw [(updated_optimal hP hR hK 0).1, Matrix.mulVec_mulVec, Matrix.mul_assoc, Matrix.sub_mul, Matrix.one_mul,
    Matrix.sub_mulVec, ← h, sub_self]

end

namespace RelativeKalman

/-- the measured part of a six-vector -/
theorem H_mulVec (v : Fin 6 → ℝ) : H.toMatrix.mulVec v = ![v 0, v 1, v 2] := by
  ext i
  match i with
  | 0 | 1 | 2 => simp [Matrix.mulVec, dotProduct, Fin.sum_univ_six, Mat36.toMatrix, H, Vec6.toFun]

/-- the error of the measurement along a direction -/
theorem measurement_quad (e : Vec3) (u : Fin 3 → ℝ) :
    u ⬝ᵥ ((measurementCovariance e).toMatrix.mulVec u) =
      (e.x * u 0) ^ 2 + (e.y * u 1) ^ 2 + (e.z * u 2) ^ 2 := by
  rw [measurementCovariance_toMatrix]
  simp only [Matrix.mulVec_diagonal, dotProduct, Fin.sum_univ_three]
  simp
  ring

/-- an updated variance is zero exactly when the variance of the measurement is -/
theorem updated_variance {P : Mat6} {K : Mat63} {e : Vec3} (hP : P.toMatrix.PosDef)
    (hK : K.toMatrix * (innovation P (measurementCovariance e)).toMatrix = P.toMatrix * H.toMatrix.transpose)
    (i : Fin 3) :
    Spec.updatedCovariance P.toMatrix H.toMatrix (measurementCovariance e).toMatrix K.toMatrix
      (Fin.castLE (by norm_num) i) (Fin.castLE (by norm_num) i) = 0 ↔ e.toFun i = 0 := by
  have hR := posSemidef_measurement e
  have hH : H.toMatrix * H.toMatrix.transpose = 1 := by rw [← HT_toMatrix]; exact H_mul_HT
  set j : Fin 6 := Fin.castLE (by norm_num) i with hj
  set C := Spec.updatedCovariance P.toMatrix H.toMatrix (measurementCovariance e).toMatrix K.toMatrix with hC
  have hquad : (Pi.single j 1 : Fin 6 → ℝ) ⬝ᵥ (C.mulVec (Pi.single j 1)) = C j j := by simp
  have hu : H.toMatrix.mulVec (Pi.single j 1) = Pi.single i 1 := by
    rw [H_mulVec]
    ext k
    match i, k with
    | 0, 0 | 0, 1 | 0, 2 | 1, 0 | 1, 1 | 1, 2 | 2, 0 | 2, 1 | 2, 2 => simp [hj]
  constructor
  · intro h
    rw [← hquad] at h
    have := (updated_zero hP hR hH h).2
    rw [hu, measurement_quad] at this
    match i with
    | 0 | 1 | 2 => simpa [Vec3.toFun] using this
  · intro h
    rw [innovation_toMatrix] at hK
    have hRu : (measurementCovariance e).toMatrix.mulVec (Pi.single i 1) = 0 := by
      rw [measurementCovariance_toMatrix]
      ext k
      rw [Matrix.mulVec_diagonal]
      match i, k with
      | 0, 0 | 0, 1 | 0, 2 | 1, 0 | 1, 1 | 1, 2 | 2, 0 | 2, 1 | 2, 2 =>
        simp [Vec3.toFun] at h
        simp [h]
    have := updated_exact hP.isHermitian hR.isHermitian hK hRu
    have hv : H.toMatrix.transpose.mulVec (Pi.single i 1) = (Pi.single j 1 : Fin 6 → ℝ) := by
      ext k
      match i, k with
      | 0, 0 | 0, 1 | 0, 2 | 0, 3 | 0, 4 | 0, 5 | 1, 0 | 1, 1 | 1, 2 | 1, 3 | 1, 4 | 1, 5
      | 2, 0 | 2, 1 | 2, 2 | 2, 3 | 2, 4 | 2, 5 =>
        simp [hj, Mat36.toMatrix, H, Vec6.toFun]
    rw [hv] at this
    rw [← hquad, ← hC] at *
    rw [this]; simp

/-- the updated covariance is positive definite exactly when no measured coordinate is taken to be exact -/
theorem updated_posDef {P : Mat6} {K : Mat63} {e : Vec3} (hP : P.toMatrix.PosDef)
    (hK : K.toMatrix * (innovation P (measurementCovariance e)).toMatrix = P.toMatrix * H.toMatrix.transpose) :
    (Spec.updatedCovariance P.toMatrix H.toMatrix (measurementCovariance e).toMatrix K.toMatrix).PosDef ↔
      e.x ≠ 0 ∧ e.y ≠ 0 ∧ e.z ≠ 0 := by
  have hR := posSemidef_measurement e
  have hH : H.toMatrix * H.toMatrix.transpose = 1 := by rw [← HT_toMatrix]; exact H_mul_HT
  constructor
  · intro h
    refine ⟨fun h0 => ?_, fun h0 => ?_, fun h0 => ?_⟩
    · exact (h.diag_pos (i := 0)).ne' ((updated_variance hP hK 0).mpr h0)
    · exact (h.diag_pos (i := 1)).ne' ((updated_variance hP hK 1).mpr h0)
    · exact (h.diag_pos (i := 2)).ne' ((updated_variance hP hK 2).mpr h0)
  · rintro ⟨hx, hy, hz⟩
    have hpsd := posSemidef_updated hP.posSemidef hR H.toMatrix K.toMatrix
    refine Matrix.PosDef.of_dotProduct_mulVec_pos hpsd.isHermitian fun v hv => ?_
    refine lt_of_le_of_ne (hpsd.dotProduct_mulVec_nonneg v) fun h => hv ?_
    obtain ⟨h1, h2⟩ := updated_zero hP hR hH (v := v) (by simpa using h.symm)
    rw [H_mulVec, measurement_quad] at h2
    simp at h2
    have a := sq_nonneg (e.x * v 0)
    have b := sq_nonneg (e.y * v 1)
    have c := sq_nonneg (e.z * v 2)
    have v0 : v 0 = 0 := by
      have : (e.x * v 0) ^ 2 = 0 := by linarith
      simpa [hx] using this
    have v1 : v 1 = 0 := by
      have : (e.y * v 1) ^ 2 = 0 := by linarith
      simpa [hy] using this
    have v2 : v 2 = 0 := by
      have : (e.z * v 2) ^ 2 = 0 := by linarith
      simpa [hz] using this
    rw [H_mulVec, v0, v1, v2] at h1
    rw [h1]
    have : (![0, 0, 0] : Fin 3 → ℝ) = 0 := by ext i; match i with | 0 | 1 | 2 => rfl
    rw [this, Matrix.mulVec_zero]

end RelativeKalman

/-- what a successful call of `process` records -/
theorem RelativeKalman.process_records {s s' : RelativeKalman} (h : Inv s) {ob : SpaceObservation}
    (hs' : process ob s = (.ok (), s')) :
    ∃ z, hillMeasurement ob = .ok z ∧ s'.z = some z ∧ s'.angular_error = ob.angular_error := by
  rcases hz : hillMeasurement ob with e1 | z
  · simp [process, hz] at hs'
  rcases he : hillErrors ob with e1 | e
  · simp [process, hz, he] at hs'
  obtain ⟨F, P, K, X, x', -, -, hP, hK, -, -, hp⟩ := process_ok h hz he
  rw [hp] at hs'
  simp only [Prod.mk.injEq, true_and] at hs'
  subst hs'
  exact ⟨z, rfl, rfl, rfl⟩

/-! ## C107 -/

/-- after any history, processing an observation leaves a position variance of zero exactly when the displacement that
the filter computes from the errors of the observation has no component along that axis, and leaves a positive definite
covariance exactly when it has a component along every axis -/
theorem C107_certainty_partial (epoch : Epoch) (p : Hill) (s : RelativeKalman)
    (h : RelativeKalman.new epoch p = .ok s) (cs : List RelativeKalman.Call) (ob : SpaceObservation)
    (s' : RelativeKalman)
    (hs' : RelativeKalman.process ob (RelativeKalman.after cs s) = (.ok (), s')) :
    ∃ e, RelativeKalman.hillErrors ob = .ok e ∧
      (s'.p00.diagonal.x = 0 ↔ e.x = 0) ∧ (s'.p00.diagonal.y = 0 ↔ e.y = 0) ∧ (s'.p00.diagonal.z = 0 ↔ e.z = 0) ∧
      (s'.p00.toMatrix.PosDef ↔ e.x ≠ 0 ∧ e.y ≠ 0 ∧ e.z ≠ 0) := by
  have hi := ((RelativeKalman.new_inv h).1).after cs
  generalize RelativeKalman.after cs s = s0 at *
  rcases hz : RelativeKalman.hillMeasurement ob with e1 | z
  · simp [RelativeKalman.process, hz] at hs'
  rcases he : RelativeKalman.hillErrors ob with e1 | e
  · simp [RelativeKalman.process, hz, he] at hs'
  obtain ⟨F, P, K, X, x', -, -, hP, hK, -, -, hp⟩ := RelativeKalman.process_ok hi hz he
  rw [hp] at hs'
  simp only [Prod.mk.injEq, true_and] at hs'
  have hj : s'.p00.toMatrix = Spec.updatedCovariance P.toMatrix RelativeKalman.H.toMatrix
      (RelativeKalman.measurementCovariance e).toMatrix K.toMatrix := by
    rw [← hs']
    exact RelativeKalman.joseph_toMatrix _ _ _
  refine ⟨e, rfl, ?_, ?_, ?_, ?_⟩
  · have := RelativeKalman.updated_variance hP hK 0
    rw [← hj] at this
    rw [show s'.p00.diagonal.x = s'.p00.diagonal.toFun 0 from rfl, Mat6.diagonal_toFun]
    exact this
  · have := RelativeKalman.updated_variance hP hK 1
    rw [← hj] at this
    rw [show s'.p00.diagonal.y = s'.p00.diagonal.toFun 1 from rfl, Mat6.diagonal_toFun]
    exact this
  · have := RelativeKalman.updated_variance hP hK 2
    rw [← hj] at this
    rw [show s'.p00.diagonal.z = s'.p00.diagonal.toFun 2 from rfl, Mat6.diagonal_toFun]
    exact this
  · rw [hj]
    exact RelativeKalman.updated_posDef hP hK

/-- an observer crossing the `x` axis of the inertial frame -/
noncomputable def crossingObserver (R V a : ℝ) : GCRF := GCRF.new ⟨0⟩ ⟨R, 0, 0⟩ ⟨0, V * cos a, V⟩

theorem crossing_cross {R V a : ℝ} :
    (crossingObserver R V a).position.cross (crossingObserver R V a).velocity = ⟨0, -(R * V), R * V * cos a⟩ := by
  ext <;> simp only [crossingObserver, GCRF.new, State.new, Vec3.cross, Vec3.copy] <;> ring

theorem crossing_nonDegenerate {R V a : ℝ} (hR : 0 < R) (hV : 0 < V) : (crossingObserver R V a).NonDegenerate := by
  rw [nonDegenerate_iff, crossing_cross]
  intro h
  have := congrArg Vec3.y h
  simp at this
  exact this.elim hR.ne' hV.ne'

/-- the height of a point above the orbital plane of the crossing observer -/
theorem crossing_height {R V a : ℝ} (hR : 0 < R) (hV : 0 < V) {w v : Vec3} (hw : w ≠ ⟨0, 0, 0⟩) {h : State}
    (hh : gcrfToHcw (crossingObserver R V a) (GCRF.new ⟨0⟩ w v) = .ok h) :
    h.position.z = 0 ↔ w.z * cos a = w.y := by
  obtain ⟨M, hM, -, -, h3, -⟩ := C33_frame _ (crossing_nonDegenerate (a := a) hR hV)
  have hc := nonDegenerate_iff.mp (crossing_nonDegenerate (a := a) hR hV)
  have hp := position_ne_of_cross hc
  have hcm := Vec3.magnitude_pos.mpr hc
  have hwm : (GCRF.new ⟨0⟩ w v).position.magnitude ≠ 0 := Vec3.magnitude_ne_zero.mpr hw
  rw [gcrfToHcw_position hM hh]
  simp only [mul_eq_zero, Vec3.magnitude_ne_zero.mpr hp, or_false, arcsin_eq_zero_iff, div_eq_zero_iff, hwm]
  rw [crossing_cross] at h3
  have hy := congrArg Vec3.y h3
  have hx := congrArg Vec3.x h3
  have hz := congrArg Vec3.z h3
  rw [crossing_cross] at hcm
  set C := (⟨0, -(R * V), R * V * cos a⟩ : Vec3).magnitude
  simp only [Vec3.scaled] at hx hy hz
  have e : (M.mulVec (GCRF.new ⟨0⟩ w v).position).z * C = R * V * (w.z * cos a - w.y) := by
    show (M.row3.x * w.x + M.row3.y * w.y + M.row3.z * w.z) * C = _
    linear_combination w.x * hx + w.y * hy + w.z * hz
  have hRV : R * V ≠ 0 := by positivity
  constructor
  · intro h0
    rw [h0, zero_mul] at e
    have := (mul_eq_zero.mp e.symm).resolve_left hRV
    linarith
  · intro h0
    rw [h0, sub_self, mul_zero] at e
    exact (mul_eq_zero.mp e).resolve_right hcm.ne'

/-- the displacement that the filter computes for an observation along the `x` axis -/
theorem displacement_along_x {r ρ a : ℝ} (hr : 0 < r) (o : GCRF) :
    (SphericalPosition.toCartesian ⟨(SpaceObservation.new o ⟨r, 0, 0⟩ ρ a).range + ρ,
      (SpaceObservation.new o ⟨r, 0, 0⟩ ρ a).right_ascension + a,
      (SpaceObservation.new o ⟨r, 0, 0⟩ ρ a).declination + a⟩).minus ⟨r, 0, 0⟩ =
    ⟨(r + ρ) * cos a * cos a - r, (r + ρ) * cos a * sin a, (r + ρ) * sin a⟩ := by
  have h := C23_spherical r 0 0 hr le_rfl (by positivity) (by simp; positivity)
  have e : SphericalPosition.toCartesian ⟨r, 0, 0⟩ = ⟨r, 0, 0⟩ := by
    simp [SphericalPosition.toCartesian, pyCos, pySin, Vec3.scaled]
  rw [e] at h
  simp only [SpaceObservation.new, h, zero_add]
  ext <;> simp only [SphericalPosition.toCartesian, Vec3.minus, Vec3.scaled, pyCos, pySin] <;> ring

/-- the claim is false.  An observer on any orbit crossing the `x` axis with inclination a little over 45 degrees looks
straight up at a target at any distance, and reports the observation with any range error and any positive angular error
below a right angle.  Whatever the filter went through before, processing that observation leaves it with a cross-track
variance of zero: the filter takes the cross-track position for exactly known.  Yet an error of the declination alone, of
one standard deviation, changes the measured cross-track position -/
theorem C107_violated (epoch : Epoch) (p : Hill) (s : RelativeKalman) (h : RelativeKalman.new epoch p = .ok s)
    (cs : List RelativeKalman.Call) {R V r ρ a : ℝ} (hR : 0 < R) (hV : 0 < V) (hr : 0 < r) (hρ : 0 ≤ ρ) (ha : 0 < a)
    (ha' : a < π / 2) :
    (∃ s', RelativeKalman.process (SpaceObservation.new (crossingObserver R V a) ⟨r, 0, 0⟩ ρ a)
        (RelativeKalman.after cs s) = (.ok (), s') ∧ s'.p00.diagonal.z = 0 ∧
      (∀ z, s'.z = some z → z.z = 0) ∧ s'.angular_error = a) ∧
    ∃ z, RelativeKalman.hillMeasurement (SpaceObservation.new (crossingObserver R V a)
      (SphericalPosition.toCartesian ⟨r, 0, a⟩) ρ a) = .ok z ∧ z.z ≠ 0 := by
  have hs : 0 < sin a := sin_pos_of_pos_of_lt_pi ha (by linarith)
  have hc : 0 < cos a := cos_pos_of_mem_Ioo ⟨by linarith, ha'⟩
  have hnd := crossing_nonDegenerate (a := a) hR hV
  have hRV : 0 < R * V := by positivity
  constructor
  · have hd := displacement_along_x (ρ := ρ) (a := a) hr (crossingObserver R V a)
    obtain ⟨s', hs'⟩ := C52_succeeds epoch p s h cs (SpaceObservation.new (crossingObserver R V a) ⟨r, 0, 0⟩ ρ a) hnd
      (by
        show ((crossingObserver R V a).position.cross (crossingObserver R V a).velocity).cross _ ≠ _
        rw [crossing_cross]
        intro h0
        have := congrArg Vec3.z h0
        simp only [SpaceObservation.new, crossingObserver, GCRF.copy, GCRF.new, State.new, Vec3.cross, Vec3.copy,
          Vec3.plus] at this
        have h1 : 0 < R * V * (R + r) := by positivity
        linarith)
      (by
        show ((crossingObserver R V a).position.cross (crossingObserver R V a).velocity).cross
          ((crossingObserver R V a).position.plus ((SphericalPosition.toCartesian _).minus ⟨r, 0, 0⟩)) ≠ _
        rw [crossing_cross]
        erw [hd]
        intro h0
        have := congrArg Vec3.x h0
        simp only [crossingObserver, GCRF.new, State.new, Vec3.cross, Vec3.copy, Vec3.plus] at this
        have h1 : 0 < R * V * ((r + ρ) * sin a) := by positivity
        have h2 : 0 < R * V * cos a * ((r + ρ) * cos a * sin a) := by positivity
        linarith)
    obtain ⟨e, he, -, -, hz, -⟩ := C107_certainty_partial epoch p s h cs _ s' hs'
    obtain ⟨z, hm, hz', ha⟩ := RelativeKalman.process_records ((RelativeKalman.new_inv h).1.after cs) hs'
    refine ⟨s', hs', ?_, ?_, ha⟩
    · rw [hz]
      simp only [RelativeKalman.hillErrors, bind_eq_ok, pure_eq_ok, Except.ok.injEq] at he
      obtain ⟨hcw, he, rfl⟩ := he
      refine (crossing_height hR hV ?_ he).mpr ?_
      · erw [hd]
        intro h0
        have := congrArg Vec3.z h0
        simp only [crossingObserver, SpaceObservation.new, GCRF.copy, GCRF.new, State.new, Vec3.copy, Vec3.plus] at this
        have h1 : 0 < (r + ρ) * sin a := by positivity
        linarith
      · erw [hd]
        simp only [crossingObserver, SpaceObservation.new, GCRF.copy, GCRF.new, State.new, Vec3.copy, Vec3.plus]
        ring
    · intro w hw
      rw [hz'] at hw
      cases hw
      simp only [RelativeKalman.hillMeasurement, bind_eq_ok, pure_eq_ok, Except.ok.injEq] at hm
      obtain ⟨hcw, hm, rfl⟩ := hm
      refine (crossing_height hR hV ?_ hm).mpr ?_
      · intro h0
        have := congrArg Vec3.x h0
        simp only [crossingObserver, SpaceObservation.new, GCRF.copy, GCRF.new, State.new, Vec3.copy, Vec3.plus] at this
        linarith
      · simp only [crossingObserver, SpaceObservation.new, GCRF.copy, GCRF.new, State.new, Vec3.copy, Vec3.plus]
        ring
  · have hw : ((crossingObserver R V a).position.plus (SphericalPosition.toCartesian ⟨r, 0, a⟩)) =
        ⟨R + r * cos a, 0, r * sin a⟩ := by
      ext <;> simp [crossingObserver, GCRF.new, State.new, Vec3.copy, Vec3.plus, SphericalPosition.toCartesian,
        Vec3.scaled, pyCos, pySin] <;> ring
    obtain ⟨z, -, hz, -⟩ := C32_round_trip (crossingObserver R V a) hnd (GCRF.new ⟨0⟩ ⟨R + r * cos a, 0, r * sin a⟩
      (crossingObserver R V a).velocity) (by
        rw [crossing_cross]
        intro h0
        have := congrArg Vec3.z h0
        simp only [GCRF.new, State.new, Vec3.cross, Vec3.copy] at this
        have h1 : 0 < R * V * (R + r * cos a) := by positivity
        linarith)
    refine ⟨z.position, ?_, ?_⟩
    · simp only [RelativeKalman.hillMeasurement, bind_eq_ok, pure_eq_ok, Except.ok.injEq]
      refine ⟨z, ?_, rfl⟩
      rw [← hw] at hz
      exact hz
    · have hne : (⟨R + r * cos a, 0, r * sin a⟩ : Vec3) ≠ ⟨0, 0, 0⟩ := by
        intro h0
        have := congrArg Vec3.z h0
        have h1 : 0 < r * sin a := by positivity
        simp only at this
        linarith
      rw [Ne, crossing_height hR hV hne hz]
      have h1 : 0 < r * sin a * cos a := by positivity
      exact h1.ne'

/-- the violation is that of an ordinary filter: a target 10 km above a geosynchronous observer, seen with a range error
of 10 m and an angular error of a milliradian -/
example : ∃ p s s', Hill.new (State.new ⟨0⟩ ⟨10, 0, 0⟩ ⟨0, 0, 0⟩) 42164 = .ok p ∧ RelativeKalman.new ⟨0⟩ p = .ok s ∧
    RelativeKalman.process (SpaceObservation.new (crossingObserver 42164 2.174 0.001) ⟨10, 0, 0⟩ 0.01 0.001) s =
      (.ok (), s') ∧ s'.p00.diagonal.z = 0 ∧ s'.angular_error = 0.001 := by
  obtain ⟨p, hp, hn, -⟩ := hill_new_ok (State.new ⟨0⟩ ⟨10, 0, 0⟩ ⟨0, 0, 0⟩) (show (0:ℝ) < 42164 by norm_num)
  have hs : ∃ s, RelativeKalman.new ⟨0⟩ p = .ok s := by
    simp only [RelativeKalman.new, Hill.systemMatrix_ok hn.ne', ok_bind, pure_eq_ok]
    exact ⟨_, rfl⟩
  obtain ⟨s, hs⟩ := hs
  obtain ⟨⟨s', h1, h2, -, h3⟩, -⟩ := C107_violated ⟨0⟩ p s hs [] (R := 42164) (V := 2.174) (r := 10) (ρ := 0.01)
    (a := 0.001) (by norm_num) (by norm_num) (by norm_num) (by norm_num) (by norm_num)
    (by linarith [pi_gt_three])
  exact ⟨p, s, s', hp, hs, h1, h2, h3⟩

/-- and there are noisy observations after which the covariance is positive definite -/
example : ∃ p s s', Hill.new (State.new ⟨0⟩ ⟨10, 0, 0⟩ ⟨0, 0, 0⟩) 42164 = .ok p ∧ RelativeKalman.new ⟨0⟩ p = .ok s ∧
    RelativeKalman.process (SpaceObservation.new geoState ⟨10, 0, 0⟩ 1 (1 / 10)) s = (.ok (), s') ∧
    s'.p00.toMatrix.PosDef := by
  obtain ⟨p, hp, hn, -⟩ := hill_new_ok (State.new ⟨0⟩ ⟨10, 0, 0⟩ ⟨0, 0, 0⟩) (show (0:ℝ) < 42164 by norm_num)
  have hs : ∃ s, RelativeKalman.new ⟨0⟩ p = .ok s := by
    simp only [RelativeKalman.new, Hill.systemMatrix_ok hn.ne', ok_bind, pure_eq_ok]
    exact ⟨_, rfl⟩
  obtain ⟨s, hs⟩ := hs
  have hs0 : 0 < sin (1 / 10) := sin_pos_of_pos_of_lt_pi (by norm_num) (by linarith [pi_gt_three])
  have hc0 : 199 / 200 ≤ cos (1 / 10) := by
    have := one_sub_sq_div_two_le_cos (x := (1 / 10 : ℝ))
    linarith
  have hc1 := cos_le_one (1 / 10 : ℝ)
  have hd := displacement_along_x (r := 10) (ρ := 1) (a := 1 / 10) (by norm_num) geoState
  have hcc : (10 : ℝ) < (10 + 1) * cos (1 / 10) * cos (1 / 10) := by nlinarith
  have hcs : 0 < cos (1 / 10) * sin (1 / 10) := by positivity
  have hX : (geoState.position.cross geoState.velocity) = ⟨0, 0, 42164 * 3.0747⟩ := by
    ext <;> simp only [geoState, GCRF.new, State.new, Vec3.cross, Vec3.copy] <;> ring
  obtain ⟨s', hs'⟩ := C52_succeeds _ p s hs [] (SpaceObservation.new geoState ⟨10, 0, 0⟩ 1 (1 / 10))
    geoState_nonDegenerate
    (by
      show (geoState.position.cross geoState.velocity).cross _ ≠ _
      rw [hX]
      intro h
      have := congrArg Vec3.y h
      simp only [SpaceObservation.new, geoState, GCRF.copy, GCRF.new, State.new, Vec3.cross, Vec3.copy,
        Vec3.plus] at this
      norm_num at this)
    (by
      show (geoState.position.cross geoState.velocity).cross
        (geoState.position.plus ((SphericalPosition.toCartesian _).minus ⟨10, 0, 0⟩)) ≠ _
      rw [hX]
      erw [hd]
      intro h
      have := congrArg Vec3.x h
      simp only [geoState, GCRF.new, State.new, Vec3.cross, Vec3.copy, Vec3.plus] at this
      nlinarith)
  obtain ⟨e, he, -, -, -, hpd⟩ := C107_certainty_partial _ p s hs [] _ s' hs'
  refine ⟨p, s, s', hp, hs, hs', hpd.mpr ?_⟩
  simp only [RelativeKalman.hillErrors, bind_eq_ok, pure_eq_ok, Except.ok.injEq] at he
  obtain ⟨hcw, he, rfl⟩ := he
  obtain ⟨M, hM, -, h1, h3, h2, -⟩ := C33_frame _ geoState_nonDegenerate
  erw [hd] at he
  have hm1 : geoState.position.magnitude = 42164 :=
    Vec3.magnitude_of_dot (by norm_num) (by simp only [geoState, GCRF.new, State.new, Vec3.copy, Vec3.dot]; norm_num)
  have hm3 : (⟨0, 0, 42164 * 3.0747⟩ : Vec3).magnitude = 42164 * 3.0747 :=
    Vec3.magnitude_of_dot (by norm_num) (by simp only [Vec3.dot]; ring)
  rw [hX, hm3] at h3
  rw [hm1] at h1
  have r1 : M.row1 = ⟨1, 0, 0⟩ := by
    have hx := congrArg Vec3.x h1
    have hy := congrArg Vec3.y h1
    have hz := congrArg Vec3.z h1
    simp only [Vec3.scaled, geoState, GCRF.new, State.new, Vec3.copy] at hx hy hz
    ext <;> simp only <;> linarith
  have r3 : M.row3 = ⟨0, 0, 1⟩ := by
    have hx := congrArg Vec3.x h3
    have hy := congrArg Vec3.y h3
    have hz := congrArg Vec3.z h3
    simp only [Vec3.scaled] at hx hy hz
    norm_num at hx hy hz
    ext <;> simp only [hx, hy, hz]
  have r2 : M.row2 = ⟨0, 1, 0⟩ := by rw [h2, r1, r3]; ext <;> simp [Vec3.cross]
  rw [gcrfToHcw_position hM he]
  set w : Vec3 := (SpaceObservation.new geoState ⟨10, 0, 0⟩ 1 (1 / 10)).observer_state.position.plus
    ⟨(10 + 1) * cos (1 / 10) * cos (1 / 10) - 10, (10 + 1) * cos (1 / 10) * sin (1 / 10), (10 + 1) * sin (1 / 10)⟩
    with hw
  have wx : 42164 < w.x := by
    rw [hw]; show (42164 : ℝ) < 42164 + _; linarith
  have wy : 0 < w.y := by
    rw [hw]; show (0 : ℝ) < 0 + _; nlinarith
  have wz : 0 < w.z := by
    rw [hw]; show (0 : ℝ) < 0 + _; nlinarith
  have hwm : 42164 < w.magnitude := by
    refine lt_sqrt_of_sq_lt ?_
    nlinarith
  have hMw : M.mulVec w = w := by
    ext <;> simp [Mat3.mulVec, r1, r2, r3, Vec3.dot]
  show w.magnitude - geoState.position.magnitude ≠ 0 ∧ pyAtan2 (M.mulVec w).y (M.mulVec w).x * _ ≠ 0 ∧
    arcsin ((M.mulVec w).z / w.magnitude) * _ ≠ 0
  rw [hMw, hm1]
  refine ⟨by linarith, ?_, ?_⟩
  · rw [pyAtan2_of_pos (by linarith)]
    have : 0 < arctan (w.y / w.x) := arctan_pos.mpr (div_pos wy (by linarith))
    positivity
  · have : 0 < arcsin (w.z / w.magnitude) := arcsin_pos.mpr (div_pos wz (by linarith))
    positivity

end Openspace
