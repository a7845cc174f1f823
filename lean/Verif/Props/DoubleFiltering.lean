import Verif.Lemmas.DoubleMatrix
import Verif.Props.Kalman

/-!
# C156: the covariance of the navigation filter in double precision
-/

namespace Openspace

open Matrix

namespace F64.Kalman

open RelativeKalman (H HT I attr)

/-! ## one prediction and one update -/

theorem predicted_sc (f p q : Mat6) : MSc (mat6Plus (mat6Mul f (mat6Mul p f.transpose)) q).toMatrix
    (f.toMatrix * p.toMatrix * f.toMatrixᵀ + q.toMatrix) 13.1
    (f.toMatrix.map abs * p.toMatrix.map abs * (f.toMatrix.map abs)ᵀ + q.toMatrix.map abs) := by
  have hf := MSc.exact f.toMatrix
  have ht := hf.transpose
  rw [← Mat6.transpose_toMatrix] at ht
  have h1 := mat6Mul_sc (MSc.exact p.toMatrix) ht le_rfl (by norm_num) le_rfl (by norm_num)
  have h2 := mat6Mul_sc hf h1 le_rfl (by norm_num) (by norm_num) (by norm_num)
  have h3 := mat6Plus_sc h2 ((MSc.exact q.toMatrix).mono (by norm_num)) (by norm_num) (by norm_num)
  rw [Matrix.mul_assoc, Matrix.mul_assoc, ← Mat6.transpose_toMatrix]
  exact h3.mono (by norm_num)

theorem mul_H {k : Mat63} (hk : ∀ i j, rnd (k.toMatrix i j) = k.toMatrix i j) : mat63Mul36 k H = k.mul36 H := by
  have h1 := dot_unit k.row1 (fun l => hk 0 l)
  have h2 := dot_unit k.row2 (fun l => hk 1 l)
  have h3 := dot_unit k.row3 (fun l => hk 2 l)
  have h4 := dot_unit k.row4 (fun l => hk 3 l)
  have h5 := dot_unit k.row5 (fun l => hk 4 l)
  have h6 := dot_unit k.row6 (fun l => hk 5 l)
  simp only [mat63Mul36, Mat63.mul36, H, Mat36.column1, Mat36.column2, Mat36.column3, Mat36.column4, Mat36.column5,
    Mat36.column6, h1, h2, h3, h4, h5, h6, Vec3.dot, mul_one, mul_zero, add_zero, zero_add]

theorem updated_sc {k : Mat63} (hk : ∀ i j, rnd (k.toMatrix i j) = k.toMatrix i j) (r : Mat3) (p : Mat6) :
    MSc (mat6Plus (mat6Mul (mat6Minus I (mat63Mul36 k H)) (mat6Mul p (mat6Minus I (mat63Mul36 k H)).transpose))
        (mat63Mul36 k (mat3Mul36 r k.transpose))).toMatrix
      (Spec.updatedCovariance p.toMatrix H.toMatrix r.toMatrix k.toMatrix) 15.1
      ((1 - k.toMatrix * H.toMatrix).map abs * p.toMatrix.map abs * ((1 - k.toMatrix * H.toMatrix).map abs)ᵀ +
        k.toMatrix.map abs * r.toMatrix.map abs * (k.toMatrix.map abs)ᵀ) := by
  have hm : MSc (mat6Minus I (mat63Mul36 k H)).toMatrix (1 - k.toMatrix * H.toMatrix) 1.001
      ((1 - k.toMatrix * H.toMatrix).map abs) := by
    intro i j
    rw [mat6Minus_entry, mul_H hk, I, Mat6.identity_toMatrix, Mat63.mul36_toMatrix]
    exact ((Sc.exact le_rfl).round le_rfl (by norm_num)).mono (by norm_num)
  generalize mat6Minus I (mat63Mul36 k H) = m1 at *
  have ht := hm.transpose
  rw [← Mat6.transpose_toMatrix] at ht
  have h1 := mat6Mul_sc (MSc.exact p.toMatrix) ht le_rfl (by norm_num) (by norm_num) (by norm_num)
  have h2 := mat6Mul_sc hm h1 (by norm_num) (by norm_num) (by norm_num) (by norm_num)
  have hkk := MSc.exact k.toMatrix
  have hkt := hkk.transpose
  rw [← Mat63.transpose_toMatrix] at hkt
  have g1 := mat3Mul36_sc (MSc.exact r.toMatrix) hkt le_rfl (by norm_num) le_rfl (by norm_num)
  have g2 := mat63Mul36_sc hkk g1 le_rfl (by norm_num) (by norm_num) (by norm_num)
  have h3 := mat6Plus_sc h2 (g2.mono (by norm_num)) (by norm_num) (by norm_num)
  rw [Spec.updatedCovariance, Matrix.mul_assoc, Matrix.mul_assoc, Matrix.mul_assoc, Matrix.mul_assoc,
    ← Mat63.transpose_toMatrix]
  exact h3.mono (by norm_num)

/-! ## the gain is made of doubles -/

theorem rounded_mat63 (m : Mat6) (k : Mat63) (i : Fin 6) (j : Fin 3) :
    rnd ((mat6Mul63 m k).toMatrix i j) = (mat6Mul63 m k).toMatrix i j := by
  have h : (mat6Mul63 m k).toMatrix i j = dot6 (m.rows i) (k.cols j) := by
    match i with
    | 0 | 1 | 2 | 3 | 4 | 5 => match j with | 0 | 1 | 2 => rfl
  rw [h, dot6]; exact isDouble_rnd _

theorem rounded_mat6 (m k : Mat6) (i j : Fin 6) : rnd ((mat6Plus m k).toMatrix i j) = (mat6Plus m k).toMatrix i j := by
  rw [mat6Plus_entry]; exact isDouble_rnd _

theorem measurementCovariance_psd (e : Vec3) : (measurementCovariance e).toMatrix.PosSemidef := by
  have h : (measurementCovariance e).toMatrix =
      Matrix.diagonal ![rnd (e.x * e.x), rnd (e.y * e.y), rnd (e.z * e.z)] := by
    ext i j
    rw [Matrix.diagonal_apply]
    match i with
    | 0 | 1 | 2 => match j with | 0 | 1 | 2 => simp [Mat3.toMatrix, measurementCovariance, Vec3.toFun]
  rw [h]
  refine Matrix.PosSemidef.diagonal fun i => ?_
  match i with | 0 | 1 | 2 => simpa using rnd_nonneg (mul_self_nonneg _)

/-- everything a call of `process` that returns has done -/
theorem process_ok {lib : Libm} {s s' : RelativeKalman} {ob : SpaceObservation}
    (h : process lib ob s = (.ok (), s')) :
    ∃ z e f inv, hillMeasurement lib ob = .ok z ∧ hillErrors lib ob = .ok e ∧
      hillMatrix lib s.propagator.n (rnd (rnd (ob.observer_state.epoch.value - s.epoch.value) * SECONDS_IN_DAY)) = .ok f ∧
      ∃ p k x10 x00, p = mat6Plus (mat6Mul f (mat6Mul s.p00 f.transpose)) s.q ∧
      inverse (mat3Plus (mat36Mul63 H (mat6Mul63 p HT)) (measurementCovariance e)) = .ok inv ∧
      k = mat6Mul63 p (mat63Mul3 HT inv) ∧ x10 = mulVec6 f s.x00 ∧
      x00 = plus6 x10 (mat63MulVec k (minus z (mat36MulVec H x10))) ∧
      s' = { s with
        epoch := ob.observer_state.epoch, z := some z, r := some (measurementCovariance e)
        range_error := ob.range_error, angular_error := ob.angular_error, f := f
        x10 := some x10, p10 := some p, k := some k, x00 := x00
        propagator := { s.propagator with state := State.fromStateVector x00 }
        p00 := mat6Plus (mat6Mul (mat6Minus I (mat63Mul36 k H)) (mat6Mul p (mat6Minus I (mat63Mul36 k H)).transpose))
          (mat63Mul36 k (mat3Mul36 (measurementCovariance e) k.transpose)) } := by
  simp only [process, PyM.get_bind_apply, PyM.modify_bind_apply] at h
  rcases hz : hillMeasurement lib ob with e1 | z
  · simp [hz] at h
  rcases he : hillErrors lib ob with e1 | e
  · simp [hz, he] at h
  simp only [hz, he, PyM.lift_ok_bind_apply, PyM.modify_bind_apply] at h
  rw [PyM.bind_apply] at h
  simp only [predict, predictState, predictCovariance] at h
  rw [PyM.bind_apply] at h
  simp only [PyM.get_bind_apply, PyM.modify_apply] at h
  rcases hf : hillMatrix lib s.propagator.n
    (rnd (rnd (ob.observer_state.epoch.value - s.epoch.value) * SECONDS_IN_DAY)) with e1 | f
  · simp [hf] at h
  simp only [hf, PyM.lift_ok_bind_apply, PyM.modify_apply, update] at h
  rw [PyM.bind_apply] at h
  simp only [gain, PyM.get_bind_apply, attr, PyM.lift_ok_bind_apply] at h
  rcases hinv : inverse (mat3Plus (mat36Mul63 H (mat6Mul63 (mat6Plus (mat6Mul f (mat6Mul s.p00 f.transpose)) s.q) HT))
    (measurementCovariance e)) with e1 | inv
  · simp [hinv] at h
  refine ⟨z, e, f, inv, rfl, rfl, rfl, _, _, _, _, rfl, hinv, rfl, rfl, rfl, ?_⟩
  rw [hinv] at h
  simp only [PyM.lift_ok_bind_apply, PyM.modify_apply] at h
  rw [PyM.bind_apply] at h
  simp only [updateState, updateCovariance, PyM.get_bind_apply, attr, PyM.lift_ok_bind_apply, PyM.modify_apply,
    Prod.mk.injEq, true_and] at h
  rw [← h]
  rfl

/-- `process` returns if none of its parts raises -/
theorem process_returns {lib : Libm} {s : RelativeKalman} {ob : SpaceObservation} {z e : Vec3} {f : Mat6} {inv : Mat3}
    (hz : hillMeasurement lib ob = .ok z) (he : hillErrors lib ob = .ok e)
    (hf : hillMatrix lib s.propagator.n (rnd (rnd (ob.observer_state.epoch.value - s.epoch.value) * SECONDS_IN_DAY)) = .ok f)
    (hinv : inverse (mat3Plus (mat36Mul63 H (mat6Mul63 (mat6Plus (mat6Mul f (mat6Mul s.p00 f.transpose)) s.q) HT))
      (measurementCovariance e)) = .ok inv) : ∃ s', process lib ob s = (.ok (), s') := by
  simp only [process, PyM.get_bind_apply, PyM.modify_bind_apply, hz, he, PyM.lift_ok_bind_apply]
  rw [PyM.bind_apply]
  simp only [predict, predictState, predictCovariance]
  rw [PyM.bind_apply]
  simp only [PyM.get_bind_apply, PyM.modify_apply, hf, PyM.lift_ok_bind_apply, update]
  rw [PyM.bind_apply]
  simp only [gain, PyM.get_bind_apply, attr, PyM.lift_ok_bind_apply]
  rw [hinv]
  simp only [PyM.lift_ok_bind_apply, PyM.modify_apply]
  rw [PyM.bind_apply]
  simp only [updateState, updateCovariance, PyM.get_bind_apply, attr, PyM.lift_ok_bind_apply, PyM.modify_apply,
    Prod.mk.injEq, true_and]
  exact ⟨_, rfl⟩

/-! ## bounds of products -/

theorem mul_le_of_abs {l m n : Type} [Fintype m] {A B : Matrix l m ℝ} {X Y : Matrix m n ℝ} (h : ∀ i j, |A i j| ≤ B i j)
    (g : ∀ i j, |X i j| ≤ Y i j) (i : l) (j : n) : |(A * X) i j| ≤ (B * Y) i j := by
  rw [mul_apply, mul_apply]
  refine (Finset.abs_sum_le_sum_abs _ _).trans (Finset.sum_le_sum fun k _ => ?_)
  rw [abs_mul]
  exact mul_le_mul (h i k) (g k j) (abs_nonneg _) ((abs_nonneg _).trans (h i k))

theorem congr_le {m n : Type} [Fintype n] (A : Matrix m n ℝ) {X Y : Matrix n n ℝ} (g : ∀ i j, |X i j| ≤ Y i j) (i j : m) :
    |(A * X * Aᵀ) i j| ≤ (A.map abs * Y * (A.map abs)ᵀ) i j :=
  mul_le_of_abs (mul_le_of_abs (fun _ _ => le_rfl) g) (fun _ _ => le_rfl) i j

/-- the errors of an update whose prediction `p` has errors -/
theorem step_bound {M F Q P00 p P : Matrix (Fin 6) (Fin 6) ℝ} {K : Matrix (Fin 6) (Fin 3) ℝ} {R : Matrix (Fin 3) (Fin 3) ℝ}
    {D p' : Matrix (Fin 6) (Fin 6) ℝ} (hD : ∀ i j, |(P00 - P) i j| ≤ D i j)
    (hp : MSc p (F * P00 * Fᵀ + Q) 13.1 (F.map abs * P00.map abs * (F.map abs)ᵀ + Q.map abs))
    (hp' : MSc p' (M * p * Mᵀ + K * R * Kᵀ) 15.1
      (M.map abs * p.map abs * (M.map abs)ᵀ + K.map abs * R.map abs * (K.map abs)ᵀ)) (i j : Fin 6) :
    |p' i j - (M * (F * P * Fᵀ + Q) * Mᵀ + K * R * Kᵀ) i j| ≤
      (M.map abs * (F.map abs * D * (F.map abs)ᵀ) * (M.map abs)ᵀ) i j +
      28.3 * u * (M.map abs * (F.map abs * P00.map abs * (F.map abs)ᵀ + Q.map abs) * (M.map abs)ᵀ +
        K.map abs * R.map abs * (K.map abs)ᵀ) i j := by
  have hu := u_tiny
  have hu0 := u_pos
  generalize hT : F.map abs * P00.map abs * (F.map abs)ᵀ + Q.map abs = T at *
  generalize hB : K.map abs * R.map abs * (K.map abs)ᵀ = B at *
  have hB0 : 0 ≤ B i j := by
    have h1 : ∀ a b, |(K * R) a b| ≤ (K.map abs * R.map abs) a b := mul_le_of_abs (fun _ _ => le_rfl) (fun _ _ => le_rfl)
    have := mul_le_of_abs (X := Kᵀ) (Y := (K.map abs)ᵀ) h1 (fun _ _ => le_rfl) i j
    rw [hB] at this
    exact (abs_nonneg _).trans this
  have hT0 : ∀ a b, 0 ≤ T a b := fun a b => (hp a b).nonneg
  -- the prediction
  have e1 : ∀ a b, |(p - (F * P * Fᵀ + Q)) a b| ≤ (F.map abs * D * (F.map abs)ᵀ + (13.1 * u) • T) a b := by
    intro a b
    have h1 := congr_le F hD a b
    have h2 := (hp a b).1
    have h3 : (p - (F * P * Fᵀ + Q)) a b = (F * (P00 - P) * Fᵀ) a b + (p a b - (F * P00 * Fᵀ + Q) a b) := by
      rw [Matrix.mul_sub, Matrix.sub_mul]
      simp only [Matrix.sub_apply, Matrix.add_apply]
      ring
    rw [h3, Matrix.add_apply (F.map abs * D * (F.map abs)ᵀ), Matrix.smul_apply, smul_eq_mul]
    have h4 := abs_add_le ((F * (P00 - P) * Fᵀ) a b) (p a b - (F * P00 * Fᵀ + Q) a b)
    linarith
  have e2 := congr_le M e1 i j
  rw [Matrix.mul_add, Matrix.add_mul, Matrix.add_apply, Matrix.mul_smul, Matrix.smul_mul, Matrix.smul_apply,
    smul_eq_mul] at e2
  -- the size of the prediction
  have e3 : ∀ a b, |(p.map abs) a b| ≤ ((1 + 13.1 * u) • T) a b := by
    intro a b
    rw [Matrix.map_apply, abs_abs, Matrix.smul_apply, smul_eq_mul]
    have h1 := (hp a b).1
    have h2 := (hp a b).2
    have h3 := abs_sub_abs_le_abs_sub (p a b) ((F * P00 * Fᵀ + Q) a b)
    linarith
  have e4 : (M.map abs * p.map abs * (M.map abs)ᵀ) i j ≤ (1 + 13.1 * u) * (M.map abs * T * (M.map abs)ᵀ) i j := by
    have h1 : ∀ a b, |(M.map abs) a b| ≤ (M.map abs) a b := fun a b => by rw [Matrix.map_apply, abs_abs]
    have h2 := mul_le_of_abs (mul_le_of_abs h1 e3) (X := (M.map abs)ᵀ) (Y := (M.map abs)ᵀ) (fun a b => h1 b a) i j
    rw [Matrix.mul_smul, Matrix.smul_mul, Matrix.smul_apply, smul_eq_mul] at h2
    exact (le_abs_self _).trans h2
  have e5 : 0 ≤ (M.map abs * T * (M.map abs)ᵀ) i j := by
    have h1 := congr_le M (X := T) (Y := T) (fun a b => by rw [abs_of_nonneg (hT0 a b)]) i j
    exact (abs_nonneg _).trans h1
  have e6 := (hp' i j).1
  have e7 : p' i j - (M * (F * P * Fᵀ + Q) * Mᵀ + K * R * Kᵀ) i j =
      (p' i j - (M * p * Mᵀ + K * R * Kᵀ) i j) + (M * (p - (F * P * Fᵀ + Q)) * Mᵀ) i j := by
    rw [Matrix.mul_sub, Matrix.sub_mul]
    simp only [Matrix.sub_apply, Matrix.add_apply]
    ring
  rw [e7]
  have e8 := abs_add_le (p' i j - (M * p * Mᵀ + K * R * Kᵀ) i j) ((M * (p - (F * P * Fᵀ + Q)) * Mᵀ) i j)
  simp only [Matrix.add_apply] at e6 ⊢
  simp only [Matrix.add_apply] at e8
  generalize (M.map abs * T * (M.map abs)ᵀ) i j = a at *
  generalize (M.map abs * p.map abs * (M.map abs)ᵀ) i j = b at *
  have e9 : 15.1 * u * (b + B i j) ≤ 15.1 * u * ((1 + 13.1 * u) * a + B i j) := by gcongr
  have e10 : 15.1 * (13.1 * u) ≤ 0.1 := by norm_num at hu ⊢; linarith
  have e11 : 15.1 * (13.1 * u) * (u * a) ≤ 0.1 * (u * a) := by gcongr
  have e12 : 0 ≤ u * B i j := by positivity
  linarith

end F64.Kalman

/-! ## C156 -/

/-- predicting the covariance in double precision: every entry of `F P Fᵀ + Q` is computed up to 13.1 units of rounding
of that entry of `|F| |P| |F|ᵀ + |Q|`, and no other attribute changes -/
theorem C156_prediction (s : RelativeKalman) : ∃ P, F64.Kalman.predictCovariance s = (.ok (), { s with p10 := some P }) ∧
    ∀ i j, |P.toMatrix i j - (s.f.toMatrix * s.p00.toMatrix * s.f.toMatrixᵀ + s.q.toMatrix) i j| ≤ 13.1 * F64.u *
      (s.f.toMatrix.map abs * s.p00.toMatrix.map abs * (s.f.toMatrix.map abs)ᵀ + s.q.toMatrix.map abs) i j :=
  ⟨_, rfl, fun i j => (F64.Kalman.predicted_sc s.f s.p00 s.q i j).1⟩

/-- updating the covariance in double precision with whatever gain `K` is stored: every entry of the covariance of the
error of the estimate formed with this gain is computed up to 15.1 units of rounding of that entry of
`|1 - K H| |P| |1 - K H|ᵀ + |K| |R| |K|ᵀ`, and no other attribute changes -/
theorem C156_update (s : RelativeKalman) (P : Mat6) (K : Mat63) (R : Mat3) (hP : s.p10 = some P) (hK : s.k = some K)
    (hR : s.r = some R) (hd : ∀ i j, Spec.IsBinary64 (K.toMatrix i j)) :
    ∃ P', F64.Kalman.updateCovariance s = (.ok (), { s with p00 := P' }) ∧ ∀ i j,
      |P'.toMatrix i j - Spec.updatedCovariance P.toMatrix RelativeKalman.H.toMatrix R.toMatrix K.toMatrix i j| ≤
        15.1 * F64.u * ((1 - K.toMatrix * RelativeKalman.H.toMatrix).map abs * P.toMatrix.map abs *
          ((1 - K.toMatrix * RelativeKalman.H.toMatrix).map abs)ᵀ +
          K.toMatrix.map abs * R.toMatrix.map abs * (K.toMatrix.map abs)ᵀ) i j := by
  refine ⟨_, ?_, fun i j => (F64.Kalman.updated_sc (fun i j => (F64.isDouble_iff _).mpr (hd i j)) R P i j).1⟩
  simp only [F64.Kalman.updateCovariance, PyM.get_bind_apply, hP, hK, hR, RelativeKalman.attr, PyM.lift_ok_bind_apply,
    PyM.modify_apply]

/-- One call of `process` in double precision.  Let `P` be a covariance from which the stored one differs by at most `D`
in every entry.  With the transition matrix, the gain and the measurement covariance that the call has used, the exact
covariance of the error of the new estimate is positive semidefinite, and the one stored differs from it by at most the
propagated `D` and 28.3 units of rounding of `|1 - K H| (|F| |P₀₀| |F|ᵀ + |Q|) |1 - K H|ᵀ + |K| |R| |K|ᵀ`. -/
theorem C156_process (lib : F64.Libm) (s s' : RelativeKalman) (ob : SpaceObservation)
    (h : F64.Kalman.process lib ob s = (.ok (), s')) (hq : s.q.toMatrix.PosSemidef)
    (P D : Matrix (Fin 6) (Fin 6) ℝ) (hP : P.PosSemidef) (hD : ∀ i j, |s.p00.toMatrix i j - P i j| ≤ D i j) :
    s'.q = s.q ∧ ∃ K R, s'.k = some K ∧ s'.r = some R ∧
      (Spec.updatedCovariance (s'.f.toMatrix * P * s'.f.toMatrixᵀ + s.q.toMatrix) RelativeKalman.H.toMatrix R.toMatrix
        K.toMatrix).PosSemidef ∧
      ∀ i j, |s'.p00.toMatrix i j - Spec.updatedCovariance (s'.f.toMatrix * P * s'.f.toMatrixᵀ + s.q.toMatrix)
          RelativeKalman.H.toMatrix R.toMatrix K.toMatrix i j| ≤
        ((1 - K.toMatrix * RelativeKalman.H.toMatrix).map abs *
          (s'.f.toMatrix.map abs * D * (s'.f.toMatrix.map abs)ᵀ) *
          ((1 - K.toMatrix * RelativeKalman.H.toMatrix).map abs)ᵀ) i j +
        28.3 * F64.u * ((1 - K.toMatrix * RelativeKalman.H.toMatrix).map abs *
          (s'.f.toMatrix.map abs * s.p00.toMatrix.map abs * (s'.f.toMatrix.map abs)ᵀ + s.q.toMatrix.map abs) *
          ((1 - K.toMatrix * RelativeKalman.H.toMatrix).map abs)ᵀ +
          K.toMatrix.map abs * R.toMatrix.map abs * (K.toMatrix.map abs)ᵀ) i j := by
  obtain ⟨z, e, f, inv, -, -, -, p, k, x10, x00, hp, -, hk, -, -, rfl⟩ := F64.Kalman.process_ok h
  have hR := F64.Kalman.measurementCovariance_psd e
  refine ⟨rfl, k, _, rfl, rfl, posSemidef_updated ((posSemidef_congr hP _).add hq) hR _ _, fun i j => ?_⟩
  have h1 := F64.Kalman.predicted_sc f s.p00 s.q
  rw [← hp] at h1
  have h2 := F64.Kalman.updated_sc (k := k) (by rw [hk]; exact F64.Kalman.rounded_mat63 _ _)
    (F64.Kalman.measurementCovariance e) p
  rw [Spec.updatedCovariance] at h2
  exact F64.Kalman.step_bound (fun i j => hD i j) h1 h2 i j

/-- weights of the components bound a matrix between others -/
theorem F64.Kalman.weight_le {m n : Type} [Fintype n] {A : Matrix m n ℝ} {X : Matrix n n ℝ} {v : m → ℝ} {w : n → ℝ} {g c : ℝ}
    (hA : ∀ i j, 0 ≤ A i j) (hv : ∀ i, 0 ≤ v i) (hw : ∀ i, 0 ≤ w i) (hg : ∀ i, (A *ᵥ w) i ≤ g * v i) (hc : 0 ≤ c)
    (hX : ∀ i j, X i j ≤ c * (w i * w j)) (i j : m) : (A * X * Aᵀ) i j ≤ g ^ 2 * c * (v i * v j) := by
  have h1 : ∀ i, 0 ≤ (A *ᵥ w) i := fun i => by
    rw [Matrix.mulVec, dotProduct]
    exact Finset.sum_nonneg fun k _ => mul_nonneg (hA i k) (hw k)
  have h2 : (A * X * Aᵀ) i j ≤ c * ((A *ᵥ w) i * (A *ᵥ w) j) := by
    rw [mul_apply]
    simp only [mul_apply, transpose_apply]
    have e : c * ((A *ᵥ w) i * (A *ᵥ w) j) = ∑ l, (∑ k, A i k * (c * (w k * w l))) * A j l := by
      simp only [Matrix.mulVec, dotProduct, Finset.sum_mul, Finset.mul_sum]
      refine Finset.sum_congr rfl fun l _ => Finset.sum_congr rfl fun k _ => ?_
      ring
    rw [e]
    refine Finset.sum_le_sum fun l _ => mul_le_mul_of_nonneg_right (Finset.sum_le_sum fun k _ => ?_) (hA j l)
    exact mul_le_mul_of_nonneg_left (hX k l) (hA i k)
  refine h2.trans ?_
  have h3 : (A *ᵥ w) i * (A *ᵥ w) j ≤ (g * v i) * (g * v j) := mul_le_mul (hg i) (hg j) (h1 j) ((h1 i).trans (hg i))
  calc c * ((A *ᵥ w) i * (A *ᵥ w) j) ≤ c * ((g * v i) * (g * v j)) := by gcongr
    _ = _ := by ring

/-- Any number of observations processed in double precision one after the other.  `P k` is the exact covariance of the
error of the estimate after `k` of them, for the transition matrices, gains and measurement covariances the filter has
used.  It is positive semidefinite, and if weights `w` of the components bound the stored covariances by `p` and the
noise entering in each call by `q`, and grow at most `g`-fold under `|1 - K H| |F|`, then the stored covariance differs from
`P k` by at most `28.3 (g² p + q) (1 + g² + … + g²ᵏ⁻²)` units of rounding of the product of the weights. -/
theorem C156_history (lib : F64.Libm) (N : ℕ) (s : ℕ → RelativeKalman) (ob : ℕ → SpaceObservation)
    (h : ∀ k < N, F64.Kalman.process lib (ob k) (s k) = (.ok (), s (k + 1))) (hq : (s 0).q.toMatrix.PosSemidef)
    (K : ℕ → Mat63) (R : ℕ → Mat3) (hK : ∀ k < N, (s (k + 1)).k = some (K k)) (hR : ∀ k < N, (s (k + 1)).r = some (R k))
    (P : ℕ → Matrix (Fin 6) (Fin 6) ℝ) (h0 : P 0 = (s 0).p00.toMatrix) (hP0 : (P 0).PosSemidef)
    (hP : ∀ k < N, P (k + 1) = Spec.updatedCovariance
      ((s (k + 1)).f.toMatrix * P k * (s (k + 1)).f.toMatrixᵀ + (s 0).q.toMatrix) RelativeKalman.H.toMatrix
      (R k).toMatrix (K k).toMatrix)
    (w : Fin 6 → ℝ) (hw : ∀ i, 0 < w i) (g p q : ℝ) (hp0 : 0 ≤ p)
    (hg : ∀ k < N, ∀ i, (((1 - (K k).toMatrix * RelativeKalman.H.toMatrix).map abs * (s (k + 1)).f.toMatrix.map abs) *ᵥ w) i
      ≤ g * w i)
    (hp : ∀ k < N, ∀ i j, |(s k).p00.toMatrix i j| ≤ p * (w i * w j))
    (hn : ∀ k < N, ∀ i j, ((1 - (K k).toMatrix * RelativeKalman.H.toMatrix).map abs * (s 0).q.toMatrix.map abs *
        ((1 - (K k).toMatrix * RelativeKalman.H.toMatrix).map abs)ᵀ +
        (K k).toMatrix.map abs * (R k).toMatrix.map abs * ((K k).toMatrix.map abs)ᵀ) i j ≤ q * (w i * w j)) :
    ∀ k ≤ N, (P k).PosSemidef ∧ ∀ i j, |(s k).p00.toMatrix i j - P k i j| ≤
      28.3 * F64.u * (g ^ 2 * p + q) * (∑ l ∈ Finset.range k, (g ^ 2) ^ l) * (w i * w j) := by
  have hu0 := F64.u_pos
  have key : ∀ k ≤ N, (s k).q = (s 0).q ∧ (P k).PosSemidef ∧ ∀ i j, |(s k).p00.toMatrix i j - P k i j| ≤
      28.3 * F64.u * (g ^ 2 * p + q) * (∑ l ∈ Finset.range k, (g ^ 2) ^ l) * (w i * w j) := by
    intro k
    induction k with
    | zero => intro _; refine ⟨rfl, hP0, fun i j => ?_⟩; rw [h0]; simp
    | succ k ih =>
      intro hk
      have hk' : k < N := hk
      obtain ⟨i1, i2, i3⟩ := ih hk'.le
      obtain ⟨D, hD⟩ : ∃ D : Matrix (Fin 6) (Fin 6) ℝ, ∀ i j, D i j =
        28.3 * F64.u * (g ^ 2 * p + q) * (∑ l ∈ Finset.range k, (g ^ 2) ^ l) * (w i * w j) := ⟨fun _ _ => _, fun _ _ => rfl⟩
      obtain ⟨j1, K', R', j2, j3, j4, j5⟩ := C156_process lib (s k) (s (k + 1)) (ob k) (h k hk') (by rw [i1]; exact hq) (P k)
        D i2 (fun i j => by rw [hD]; exact i3 i j)
      rw [hK k hk'] at j2
      rw [hR k hk'] at j3
      cases j2
      cases j3
      rw [i1, ← hP k hk'] at j4
      refine ⟨j1.trans i1, j4, fun i j => (?_ : _ ≤ _)⟩
      have j6 := j5 i j
      rw [i1, ← hP k hk'] at j6
      refine j6.trans ?_
      have hgk := hg k hk'
      have hpk := hp k hk'
      have hnk := hn k hk' i j
      generalize (1 - (K k).toMatrix * RelativeKalman.H.toMatrix) = M at *
      generalize (s (k + 1)).f.toMatrix = F at *
      have hq0 : 0 ≤ g ^ 2 * p + q := by
        have e1 := (((abs_nonneg _).trans (F64.Kalman.congr_le M (X := (s 0).q.toMatrix) (fun _ _ => le_rfl) i j)))
        have e2 := (((abs_nonneg _).trans (F64.Kalman.congr_le (K k).toMatrix (X := (R k).toMatrix) (fun _ _ => le_rfl) i j)))
        have e3 : 0 ≤ q * (w i * w j) := by
          refine le_trans ?_ hnk
          rw [Matrix.add_apply]
          exact add_nonneg e1 e2
        have e4 : 0 < w i * w j := mul_pos (hw i) (hw j)
        have e5 : 0 ≤ q := nonneg_of_mul_nonneg_left e3 e4
        positivity
      have hA : ∀ i j, 0 ≤ (M.map abs * F.map abs) i j := fun i j => by
        rw [mul_apply]
        exact Finset.sum_nonneg fun l _ => mul_nonneg (abs_nonneg _) (abs_nonneg _)
      have hsum : 0 ≤ ∑ l ∈ Finset.range k, (g ^ 2) ^ l := Finset.sum_nonneg fun l _ => by positivity
      have assoc : ∀ X : Matrix (Fin 6) (Fin 6) ℝ, M.map abs * (F.map abs * X * (F.map abs)ᵀ) * (M.map abs)ᵀ =
          (M.map abs * F.map abs) * X * (M.map abs * F.map abs)ᵀ := fun X => by
        rw [Matrix.transpose_mul]; simp only [Matrix.mul_assoc]
      have b1 := F64.Kalman.weight_le hA (fun i => (hw i).le) (fun i => (hw i).le) hgk
        (show 0 ≤ 28.3 * F64.u * (g ^ 2 * p + q) * (∑ l ∈ Finset.range k, (g ^ 2) ^ l) by positivity)
        (X := D) (fun i j => (hD i j).le) i j
      have b2 := F64.Kalman.weight_le hA (fun i => (hw i).le) (fun i => (hw i).le) hgk hp0
        (X := (s k).p00.toMatrix.map abs) (fun i j => hpk i j) i j
      rw [← assoc] at b1 b2
      rw [Matrix.add_apply] at hnk
      have b3 : (M.map abs * (F.map abs * (s k).p00.toMatrix.map abs * (F.map abs)ᵀ + (s 0).q.toMatrix.map abs) *
          (M.map abs)ᵀ + (K k).toMatrix.map abs * (R k).toMatrix.map abs * ((K k).toMatrix.map abs)ᵀ) i j ≤
          (g ^ 2 * p + q) * (w i * w j) := by
        rw [Matrix.mul_add, Matrix.add_mul, Matrix.add_apply, Matrix.add_apply]
        linarith
      have b4 := mul_le_mul_of_nonneg_left b3 (show 0 ≤ 28.3 * F64.u by positivity)
      rw [Finset.sum_range_succ', pow_zero, ← Finset.sum_congr rfl fun l _ => (pow_succ' (g ^ 2) l).symm, ← Finset.mul_sum]
      refine (add_le_add b1 b4).trans (le_of_eq ?_)
      ring
  exact fun k hk => (key k hk).2

end Openspace
