import Verif.Props.FilterCertainty

/-!
# C108: the error of the relative Kalman filter and its covariance
-/

namespace Openspace

open Real

section

open Matrix

set_option linter.unusedSectionVars false

variable {m n : Type} [Fintype m] [Fintype n] [DecidableEq m] [DecidableEq n]

/-- the prediction keeps the error within the covariance -/
theorem within_predict {c : ℝ} (hc : 0 ≤ c) {e : n → ℝ} {P Q : Matrix n n ℝ} (h : Spec.Within c e P)
    (hQ : Q.PosSemidef) (F : Matrix n n ℝ) : Spec.Within c (F *ᵥ e) (F * P * Fᵀ + Q) := by
  intro w
  rw [Matrix.add_mulVec, dotProduct_add, quad_congr, Matrix.dotProduct_mulVec, ← Matrix.mulVec_transpose]
  have h1 := h (Fᵀ *ᵥ w)
  have h2 := mul_nonneg hc (quad_nonneg hQ w)
  rw [mul_add]
  linarith

theorem sq_add_le {a b c d A B : ℝ} (hc : 0 ≤ c) (hd : 0 ≤ d) (hA : 0 ≤ A) (hB : 0 ≤ B) (ha : a ^ 2 ≤ c * A)
    (hb : b ^ 2 ≤ d * B) : (a + b) ^ 2 ≤ (c + d) * (A + B) := by
  have h1 : (2 * (a * b)) ^ 2 ≤ (c * B + d * A) ^ 2 := by
    have := mul_le_mul ha hb (sq_nonneg b) (mul_nonneg hc hA)
    nlinarith [sq_nonneg (c * B - d * A)]
  have h2 := abs_le_of_sq_le_sq h1 (by positivity)
  nlinarith [(abs_le.mp h2).2]

/-- and so does the update, up to the error of the measurement -/
theorem within_update {c d : ℝ} (hc : 0 ≤ c) (hd : 0 ≤ d) {e : n → ℝ} {v : m → ℝ} {P : Matrix n n ℝ} {R : Matrix m m ℝ}
    (hP : P.PosSemidef) (hR : R.PosSemidef) (he : Spec.Within c e P) (hv : Spec.Within d v R) (H : Matrix m n ℝ)
    (K : Matrix n m ℝ) :
    Spec.Within (c + d) ((1 - K * H) *ᵥ e + K *ᵥ v) (Spec.updatedCovariance P H R K) := by
  intro w
  rw [Spec.updatedCovariance, Matrix.add_mulVec, dotProduct_add, dotProduct_add, quad_congr, quad_congr,
    Matrix.dotProduct_mulVec, ← Matrix.mulVec_transpose, Matrix.dotProduct_mulVec, ← Matrix.mulVec_transpose]
  exact sq_add_le hc hd (quad_nonneg hP _) (quad_nonneg hR _) (he _) (hv _)

theorem within_mono {c d : ℝ} (h : c ≤ d) {e : n → ℝ} {P : Matrix n n ℝ} (hP : P.PosSemidef) (he : Spec.Within c e P) :
    Spec.Within d e P := fun w => (he w).trans (mul_le_mul_of_nonneg_right h (quad_nonneg hP w))

end

namespace RelativeKalman

/-- the position part of a state -/
theorem H_position (X : Vec6) : H.mulVec X = ⟨X.x, X.y, X.z⟩ := by
  ext <;> simp [H, Mat36.mulVec, Vec6.dot]

/-- processing one observation -/
theorem process_within {s s' : RelativeKalman} (h : Inv s) {ob : SpaceObservation} {z e : Vec3}
    (hz : hillMeasurement ob = .ok z) (he : hillErrors ob = .ok e) (hs' : process ob s = (.ok (), s')) {c d : ℝ}
    (hc : 0 ≤ c) (hd : 0 ≤ d) {X Y : Vec6}
    (hXY : Y = (Hill.phi s.propagator.n
      ((ob.observer_state.epoch.value - s.epoch.value) * SECONDS_IN_DAY)).mulVec X)
    (hX : Spec.Within c (s.x00.minus X).toFun s.p00.toMatrix)
    (hv : Spec.Within d (z.minus ⟨Y.x, Y.y, Y.z⟩).toFun (measurementCovariance e).toMatrix) :
    Spec.Within (c + d) (s'.x00.minus Y).toFun s'.p00.toMatrix ∧
    s'.epoch = ob.observer_state.epoch ∧ s'.propagator.n = s.propagator.n := by
  obtain ⟨F, P, K, W, x', hF, hP, hPd, hK, hW, hx, hp⟩ := process_ok h hz he
  rw [hp] at hs'
  simp only [Prod.mk.injEq, true_and] at hs'
  rw [Hill.systemMatrix_ok h.n, Except.ok.injEq] at hF
  rw [hF] at hXY
  subst hs'
  refine ⟨?_, rfl, rfl⟩
  simp only
  rw [joseph_toMatrix]
  have h1 := within_predict hc hX h.q.posSemidef F.toMatrix
  have h2 : P.toMatrix = F.toMatrix * s.p00.toMatrix * F.toMatrix.transpose + s.q.toMatrix := by
    rw [hP, Mat6.plus_toMatrix, Mat6.mul_toMatrix, Mat6.mul_toMatrix, Mat6.transpose_toMatrix, ← Matrix.mul_assoc]
  rw [← h2] at h1
  have h3 := within_update hc hd hPd.posSemidef (posSemidef_measurement e) h1 hv H.toMatrix K.toMatrix
  have h4 : (x'.minus Y).toFun = (1 - K.toMatrix * H.toMatrix).mulVec
      (F.toMatrix.mulVec (s.x00.minus X).toFun) + K.toMatrix.mulVec (z.minus ⟨Y.x, Y.y, Y.z⟩).toFun := by
    have hFs : F.toMatrix.mulVec (s.x00.minus X).toFun = W.toFun - Y.toFun := by
      rw [Vec6.minus_toFun, Matrix.mulVec_sub, ← Mat6.mulVec_toFun, ← Mat6.mulVec_toFun, ← hW, ← hXY]
    rw [hFs, ← H_position, Vec6.minus_toFun, hx, Vec6.plus_toFun, Mat63.mulVec_toFun, Vec3.minus_toFun, Vec3.minus_toFun,
      Mat36.mulVec_toFun, Mat36.mulVec_toFun, Matrix.sub_mulVec, Matrix.one_mulVec, ← Matrix.mulVec_mulVec]
    simp only [Matrix.mulVec_sub]
    abel
  rw [h4]
  exact h3

/-- the filter after processing observations one after the other, if none of them raises -/
noncomputable def processAll : List SpaceObservation → PyM RelativeKalman Unit
  | [] => pure ()
  | ob :: obs => do
    process ob
    processAll obs

/-- the state of the target, as a function of the seconds since the epoch of the filter -/
structure Truth (n : ℝ) (X : ℝ → Vec6) : Prop where
  cw : Spec.ClohessyWiltshire n (fun t => (X t).x) (fun t => (X t).y) (fun t => (X t).z)
    (fun t => (X t).vx) (fun t => (X t).vy) (fun t => (X t).vz)

theorem Truth.flow {p : Hill} (hn : p.n ≠ 0) {X : ℝ → Vec6} (h : Truth p.n X) (t u : ℝ) :
    X u = (Hill.phi p.n (u - t)).mulVec (X t) := by
  have h1 : ∀ t, X t = (Hill.phi p.n t).mulVec (X 0) := by
    intro t
    obtain ⟨S, hS, hX⟩ := C48_unique p hn h.cw t
    rw [Hill.systemMatrix_ok hn] at hS
    cases hS
    exact hX
  rw [h1 t, ← Hill.phi_add_mulVec hn, sub_add_cancel, ← h1]

theorem processAll_within {p : Hill} (hn : p.n ≠ 0) {X : ℝ → Vec6} (hX : Truth p.n X) (epoch : Epoch)
    (obs : List (SpaceObservation × ℝ)) :
    ∀ (s : RelativeKalman) (c : ℝ), Inv s → s.propagator.n = p.n → 0 ≤ c →
    Spec.Within c (s.x00.minus (X ((s.epoch.value - epoch.value) * SECONDS_IN_DAY))).toFun s.p00.toMatrix →
    (∀ od ∈ obs, 0 ≤ od.2 ∧ ∃ z e, hillMeasurement od.1 = .ok z ∧ hillErrors od.1 = .ok e ∧
      Spec.Within od.2 (z.minus
        (let Y := X ((od.1.observer_state.epoch.value - epoch.value) * SECONDS_IN_DAY); ⟨Y.x, Y.y, Y.z⟩)).toFun
        (Matrix.diagonal ![e.x ^ 2, e.y ^ 2, e.z ^ 2])) →
    ∃ s', processAll (obs.map Prod.fst) s = (.ok (), s') ∧
      Spec.Within (c + (obs.map Prod.snd).sum)
        (s'.x00.minus (X ((s'.epoch.value - epoch.value) * SECONDS_IN_DAY))).toFun s'.p00.toMatrix := by
  induction obs with
  | nil =>
    intro s c _ _ _ h _
    exact ⟨s, rfl, by simpa using h⟩
  | cons od obs ih =>
    intro s c hi hsn hc h hobs
    obtain ⟨hd, z, e, hz, he, hv⟩ := hobs od List.mem_cons_self
    obtain ⟨F, P, K, W, x', -, -, -, -, -, -, hp⟩ := process_ok hi hz he
    obtain ⟨s1, hs1⟩ : ∃ s1, process od.1 s = (.ok (), s1) := ⟨_, hp⟩
    have hflow := hX.flow hn ((s.epoch.value - epoch.value) * SECONDS_IN_DAY)
      ((od.1.observer_state.epoch.value - epoch.value) * SECONDS_IN_DAY)
    rw [← sub_mul, sub_sub_sub_cancel_right, ← hsn] at hflow
    have hm : (measurementCovariance e).toMatrix = Matrix.diagonal ![e.x ^ 2, e.y ^ 2, e.z ^ 2] := by
      rw [measurementCovariance_toMatrix, sq, sq, sq]
    rw [← hm] at hv
    obtain ⟨h1, h2, h3⟩ := process_within hi hz he hs1 hc hd hflow h hv
    have hi1 : Inv s1 := by
      have := hi.process od.1
      rwa [hs1] at this
    rw [← h2] at h1
    obtain ⟨s', h4, h5⟩ := ih s1 (c + od.2) hi1 (h3.trans hsn) (add_nonneg hc hd) h1
      (fun od' h' => hobs od' (List.mem_cons_of_mem _ h'))
    refine ⟨s', ?_, ?_⟩
    · simp only [List.map_cons, processAll]
      rw [PyM.bind_apply, hs1]
      exact h4
    · simp only [List.map_cons, List.sum_cons]
      rwa [← add_assoc]

end RelativeKalman

/-! ## C108 -/

/-- Suppose the target moves by the Clohessy-Wiltshire equations, and the error of the initial estimate is along every
direction at most `√c` standard deviations.  Let the filter process any number of observations, in any order in time,
such that the error of each measured position is along every direction at most `√d` of the standard deviations the filter
assigns to that observation, with its own `d`.  Then none of the calls raises, and afterwards the error of the estimate is
along every direction at most `√(c + ∑ d)` of the standard deviations that the filter reports. -/
theorem C108_bound (epoch : Epoch) (p : Hill) (s : RelativeKalman) (h : RelativeKalman.new epoch p = .ok s)
    (X : ℝ → Vec6) (hX : RelativeKalman.Truth p.n X) (c : ℝ) (hc : 0 ≤ c)
    (h0 : Spec.Within c (s.x00.minus (X 0)).toFun s.p00.toMatrix) (obs : List (SpaceObservation × ℝ))
    (hobs : ∀ od ∈ obs, 0 ≤ od.2 ∧ ∃ z e, RelativeKalman.hillMeasurement od.1 = .ok z ∧
      RelativeKalman.hillErrors od.1 = .ok e ∧
      Spec.Within od.2 (z.minus
        (let Y := X ((od.1.observer_state.epoch.value - epoch.value) * SECONDS_IN_DAY); ⟨Y.x, Y.y, Y.z⟩)).toFun
        (Matrix.diagonal ![e.x ^ 2, e.y ^ 2, e.z ^ 2])) :
    ∃ s', RelativeKalman.processAll (obs.map Prod.fst) s = (.ok (), s') ∧
      Spec.Within (c + (obs.map Prod.snd).sum)
        (s'.x00.minus (X ((s'.epoch.value - epoch.value) * SECONDS_IN_DAY))).toFun s'.p00.toMatrix := by
  obtain ⟨h1, h2, -⟩ := C54_initial epoch p s h
  have hi := (RelativeKalman.new_inv h).1
  have hn : p.n ≠ 0 := by rw [← h2]; exact hi.n
  refine RelativeKalman.processAll_within hn hX epoch obs s c hi (by rw [h2]) hc ?_ hobs
  rw [h1, sub_self, zero_mul]
  exact h0

theorem within_diagonal {n : Type} [Fintype n] [DecidableEq n] (e d : n → ℝ) (hd : ∀ i, 0 < d i) :
    Spec.Within (∑ i, e i ^ 2 / d i) e (Matrix.diagonal d) := by
  intro w
  simp only [dotProduct, Matrix.mulVec_diagonal]
  refine Finset.sum_sq_le_sum_mul_sum_of_sq_le_mul _ (fun i _ => ?_) (fun i _ => ?_) (fun i _ => ?_)
  · have := hd i; positivity
  · have := mul_nonneg (hd i).le (sq_nonneg (w i)); linarith
  · have := (hd i).ne'
    refine le_of_eq ?_
    field_simp

theorem within_zero {n : Type} [Fintype n] (P : Matrix n n ℝ) (e : n → ℝ) (he : e = 0) : Spec.Within 0 e P := by
  intro w
  simp [he]

theorem within_coordinate {c : ℝ} {e : Fin 6 → ℝ} {P : Mat6} (h : Spec.Within c e P.toMatrix) (i : Fin 6) :
    e i ^ 2 ≤ c * P.diagonal.toFun i := by
  have := h (Pi.single i 1)
  rw [Mat6.diagonal_toFun]
  simpa using this

/-- In particular, whatever the error of the initial estimate, let the filter process any number of observations in which
the target is seen where it is, whatever errors they declare.  Then the square of the error of each coordinate of the
estimate is at most `c` times the variance that the filter reports for it, where `c` depends only on the error of the
initial estimate: it is the sum of the squared errors over the initial variances. -/
theorem C108_exact (epoch : Epoch) (p : Hill) (s : RelativeKalman) (h : RelativeKalman.new epoch p = .ok s)
    (X : ℝ → Vec6) (hX : RelativeKalman.Truth p.n X) (obs : List SpaceObservation)
    (hobs : ∀ ob ∈ obs, (∃ e, RelativeKalman.hillErrors ob = .ok e) ∧ RelativeKalman.hillMeasurement ob = .ok
        (let Y := X ((ob.observer_state.epoch.value - epoch.value) * SECONDS_IN_DAY); ⟨Y.x, Y.y, Y.z⟩)) :
    ∃ s', RelativeKalman.processAll obs s = (.ok (), s') ∧ ∀ i : Fin 6,
      ((s'.x00.minus (X ((s'.epoch.value - epoch.value) * SECONDS_IN_DAY))).toFun i) ^ 2 ≤
        (((p.state.vector.x - (X 0).x) ^ 2 + (p.state.vector.y - (X 0).y) ^ 2 + (p.state.vector.z - (X 0).z) ^ 2) / 0.5
          + ((p.state.vector.vx - (X 0).vx) ^ 2 + (p.state.vector.vy - (X 0).vy) ^ 2
            + (p.state.vector.vz - (X 0).vz) ^ 2) / 5e-5) * s'.p00.diagonal.toFun i := by
  obtain ⟨-, -, hx, hp, -⟩ := C54_initial epoch p s h
  have h0 := within_diagonal (s.x00.minus (X 0)).toFun (![0.5, 0.5, 0.5, 5e-5, 5e-5, 5e-5] : Fin 6 → ℝ)
    (by intro i; match i with | 0 | 1 | 2 | 3 | 4 | 5 => simp; try norm_num)
  rw [← hp] at h0
  obtain ⟨s', h1, h2⟩ := C108_bound epoch p s h X hX _
    (Finset.sum_nonneg fun i _ => by
      match i with | 0 | 1 | 2 | 3 | 4 | 5 => simp; positivity) h0 (obs.map fun ob => (ob, 0))
    (by
      intro od hod
      obtain ⟨ob, hob, rfl⟩ := List.mem_map.mp hod
      obtain ⟨⟨e, he⟩, hz⟩ := hobs ob hob
      refine ⟨le_rfl, _, e, hz, he, within_zero _ _ ?_⟩
      rw [Vec3.minus_toFun, sub_self])
  have e1 : (obs.map fun ob => (ob, (0 : ℝ))).map Prod.fst = obs := by simp [Function.comp_def]
  have e2 : ((obs.map fun ob => (ob, (0 : ℝ))).map Prod.snd).sum = 0 := by
    simp [Function.comp_def]
  rw [e1] at h1
  rw [e2, add_zero] at h2
  refine ⟨s', h1, fun i => ?_⟩
  refine (within_coordinate h2 i).trans (le_of_eq ?_)
  congr 1
  rw [Fin.sum_univ_six, hx]
  simp [Vec6.minus, Vec6.toFun]
  ring

/-- and a filter that starts on the true state stays on it exactly, for as long as it sees the target where it is -/
theorem C108_perfect (epoch : Epoch) (p : Hill) (s : RelativeKalman) (h : RelativeKalman.new epoch p = .ok s)
    (X : ℝ → Vec6) (hX : RelativeKalman.Truth p.n X) (h0 : p.state.vector = X 0) (obs : List SpaceObservation)
    (hobs : ∀ ob ∈ obs, (∃ e, RelativeKalman.hillErrors ob = .ok e) ∧ RelativeKalman.hillMeasurement ob = .ok
        (let Y := X ((ob.observer_state.epoch.value - epoch.value) * SECONDS_IN_DAY); ⟨Y.x, Y.y, Y.z⟩)) :
    ∃ s', RelativeKalman.processAll obs s = (.ok (), s') ∧
      s'.x00 = X ((s'.epoch.value - epoch.value) * SECONDS_IN_DAY) := by
  obtain ⟨s', h1, h2⟩ := C108_exact epoch p s h X hX obs hobs
  refine ⟨s', h1, ?_⟩
  simp only [h0, sub_self] at h2
  have h3 : ∀ i, (s'.x00.minus (X ((s'.epoch.value - epoch.value) * SECONDS_IN_DAY))).toFun i = 0 := by
    intro i
    have := h2 i
    norm_num at this
    exact this
  have hx := h3 0
  have hy := h3 1
  have hz := h3 2
  have hvx := h3 3
  have hvy := h3 4
  have hvz := h3 5
  simp only [Vec6.toFun, Vec6.minus, Matrix.cons_val] at hx hy hz hvx hvy hvz
  ext <;> linarith

/-- the geosynchronous observer at any time -/
noncomputable def geoAt (t : Epoch) : GCRF := GCRF.new t ⟨42164, 0, 0⟩ ⟨0, 3.0747, 0⟩

theorem geoAt_frame (t : Epoch) : frameMatrix (geoAt t) = .ok ⟨⟨1, 0, 0⟩, ⟨0, 1, 0⟩, ⟨0, 0, 1⟩⟩ := by
  have hX : (geoAt t).position.cross (geoAt t).velocity = ⟨0, 0, 42164 * 3.0747⟩ := by
    ext <;> simp only [geoAt, GCRF.new, State.new, Vec3.cross, Vec3.copy] <;> ring
  have n1 : (geoAt t).position.normalized = .ok ⟨1, 0, 0⟩ := by
    rw [Vec3.normalized_eq_ok]
    refine ⟨by simp [geoAt, GCRF.new, State.new, Vec3.copy], ?_⟩
    have : (geoAt t).position.magnitude = 42164 := Vec3.magnitude_of_dot (by norm_num)
      (by simp only [geoAt, GCRF.new, State.new, Vec3.copy, Vec3.dot]; norm_num)
    rw [this]
    ext <;> simp [geoAt, GCRF.new, State.new, Vec3.copy, Vec3.scaled]
  have n3 : (⟨0, 0, 42164 * 3.0747⟩ : Vec3).normalized = .ok ⟨0, 0, 1⟩ := by
    rw [Vec3.normalized_eq_ok]
    refine ⟨by simp; norm_num, ?_⟩
    have : (⟨0, 0, 42164 * 3.0747⟩ : Vec3).magnitude = 42164 * 3.0747 := Vec3.magnitude_of_dot (by norm_num)
      (by simp only [Vec3.dot]; ring)
    rw [this]
    ext <;> simp [Vec3.scaled] <;> norm_num
  simp only [frameMatrix, hX, n1, n3, ok_bind, pure_eq_ok]
  simp [Vec3.cross]

/-- a target ten kilometres ahead of the geosynchronous observer, on the same orbit -/
noncomputable def aheadTarget : Vec3 := ⟨42164 * cos (10 / 42164), 42164 * sin (10 / 42164), 0⟩

noncomputable def aheadOb (t : Epoch) : SpaceObservation :=
  SpaceObservation.new (geoAt t) (aheadTarget.minus ⟨42164, 0, 0⟩) 0 0

theorem geoAt_nonDegenerate (t : Epoch) : (geoAt t).NonDegenerate := by
  rw [nonDegenerate_iff]
  simp only [geoAt, GCRF.new, State.new, Vec3.cross, Vec3.copy]
  intro h
  have := congrArg Vec3.z h
  norm_num at this

theorem geoAt_cross (t : Epoch) : (geoAt t).position.cross (geoAt t).velocity = ⟨0, 0, 42164 * 3.0747⟩ := by
  ext <;> simp only [geoAt, GCRF.new, State.new, Vec3.cross, Vec3.copy] <;> ring

theorem geoAt_magnitude (t : Epoch) : (geoAt t).position.magnitude = 42164 := Vec3.magnitude_of_dot (by norm_num)
  (by simp only [geoAt, GCRF.new, State.new, Vec3.copy, Vec3.dot]; norm_num)

theorem ahead_measured (t : Epoch) : RelativeKalman.hillMeasurement (aheadOb t) = .ok ⟨0, 10, 0⟩ ∧
    ∃ e, RelativeKalman.hillErrors (aheadOb t) = .ok e := by
  have hcos : 0 < cos (10 / 42164) := cos_pos_of_mem_Ioo ⟨by linarith [pi_gt_three], by linarith [pi_gt_three]⟩
  have hw : (geoAt t).position.plus (aheadTarget.minus ⟨42164, 0, 0⟩) = aheadTarget := by
    ext <;> simp [geoAt, GCRF.new, State.new, Vec3.copy, Vec3.plus, Vec3.minus, aheadTarget]
  constructor
  · obtain ⟨hcw, -, h1, -⟩ := C32_round_trip (geoAt t) (geoAt_nonDegenerate t) (GCRF.new t aheadTarget (geoAt t).velocity)
      (by
        rw [geoAt_cross]
        intro h
        have := congrArg Vec3.y h
        simp only [GCRF.new, State.new, Vec3.cross, Vec3.copy, aheadTarget] at this
        have h1 : 0 < 42164 * 3.0747 * (42164 * cos (10 / 42164)) := by positivity
        linarith)
    have h2 := gcrfToHcw_position (geoAt_frame t) h1
    simp only [RelativeKalman.hillMeasurement, bind_eq_ok, pure_eq_ok, Except.ok.injEq]
    refine ⟨hcw, ?_, ?_⟩
    · rw [← hw] at h1
      exact h1
    · rw [h2]
      have hm : (GCRF.new t aheadTarget (geoAt t).velocity).position.magnitude = 42164 :=
        Vec3.magnitude_of_dot (by norm_num) (by
          simp only [GCRF.new, State.new, Vec3.copy, Vec3.dot, aheadTarget]
          linear_combination 42164 ^ 2 * sin_sq_add_cos_sq (10 / 42164 : ℝ))
      have hv : (⟨⟨1, 0, 0⟩, ⟨0, 1, 0⟩, ⟨0, 0, 1⟩⟩ : Mat3).mulVec (GCRF.new t aheadTarget (geoAt t).velocity).position =
          aheadTarget := by
        ext <;> simp [Mat3.mulVec, Vec3.dot, GCRF.new, State.new, Vec3.copy]
      rw [hm, hv, geoAt_magnitude]
      have ha : pyAtan2 aheadTarget.y aheadTarget.x = 10 / 42164 :=
        pyAtan2_polar (by norm_num) (by linarith [pi_gt_three]) (by linarith [pi_gt_three])
      rw [ha]
      simp [aheadTarget]
  · have hsph := C23_cartesian (aheadTarget.minus ⟨42164, 0, 0⟩)
    have hz : (aheadTarget.minus ⟨42164, 0, 0⟩).minus (aheadTarget.minus ⟨42164, 0, 0⟩) = ⟨0, 0, 0⟩ := by
      ext <;> simp [Vec3.minus]
    obtain ⟨hcw, -, h1, -⟩ := C32_round_trip (geoAt t) (geoAt_nonDegenerate t) (GCRF.new t
      ((geoAt t).position.plus ⟨0, 0, 0⟩) (geoAt t).velocity)
      (by
        rw [geoAt_cross]
        intro h
        have := congrArg Vec3.y h
        simp only [GCRF.new, State.new, Vec3.cross, Vec3.copy, Vec3.plus, geoAt] at this
        norm_num at this)
    refine ⟨hcw.position, ?_⟩
    simp only [RelativeKalman.hillErrors, bind_eq_ok, pure_eq_ok, Except.ok.injEq]
    refine ⟨hcw, ?_, rfl⟩
    have hs : SphericalPosition.toCartesian ⟨(aheadOb t).range + (aheadOb t).range_error,
        (aheadOb t).right_ascension + (aheadOb t).angular_error,
        (aheadOb t).declination + (aheadOb t).angular_error⟩ = aheadTarget.minus ⟨42164, 0, 0⟩ := by
      simp only [aheadOb, SpaceObservation.new, add_zero]
      exact hsph
    rw [hs]
    rw [← hz] at h1
    exact h1

/-- the target keeps its distance -/
theorem ahead_truth (n : ℝ) : RelativeKalman.Truth n fun _ => ⟨0, 10, 0, 0, 0, 0⟩ := by
  constructor
  constructor <;> intro t <;> simpa using hasDerivAt_const t _

/-- such a target can be observed at any sequence of times, by a filter that starts a kilometre off -/
example (ts : List Epoch) : ∃ p s s', Hill.new (State.new ⟨0⟩ ⟨0, 9, 0⟩ ⟨0, 0, 0⟩) 42164 = .ok p ∧
    RelativeKalman.new ⟨0⟩ p = .ok s ∧ RelativeKalman.processAll (ts.map aheadOb) s = (.ok (), s') ∧
    (s'.x00.y - 10) ^ 2 ≤ 2 * s'.p00.diagonal.y := by
  obtain ⟨p, hp, hn, -, -, hst⟩ := hill_new_ok (State.new ⟨0⟩ ⟨0, 9, 0⟩ ⟨0, 0, 0⟩) (show (0:ℝ) < 42164 by norm_num)
  have hs : ∃ s, RelativeKalman.new ⟨0⟩ p = .ok s := by
    simp only [RelativeKalman.new, Hill.systemMatrix_ok hn.ne', ok_bind, pure_eq_ok]
    exact ⟨_, rfl⟩
  obtain ⟨s, hs⟩ := hs
  obtain ⟨s', h1, h2⟩ := C108_exact ⟨0⟩ p s hs _ (ahead_truth p.n) (ts.map aheadOb) (by
    intro ob hob
    obtain ⟨t, -, rfl⟩ := List.mem_map.mp hob
    exact ⟨(ahead_measured t).2, (ahead_measured t).1⟩)
  refine ⟨p, s, s', hp, hs, h1, ?_⟩
  have := h2 1
  rw [hst] at this
  simp [State.new, State.copy, Vec6.minus, Vec6.toFun, Vec6.fromPosVel, Vec3.copy] at this
  norm_num at this
  exact this

end Openspace
