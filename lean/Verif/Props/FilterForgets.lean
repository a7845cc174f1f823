import Verif.Props.FilterCertainty

/-!
# C164: the uncertainty of the filter is bounded by its last two observations, whatever came before
-/

namespace Openspace

open Real

/-! ## The updated covariance in one direction -/

section

open Matrix

variable {m n : Type} [Fintype m] [Fintype n] [DecidableEq m] [DecidableEq n]

/-- in every direction `w` the gain of the filter does at least as well as weighing the measurement with `l` -/
theorem updated_le {P : Matrix n n ℝ} {R : Matrix m m ℝ} {H : Matrix m n ℝ} {K : Matrix n m ℝ} (hP : P.PosSemidef)
    (hR : R.PosSemidef) (hK : K * (H * P * Hᵀ + R) = P * Hᵀ) (w : n → ℝ) (l : m → ℝ) :
    w ⬝ᵥ (Spec.updatedCovariance P H R K *ᵥ w) ≤ (w - Hᵀ *ᵥ l) ⬝ᵥ (P *ᵥ (w - Hᵀ *ᵥ l)) + l ⬝ᵥ (R *ᵥ l) := by
  by_cases hw : w = 0
  · subst hw
    simp only [zero_dotProduct]
    exact add_nonneg (quad_nonneg hP _) (quad_nonneg hR _)
  have hww : w ⬝ᵥ w ≠ 0 := fun h => hw (dotProduct_self_eq_zero.mp h)
  set G : Matrix n m ℝ := (w ⬝ᵥ w)⁻¹ • vecMulVec w l with hG
  have hGw : Gᵀ *ᵥ w = l := by
    ext i
    simp only [hG, Matrix.mulVec, dotProduct, transpose_apply, Matrix.smul_apply, vecMulVec_apply, smul_eq_mul] at hww ⊢
    have : ∀ j, (∑ k, w k * w k)⁻¹ * (w j * l i) * w j = (∑ k, w k * w k)⁻¹ * l i * (w j * w j) := fun j => by ring
    simp only [this, ← Finset.mul_sum]
    rw [mul_right_comm, inv_mul_cancel₀ hww, one_mul]
  have h1 := (updated_optimal hP.isHermitian hR.isHermitian hK G).2.2
  have hS : (H * P * Hᵀ + R).PosSemidef := (posSemidef_congr hP H).add hR
  have h2 := quad_nonneg (posSemidef_congr hS (G - K)) w
  have h3 : w ⬝ᵥ (Spec.updatedCovariance P H R G *ᵥ w) =
      (w - Hᵀ *ᵥ l) ⬝ᵥ (P *ᵥ (w - Hᵀ *ᵥ l)) + l ⬝ᵥ (R *ᵥ l) := by
    rw [Spec.updatedCovariance, Matrix.add_mulVec, dotProduct_add, quad_congr, quad_congr, hGw]
    have : (1 - G * H)ᵀ *ᵥ w = w - Hᵀ *ᵥ l := by
      rw [transpose_sub, transpose_one, transpose_mul, Matrix.sub_mulVec, Matrix.one_mulVec, ← Matrix.mulVec_mulVec, hGw]
    rw [this]
  rw [h1, Matrix.add_mulVec, dotProduct_add] at h3
  linarith

end

namespace RelativeKalman

/-! ## What no call changes -/

/-- the process noise and the mean motion are those of `s0` -/
def Fixed (s0 s : RelativeKalman) : Prop := s.q = s0.q ∧ s.propagator.n = s0.propagator.n

theorem Fixed.bind {s0 : RelativeKalman} {m : PyM RelativeKalman Unit} {f : Unit → PyM RelativeKalman Unit}
    (hm : ∀ s, Fixed s0 s → Fixed s0 (m s).2) (hf : ∀ u s, Fixed s0 s → Fixed s0 (f u s).2) :
    ∀ s, Fixed s0 s → Fixed s0 ((m >>= f) s).2 := by
  intro s hs
  rw [PyM.bind_apply]
  have := hm s hs
  rcases hms : m s with ⟨r, s'⟩
  rw [hms] at this
  cases r with
  | error e => exact this
  | ok u => exact hf u s' this

theorem Fixed.predictState {s0 s : RelativeKalman} (h : Fixed s0 s) (dt : ℝ) :
    Fixed s0 (RelativeKalman.predictState dt s).2 := by
  simp only [RelativeKalman.predictState, PyM.get_bind_apply]
  rcases s.propagator.systemMatrix dt with e | F
  · exact h
  · exact h

theorem Fixed.predictCovariance {s0 s : RelativeKalman} (h : Fixed s0 s) :
    Fixed s0 (RelativeKalman.predictCovariance s).2 := h

theorem Fixed.gain {s0 s : RelativeKalman} (h : Fixed s0 s) : Fixed s0 (RelativeKalman.gain s).2 := by
  simp only [RelativeKalman.gain, PyM.get_bind_apply]
  rcases s.p10 with _ | p
  · exact h
  rcases s.r with _ | r
  · exact h
  simp only [attr, PyM.lift_ok_bind_apply]
  rcases Mat3.inverse _ with e | inv
  · exact h
  · exact h

theorem Fixed.updateState {s0 s : RelativeKalman} (h : Fixed s0 s) : Fixed s0 (RelativeKalman.updateState s).2 := by
  simp only [RelativeKalman.updateState, PyM.get_bind_apply]
  rcases s.x10 with _ | x
  · exact h
  rcases s.k with _ | k
  · exact h
  rcases s.z with _ | z
  · exact h
  exact h

theorem Fixed.updateCovariance {s0 s : RelativeKalman} (h : Fixed s0 s) :
    Fixed s0 (RelativeKalman.updateCovariance s).2 := by
  simp only [RelativeKalman.updateCovariance, PyM.get_bind_apply]
  rcases s.k with _ | k
  · exact h
  rcases s.r with _ | r
  · exact h
  rcases s.p10 with _ | p
  · exact h
  exact h

theorem Fixed.predict {s0 s : RelativeKalman} (h : Fixed s0 s) (dt : ℝ) : Fixed s0 (RelativeKalman.predict dt s).2 :=
  Fixed.bind (fun _ h => h.predictState dt) (fun _ _ h => h.predictCovariance) s h

theorem Fixed.update {s0 s : RelativeKalman} (h : Fixed s0 s) : Fixed s0 (RelativeKalman.update s).2 :=
  Fixed.bind (fun _ h => h.gain) (fun _ => Fixed.bind (fun _ h => h.updateState) (fun _ _ h => h.updateCovariance)) s h

theorem Fixed.process {s0 s : RelativeKalman} (h : Fixed s0 s) (ob : SpaceObservation) :
    Fixed s0 (RelativeKalman.process ob s).2 := by
  simp only [RelativeKalman.process, PyM.get_bind_apply, PyM.modify_bind_apply]
  rcases hillMeasurement ob with e | z
  · exact h
  simp only [PyM.lift_ok_bind_apply, PyM.modify_bind_apply]
  rcases hillErrors ob with e | err
  · exact h
  simp only [PyM.lift_ok_bind_apply, PyM.modify_bind_apply]
  exact Fixed.bind (fun _ h => h.predict _) (fun _ _ h => h.update) _ h

theorem Fixed.call {s0 s : RelativeKalman} (h : Fixed s0 s) (c : Call) : Fixed s0 (c.run s).2 := by
  cases c with
  | process ob => exact h.process ob
  | predict dt => exact h.predict dt
  | update => exact h.update
  | predictState dt => exact h.predictState dt
  | predictCovariance => exact h.predictCovariance
  | gain => exact h.gain
  | updateState => exact h.updateState
  | updateCovariance => exact h.updateCovariance

theorem Fixed.after {s0 s : RelativeKalman} (h : Fixed s0 s) (cs : List Call) :
    Fixed s0 (RelativeKalman.after cs s) := by
  induction cs generalizing s with
  | nil => exact h
  | cons c cs ih => exact ih (h.call c)

theorem new_fixed {epoch : Epoch} {p : Hill} {s : RelativeKalman} (h : new epoch p = .ok s) :
    s.q = DEFAULT_NOISE ∧ s.propagator.n = p.n := by
  simp only [new, bind_eq_ok, pure_eq_ok, Except.ok.injEq] at h
  obtain ⟨_, -, rfl⟩ := h
  exact ⟨rfl, rfl⟩

/-! ## One and two observations -/

theorem dot_HT (w : Fin 6 → ℝ) (l : Fin 3 → ℝ) :
    H.toMatrix.transpose.mulVec l ⬝ᵥ w = l 0 * w 0 + l 1 * w 1 + l 2 * w 2 := by
  rw [Matrix.mulVec_transpose, ← Matrix.dotProduct_mulVec, H_mulVec]
  simp [dotProduct, Fin.sum_univ_three]

/-- after a successful call of `process`, the uncertainty in any direction is at most that of any weighing `l` of the
measurement against the prediction -/
theorem process_le {s s' : RelativeKalman} (h : Inv s) {ob : SpaceObservation} (hs' : process ob s = (.ok (), s')) :
    ∃ F e, s.propagator.systemMatrix ((ob.observer_state.epoch.value - s.epoch.value) * SECONDS_IN_DAY) = .ok F ∧
      hillErrors ob = .ok e ∧ s'.epoch = ob.observer_state.epoch ∧ ∀ (w : Fin 6 → ℝ) (l : Fin 3 → ℝ),
        w ⬝ᵥ s'.p00.toMatrix.mulVec w ≤
          (w - H.toMatrix.transpose.mulVec l) ⬝ᵥ
            (F.toMatrix * s.p00.toMatrix * F.toMatrix.transpose + s.q.toMatrix).mulVec
              (w - H.toMatrix.transpose.mulVec l) +
          ((e.x * l 0) ^ 2 + (e.y * l 1) ^ 2 + (e.z * l 2) ^ 2) := by
  rcases hz : hillMeasurement ob with e1 | z
  · simp [RelativeKalman.process, hz] at hs'
  rcases he : hillErrors ob with e1 | e
  · simp [RelativeKalman.process, hz, he] at hs'
  obtain ⟨F, P, K, X, x', hF, hP, hPd, hK, -, -, hp⟩ := process_ok h hz he
  rw [hp] at hs'
  simp only [Prod.mk.injEq, true_and] at hs'
  subst hs'
  refine ⟨F, e, hF, rfl, rfl, fun w l => ?_⟩
  have h2 : P.toMatrix = F.toMatrix * s.p00.toMatrix * F.toMatrix.transpose + s.q.toMatrix := by
    rw [hP, Mat6.plus_toMatrix, Mat6.mul_toMatrix, Mat6.mul_toMatrix, Mat6.transpose_toMatrix, ← Matrix.mul_assoc]
  rw [innovation_toMatrix] at hK
  have := updated_le hPd.posSemidef (posSemidef_measurement e) hK w l
  rw [measurement_quad, h2] at this
  simp only [joseph_toMatrix]
  rw [h2]
  exact this

theorem process_position_le {s s' : RelativeKalman} (h : Inv s) {ob : SpaceObservation}
    (hs' : process ob s = (.ok (), s')) : ∃ e, hillErrors ob = .ok e ∧ ∀ a : Fin 3 → ℝ,
      H.toMatrix.transpose.mulVec a ⬝ᵥ s'.p00.toMatrix.mulVec (H.toMatrix.transpose.mulVec a) ≤
        (e.x * a 0) ^ 2 + (e.y * a 1) ^ 2 + (e.z * a 2) ^ 2 := by
  obtain ⟨F, e, -, he, -, hle⟩ := process_le h hs'
  refine ⟨e, he, fun a => ?_⟩
  have := hle (H.toMatrix.transpose.mulVec a) a
  simpa using this

/-- what the weights of two positions must satisfy, as an equation of vectors -/
theorem recover_eq {F : Matrix (Fin 6) (Fin 6) ℝ} {w : Fin 6 → ℝ} {a l : Fin 3 → ℝ}
    (h : ∀ x : Fin 6 → ℝ, w ⬝ᵥ F.mulVec x = (a 0 * x 0 + a 1 * x 1 + a 2 * x 2) +
      (l 0 * F.mulVec x 0 + l 1 * F.mulVec x 1 + l 2 * F.mulVec x 2)) :
    F.transpose.mulVec (w - H.toMatrix.transpose.mulVec l) = H.toMatrix.transpose.mulVec a := by
  rw [← sub_eq_zero, ← dotProduct_eq_zero_iff]
  intro x
  have := h x
  rw [← dot_HT, ← dot_HT] at this
  rw [sub_dotProduct, Matrix.mulVec_transpose, ← Matrix.dotProduct_mulVec, sub_dotProduct, this]
  ring

theorem noise_quad (v : Fin 6 → ℝ) : v ⬝ᵥ DEFAULT_NOISE.toMatrix.mulVec v =
    1e-16 * (v 0 ^ 2 + v 1 ^ 2 + v 2 ^ 2 + v 3 ^ 2 + v 4 ^ 2 + v 5 ^ 2) := by
  simp only [DEFAULT_NOISE, diag6_toMatrix, Matrix.mulVec_diagonal, dotProduct, Fin.sum_univ_six]
  simp
  ring

theorem HT_sub (w : Fin 6 → ℝ) (l : Fin 3 → ℝ) :
    w - H.toMatrix.transpose.mulVec l = ![w 0 - l 0, w 1 - l 1, w 2 - l 2, w 3, w 4, w 5] := by
  ext i
  fin_cases i <;> simp [Matrix.mulVec, dotProduct, Fin.sum_univ_three, Mat36.toMatrix, H, Vec6.toFun]

theorem noise_HT (w : Fin 6 → ℝ) (l : Fin 3 → ℝ) :
    (w - H.toMatrix.transpose.mulVec l) ⬝ᵥ DEFAULT_NOISE.toMatrix.mulVec (w - H.toMatrix.transpose.mulVec l) =
      1e-16 * ((w 0 - l 0) ^ 2 + (w 1 - l 1) ^ 2 + (w 2 - l 2) ^ 2 + w 3 ^ 2 + w 4 ^ 2 + w 5 ^ 2) := by
  rw [noise_quad, HT_sub]
  rfl

end RelativeKalman

/-! ## C164 -/

/-- after any history, a processed observation leaves the position at most as uncertain as the observation itself -/
theorem C164_position (epoch : Epoch) (p : Hill) (s : RelativeKalman) (h : RelativeKalman.new epoch p = .ok s)
    (cs : List RelativeKalman.Call) (ob : SpaceObservation) (s' : RelativeKalman)
    (hs' : RelativeKalman.process ob (RelativeKalman.after cs s) = (.ok (), s')) :
    ∃ e, RelativeKalman.hillErrors ob = .ok e ∧ s'.p00.toMatrix 0 0 ≤ e.x ^ 2 ∧ s'.p00.toMatrix 1 1 ≤ e.y ^ 2 ∧
      s'.p00.toMatrix 2 2 ≤ e.z ^ 2 ∧ ∀ u : Fin 6 → ℝ, u 3 = 0 → u 4 = 0 → u 5 = 0 →
        u ⬝ᵥ s'.p00.toMatrix.mulVec u ≤ (e.x * u 0) ^ 2 + (e.y * u 1) ^ 2 + (e.z * u 2) ^ 2 := by
  have hi := ((RelativeKalman.new_inv h).1).after cs
  obtain ⟨e, he, hle⟩ := RelativeKalman.process_position_le hi hs'
  have key : ∀ u : Fin 6 → ℝ, u 3 = 0 → u 4 = 0 → u 5 = 0 →
      u ⬝ᵥ s'.p00.toMatrix.mulVec u ≤ (e.x * u 0) ^ 2 + (e.y * u 1) ^ 2 + (e.z * u 2) ^ 2 := by
    intro u h3 h4 h5
    have := hle ![u 0, u 1, u 2]
    have hu : RelativeKalman.H.toMatrix.transpose.mulVec ![u 0, u 1, u 2] = u := by
      have h0 := RelativeKalman.HT_sub u ![u 0, u 1, u 2]
      have h1 : ![u 0 - ![u 0, u 1, u 2] 0, u 1 - ![u 0, u 1, u 2] 1, u 2 - ![u 0, u 1, u 2] 2, u 3, u 4, u 5] = 0 := by
        ext i
        fin_cases i <;> simp [h3, h4, h5]
      rw [h1, sub_eq_zero] at h0
      exact h0.symm
    rw [hu] at this
    simpa using this
  refine ⟨e, he, ?_, ?_, ?_, key⟩
  · simpa using key (Pi.single 0 1) (by simp) (by simp) (by simp)
  · simpa using key (Pi.single 1 1) (by simp) (by simp) (by simp)
  · simpa using key (Pi.single 2 1) (by simp) (by simp) (by simp)

/-- after any history, two consecutive observations leave every combination `w` of the state at most as uncertain as any
linear rule which would find that combination from two exact positions, whatever the filter believed before -/
theorem C164_two (epoch : Epoch) (p : Hill) (s : RelativeKalman) (h : RelativeKalman.new epoch p = .ok s)
    (cs : List RelativeKalman.Call) (ob1 ob2 : SpaceObservation) (s1 s2 : RelativeKalman)
    (hs1 : RelativeKalman.process ob1 (RelativeKalman.after cs s) = (.ok (), s1))
    (hs2 : RelativeKalman.process ob2 s1 = (.ok (), s2)) :
    ∃ F e1 e2, p.systemMatrix
        ((ob2.observer_state.epoch.value - ob1.observer_state.epoch.value) * SECONDS_IN_DAY) = .ok F ∧
      RelativeKalman.hillErrors ob1 = .ok e1 ∧ RelativeKalman.hillErrors ob2 = .ok e2 ∧
      ∀ (w : Fin 6 → ℝ) (a l : Fin 3 → ℝ),
        (∀ x : Fin 6 → ℝ, w ⬝ᵥ F.toMatrix.mulVec x = (a 0 * x 0 + a 1 * x 1 + a 2 * x 2) +
          (l 0 * F.toMatrix.mulVec x 0 + l 1 * F.toMatrix.mulVec x 1 + l 2 * F.toMatrix.mulVec x 2)) →
        w ⬝ᵥ s2.p00.toMatrix.mulVec w ≤
          ((e1.x * a 0) ^ 2 + (e1.y * a 1) ^ 2 + (e1.z * a 2) ^ 2) +
          ((e2.x * l 0) ^ 2 + (e2.y * l 1) ^ 2 + (e2.z * l 2) ^ 2) +
          1e-16 * ((w 0 - l 0) ^ 2 + (w 1 - l 1) ^ 2 + (w 2 - l 2) ^ 2 + w 3 ^ 2 + w 4 ^ 2 + w 5 ^ 2) := by
  have hi := ((RelativeKalman.new_inv h).1).after cs
  have hfix : RelativeKalman.Fixed s s1 := by
    have := (RelativeKalman.Fixed.after (s0 := s) (s := s) ⟨rfl, rfl⟩ cs).process ob1
    rwa [hs1] at this
  obtain ⟨hq, hn⟩ := RelativeKalman.new_fixed h
  have hi1 : RelativeKalman.Inv s1 := by
    have := hi.process ob1
    rwa [hs1] at this
  obtain ⟨-, e1', -, -, hep, -⟩ := RelativeKalman.process_le hi hs1
  obtain ⟨e1, he1, hle1⟩ := RelativeKalman.process_position_le hi hs1
  obtain ⟨F, e2, hF, he2, -, hle2⟩ := RelativeKalman.process_le hi1 hs2
  refine ⟨F, e1, e2, ?_, he1, he2, fun w a l hw => ?_⟩
  · rw [← hF, hep]
    simp only [Hill.systemMatrix, hfix.2, hn]
  · have h1 := hle2 w l
    rw [Matrix.add_mulVec, dotProduct_add, quad_congr, RelativeKalman.recover_eq hw, hfix.1, hq,
      RelativeKalman.noise_HT] at h1
    have h2 := hle1 a
    linarith

/-! ## How well two positions determine the velocity -/

namespace TwoFix

/-- the sizes which appear when the relative motion over the angle `τ` is solved for the velocity -/
theorem bounds {τ : ℝ} (h0 : 0 < τ) (h1 : τ ≤ 1) :
    τ ^ 2 ≤ 8 - 8 * cos τ - 3 * τ * sin τ ∧ 0 ≤ 4 * sin τ - 3 * τ * cos τ ∧
    4 * sin τ - 3 * τ * cos τ ≤ 2.3 * τ ∧ 0 ≤ 2 * (1 - cos τ) ∧ 2 * (1 - cos τ) ≤ τ ^ 2 ∧
    -(2.4 * τ ^ 2) ≤ 6 * τ * sin τ - 14 * (1 - cos τ) ∧ 6 * τ * sin τ - 14 * (1 - cos τ) ≤ 0 ∧
    0.78 * τ ≤ sin τ ∧ sin τ ≤ τ ∧ 0 ≤ 4 * sin τ - 3 * τ ∧ 4 * sin τ - 3 * τ ≤ τ := by
  have ha : |τ| ≤ 1 := by rwa [abs_of_pos h0]
  obtain ⟨s1, s2⟩ := abs_le.mp (sin_bound ha)
  obtain ⟨c1, c2⟩ := abs_le.mp (cos_bound ha)
  rw [abs_of_pos h0] at s1 s2 c1 c2
  have hs := (sin_lt h0).le
  have hc := one_sub_sq_div_two_le_cos (x := τ)
  have hc1 := cos_le_one τ
  have t2 : τ ^ 2 ≤ τ := by nlinarith
  have t3 : τ ^ 3 ≤ τ ^ 2 := by nlinarith [sq_nonneg τ]
  have t4 : τ ^ 4 ≤ τ ^ 3 := by nlinarith [pow_pos h0 3]
  have t5 : τ ^ 5 ≤ τ ^ 4 := by nlinarith [pow_pos h0 4]
  have t6 : τ ^ 6 ≤ τ ^ 5 := by nlinarith [pow_pos h0 5]
  have p2 := pow_pos h0 2
  have p3 := pow_pos h0 3
  have p4 := pow_pos h0 4
  have p5 := pow_pos h0 5
  have p6 := pow_pos h0 6
  have ms1 := mul_le_mul_of_nonneg_left s1 h0.le
  have ms2 := mul_le_mul_of_nonneg_left s2 h0.le
  have mc1 := mul_le_mul_of_nonneg_left c1 h0.le
  have mc2 := mul_le_mul_of_nonneg_left c2 h0.le
  have mhs := mul_le_mul_of_nonneg_left hs h0.le
  ring_nf at ms1 ms2 mc1 mc2 mhs t2 t3 t4 t5 t6 s1 s2 c1 c2 hc p2 p3 p4 p5 p6 ⊢
  refine ⟨?_, ?_, ?_, ?_, ?_, ?_, ?_, ?_, ?_, ?_, ?_⟩ <;> linarith

/-- the relative motion over the angle `τ`, solved for the velocity at its end -/
theorem solve {n T : ℝ} (hn : n ≠ 0) (hD : 8 - 8 * cos (n * T) - 3 * (n * T) * sin (n * T) ≠ 0)
    (hs : sin (n * T) ≠ 0) (x : Vec6) :
    let τ := n * T
    let D := 8 - 8 * cos τ - 3 * τ * sin τ
    let y := (Hill.phi n T).mulVec x
    y.vx = (n / D * -(4 * sin τ - 3 * τ) * x.x + n / D * -(2 * (1 - cos τ)) * x.y) +
      (n / D * (4 * sin τ - 3 * τ * cos τ) * y.x + n / D * (2 * (1 - cos τ)) * y.y) ∧
    y.vy = (n / D * (2 * (1 - cos τ)) * x.x + n / D * -sin τ * x.y) +
      (n / D * (6 * τ * sin τ - 14 * (1 - cos τ)) * y.x + n / D * sin τ * y.y) ∧
    y.vz = n / sin τ * (-1) * x.z + n / sin τ * cos τ * y.z := by
  intro τ D y
  have h1 : sin τ ^ 2 + cos τ ^ 2 = 1 := sin_sq_add_cos_sq τ
  have hD' : D ≠ 0 := hD
  have hs' : sin τ ≠ 0 := hs
  have hτ : n * T = τ := rfl
  refine ⟨?_, ?_, ?_⟩
  all_goals
    simp only [y, Hill.phi, Mat6.mulVec, Vec6.dot, mul_assoc 3 n T, hτ]
    clear_value τ
    field_simp
  · simp only [D]
    linear_combination (-9 * n * τ * x.x - 6 * τ * x.vy - 4 * x.vx) * h1
  · simp only [D]
    linear_combination (-6 * n * x.x - 4 * x.vy) * h1
  · linear_combination (-n * x.z) * h1

/-- a sum of weighted squares, with weights bounded -/
theorem weighted {r a b c k : ℝ} {e : Vec3} (hx : |e.x| ≤ r) (hy : |e.y| ≤ r) (hz : |e.z| ≤ r)
    (h : a ^ 2 + b ^ 2 + c ^ 2 ≤ k) : (e.x * a) ^ 2 + (e.y * b) ^ 2 + (e.z * c) ^ 2 ≤ r ^ 2 * k := by
  have h1 := sq_le_sq' (abs_le.mp hx).1 (abs_le.mp hx).2
  have h2 := sq_le_sq' (abs_le.mp hy).1 (abs_le.mp hy).2
  have h3 := sq_le_sq' (abs_le.mp hz).1 (abs_le.mp hz).2
  have g1 := mul_le_mul_of_nonneg_right h1 (sq_nonneg a)
  have g2 := mul_le_mul_of_nonneg_right h2 (sq_nonneg b)
  have g3 := mul_le_mul_of_nonneg_right h3 (sq_nonneg c)
  have g4 := mul_le_mul_of_nonneg_left h (sq_nonneg r)
  linarith

/-- two weights of size `n / D` -/
theorem pair {n T D a b A B : ℝ} (hn : 0 < n) (hT : 0 < T) (hD : (n * T) ^ 2 ≤ D) (ha : |a| ≤ A * (n * T))
    (hb : |b| ≤ B * (n * T)) : (n / D * a) ^ 2 + (n / D * b) ^ 2 ≤ (A ^ 2 + B ^ 2) / T ^ 2 := by
  have ht : 0 < n * T := by positivity
  have hD0 : 0 < D := lt_of_lt_of_le (by positivity) hD
  have h1 := sq_le_sq' (abs_le.mp ha).1 (abs_le.mp ha).2
  have h2 := sq_le_sq' (abs_le.mp hb).1 (abs_le.mp hb).2
  have h3 : ((n * T) ^ 2) ^ 2 ≤ D ^ 2 := pow_le_pow_left₀ (by positivity) hD 2
  rw [mul_pow, mul_pow, ← mul_add, div_pow, div_mul_eq_mul_div, div_le_div_iff₀ (by positivity) (by positivity)]
  have h4 : a ^ 2 + b ^ 2 ≤ (A ^ 2 + B ^ 2) * (n * T) ^ 2 := by nlinarith
  calc n ^ 2 * (a ^ 2 + b ^ 2) * T ^ 2 = (n * T) ^ 2 * (a ^ 2 + b ^ 2) := by ring
    _ ≤ (n * T) ^ 2 * ((A ^ 2 + B ^ 2) * (n * T) ^ 2) := by gcongr
    _ = (A ^ 2 + B ^ 2) * ((n * T) ^ 2) ^ 2 := by ring
    _ ≤ (A ^ 2 + B ^ 2) * D ^ 2 := by gcongr

/-- one weight of size `n / sin (n T)` -/
theorem single {n T S c : ℝ} (hn : 0 < n) (hT : 0 < T) (hS : 0.78 * (n * T) ≤ S) (hc : |c| ≤ 1) :
    (n / S * c) ^ 2 ≤ 2 / T ^ 2 := by
  have ht : 0 < n * T := by positivity
  have hS0 : 0 < S := lt_of_lt_of_le (by positivity) hS
  have h1 : c ^ 2 ≤ 1 := by rw [← sq_abs]; nlinarith [abs_nonneg c]
  have h3 : (0.78 * (n * T)) ^ 2 ≤ S ^ 2 := pow_le_pow_left₀ (by positivity) hS 2
  rw [mul_pow, div_pow, div_mul_eq_mul_div, div_le_div_iff₀ (by positivity) (by positivity)]
  have h4 : n ^ 2 * c ^ 2 * T ^ 2 ≤ n ^ 2 * 1 * T ^ 2 := by gcongr
  have h5 : 0 < (n * T) ^ 2 := by positivity
  nlinarith

end TwoFix

/-- after any history, two observations `T` seconds apart, over less than a radian of the orbit, determine the velocity to
within a fixed multiple of their errors divided by `T`, whatever the filter believed before -/
theorem C164_velocity (epoch : Epoch) (p : Hill) (hp : 0 < p.n) (s : RelativeKalman)
    (h : RelativeKalman.new epoch p = .ok s) (cs : List RelativeKalman.Call) (ob1 ob2 : SpaceObservation)
    (s1 s2 : RelativeKalman) (hs1 : RelativeKalman.process ob1 (RelativeKalman.after cs s) = (.ok (), s1))
    (hs2 : RelativeKalman.process ob2 s1 = (.ok (), s2)) (T : ℝ)
    (hT : T = (ob2.observer_state.epoch.value - ob1.observer_state.epoch.value) * SECONDS_IN_DAY) (hT0 : 0 < T)
    (hT1 : p.n * T ≤ 1) :
    ∃ e1 e2, RelativeKalman.hillErrors ob1 = .ok e1 ∧ RelativeKalman.hillErrors ob2 = .ok e2 ∧
      ∀ r1 r2, |e1.x| ≤ r1 → |e1.y| ≤ r1 → |e1.z| ≤ r1 → |e2.x| ≤ r2 → |e2.y| ≤ r2 → |e2.z| ≤ r2 →
        let b := (2 * r1 ^ 2 + 7 * (r2 ^ 2 + 1e-16)) / T ^ 2 + 1e-16
        s2.p00.toMatrix 3 3 ≤ b ∧ s2.p00.toMatrix 4 4 ≤ b ∧ s2.p00.toMatrix 5 5 ≤ b := by
  obtain ⟨F, e1, e2, hF, he1, he2, key⟩ := C164_two epoch p s h cs ob1 ob2 s1 s2 hs1 hs2
  rw [← hT, Hill.systemMatrix_ok hp.ne', Except.ok.injEq] at hF
  subst hF
  refine ⟨e1, e2, he1, he2, fun r1 r2 x1 y1 z1 x2 y2 z2 => ?_⟩
  have ht : 0 < p.n * T := by positivity
  obtain ⟨bD, b1, b2, b3, b4, b5, b6, b7, b8, b9, b10⟩ := TwoFix.bounds ht hT1
  have hD : 8 - 8 * cos (p.n * T) - 3 * (p.n * T) * sin (p.n * T) ≠ 0 :=
    (lt_of_lt_of_le (pow_pos ht 2) bD).ne'
  have hs0 : 0 < sin (p.n * T) := lt_of_lt_of_le (by positivity) b7
  have sol := TwoFix.solve hp.ne' hD hs0.ne'
  have hsq : (p.n * T) ^ 2 ≤ p.n * T := by nlinarith
  -- one velocity component at a time, from its weights
  have comp : ∀ (i : Fin 6) (a l : Fin 3 → ℝ), 3 ≤ i →
      (∀ x : Vec6, ((Hill.phi p.n T).mulVec x).toFun i = (a 0 * x.x + a 1 * x.y + a 2 * x.z) +
        (l 0 * ((Hill.phi p.n T).mulVec x).x + l 1 * ((Hill.phi p.n T).mulVec x).y +
          l 2 * ((Hill.phi p.n T).mulVec x).z)) →
      a 0 ^ 2 + a 1 ^ 2 + a 2 ^ 2 ≤ 2 / T ^ 2 → l 0 ^ 2 + l 1 ^ 2 + l 2 ^ 2 ≤ 7 / T ^ 2 →
      s2.p00.toMatrix i i ≤ (2 * r1 ^ 2 + 7 * (r2 ^ 2 + 1e-16)) / T ^ 2 + 1e-16 := by
    intro i a l hi hx ha hl
    have h1 := key (Pi.single i 1) a l (fun x => by
      have hx' := hx ⟨x 0, x 1, x 2, x 3, x 4, x 5⟩
      have hf : (Vec6.mk (x 0) (x 1) (x 2) (x 3) (x 4) (x 5)).toFun = x := by
        ext j; fin_cases j <;> rfl
      have hm := Mat6.mulVec_toFun (Hill.phi p.n T) ⟨x 0, x 1, x 2, x 3, x 4, x 5⟩
      rw [hf] at hm
      rw [← hm, single_dotProduct, one_mul]
      exact hx')
    have h2 := TwoFix.weighted x1 y1 z1 ha
    have h3 := TwoFix.weighted x2 y2 z2 hl
    have h4 : ((Pi.single i 1 : Fin 6 → ℝ) 0 - l 0) ^ 2 + ((Pi.single i 1 : Fin 6 → ℝ) 1 - l 1) ^ 2 +
        ((Pi.single i 1 : Fin 6 → ℝ) 2 - l 2) ^ 2 + (Pi.single i 1 : Fin 6 → ℝ) 3 ^ 2 +
        (Pi.single i 1 : Fin 6 → ℝ) 4 ^ 2 + (Pi.single i 1 : Fin 6 → ℝ) 5 ^ 2 = l 0 ^ 2 + l 1 ^ 2 + l 2 ^ 2 + 1 := by
      fin_cases i
      · exact absurd hi (by decide)
      · exact absurd hi (by decide)
      · exact absurd hi (by decide)
      all_goals simp [Pi.single_apply]
    rw [h4] at h1
    have h5 : (Pi.single i 1 : Fin 6 → ℝ) ⬝ᵥ s2.p00.toMatrix.mulVec (Pi.single i 1) = s2.p00.toMatrix i i := by simp
    rw [h5] at h1
    calc _ ≤ _ := h1
      _ ≤ r1 ^ 2 * (2 / T ^ 2) + r2 ^ 2 * (7 / T ^ 2) + 1e-16 * (7 / T ^ 2 + 1) := by linarith
      _ = _ := by ring
  set τ := p.n * T with hτ
  set D := 8 - 8 * cos τ - 3 * τ * sin τ with hDd
  have hTp : 0 < T ^ 2 := by positivity
  refine ⟨comp 3 ![p.n / D * -(4 * sin τ - 3 * τ), p.n / D * -(2 * (1 - cos τ)), 0]
    ![p.n / D * (4 * sin τ - 3 * τ * cos τ), p.n / D * (2 * (1 - cos τ)), 0] (by decide) (fun x => ?_) ?_ ?_,
    comp 4 ![p.n / D * (2 * (1 - cos τ)), p.n / D * -sin τ, 0]
    ![p.n / D * (6 * τ * sin τ - 14 * (1 - cos τ)), p.n / D * sin τ, 0] (by decide) (fun x => ?_) ?_ ?_,
    comp 5 ![0, 0, p.n / sin τ * -1] ![0, 0, p.n / sin τ * cos τ] (by decide) (fun x => ?_) ?_ ?_⟩
  · simpa [Vec6.toFun] using (sol x).1
  · have := TwoFix.pair (A := 1) (B := 1) (a := -(4 * sin τ - 3 * τ)) (b := -(2 * (1 - cos τ))) hp hT0 bD
      (by rw [abs_neg, abs_of_nonneg b9]; linarith) (by rw [abs_neg, abs_of_nonneg b3]; linarith)
    simp only [Matrix.cons_val]
    norm_num at this ⊢
    linarith
  · have := TwoFix.pair (A := 2.3) (B := 1) (a := 4 * sin τ - 3 * τ * cos τ) (b := 2 * (1 - cos τ)) hp hT0 bD
      (by rw [abs_of_nonneg b1]; linarith) (by rw [abs_of_nonneg b3]; linarith)
    simp only [Matrix.cons_val]
    have h7 : (2.3 ^ 2 + 1 ^ 2) / T ^ 2 ≤ 7 / T ^ 2 := div_le_div_of_nonneg_right (by norm_num) hTp.le
    linarith
  · simpa [Vec6.toFun] using (sol x).2.1
  · have := TwoFix.pair (A := 1) (B := 1) (a := 2 * (1 - cos τ)) (b := -sin τ) hp hT0 bD
      (by rw [abs_of_nonneg b3]; linarith) (by rw [abs_neg, abs_of_nonneg hs0.le]; linarith)
    simp only [Matrix.cons_val]
    norm_num at this ⊢
    linarith
  · have := TwoFix.pair (A := 2.4) (B := 1) (a := 6 * τ * sin τ - 14 * (1 - cos τ)) (b := sin τ) hp hT0 bD
      (by rw [abs_of_nonpos b6]; linarith) (by rw [abs_of_nonneg hs0.le]; linarith)
    simp only [Matrix.cons_val]
    have h7 : (2.4 ^ 2 + 1 ^ 2) / T ^ 2 ≤ 7 / T ^ 2 := div_le_div_of_nonneg_right (by norm_num) hTp.le
    linarith
  · simpa [Vec6.toFun] using (sol x).2.2
  · have := TwoFix.single hp hT0 b7 (c := -1) (by norm_num)
    simp only [Matrix.cons_val]
    linarith
  · have := TwoFix.single hp hT0 b7 (c := cos τ) (abs_cos_le_one τ)
    simp only [Matrix.cons_val]
    have h7 : 2 / T ^ 2 ≤ 7 / T ^ 2 := div_le_div_of_nonneg_right (by norm_num) hTp.le
    linarith

/-- a noisy sighting 10 km above a geosynchronous observer can be processed at any time, after any history -/
theorem geo_noisy (ep : Epoch) (epoch : Epoch) (p : Hill) (s : RelativeKalman) (hs : RelativeKalman.new epoch p = .ok s)
    (cs : List RelativeKalman.Call) : ∃ s', RelativeKalman.process (SpaceObservation.new
      (GCRF.new ep ⟨42164, 0, 0⟩ ⟨0, 3.0747, 0⟩) ⟨10, 0, 0⟩ 1 (1 / 10)) (RelativeKalman.after cs s) = (.ok (), s') := by
  have hs0 : 0 < sin (1 / 10) := sin_pos_of_pos_of_lt_pi (by norm_num) (by linarith [pi_gt_three])
  have hc0 : 199 / 200 ≤ cos (1 / 10) := by
    have := one_sub_sq_div_two_le_cos (x := (1 / 10 : ℝ))
    linarith
  have hd := displacement_along_x (r := 10) (ρ := 1) (a := 1 / 10) (by norm_num)
    (GCRF.new ep ⟨42164, 0, 0⟩ ⟨0, 3.0747, 0⟩)
  have hcs : 0 < cos (1 / 10) * sin (1 / 10) := by positivity
  refine C52_succeeds _ p s hs cs (SpaceObservation.new (GCRF.new ep ⟨42164, 0, 0⟩ ⟨0, 3.0747, 0⟩) ⟨10, 0, 0⟩ 1 (1 / 10))
    ?_ ?_ ?_
  · refine nonDegenerate_iff.mpr fun h => ?_
    have := congrArg Vec3.z h
    simp only [SpaceObservation.new, GCRF.copy, GCRF.new, State.new, Vec3.cross, Vec3.copy] at this
    norm_num at this
  · intro h
    have := congrArg Vec3.y h
    simp only [SpaceObservation.new, GCRF.copy, GCRF.new, State.new, Vec3.cross, Vec3.copy, Vec3.plus] at this
    norm_num at this
  · show ((GCRF.new ep ⟨42164, 0, 0⟩ ⟨0, 3.0747, 0⟩).position.cross (GCRF.new ep ⟨42164, 0, 0⟩ ⟨0, 3.0747, 0⟩).velocity).cross
        ((GCRF.new ep ⟨42164, 0, 0⟩ ⟨0, 3.0747, 0⟩).position.plus ((SphericalPosition.toCartesian _).minus ⟨10, 0, 0⟩)) ≠ _
    erw [hd]
    intro h
    have := congrArg Vec3.x h
    simp only [GCRF.new, State.new, Vec3.cross, Vec3.copy, Vec3.plus] at this
    nlinarith

/-- two such sightings an hour apart, after any history -/
example (cs : List RelativeKalman.Call) : ∃ (p : Hill) (s s1 s2 : RelativeKalman) (e1 e2 : Vec3),
    Hill.new (State.new ⟨0⟩ ⟨1, 2, 3⟩ ⟨0, 0, 0⟩) 42164 = .ok p ∧ RelativeKalman.new ⟨59932⟩ p = .ok s ∧
    RelativeKalman.process (SpaceObservation.new (GCRF.new ⟨59932⟩ ⟨42164, 0, 0⟩ ⟨0, 3.0747, 0⟩) ⟨10, 0, 0⟩ 1 (1 / 10))
      (RelativeKalman.after cs s) = (.ok (), s1) ∧
    RelativeKalman.process (SpaceObservation.new (GCRF.new ⟨59932 + 1 / 24⟩ ⟨42164, 0, 0⟩ ⟨0, 3.0747, 0⟩)
      ⟨10, 0, 0⟩ 1 (1 / 10)) s1 = (.ok (), s2) ∧ ∀ r1 r2 : ℝ,
      |e1.x| ≤ r1 → |e1.y| ≤ r1 → |e1.z| ≤ r1 → |e2.x| ≤ r2 → |e2.y| ≤ r2 → |e2.z| ≤ r2 →
      s2.p00.toMatrix 3 3 ≤ (2 * r1 ^ 2 + 7 * (r2 ^ 2 + 1e-16)) / 3600 ^ 2 + 1e-16 := by
  obtain ⟨p, hp, hn, hmu, -⟩ := hill_new_ok (State.new ⟨0⟩ ⟨1, 2, 3⟩ ⟨0, 0, 0⟩) (show (0:ℝ) < 42164 by norm_num)
  have hs : ∃ s, RelativeKalman.new ⟨59932⟩ p = .ok s := by
    simp only [RelativeKalman.new, Hill.systemMatrix_ok hn.ne', ok_bind, pure_eq_ok]
    exact ⟨_, rfl⟩
  obtain ⟨s, hs⟩ := hs
  obtain ⟨s1, h1⟩ := geo_noisy ⟨59932⟩ _ p s hs cs
  obtain ⟨s2, h2⟩ := geo_noisy ⟨59932 + 1 / 24⟩ _ p s hs (cs ++ [.process (SpaceObservation.new
    (GCRF.new ⟨59932⟩ ⟨42164, 0, 0⟩ ⟨0, 3.0747, 0⟩) ⟨10, 0, 0⟩ 1 (1 / 10))])
  have e : RelativeKalman.after (cs ++ [.process (SpaceObservation.new
      (GCRF.new ⟨59932⟩ ⟨42164, 0, 0⟩ ⟨0, 3.0747, 0⟩) ⟨10, 0, 0⟩ 1 (1 / 10))]) s = s1 := by
    rw [RelativeKalman.after, List.foldl_append]
    exact congrArg Prod.snd h1
  rw [e] at h2
  obtain ⟨e1, e2, -, -, h3⟩ := C164_velocity _ p hn s hs cs _ _ s1 s2 h1 h2 3600
    (by simp only [SpaceObservation.new, GCRF.copy, GCRF.new, State.new, Epoch.copy, SECONDS_IN_DAY]; norm_num)
    (by norm_num)
    (by
      simp only [Earth.MU] at hmu
      nlinarith)
  exact ⟨p, s, s1, s2, e1, e2, hp, hs, h1, h2, fun r1 r2 a b c d e f => (h3 r1 r2 a b c d e f).1⟩

end Openspace
