import Verif.Props.FilterModelError
import Verif.Lemmas.LinearEstimate
import Mathlib.Probability.ProbabilityMassFunction.Integrals
import Mathlib.Probability.Distributions.Uniform

/-!
# C133: the relative Kalman filter gives the best linear estimate from all its observations
-/

namespace Openspace

open Real MeasureTheory

/-- the matrix that takes the position out of a relative state -/
def Spec.positionPart : Matrix (Fin 3) (Fin 6) ℝ := !![1, 0, 0, 0, 0, 0; 0, 1, 0, 0, 0, 0; 0, 0, 1, 0, 0, 0]

namespace RelativeKalman

/-- the seconds from one observation to the next, and from the epoch of the filter to the first -/
noncomputable def gap (epoch : Epoch) (times : ℕ → Epoch) : ℕ → ℝ
  | 0 => ((times 0).value - epoch.value) * SECONDS_IN_DAY
  | k + 1 => ((times (k + 1)).value - (times k).value) * SECONDS_IN_DAY

/-- the time of the last of `N` observations -/
def lastTime (epoch : Epoch) (times : ℕ → Epoch) : ℕ → Epoch
  | 0 => epoch
  | k + 1 => times k

theorem gap_eq (epoch : Epoch) (times : ℕ → Epoch) (k : ℕ) :
    gap epoch times k = ((times k).value - (lastTime epoch times k).value) * SECONDS_IN_DAY := by
  cases k <;> rfl

theorem H_positionPart : H.toMatrix = Spec.positionPart := by
  rfl

theorem processAll_append (obs : List SpaceObservation) (ob : SpaceObservation) (s s1 s2 : RelativeKalman)
    (h1 : processAll obs s = (.ok (), s1)) (h2 : process ob s1 = (.ok (), s2)) :
    processAll (obs ++ [ob]) s = (.ok (), s2) := by
  induction obs generalizing s with
  | nil =>
    simp only [processAll] at h1
    cases h1
    simp only [List.nil_append, processAll]
    rw [PyM.bind_apply, h2]
    rfl
  | cons o obs ih =>
    simp only [processAll] at h1
    rw [PyM.bind_apply] at h1
    simp only [List.cons_append, processAll]
    rw [PyM.bind_apply]
    rcases hp : process o s with ⟨r | r, s3⟩
    · rw [hp] at h1
      simp at h1
    · rw [hp] at h1
      exact ih s3 h1

open Matrix in
theorem optimal_run {epoch : Epoch} {p : Hill} {s : RelativeKalman} (h : RelativeKalman.new epoch p = .ok s)
    (times : ℕ → Epoch) (errors : ℕ → Vec3) (F : ℕ → Mat6) (hF : ∀ k, p.systemMatrix (gap epoch times k) = .ok (F k))
    (N : ℕ) :
    ∃ (b : Fin 6 → ℝ) (G : ℕ → Matrix (Fin 6) (Fin 3) ℝ) (P : Matrix (Fin 6) (Fin 6) ℝ), P.PosSemidef ∧
      (∀ (obs : ℕ → SpaceObservation) (z : ℕ → Vec3), (∀ k < N, (obs k).observer_state.epoch = times k ∧
          hillErrors (obs k) = .ok (errors k) ∧ hillMeasurement (obs k) = .ok (z k)) →
        ∃ s', processAll ((List.range N).map obs) s = (.ok (), s') ∧ Inv s' ∧ s'.q = s.q ∧ s'.propagator.n = p.n ∧
          s'.epoch = lastTime epoch times N ∧ s'.p00.toMatrix = P ∧
          s'.x00.toFun = b + ∑ k ∈ Finset.range N, G k *ᵥ (z k).toFun) ∧
      ∀ (Ω : Type) [MeasurableSpace Ω] (μ : Measure Ω) [IsProbabilityMeasure μ] (M : ℕ) (e : Ω → Fin 6 → ℝ)
        (w : ℕ → Ω → Fin 6 → ℝ) (v : ℕ → Ω → Fin 3 → ℝ) (X : ℕ → Ω → Fin 6 → ℝ) (Z : ℕ → Ω → Fin 3 → ℝ), N ≤ M →
        Spec.Noise μ M s.p00.toMatrix s.q.toMatrix (fun k => (measurementCovariance (errors k)).toMatrix) e w v →
        Spec.Motion s.x00.toFun (fun k => (F k).toMatrix) H.toMatrix e w v X Z →
        (∀ a, ∫ ω, (a ⬝ᵥ X N ω - (a ⬝ᵥ b + ∑ k ∈ Finset.range N, ((G k)ᵀ *ᵥ a) ⬝ᵥ Z k ω)) ^ 2 ∂μ = a ⬝ᵥ P *ᵥ a) ∧
        ∀ (a : Fin 6 → ℝ) (β : ℝ) (g : ℕ → Fin 3 → ℝ), a ⬝ᵥ P *ᵥ a ≤ ∫ ω, (a ⬝ᵥ X N ω - (β + ∑ k ∈ Finset.range N, g k ⬝ᵥ Z k ω)) ^ 2 ∂μ := by
  obtain ⟨hi, -⟩ := new_inv h
  obtain ⟨h1, h2, -⟩ := C54_initial epoch p s h
  have hn : p.n ≠ 0 := by rw [← h2]; exact hi.n
  induction N with
  | zero =>
    refine ⟨s.x00.toFun, fun _ => 0, s.p00.toMatrix, hi.p00, ?_, ?_⟩
    · intro obs z _
      exact ⟨s, rfl, hi, rfl, by rw [h2], h1, rfl, by simp⟩
    · intro Ω _ μ _ M e w v X Z _ hN hM
      have key : ∀ (a : Fin 6 → ℝ) (β : ℝ), ∫ ω, (a ⬝ᵥ X 0 ω - β) ^ 2 ∂μ =
          a ⬝ᵥ s.p00.toMatrix *ᵥ a + (a ⬝ᵥ s.x00.toFun - β) ^ 2 := by
        intro a β
        have e1 : ∀ ω, (a ⬝ᵥ X 0 ω - β) ^ 2 = (a ⬝ᵥ e ω) ^ 2 + ((a ⬝ᵥ s.x00.toFun - β) ^ 2 +
            (-2 * (a ⬝ᵥ s.x00.toFun - β)) * (1 * (a ⬝ᵥ e ω))) := by
          intro ω
          rw [hM.start, dotProduct_sub]
          ring
        simp only [e1]
        have m := memLp_dot a hN.mem_e
        have i1 := m.integrable_sq
        have i2 : Integrable (fun ω => (-2 * (a ⬝ᵥ s.x00.toFun - β)) * (1 * (a ⬝ᵥ e ω))) μ :=
          (integrable_prod (memLp_const 1) m).const_mul _
        have i3 : Integrable (fun _ : Ω => (a ⬝ᵥ s.x00.toFun - β) ^ 2) μ := integrable_const _
        have i4 : Integrable (fun ω => (a ⬝ᵥ s.x00.toFun - β) ^ 2 +
          (-2 * (a ⬝ᵥ s.x00.toFun - β)) * (1 * (a ⬝ᵥ e ω))) μ := i3.add i2
        rw [integral_add i1 i4, integral_add i3 i2, integral_const_mul,
          integral_mul_dot (memLp_const 1) a hN.mem_e, integral_dot_sq a hN.mem_e hN.cov_e]
        simp [hN.mean_e]
      constructor
      · intro a
        simpa using key a (a ⬝ᵥ s.x00.toFun)
      · intro a β g
        simp only [Finset.range_zero, Finset.sum_empty, add_zero, key]
        nlinarith [sq_nonneg (a ⬝ᵥ s.x00.toFun - β)]
  | succ N ih =>
    obtain ⟨b, G, P, hP, hrun, hopt⟩ := ih
    obtain ⟨A, hAe⟩ : ∃ A, A = (F N).toMatrix * P * (F N).toMatrixᵀ + s.q.toMatrix := ⟨_, rfl⟩
    obtain ⟨R, hRe⟩ : ∃ R, R = (measurementCovariance (errors N)).toMatrix := ⟨_, rfl⟩
    have hR : R.PosSemidef := hRe ▸ posSemidef_measurement _
    have hA : A.PosDef := hAe ▸ posDef_predict hP hi.q _
    have hS : (H.toMatrix * A * H.toMatrixᵀ + R).PosDef :=
      posDef_innovation hA hR (by rw [← HT_toMatrix]; exact H_mul_HT)
    obtain ⟨K, hK⟩ : ∃ K, K * (H.toMatrix * A * H.toMatrixᵀ + R) = A * H.toMatrixᵀ :=
      ⟨A * H.toMatrixᵀ * (H.toMatrix * A * H.toMatrixᵀ + R)⁻¹, by
        rw [Matrix.nonsing_inv_mul_cancel_right _ _ (isUnit_iff_ne_zero.mpr hS.det_pos.ne')]⟩
    refine ⟨((1 - K * H.toMatrix) * (F N).toMatrix) *ᵥ b,
      fun k => if k = N then K else ((1 - K * H.toMatrix) * (F N).toMatrix) * G k,
      Spec.updatedCovariance A H.toMatrix R K, posSemidef_updated hA.posSemidef hR _ _, ?_, ?_⟩
    · intro obs z hobs
      obtain ⟨s1, hp1, hi1, hq1, hn1, he1, hP1, hx1⟩ := hrun obs z fun k hk => hobs k (hk.trans (Nat.lt_succ_self N))
      obtain ⟨ht, he, hz⟩ := hobs N (Nat.lt_succ_self N)
      obtain ⟨F', P', K', Y, x', hF', hP', hPd', hK', hY, hx', hp2⟩ := process_ok hi1 hz he
      have hFF : F' = F N := by
        rw [Hill.systemMatrix_ok hi1.n, hn1, ht, he1, ← gap_eq, Except.ok.injEq] at hF'
        have := hF N
        rw [Hill.systemMatrix_ok hn, Except.ok.injEq] at this
        rw [← hF', this]
      subst hFF
      have hPA : P'.toMatrix = A := by
        rw [hP', Mat6.plus_toMatrix, Mat6.mul_toMatrix, Mat6.mul_toMatrix, Mat6.transpose_toMatrix, ← Matrix.mul_assoc, hAe,
          hq1, hP1]
      have hKK : K'.toMatrix = K := by
        rw [innovation_toMatrix, hPA, ← hRe, ← hK] at hK'
        have := congrArg (· * (H.toMatrix * A * H.toMatrixᵀ + R)⁻¹) hK'
        simpa only [Matrix.mul_nonsing_inv_cancel_right _ _ (isUnit_iff_ne_zero.mpr hS.det_pos.ne')] using this
      have hp3 := processAll_append _ _ _ _ _ hp1 hp2
      rw [List.range_succ, List.map_append]
      refine ⟨_, hp3, ?_, hq1, hn1, ht, ?_, ?_⟩
      · have := hi1.process (obs N)
        rw [hp2] at this
        exact this
      · simp only
        rw [joseph_toMatrix, hPA, hKK, ← hRe]
      · simp only
        rw [hx', Vec6.plus_toFun, Mat63.mulVec_toFun, Vec3.minus_toFun, Mat36.mulVec_toFun, hKK, hY, Mat6.mulVec_toFun, hx1,
          Finset.sum_range_succ, if_pos rfl]
        have hsum : ∑ k ∈ Finset.range N, (if k = N then K else ((1 - K * H.toMatrix) * (F N).toMatrix) * G k) *ᵥ
            (z k).toFun = ((1 - K * H.toMatrix) * (F N).toMatrix) *ᵥ ∑ k ∈ Finset.range N, G k *ᵥ (z k).toFun := by
          rw [Matrix.mulVec_sum]
          refine Finset.sum_congr rfl fun k hk => ?_
          rw [if_neg (Finset.mem_range.mp hk).ne, Matrix.mulVec_mulVec]
        rw [hsum, ← add_assoc, ← Matrix.mulVec_add, ← Matrix.mulVec_mulVec, Matrix.sub_mulVec, Matrix.one_mulVec,
          ← Matrix.mulVec_mulVec, Matrix.mulVec_sub]
        abel
    · intro Ω _ μ _ M e w v X Z hNM hN hM
      obtain ⟨o1, o2⟩ := hopt Ω μ M e w v X Z (by omega) hN hM
      have quad : ∀ c : Fin 6 → ℝ, c ⬝ᵥ A *ᵥ c = ((F N).toMatrixᵀ *ᵥ c) ⬝ᵥ P *ᵥ ((F N).toMatrixᵀ *ᵥ c) +
          c ⬝ᵥ s.q.toMatrix *ᵥ c := by
        intro c
        rw [hAe, Matrix.add_mulVec, dotProduct_add, quad_congr]
      have step : ∀ (a : Fin 6 → ℝ) (β : ℝ) (g : ℕ → Fin 3 → ℝ),
          ∫ ω, (a ⬝ᵥ X (N + 1) ω - (β + ∑ k ∈ Finset.range (N + 1), g k ⬝ᵥ Z k ω)) ^ 2 ∂μ =
          ∫ ω, (((F N).toMatrixᵀ *ᵥ (a - H.toMatrixᵀ *ᵥ g N)) ⬝ᵥ X N ω -
            (β + ∑ k ∈ Finset.range N, g k ⬝ᵥ Z k ω)) ^ 2 ∂μ +
          ((a - H.toMatrixᵀ *ᵥ g N) ⬝ᵥ s.q.toMatrix *ᵥ (a - H.toMatrixᵀ *ᵥ g N) + g N ⬝ᵥ R *ᵥ g N) := by
        intro a β g
        simp only [residual_step hM N a β g]
        rw [Past.mean_square hN (by omega) (Past.residual hN hM (by omega) _ β g), hRe]
      constructor
      · intro a
        rw [step]
        simp only [if_pos]
        have hsum : ∀ ω, ∑ k ∈ Finset.range N, ((if k = N then K else ((1 - K * H.toMatrix) * (F N).toMatrix) * G k)ᵀ *ᵥ a)
            ⬝ᵥ Z k ω = ∑ k ∈ Finset.range N, ((G k)ᵀ *ᵥ ((F N).toMatrixᵀ *ᵥ (a - H.toMatrixᵀ *ᵥ (Kᵀ *ᵥ a)))) ⬝ᵥ Z k ω := by
          intro ω
          refine Finset.sum_congr rfl fun k hk => ?_
          rw [if_neg (Finset.mem_range.mp hk).ne]
          congr 1
          simp only [Matrix.transpose_mul, Matrix.transpose_sub, Matrix.transpose_one, ← Matrix.mulVec_mulVec,
            Matrix.sub_mulVec, Matrix.one_mulVec]
        have hb : a ⬝ᵥ ((1 - K * H.toMatrix) * (F N).toMatrix) *ᵥ b =
            ((F N).toMatrixᵀ *ᵥ (a - H.toMatrixᵀ *ᵥ (Kᵀ *ᵥ a))) ⬝ᵥ b := by
          rw [Matrix.dotProduct_mulVec, ← Matrix.mulVec_transpose]
          simp only [Matrix.transpose_mul, Matrix.transpose_sub, Matrix.transpose_one, ← Matrix.mulVec_mulVec,
            Matrix.sub_mulVec, Matrix.one_mulVec]
        simp only [hsum, hb]
        rw [o1, ← add_assoc, ← quad, Spec.updatedCovariance, Matrix.add_mulVec, dotProduct_add, quad_congr, quad_congr]
        simp only [Matrix.transpose_mul, Matrix.transpose_sub, Matrix.transpose_one, ← Matrix.mulVec_mulVec,
            Matrix.sub_mulVec, Matrix.one_mulVec]
      · intro a β g
        rw [step]
        refine (update_optimal_direction hA.posSemidef hR hK a (g N)).trans ?_
        rw [quad, add_assoc]
        exact add_le_add_left (o2 _ β g) _

end RelativeKalman

/-! ## C133 -/

open Matrix in
/-- Fix the times of `N` observations and the errors that the filter assigns to them.  There are weights `b` and `G k` and
a covariance `P` such that, whatever positions are measured at those times with those errors, no call raises, the filter
ends with the covariance `P`, and its estimate is `b + ∑ G k z k`.  Let the initial error, the disturbances of the motion
and the errors of the measurements be any random variables with the covariances that the filter assigns to them.  Then for
every linear form `a` of the state the mean square error of the filter is what its covariance says, and no estimate
`β + ∑ g k z k` that is linear in all the measurements has a smaller one. -/
theorem C133_best (epoch : Epoch) (p : Hill) (s : RelativeKalman) (h : RelativeKalman.new epoch p = .ok s)
    (times : ℕ → Epoch) (errors : ℕ → Vec3) (F : ℕ → Mat6)
    (hF : ∀ k, p.systemMatrix (RelativeKalman.gap epoch times k) = .ok (F k)) (N : ℕ) :
    ∃ (b : Fin 6 → ℝ) (G : ℕ → Matrix (Fin 6) (Fin 3) ℝ) (P : Matrix (Fin 6) (Fin 6) ℝ),
      (∀ (obs : ℕ → SpaceObservation) (z : ℕ → Vec3), (∀ k < N, (obs k).observer_state.epoch = times k ∧
          RelativeKalman.hillErrors (obs k) = .ok (errors k) ∧ RelativeKalman.hillMeasurement (obs k) = .ok (z k)) →
        ∃ s', RelativeKalman.processAll ((List.range N).map obs) s = (.ok (), s') ∧ s'.p00.toMatrix = P ∧
          s'.x00.toFun = b + ∑ k ∈ Finset.range N, G k *ᵥ (z k).toFun) ∧
      ∀ (Ω : Type) [MeasurableSpace Ω] (μ : Measure Ω) [IsProbabilityMeasure μ] (e : Ω → Fin 6 → ℝ)
        (w : ℕ → Ω → Fin 6 → ℝ) (v : ℕ → Ω → Fin 3 → ℝ) (X : ℕ → Ω → Fin 6 → ℝ) (Z : ℕ → Ω → Fin 3 → ℝ),
        Spec.Noise μ N (Matrix.diagonal ![0.5, 0.5, 0.5, 5e-5, 5e-5, 5e-5]) (Matrix.diagonal fun _ => 1e-16)
          (fun k => Matrix.diagonal ![(errors k).x ^ 2, (errors k).y ^ 2, (errors k).z ^ 2]) e w v →
        Spec.Motion p.state.vector.toFun (fun k => (F k).toMatrix) Spec.positionPart e w v X Z →
        (∀ a : Fin 6 → ℝ, ∫ ω, (a ⬝ᵥ (X N ω - (b + ∑ k ∈ Finset.range N, G k *ᵥ Z k ω))) ^ 2 ∂μ = a ⬝ᵥ P *ᵥ a) ∧
        ∀ (a : Fin 6 → ℝ) (β : ℝ) (g : ℕ → Fin 3 → ℝ),
          ∫ ω, (a ⬝ᵥ (X N ω - (b + ∑ k ∈ Finset.range N, G k *ᵥ Z k ω))) ^ 2 ∂μ ≤
            ∫ ω, (a ⬝ᵥ X N ω - (β + ∑ k ∈ Finset.range N, g k ⬝ᵥ Z k ω)) ^ 2 ∂μ := by
  obtain ⟨b, G, P, -, hrun, hopt⟩ := RelativeKalman.optimal_run h times errors F hF N
  refine ⟨b, G, P, ?_, ?_⟩
  · intro obs z hobs
    obtain ⟨s', h1, -, -, -, -, h2, h3⟩ := hrun obs z hobs
    exact ⟨s', h1, h2, h3⟩
  · intro Ω _ μ _ e w v X Z hN hM
    obtain ⟨-, -, h3, h4, h5, -⟩ := C54_initial epoch p s h
    have hq : s.q.toMatrix = Matrix.diagonal fun _ => 1e-16 := by
      rw [h5]
      congr 1
      ext i
      match i with | 0 | 1 | 2 | 3 | 4 | 5 => rfl
    have hR : (fun k => (RelativeKalman.measurementCovariance (errors k)).toMatrix) =
        fun k => Matrix.diagonal ![(errors k).x ^ 2, (errors k).y ^ 2, (errors k).z ^ 2] := by
      ext1 k
      rw [RelativeKalman.measurementCovariance_toMatrix, sq, sq, sq]
    rw [← h4, ← hq, ← hR] at hN
    rw [← h3, ← RelativeKalman.H_positionPart] at hM
    obtain ⟨o1, o2⟩ := hopt Ω μ N e w v X Z le_rfl hN hM
    have e1 : ∀ (a : Fin 6 → ℝ) ω, a ⬝ᵥ (X N ω - (b + ∑ k ∈ Finset.range N, G k *ᵥ Z k ω)) =
        a ⬝ᵥ X N ω - (a ⬝ᵥ b + ∑ k ∈ Finset.range N, ((G k)ᵀ *ᵥ a) ⬝ᵥ Z k ω) := by
      intro a ω
      rw [dotProduct_sub, dotProduct_add, dotProduct_sum]
      congr 2
      refine Finset.sum_congr rfl fun k _ => ?_
      rw [Matrix.mulVec_transpose, Matrix.dotProduct_mulVec]
    simp only [e1, o1]
    exact ⟨fun _ => trivial, o2⟩

/-- uncorrelated random variables with mean zero and variance one, any finite number of them -/
theorem exists_uncorrelated (ι : Type) [Fintype ι] [DecidableEq ι] [Nonempty ι] :
    ∃ (Ω : Type) (_ : MeasurableSpace Ω) (μ : Measure Ω) (_ : IsProbabilityMeasure μ) (f : ι → Ω → ℝ),
      (∀ g : Ω → ℝ, MemLp g 2 μ) ∧ (∀ i, ∫ ω, f i ω ∂μ = 0) ∧ ∀ i j, ∫ ω, f i ω * f j ω ∂μ = if i = j then 1 else 0 := by
  let _ : MeasurableSpace (ι × Bool) := ⊤
  have : DiscreteMeasurableSpace (ι × Bool) := ⟨fun _ => trivial⟩
  have hc : (0 : ℝ) < Fintype.card ι := by exact_mod_cast Fintype.card_pos
  refine ⟨ι × Bool, ⊤, (PMF.uniformOfFintype (ι × Bool)).toMeasure, inferInstance,
    fun i ω => if i = ω.1 then (if ω.2 then √(Fintype.card ι) else -√(Fintype.card ι)) else 0,
    fun g => MemLp.of_discrete, fun i => ?_, fun i j => ?_⟩
  · rw [PMF.integral_eq_sum, Fintype.sum_prod_type]
    simp
  · rw [PMF.integral_eq_sum, Fintype.sum_prod_type]
    by_cases hij : i = j
    · subst hij
      simp [Real.mul_self_sqrt hc.le]
      field_simp
      norm_num
    · simp [hij]

/-- the errors that the theorem speaks of, for any diagonal covariances and any number of steps -/
theorem exists_noise (N : ℕ) (p q : Fin 6 → ℝ) (r : ℕ → Fin 3 → ℝ) (hp : ∀ i, 0 ≤ p i) (hq : ∀ i, 0 ≤ q i)
    (hr : ∀ k i, 0 ≤ r k i) (x0 : Fin 6 → ℝ) (F : ℕ → Matrix (Fin 6) (Fin 6) ℝ) :
    ∃ (Ω : Type) (_ : MeasurableSpace Ω) (μ : Measure Ω) (_ : IsProbabilityMeasure μ) (e : Ω → Fin 6 → ℝ)
      (w : ℕ → Ω → Fin 6 → ℝ) (v : ℕ → Ω → Fin 3 → ℝ) (X : ℕ → Ω → Fin 6 → ℝ) (Z : ℕ → Ω → Fin 3 → ℝ),
      Spec.Noise μ N (Matrix.diagonal p) (Matrix.diagonal q) (fun k => Matrix.diagonal (r k)) e w v ∧
      Spec.Motion x0 F Spec.positionPart e w v X Z := by
  obtain ⟨Ω, _, μ, hμ, f, h1, h2, h3⟩ := exists_uncorrelated (Fin 6 ⊕ (Fin (N + 1) × Fin 6) ⊕ (Fin (N + 1) × Fin 3))
  obtain ⟨e, he⟩ : ∃ e : Ω → Fin 6 → ℝ, e = fun ω i => √(p i) * f (.inl i) ω := ⟨_, rfl⟩
  obtain ⟨w, hw⟩ : ∃ w : ℕ → Ω → Fin 6 → ℝ, w = fun k ω i => √(q i) * f (.inr (.inl (Fin.ofNat (N + 1) k, i))) ω :=
    ⟨_, rfl⟩
  obtain ⟨v, hv⟩ : ∃ v : ℕ → Ω → Fin 3 → ℝ, v = fun k ω i => √(r k i) * f (.inr (.inr (Fin.ofNat (N + 1) k, i))) ω :=
    ⟨_, rfl⟩
  have prod : ∀ (a b : ℝ) i j, ∫ ω, a * f i ω * (b * f j ω) ∂μ = if i = j then a * b else 0 := by
    intro a b i j
    have : ∀ ω, a * f i ω * (b * f j ω) = (a * b) * (f i ω * f j ω) := fun ω => by ring
    simp only [this]
    rw [integral_const_mul, h3]
    split <;> simp
  have inj : ∀ k < N, ∀ l < N, k ≠ l → Fin.ofNat (N + 1) k ≠ Fin.ofNat (N + 1) l := by
    intro k hk l hl hkl hc
    have := congrArg Fin.val hc
    simp only [Fin.ofNat] at this
    rw [Nat.mod_eq_of_lt (by omega), Nat.mod_eq_of_lt (by omega)] at this
    exact hkl this
  refine ⟨Ω, _, μ, hμ, e, w, v, fun k => Nat.rec (fun ω => x0 - e ω) (fun k Y ω => (F k).mulVec (Y ω) + w k ω) k,
    fun k ω => Spec.positionPart.mulVec ((Nat.rec (fun ω => x0 - e ω) (fun k Y ω => (F k).mulVec (Y ω) + w k ω) (k + 1) :
      Ω → Fin 6 → ℝ) ω) + v k ω, ?_, ⟨fun _ => rfl, fun _ _ => rfl, fun _ _ => rfl⟩⟩
  subst he hw hv
  refine ⟨fun i => h1 _, fun k _ i => h1 _, fun k _ i => h1 _, fun i => ?_, fun k _ i => ?_, fun k _ i => ?_,
    fun i j => ?_, fun k _ i j => ?_, fun k _ i j => ?_, fun k _ i j => ?_, fun k _ i j => ?_, fun k hk l hl hkl i j => ?_,
    fun k hk l hl hkl i j => ?_, fun k _ l _ i j => ?_⟩
  · rw [integral_const_mul, h2, mul_zero]
  · rw [integral_const_mul, h2, mul_zero]
  · rw [integral_const_mul, h2, mul_zero]
  · rw [prod]
    by_cases hij : i = j
    · subst hij; simp [Real.mul_self_sqrt (hp i)]
    · simp [hij]
  · rw [prod]
    by_cases hij : i = j
    · subst hij; simp [Real.mul_self_sqrt (hq i)]
    · simp [hij]
  · rw [prod]
    by_cases hij : i = j
    · subst hij; simp [Real.mul_self_sqrt (hr k i)]
    · simp [hij]
  · rw [prod]; simp
  · rw [prod]; simp
  · rw [prod, if_neg]
    intro hc
    simp only [Sum.inr.injEq, Sum.inl.injEq, Prod.mk.injEq] at hc
    exact inj k hk l hl hkl hc.1
  · rw [prod, if_neg]
    intro hc
    simp only [Sum.inr.injEq, Prod.mk.injEq] at hc
    exact inj k hk l hl hkl hc.1
  · rw [prod]; simp

/-- such random errors exist for every plan of observations -/
example (p : Hill) (errors : ℕ → Vec3) (F : ℕ → Mat6) (N : ℕ) :
    ∃ (Ω : Type) (_ : MeasurableSpace Ω) (μ : Measure Ω) (_ : IsProbabilityMeasure μ) (e : Ω → Fin 6 → ℝ)
      (w : ℕ → Ω → Fin 6 → ℝ) (v : ℕ → Ω → Fin 3 → ℝ) (X : ℕ → Ω → Fin 6 → ℝ) (Z : ℕ → Ω → Fin 3 → ℝ),
      Spec.Noise μ N (Matrix.diagonal ![0.5, 0.5, 0.5, 5e-5, 5e-5, 5e-5]) (Matrix.diagonal fun _ => 1e-16)
        (fun k => Matrix.diagonal ![(errors k).x ^ 2, (errors k).y ^ 2, (errors k).z ^ 2]) e w v ∧
      Spec.Motion p.state.vector.toFun (fun k => (F k).toMatrix) Spec.positionPart e w v X Z := by
  refine exists_noise N _ _ _ ?_ (fun _ => by norm_num) ?_ _ _
  · intro i
    match i with | 0 | 1 | 2 | 3 | 4 | 5 => simp <;> norm_num
  · intro k i
    match i with
    | 0 => exact sq_nonneg (errors k).x
    | 1 => exact sq_nonneg (errors k).y
    | 2 => exact sq_nonneg (errors k).z

/-- and a target ten kilometres behind its observer can be observed, with range errors, at any times -/
example (times : ℕ → Epoch) (N : ℕ) : ∃ (p : Hill) (s : RelativeKalman) (errors : ℕ → Vec3) (s' : RelativeKalman),
    Hill.new (State.new ⟨0⟩ ⟨0, -9, 0⟩ ⟨0, 0, 0⟩) 42164 = .ok p ∧
    RelativeKalman.new ⟨0⟩ p = .ok s ∧ (∀ k, ∃ F, p.systemMatrix (RelativeKalman.gap ⟨0⟩ times k) = .ok F) ∧
    (∀ k, (behindOb (times k)).observer_state.epoch = times k ∧
      RelativeKalman.hillErrors (behindOb (times k)) = .ok (errors k) ∧ (errors k).x ≠ 0 ∧
      RelativeKalman.hillMeasurement (behindOb (times k)) = .ok ⟨0, -10, 0⟩) ∧
    RelativeKalman.processAll ((List.range N).map fun k => behindOb (times k)) s = (.ok (), s') := by
  obtain ⟨p, hp, hn, -, -, -⟩ := hill_new_ok (State.new ⟨0⟩ ⟨0, -9, 0⟩ ⟨0, 0, 0⟩) (show (0:ℝ) < 42164 by norm_num)
  have hs : ∃ s, RelativeKalman.new ⟨0⟩ p = .ok s := by
    simp only [RelativeKalman.new, Hill.systemMatrix_ok hn.ne', ok_bind, pure_eq_ok]
    exact ⟨_, rfl⟩
  obtain ⟨s, hs⟩ := hs
  have herr : ∀ k, ∃ e : Vec3, RelativeKalman.hillErrors (behindOb (times k)) = .ok e ∧ e.x ≠ 0 := fun k => by
    obtain ⟨x, y, hx, -, h⟩ := (behind_measured (times k)).2
    exact ⟨_, h, hx⟩
  choose errors he hx using herr
  have hob : ∀ k, (behindOb (times k)).observer_state.epoch = times k ∧
      RelativeKalman.hillErrors (behindOb (times k)) = .ok (errors k) ∧
      RelativeKalman.hillMeasurement (behindOb (times k)) = .ok ⟨0, -10, 0⟩ :=
    fun k => ⟨rfl, he k, (behind_measured (times k)).1⟩
  obtain ⟨b, G, P, h1, -⟩ := C133_best ⟨0⟩ p s hs times errors _ (fun k => Hill.systemMatrix_ok hn.ne' _) N
  obtain ⟨s', h2, -⟩ := h1 (fun k => behindOb (times k)) (fun _ => ⟨0, -10, 0⟩) fun k _ => hob k
  exact ⟨p, s, errors, s', hp, hs, fun k => ⟨_, Hill.systemMatrix_ok hn.ne' _⟩,
    fun k => ⟨(hob k).1, (hob k).2.1, hx k, (hob k).2.2⟩, h2⟩

end Openspace
