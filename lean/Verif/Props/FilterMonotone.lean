import Verif.Props.FilterForgets
import Verif.Props.FilterError

/-!
# C181: more accurate observations never make the filter less certain, but repeated ones do
-/

namespace Openspace

open Real

section

open Matrix

variable {m n : Type} [Fintype m] [Fintype n] [DecidableEq m] [DecidableEq n]

/-- the updated covariance grows with the predicted covariance and with that of the measurement -/
theorem updated_mono {P P' : Matrix n n ℝ} {R R' : Matrix m m ℝ} {H : Matrix m n ℝ} {K K' : Matrix n m ℝ}
    (hP : P.PosSemidef) (hR : R.PosSemidef) (hPP : (P' - P).PosSemidef) (hRR : (R' - R).PosSemidef)
    (hK : K * (H * P * Hᵀ + R) = P * Hᵀ) :
    (Spec.updatedCovariance P' H R' K' - Spec.updatedCovariance P H R K).PosSemidef := by
  have h1 := (updated_optimal hP.isHermitian hR.isHermitian hK K').2.2
  have hS : (H * P * Hᵀ + R).PosSemidef := (posSemidef_congr hP H).add hR
  have h2 : Spec.updatedCovariance P' H R' K' - Spec.updatedCovariance P H R K' =
      (1 - K' * H) * (P' - P) * (1 - K' * H)ᵀ + K' * (R' - R) * K'ᵀ := by
    simp only [Spec.updatedCovariance, Matrix.mul_sub, Matrix.sub_mul]
    abel
  have h3 : Spec.updatedCovariance P' H R' K' - Spec.updatedCovariance P H R K =
      ((1 - K' * H) * (P' - P) * (1 - K' * H)ᵀ + K' * (R' - R) * K'ᵀ) +
        (K' - K) * (H * P * Hᵀ + R) * (K' - K)ᵀ := by
    rw [← h2, h1]
    abel
  rw [h3]
  exact ((posSemidef_congr hPP _).add (posSemidef_congr hRR _)).add (posSemidef_congr hS _)

end

namespace RelativeKalman

/-- two filters for the same orbit at the same time, the first at least as certain as the second in every direction -/
structure AtLeastAsCertain (s t : RelativeKalman) : Prop where
  left : Inv s
  right : Inv t
  epoch : s.epoch = t.epoch
  n : s.propagator.n = t.propagator.n
  q : s.q = t.q
  p00 : (t.p00.toMatrix - s.p00.toMatrix).PosSemidef

/-- the first observation is made at the time of the second and the filter assigns it errors at most as large -/
def AtLeastAsAccurate (ob ob' : SpaceObservation) : Prop :=
  ob.observer_state.epoch = ob'.observer_state.epoch ∧ ∃ e e', hillErrors ob = .ok e ∧ hillErrors ob' = .ok e' ∧
    |e.x| ≤ |e'.x| ∧ |e.y| ≤ |e'.y| ∧ |e.z| ≤ |e'.z|

theorem measurement_mono {e e' : Vec3} (hx : |e.x| ≤ |e'.x|) (hy : |e.y| ≤ |e'.y|) (hz : |e.z| ≤ |e'.z|) :
    ((measurementCovariance e').toMatrix - (measurementCovariance e).toMatrix).PosSemidef := by
  rw [measurementCovariance_toMatrix, measurementCovariance_toMatrix, Matrix.diagonal_sub]
  refine Matrix.PosSemidef.diagonal fun i => ?_
  have h1 := sq_le_sq.mpr hx
  have h2 := sq_le_sq.mpr hy
  have h3 := sq_le_sq.mpr hz
  match i with
  | 0 => simp; linarith
  | 1 => simp; linarith
  | 2 => simp; linarith

theorem predicted_toMatrix (F p q : Mat6) : ((F.mul (p.mul F.transpose)).plus q).toMatrix =
    F.toMatrix * p.toMatrix * F.toMatrix.transpose + q.toMatrix := by
  rw [Mat6.plus_toMatrix, Mat6.mul_toMatrix, Mat6.mul_toMatrix, Mat6.transpose_toMatrix, ← Matrix.mul_assoc]

theorem AtLeastAsCertain.process {s t s' t' : RelativeKalman} (h : AtLeastAsCertain s t) {ob ob' : SpaceObservation}
    (hob : AtLeastAsAccurate ob ob') (hs : RelativeKalman.process ob s = (.ok (), s'))
    (ht : RelativeKalman.process ob' t = (.ok (), t')) : AtLeastAsCertain s' t' := by
  obtain ⟨hep, e, e', he, he', hx, hy, hz⟩ := hob
  have hi := h.left.process ob
  have hi' := h.right.process ob'
  rw [hs] at hi
  rw [ht] at hi'
  rcases hm : hillMeasurement ob with e1 | z
  · simp [RelativeKalman.process, hm] at hs
  rcases hm' : hillMeasurement ob' with e1 | z'
  · simp [RelativeKalman.process, hm'] at ht
  obtain ⟨F, P, K, X, x, hF, hP, hPd, hK, -, -, hp⟩ := process_ok h.left hm he
  obtain ⟨F', P', K', X', x', hF', hP', hPd', hK', -, -, hp'⟩ := process_ok h.right hm' he'
  rw [hp] at hs
  rw [hp'] at ht
  simp only [Prod.mk.injEq, true_and] at hs ht
  have hFF : F = F' := by
    rw [Hill.systemMatrix_ok h.left.n, Except.ok.injEq] at hF
    rw [Hill.systemMatrix_ok h.right.n, Except.ok.injEq] at hF'
    rw [← hF, ← hF', h.n, h.epoch, hep]
  subst hFF
  subst hs ht
  refine ⟨hi, hi', hep, h.n, h.q, ?_⟩
  simp only [joseph_toMatrix]
  rw [innovation_toMatrix] at hK
  refine updated_mono hPd.posSemidef (posSemidef_measurement e) ?_ (measurement_mono hx hy hz) hK
  rw [hP, hP', predicted_toMatrix, predicted_toMatrix, h.q, add_sub_add_right_eq_sub, ← Matrix.sub_mul, ← Matrix.mul_sub]
  exact posSemidef_congr h.p00 _

theorem AtLeastAsCertain.processAll {obs obs' : List SpaceObservation} (hobs : List.Forall₂ AtLeastAsAccurate obs obs') :
    ∀ {s t s' t' : RelativeKalman}, AtLeastAsCertain s t → RelativeKalman.processAll obs s = (.ok (), s') →
      RelativeKalman.processAll obs' t = (.ok (), t') → AtLeastAsCertain s' t' := by
  induction hobs with
  | nil =>
    intro s t s' t' h hs ht
    cases hs
    cases ht
    exact h
  | cons hob _ ih =>
    intro s t s' t' h hs ht
    simp only [RelativeKalman.processAll] at hs ht
    rw [PyM.bind_apply] at hs ht
    rcases h1 : RelativeKalman.process _ s with ⟨r1, s1⟩
    rcases h2 : RelativeKalman.process _ t with ⟨r2, t1⟩
    rw [h1] at hs
    rw [h2] at ht
    rcases r1 with _ | _
    · simp at hs
    rcases r2 with _ | _
    · simp at ht
    exact ih (h.process hob h1 h2) hs ht

/-! ## Observations at the same instant -/

theorem phi_zero (n : ℝ) : (Hill.phi n 0).toMatrix = 1 := by
  have : Hill.phi n 0 = I := by
    ext <;> simp [Hill.phi, I, Mat6.identity] <;> norm_num
  rw [this]
  ext i j
  match i with
  | 0 | 1 | 2 | 3 | 4 | 5 => match j with | 0 | 1 | 2 | 3 | 4 | 5 => simp [Mat6.toMatrix, I, Mat6.identity, Vec6.toFun]

theorem H_velocity (l : Fin 3) (k : Fin 6) (hk : 3 ≤ k) : H.toMatrix l k = 0 := by
  match l with
  | 0 | 1 | 2 => match k, hk with | 3, _ | 4, _ | 5, _ => simp [Mat36.toMatrix, H, Vec6.toFun]

/-- with position and velocity uncorrelated, an observation at the time of the filter adds the process noise to the
covariance of the velocity and does nothing else to it -/
theorem process_same_epoch {s s' : RelativeKalman} (h : Inv s) (hq : s.q = DEFAULT_NOISE) {ob : SpaceObservation}
    (hs' : process ob s = (.ok (), s')) (ht : ob.observer_state.epoch = s.epoch)
    (hu : ∀ i j : Fin 6, 3 ≤ i → j < 3 → s.p00.toMatrix i j = 0) :
    s'.epoch = s.epoch ∧ (∀ i j : Fin 6, 3 ≤ i → j < 3 → s'.p00.toMatrix i j = 0) ∧
      ∀ i : Fin 6, 3 ≤ i → s'.p00.toMatrix i i = s.p00.toMatrix i i + 1e-16 := by
  rcases hz : hillMeasurement ob with e1 | z
  · simp [RelativeKalman.process, hz] at hs'
  rcases he : hillErrors ob with e1 | e
  · simp [RelativeKalman.process, hz, he] at hs'
  obtain ⟨F, P, K, X, x', hF, hP, hPd, hK, -, -, hp⟩ := process_ok h hz he
  rw [hp] at hs'
  simp only [Prod.mk.injEq, true_and] at hs'
  subst hs'
  rw [Hill.systemMatrix_ok h.n, Except.ok.injEq, ht, sub_self, zero_mul] at hF
  have hF1 : F.toMatrix = 1 := by rw [← hF, phi_zero]
  have hPM : P.toMatrix = s.p00.toMatrix + Matrix.diagonal ![1e-16, 1e-16, 1e-16, 1e-16, 1e-16, 1e-16] := by
    rw [hP, predicted_toMatrix, hF1, hq, DEFAULT_NOISE, diag6_toMatrix, Matrix.transpose_one, Matrix.one_mul, Matrix.mul_one]
  have hP0 : ∀ i j : Fin 6, 3 ≤ i → j < 3 → P.toMatrix i j = 0 := by
    intro i j hi hj
    have hij : i ≠ j := fun hij => absurd hj (not_lt.mpr (hij ▸ hi))
    rw [hPM, Matrix.add_apply, hu i j hi hj, Matrix.diagonal_apply_ne _ hij, add_zero]
  have hS := innovation_posDef hPd (posSemidef_measurement e)
  have hK0 : ∀ (i : Fin 6) (l : Fin 3), 3 ≤ i → K.toMatrix i l = 0 := by
    intro i l hi
    have h1 : K.toMatrix = P.toMatrix * H.toMatrix.transpose * (innovation P (measurementCovariance e)).toMatrix⁻¹ := by
      rw [← hK, Matrix.mul_nonsing_inv_cancel_right _ _ ((Matrix.isUnit_iff_isUnit_det _).mp hS.isUnit)]
    rw [h1, Matrix.mul_apply]
    refine Finset.sum_eq_zero fun j _ => ?_
    have h2 : (P.toMatrix * H.toMatrix.transpose) i j = 0 := by
      rw [Matrix.mul_apply]
      refine Finset.sum_eq_zero fun k _ => ?_
      rcases lt_or_ge k 3 with hk | hk
      · rw [hP0 i k hi hk, zero_mul]
      · rw [Matrix.transpose_apply, H_velocity j k hk, mul_zero]
    rw [h2, zero_mul]
  rw [innovation_toMatrix] at hK
  have key : ∀ i j : Fin 6, 3 ≤ i → (Spec.updatedCovariance P.toMatrix H.toMatrix (measurementCovariance e).toMatrix
      K.toMatrix) i j = P.toMatrix i j := by
    intro i j hi
    rw [(updated_optimal hPd.isHermitian (posSemidef_measurement e).isHermitian hK 0).1, Matrix.sub_mul, Matrix.one_mul,
      Matrix.sub_apply, Matrix.mul_apply, Finset.sum_eq_zero, sub_zero]
    intro k _
    rw [Matrix.mul_apply, Finset.sum_eq_zero, zero_mul]
    intro l _
    rw [hK0 i l hi, zero_mul]
  refine ⟨ht, ?_, ?_⟩
  · intro i j hi hj
    rw [joseph_toMatrix, key i j hi, hP0 i j hi hj]
  · intro i hi
    rw [joseph_toMatrix, key i i hi, hPM, Matrix.add_apply, Matrix.diagonal_apply_eq]
    match i, hi with | 3, _ | 4, _ | 5, _ => simp

theorem processAll_same_epoch (obs : List SpaceObservation) : ∀ {s s' : RelativeKalman}, Inv s → s.q = DEFAULT_NOISE →
    processAll obs s = (.ok (), s') → (∀ ob ∈ obs, ob.observer_state.epoch = s.epoch) →
    (∀ i j : Fin 6, 3 ≤ i → j < 3 → s.p00.toMatrix i j = 0) →
      ∀ i : Fin 6, 3 ≤ i → s'.p00.toMatrix i i = s.p00.toMatrix i i + obs.length * 1e-16 := by
  induction obs with
  | nil =>
    intro s s' _ _ hs' _ _ i _
    cases hs'
    simp
  | cons ob obs ih =>
    intro s s' h hq hs' ht hu i hi
    simp only [processAll] at hs'
    rw [PyM.bind_apply] at hs'
    rcases h1 : RelativeKalman.process ob s with ⟨r1, s1⟩
    rw [h1] at hs'
    rcases r1 with _ | _
    · simp at hs'
    have hi1 := h.process ob
    have hf1 : Fixed s (RelativeKalman.process ob s).2 := Fixed.process ⟨rfl, rfl⟩ ob
    rw [h1] at hi1 hf1
    obtain ⟨h2, h3, h4⟩ := process_same_epoch h hq h1 (ht ob List.mem_cons_self) hu
    rw [ih hi1 (hf1.1.trans hq) hs' (fun o ho => by rw [h2]; exact ht o (List.mem_cons_of_mem _ ho)) h3 i hi, h4 i hi]
    push_cast [List.length_cons]
    ring

theorem processAll_ok (obs : List SpaceObservation) : ∀ {s : RelativeKalman}, Inv s →
    (∀ ob ∈ obs, (∃ z, hillMeasurement ob = .ok z) ∧ ∃ e, hillErrors ob = .ok e) →
    ∃ s', processAll obs s = (.ok (), s') := by
  induction obs with
  | nil => intro s _ _; exact ⟨s, rfl⟩
  | cons ob obs ih =>
    intro s h hobs
    obtain ⟨⟨z, hz⟩, e, he⟩ := hobs ob List.mem_cons_self
    obtain ⟨F, P, K, W, x', -, -, -, -, -, -, hp⟩ := process_ok h hz he
    obtain ⟨s1, hs1⟩ : ∃ s1, process ob s = (.ok (), s1) := ⟨_, hp⟩
    have hi1 := h.process ob
    rw [hs1] at hi1
    obtain ⟨s', hs'⟩ := ih hi1 (fun o ho => hobs o (List.mem_cons_of_mem _ ho))
    refine ⟨s', ?_⟩
    simp only [processAll]
    rw [PyM.bind_apply, hs1]
    exact hs'

end RelativeKalman

/-! ## C181 -/

/-- Two filters for the same orbit, created at the same epoch and with whatever initial estimates, process equally long
sequences of observations, in any order in time, such that each observation of the first is made at the time of the
corresponding one of the second and is assigned errors at most as large.  Then the first filter is at least as certain as
the second in every direction, and in particular of each coordinate. -/
theorem C181_accuracy_partial (epoch : Epoch) (p p' : Hill) (hn : p.n = p'.n) (s t s' t' : RelativeKalman)
    (hs : RelativeKalman.new epoch p = .ok s) (ht : RelativeKalman.new epoch p' = .ok t)
    (obs obs' : List SpaceObservation) (hobs : List.Forall₂ (fun ob ob' =>
      ob.observer_state.epoch = ob'.observer_state.epoch ∧ ∃ e e', RelativeKalman.hillErrors ob = .ok e ∧
        RelativeKalman.hillErrors ob' = .ok e' ∧ |e.x| ≤ |e'.x| ∧ |e.y| ≤ |e'.y| ∧ |e.z| ≤ |e'.z|) obs obs')
    (hs' : RelativeKalman.processAll obs s = (.ok (), s')) (ht' : RelativeKalman.processAll obs' t = (.ok (), t')) :
    (∀ w : Fin 6 → ℝ, w ⬝ᵥ s'.p00.toMatrix.mulVec w ≤ w ⬝ᵥ t'.p00.toMatrix.mulVec w) ∧
      ∀ i, s'.p00.diagonal.toFun i ≤ t'.p00.diagonal.toFun i := by
  obtain ⟨h1, h2, -, h3, h4⟩ := C54_initial epoch p s hs
  obtain ⟨g1, g2, -, g3, g4⟩ := C54_initial epoch p' t ht
  have h0 : RelativeKalman.AtLeastAsCertain s t := by
    refine ⟨(RelativeKalman.new_inv hs).1, (RelativeKalman.new_inv ht).1, by rw [h1, g1], by rw [h2, g2, hn],
      by rw [(RelativeKalman.new_fixed hs).1, (RelativeKalman.new_fixed ht).1], ?_⟩
    rw [h3, g3, sub_self]
    exact Matrix.PosSemidef.zero
  have h5 := (h0.processAll hobs hs' ht').p00
  have h6 : ∀ w : Fin 6 → ℝ, w ⬝ᵥ s'.p00.toMatrix.mulVec w ≤ w ⬝ᵥ t'.p00.toMatrix.mulVec w := by
    intro w
    have := quad_nonneg h5 w
    rw [Matrix.sub_mulVec, dotProduct_sub] at this
    linarith
  refine ⟨h6, fun i => ?_⟩
  have := h6 (Pi.single i 1)
  rw [Mat6.diagonal_toFun, Mat6.diagonal_toFun]
  simpa using this

/-- A new filter that processes observations all made at its own epoch, however many and however accurate, becomes less
certain of the velocity with each of them: every variance of the velocity is the initial one plus `1e-16` per
observation. -/
theorem C181_repeated_violated (epoch : Epoch) (p : Hill) (s s' : RelativeKalman)
    (hs : RelativeKalman.new epoch p = .ok s) (obs : List SpaceObservation)
    (hobs : ∀ ob ∈ obs, ob.observer_state.epoch = epoch) (hs' : RelativeKalman.processAll obs s = (.ok (), s')) :
    s'.p00.diagonal.vx = 5e-5 + obs.length * 1e-16 ∧ s'.p00.diagonal.vy = 5e-5 + obs.length * 1e-16 ∧
      s'.p00.diagonal.vz = 5e-5 + obs.length * 1e-16 := by
  obtain ⟨h1, -, -, h3, -⟩ := C54_initial epoch p s hs
  have key := RelativeKalman.processAll_same_epoch obs (RelativeKalman.new_inv hs).1 (RelativeKalman.new_fixed hs).1 hs'
    (by rw [h1]; exact hobs) (by
      intro i j hi hj
      have hij : i ≠ j := fun hij => absurd hj (not_lt.mpr (hij ▸ hi))
      rw [h3, Matrix.diagonal_apply_ne _ hij])
  have k3 := key 3 (by decide)
  have k4 := key 4 (by decide)
  have k5 := key 5 (by decide)
  have hd : ∀ i, s'.p00.toMatrix i i = s'.p00.diagonal.toFun i := fun i => by rw [Mat6.diagonal_toFun]; rfl
  rw [hd, h3, Matrix.diagonal_apply_eq] at k3 k4 k5
  exact ⟨by simpa [Vec6.toFun] using k3, by simpa [Vec6.toFun] using k4, by simpa [Vec6.toFun] using k5⟩

/-- for instance, the same sighting of a target ten kilometres ahead of a geosynchronous observer, processed twice, leaves
the filter less certain of all three components of the velocity than processed once -/
theorem C181_violated : ∃ p s s1 s2, Hill.new (State.new ⟨0⟩ ⟨0, 9, 0⟩ ⟨0, 0, 0⟩) 42164 = .ok p ∧
    RelativeKalman.new ⟨0⟩ p = .ok s ∧ RelativeKalman.processAll [aheadOb ⟨0⟩] s = (.ok (), s1) ∧
    RelativeKalman.processAll [aheadOb ⟨0⟩, aheadOb ⟨0⟩] s = (.ok (), s2) ∧
    s1.p00.diagonal.vx < s2.p00.diagonal.vx ∧ s1.p00.diagonal.vy < s2.p00.diagonal.vy ∧
    s1.p00.diagonal.vz < s2.p00.diagonal.vz := by
  obtain ⟨p, hp, hn, -⟩ := hill_new_ok (State.new ⟨0⟩ ⟨0, 9, 0⟩ ⟨0, 0, 0⟩) (show (0:ℝ) < 42164 by norm_num)
  have hs : ∃ s, RelativeKalman.new ⟨0⟩ p = .ok s := by
    simp only [RelativeKalman.new, Hill.systemMatrix_ok hn.ne', ok_bind, pure_eq_ok]
    exact ⟨_, rfl⟩
  obtain ⟨s, hs⟩ := hs
  have hi := (RelativeKalman.new_inv hs).1
  have hm := ahead_measured ⟨0⟩
  obtain ⟨s1, hs1⟩ := RelativeKalman.processAll_ok [aheadOb ⟨0⟩] hi (by
    intro ob hob
    rw [List.mem_singleton] at hob
    subst hob
    exact ⟨⟨_, hm.1⟩, hm.2⟩)
  obtain ⟨s2, hs2⟩ := RelativeKalman.processAll_ok [aheadOb ⟨0⟩, aheadOb ⟨0⟩] hi (by
    intro ob hob
    simp only [List.mem_cons, List.not_mem_nil, or_false, or_self] at hob
    subst hob
    exact ⟨⟨_, hm.1⟩, hm.2⟩)
  have hep : (aheadOb ⟨0⟩).observer_state.epoch = ⟨0⟩ := rfl
  have k1 := C181_repeated_violated ⟨0⟩ p s s1 hs _ (by simp [hep]) hs1
  have k2 := C181_repeated_violated ⟨0⟩ p s s2 hs _ (by simp [hep]) hs2
  refine ⟨p, s, s1, s2, hp, hs, hs1, hs2, ?_, ?_, ?_⟩
  · rw [k1.1, k2.1]; norm_num
  · rw [k1.2.1, k2.2.1]; norm_num
  · rw [k1.2.2, k2.2.2]; norm_num

/-- the hypotheses of `C181_accuracy_partial` are met by filters that start from different estimates and observe at any
sequence of times -/
example (ts : List Epoch) : ∃ p p' s t s' t', Hill.new (State.new ⟨0⟩ ⟨0, 9, 0⟩ ⟨0, 0, 0⟩) 42164 = .ok p ∧
    Hill.new (State.new ⟨0⟩ ⟨1, 2, 3⟩ ⟨0, 0, 0⟩) 42164 = .ok p' ∧ p.n = p'.n ∧
    RelativeKalman.new ⟨0⟩ p = .ok s ∧ RelativeKalman.new ⟨0⟩ p' = .ok t ∧
    List.Forall₂ RelativeKalman.AtLeastAsAccurate (ts.map aheadOb) (ts.map aheadOb) ∧
    RelativeKalman.processAll (ts.map aheadOb) s = (.ok (), s') ∧
    RelativeKalman.processAll (ts.map aheadOb) t = (.ok (), t') := by
  obtain ⟨p, hp, hn, hnv, -⟩ := hill_new_ok (State.new ⟨0⟩ ⟨0, 9, 0⟩ ⟨0, 0, 0⟩) (show (0:ℝ) < 42164 by norm_num)
  obtain ⟨p', hp', hn', hnv', -⟩ := hill_new_ok (State.new ⟨0⟩ ⟨1, 2, 3⟩ ⟨0, 0, 0⟩) (show (0:ℝ) < 42164 by norm_num)
  obtain ⟨s, hs⟩ : ∃ s, RelativeKalman.new ⟨0⟩ p = .ok s := by
    simp only [RelativeKalman.new, Hill.systemMatrix_ok hn.ne', ok_bind, pure_eq_ok]
    exact ⟨_, rfl⟩
  obtain ⟨t, ht⟩ : ∃ t, RelativeKalman.new ⟨0⟩ p' = .ok t := by
    simp only [RelativeKalman.new, Hill.systemMatrix_ok hn'.ne', ok_bind, pure_eq_ok]
    exact ⟨_, rfl⟩
  have hok : ∀ ob ∈ ts.map aheadOb, (∃ z, RelativeKalman.hillMeasurement ob = .ok z) ∧
      ∃ e, RelativeKalman.hillErrors ob = .ok e := by
    intro ob hob
    obtain ⟨t, -, rfl⟩ := List.mem_map.mp hob
    exact ⟨⟨_, (ahead_measured t).1⟩, (ahead_measured t).2⟩
  obtain ⟨s', hs'⟩ := RelativeKalman.processAll_ok _ (RelativeKalman.new_inv hs).1 hok
  obtain ⟨t', ht'⟩ := RelativeKalman.processAll_ok _ (RelativeKalman.new_inv ht).1 hok
  refine ⟨p, p', s, t, s', t', hp, hp', ?_, hs, ht, ?_, hs', ht'⟩
  · refine (pow_left_inj₀ hn.le hn'.le two_ne_zero).mp ?_
    have h3 : (42164 : ℝ) ^ 3 ≠ 0 := by norm_num
    exact mul_right_cancel₀ h3 (hnv.trans hnv'.symm)
  · rw [List.forall₂_same]
    intro ob hob
    obtain ⟨e, he⟩ := (hok ob hob).2
    exact ⟨rfl, e, e, he, he, le_rfl, le_rfl, le_rfl⟩

end Openspace
