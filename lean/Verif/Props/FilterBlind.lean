import Verif.Props.FilterMonotone

/-!
# C182: the certainty that the filter reports does not depend on what it sees
-/

namespace Openspace

open Real

theorem eq_of_quad_eq {n : Type} [Fintype n] [DecidableEq n] {A B : Matrix n n ℝ} (hA : A.IsHermitian)
    (hB : B.IsHermitian) (h : ∀ w : n → ℝ, w ⬝ᵥ A.mulVec w = w ⬝ᵥ B.mulVec w) : A = B := by
  have hA' : ∀ i j, A j i = A i j := fun i j => by simpa using hA.apply i j
  have hB' : ∀ i j, B j i = B i j := fun i j => by simpa using hB.apply i j
  have hd : ∀ i, A i i = B i i := fun i => by simpa using h (Pi.single i 1)
  ext i j
  have := h (Pi.single i 1 + Pi.single j 1)
  simp only [Matrix.mulVec_add, add_dotProduct, dotProduct_add, Matrix.mulVec_single_one, single_one_dotProduct,
    Matrix.col_apply] at this
  rw [hd i, hd j, hA' i j, hB' i j] at this
  linarith

namespace RelativeKalman

theorem Inv.processAll (obs : List SpaceObservation) : ∀ {s : RelativeKalman}, Inv s →
    Inv (RelativeKalman.processAll obs s).2 := by
  induction obs with
  | nil => intro s h; exact h
  | cons ob obs ih =>
    intro s h
    simp only [RelativeKalman.processAll]
    exact Inv.bind (fun _ h => h.process ob) (fun _ _ h => ih h) s h

/-- two filters for the same orbit with the same covariance, whose estimates differ along every direction by at most `√c`
standard deviations -/
structure Twins (c : ℝ) (s t : RelativeKalman) : Prop where
  left : Inv s
  right : Inv t
  epoch : s.epoch = t.epoch
  n : s.propagator.n = t.propagator.n
  q : s.q.toMatrix = t.q.toMatrix
  p00 : s.p00.toMatrix = t.p00.toMatrix
  within : Spec.Within c (s.x00.minus t.x00).toFun s.p00.toMatrix

theorem Twins.process {c : ℝ} (hc : 0 ≤ c) {s t s' t' : RelativeKalman} (h : Twins c s t) {ob : SpaceObservation}
    (hs : RelativeKalman.process ob s = (.ok (), s')) (ht : RelativeKalman.process ob t = (.ok (), t')) :
    Twins c s' t' := by
  have hi := h.left.process ob
  have hi' := h.right.process ob
  rw [hs] at hi
  rw [ht] at hi'
  rcases hz : hillMeasurement ob with e1 | z
  · simp [RelativeKalman.process, hz] at hs
  rcases he : hillErrors ob with e1 | e
  · simp [RelativeKalman.process, hz, he] at hs
  obtain ⟨F, P, K, W, x, hF, hP, hPd, hK, hW, hx, hp⟩ := process_ok h.left hz he
  obtain ⟨F', P', K', W', x', hF', hP', hPd', hK', hW', hx', hp'⟩ := process_ok h.right hz he
  rw [hp] at hs
  rw [hp'] at ht
  simp only [Prod.mk.injEq, true_and] at hs ht
  have hFF : F = F' := by
    rw [Hill.systemMatrix_ok h.left.n, Except.ok.injEq] at hF
    rw [Hill.systemMatrix_ok h.right.n, Except.ok.injEq] at hF'
    rw [← hF, ← hF', h.n, h.epoch]
  subst hFF
  subst hs ht
  have hPP : P.toMatrix = P'.toMatrix := by
    rw [hP, hP', predicted_toMatrix, predicted_toMatrix, h.q, h.p00]
  have hS := innovation_posDef hPd (posSemidef_measurement e)
  have hKK : K.toMatrix = K'.toMatrix := by
    have hu := (Matrix.isUnit_iff_isUnit_det _).mp hS.isUnit
    have hSS : (innovation P' (measurementCovariance e)).toMatrix = (innovation P (measurementCovariance e)).toMatrix := by
      rw [innovation_toMatrix, innovation_toMatrix, hPP]
    rw [hSS, ← hPP] at hK'
    rw [← Matrix.mul_nonsing_inv_cancel_right _ K.toMatrix hu, hK, ← hK',
      Matrix.mul_nonsing_inv_cancel_right _ K'.toMatrix hu]
  refine ⟨hi, hi', rfl, h.n, h.q, ?_, ?_⟩
  · simp only [joseph_toMatrix, hPP, hKK]
  · simp only [joseph_toMatrix]
    have h1 := within_predict hc h.within h.left.q.posSemidef F.toMatrix
    rw [← predicted_toMatrix, ← hP] at h1
    have h3 := within_update hc le_rfl hPd.posSemidef (posSemidef_measurement e) h1
      (within_zero (measurementCovariance e).toMatrix 0 rfl) H.toMatrix K.toMatrix
    have h4 : (x.minus x').toFun = (1 - K.toMatrix * H.toMatrix).mulVec
        (F.toMatrix.mulVec (s.x00.minus t.x00).toFun) + K.toMatrix.mulVec 0 := by
      have hFs : F.toMatrix.mulVec (s.x00.minus t.x00).toFun = W.toFun - W'.toFun := by
        rw [Vec6.minus_toFun, Matrix.mulVec_sub, ← Mat6.mulVec_toFun, ← Mat6.mulVec_toFun, ← hW, ← hW']
      rw [hFs, Vec6.minus_toFun, hx, hx', Vec6.plus_toFun, Vec6.plus_toFun, Mat63.mulVec_toFun, Mat63.mulVec_toFun,
        Vec3.minus_toFun, Vec3.minus_toFun, Mat36.mulVec_toFun, Mat36.mulVec_toFun, ← hKK, Matrix.sub_mulVec,
        Matrix.one_mulVec, ← Matrix.mulVec_mulVec, Matrix.mulVec_zero]
      simp only [Matrix.mulVec_sub]
      abel
    rw [h4]
    rwa [add_zero] at h3

theorem Twins.processAll {c : ℝ} (hc : 0 ≤ c) (obs : List SpaceObservation) : ∀ {s t s' t' : RelativeKalman},
    Twins c s t → RelativeKalman.processAll obs s = (.ok (), s') → RelativeKalman.processAll obs t = (.ok (), t') →
    Twins c s' t' := by
  induction obs with
  | nil =>
    intro s t s' t' h hs ht
    cases hs
    cases ht
    exact h
  | cons ob obs ih =>
    intro s t s' t' h hs ht
    simp only [RelativeKalman.processAll] at hs ht
    rw [PyM.bind_apply] at hs ht
    rcases h1 : RelativeKalman.process ob s with ⟨r1, s1⟩
    rcases h2 : RelativeKalman.process ob t with ⟨r2, t1⟩
    rw [h1] at hs
    rw [h2] at ht
    rcases r1 with _ | _
    · simp at hs
    rcases r2 with _ | _
    · simp at ht
    exact ih (h.process hc h1 h2) hs ht

end RelativeKalman

/-- Two filters for the same orbit, created at the same epoch, process equally long sequences of observations made at the
same times and assigned errors of the same sizes, whatever the positions seen and the initial estimates.  Then they report
the same covariance. -/
theorem C182_blind (epoch : Epoch) (p p' : Hill) (hn : p.n = p'.n) (s t s' t' : RelativeKalman)
    (hs : RelativeKalman.new epoch p = .ok s) (ht : RelativeKalman.new epoch p' = .ok t)
    (obs obs' : List SpaceObservation) (hobs : List.Forall₂ (fun ob ob' =>
      ob.observer_state.epoch = ob'.observer_state.epoch ∧ ∃ e e', RelativeKalman.hillErrors ob = .ok e ∧
        RelativeKalman.hillErrors ob' = .ok e' ∧ |e.x| = |e'.x| ∧ |e.y| = |e'.y| ∧ |e.z| = |e'.z|) obs obs')
    (hs' : RelativeKalman.processAll obs s = (.ok (), s')) (ht' : RelativeKalman.processAll obs' t = (.ok (), t')) :
    s'.p00.toMatrix = t'.p00.toMatrix := by
  have h1 := (C181_accuracy_partial epoch p p' hn s t s' t' hs ht obs obs'
    (hobs.imp fun _ _ ⟨h, e, e', he, he', hx, hy, hz⟩ => ⟨h, e, e', he, he', hx.le, hy.le, hz.le⟩) hs' ht').1
  have h2 := (C181_accuracy_partial epoch p' p hn.symm t s t' s' ht hs obs' obs
    (hobs.flip.imp fun _ _ ⟨h, e, e', he, he', hx, hy, hz⟩ => ⟨h.symm, e', e, he', he, hx.ge, hy.ge, hz.ge⟩) ht' hs').1
  have hi : RelativeKalman.Inv s' := by
    have := (RelativeKalman.new_inv hs).1.processAll obs
    rwa [hs'] at this
  have hi' : RelativeKalman.Inv t' := by
    have := (RelativeKalman.new_inv ht).1.processAll obs'
    rwa [ht'] at this
  exact eq_of_quad_eq hi.p00.isHermitian hi'.p00.isHermitian fun w => le_antisymm (h1 w) (h2 w)

/-- Two filters for the same orbit, created at the same epoch, process the same observations, any number of them and in any
order in time.  If their initial estimates differ along every direction by at most `√c` initial standard deviations, then
their estimates always differ along every direction by at most `√c` of the standard deviations both report, whatever they
see. -/
theorem C182_agree (epoch : Epoch) (p p' : Hill) (hn : p.n = p'.n) (s t s' t' : RelativeKalman)
    (hs : RelativeKalman.new epoch p = .ok s) (ht : RelativeKalman.new epoch p' = .ok t) (c : ℝ) (hc : 0 ≤ c)
    (h0 : Spec.Within c (p.state.vector.minus p'.state.vector).toFun
      (Matrix.diagonal ![0.5, 0.5, 0.5, 5e-5, 5e-5, 5e-5])) (obs : List SpaceObservation)
    (hs' : RelativeKalman.processAll obs s = (.ok (), s')) (ht' : RelativeKalman.processAll obs t = (.ok (), t')) :
    s'.p00.toMatrix = t'.p00.toMatrix ∧ Spec.Within c (s'.x00.minus t'.x00).toFun s'.p00.toMatrix ∧
      ∀ i : Fin 6, (s'.x00.toFun i - t'.x00.toFun i) ^ 2 ≤ c * s'.p00.diagonal.toFun i := by
  obtain ⟨h1, h2, h3, h4, h5, -⟩ := C54_initial epoch p s hs
  obtain ⟨g1, g2, g3, g4, g5, -⟩ := C54_initial epoch p' t ht
  have key := RelativeKalman.Twins.processAll hc obs (s := s) (t := t) ⟨(RelativeKalman.new_inv hs).1,
    (RelativeKalman.new_inv ht).1, by rw [h1, g1], by rw [h2, g2, hn], by rw [h5, g5], by rw [h4, g4],
    by rw [h3, g3, h4]; exact h0⟩ hs' ht'
  refine ⟨key.p00, key.within, fun i => ?_⟩
  have := within_coordinate key.within i
  rwa [Vec6.minus_toFun] at this

/-- for instance, filters whose initial positions are √59 km apart and that observe the same target at any sequence of times -/
example (ts : List Epoch) : ∃ p p' s t s' t', Hill.new (State.new ⟨0⟩ ⟨0, 9, 0⟩ ⟨0, 0, 0⟩) 42164 = .ok p ∧
    Hill.new (State.new ⟨0⟩ ⟨1, 2, 3⟩ ⟨0, 0, 0⟩) 42164 = .ok p' ∧
    RelativeKalman.new ⟨0⟩ p = .ok s ∧ RelativeKalman.new ⟨0⟩ p' = .ok t ∧
    RelativeKalman.processAll (ts.map aheadOb) s = (.ok (), s') ∧
    RelativeKalman.processAll (ts.map aheadOb) t = (.ok (), t') ∧
    (s'.x00.y - t'.x00.y) ^ 2 ≤ 118 * s'.p00.diagonal.y := by
  obtain ⟨p, hp, hn, hnv, -, hst⟩ := hill_new_ok (State.new ⟨0⟩ ⟨0, 9, 0⟩ ⟨0, 0, 0⟩) (show (0:ℝ) < 42164 by norm_num)
  obtain ⟨p', hp', hn', hnv', -, hst'⟩ :=
    hill_new_ok (State.new ⟨0⟩ ⟨1, 2, 3⟩ ⟨0, 0, 0⟩) (show (0:ℝ) < 42164 by norm_num)
  obtain ⟨s, hs⟩ : ∃ s, RelativeKalman.new ⟨0⟩ p = .ok s := by
    simp only [RelativeKalman.new, Hill.systemMatrix_ok hn.ne', ok_bind, pure_eq_ok]
    exact ⟨_, rfl⟩
  obtain ⟨t, ht⟩ : ∃ t, RelativeKalman.new ⟨0⟩ p' = .ok t := by
    simp only [RelativeKalman.new, Hill.systemMatrix_ok hn'.ne', ok_bind, pure_eq_ok]
    exact ⟨_, rfl⟩
  have hok : ∀ ob ∈ ts.map aheadOb, (∃ z, RelativeKalman.hillMeasurement ob = .ok z) ∧
      ∃ e, RelativeKalman.hillErrors ob = .ok e := by
    intro ob hob
    obtain ⟨t, -, rfl⟩ := List.mem_map.mp hob
    exact ⟨⟨_, (ahead_measured t).1⟩, (ahead_measured t).2⟩
  obtain ⟨s', hs'⟩ := RelativeKalman.processAll_ok _ (RelativeKalman.new_inv hs).1 hok
  obtain ⟨t', ht'⟩ := RelativeKalman.processAll_ok _ (RelativeKalman.new_inv ht).1 hok
  have hnn : p.n = p'.n := by
    refine (pow_left_inj₀ hn.le hn'.le two_ne_zero).mp ?_
    have h3 : (42164 : ℝ) ^ 3 ≠ 0 := by norm_num
    exact mul_right_cancel₀ h3 (hnv.trans hnv'.symm)
  have h0 := within_diagonal (p.state.vector.minus p'.state.vector).toFun
    (![0.5, 0.5, 0.5, 5e-5, 5e-5, 5e-5] : Fin 6 → ℝ)
    (by intro i; match i with | 0 | 1 | 2 | 3 | 4 | 5 => simp; try norm_num)
  have hsum : ∑ i, (p.state.vector.minus p'.state.vector).toFun i ^ 2 /
      (![0.5, 0.5, 0.5, 5e-5, 5e-5, 5e-5] : Fin 6 → ℝ) i = 118 := by
    rw [hst, hst', Fin.sum_univ_six]
    simp [State.new, State.copy, Vec6.minus, Vec6.toFun, Vec6.fromPosVel, Vec3.copy]
    norm_num
  rw [hsum] at h0
  have := (C182_agree ⟨0⟩ p p' hnn s t s' t' hs ht 118 (by norm_num) h0 _ hs' ht').2.2 1
  exact ⟨p, p', s, t, s', t', hp, hp', hs, ht, hs', ht', by simpa [Vec6.toFun] using this⟩

end Openspace
