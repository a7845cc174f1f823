import Verif.Props.FilterMonotone

/-!
# C183: the order of simultaneous observations
-/

namespace Openspace

open Real

/-- the variance of the best linear combination of two independent estimates with variances `v` and `r` -/
noncomputable def Spec.combined (r v : ℝ) : ℝ := v * r / (v + r)

namespace Order

open Spec

theorem combined_nonneg {r v : ℝ} (hr : 0 ≤ r) (hv : 0 ≤ v) : 0 ≤ combined r v :=
  div_nonneg (mul_nonneg hv hr) (add_nonneg hv hr)

theorem combined_zero (v : ℝ) : combined 0 v = 0 := by simp [combined]

theorem combined_of_zero (r : ℝ) : combined r 0 = 0 := by simp [combined]

theorem combined_le {r v w : ℝ} (hr : 0 ≤ r) (hv : 0 ≤ v) (hw : v ≤ w) :
    combined r v ≤ combined r w ∧ combined r w ≤ combined r v + (w - v) := by
  rcases hr.eq_or_lt with rfl | hr
  · simp [combined_zero, hw]
  have h1 : 0 < v + r := by linarith
  have h2 : 0 < w + r := by linarith
  have key : combined r w - combined r v = (w - v) * (r ^ 2 / ((v + r) * (w + r))) := by
    simp only [combined]
    field_simp
    ring
  have h3 : 0 ≤ r ^ 2 / ((v + r) * (w + r)) := by positivity
  have h4 : r ^ 2 / ((v + r) * (w + r)) ≤ 1 := by
    rw [div_le_one (by positivity)]
    nlinarith
  have h5 : 0 ≤ w - v := sub_nonneg.mpr hw
  constructor
  · nlinarith [mul_nonneg h5 h3]
  · nlinarith [mul_le_mul_of_nonneg_left h4 h5]

theorem combined_comm {r r' v : ℝ} (hr : 0 ≤ r) (hr' : 0 ≤ r') (hv : 0 ≤ v) :
    combined r (combined r' v) = combined r' (combined r v) := by
  rcases hr.eq_or_lt with rfl | hr
  · simp [combined_zero, combined_of_zero]
  rcases hr'.eq_or_lt with rfl | hr'
  · simp [combined_zero, combined_of_zero]
  rcases hv.eq_or_lt with rfl | hv
  · simp [combined_of_zero]
  have h1 : v * r' / (v + r') + r ≠ 0 := by positivity
  have h2 : v * r / (v + r) + r' ≠ 0 := by positivity
  simp only [combined]
  rw [div_eq_div_iff h1 h2]
  field_simp
  ring

/-- all observations combined, without noise in between -/
noncomputable def pure (rs : List ℝ) (v : ℝ) : ℝ := rs.foldl (fun v r => combined r v) v

/-- all observations combined, with noise before each of them -/
noncomputable def run (rs : List ℝ) (v : ℝ) : ℝ := rs.foldl (fun v r => combined r (v + 1e-16)) v

theorem pure_perm {rs rs' : List ℝ} (h : rs.Perm rs') : (∀ r ∈ rs, 0 ≤ r) → ∀ v, 0 ≤ v → pure rs v = pure rs' v := by
  induction h with
  | nil => intro _ v _; rfl
  | cons r _ ih =>
    intro hr v hv
    exact ih (fun x hx => hr x (List.mem_cons_of_mem _ hx)) _ (combined_nonneg (hr r List.mem_cons_self) hv)
  | swap r r' l =>
    intro hr v hv
    show pure l (combined r (combined r' v)) = pure l (combined r' (combined r v))
    rw [combined_comm (hr r (by simp)) (hr r' (by simp)) hv]
  | trans h1 _ ih1 ih2 =>
    intro hr v hv
    rw [ih1 hr v hv, ih2 (fun x hx => hr x (h1.mem_iff.mpr hx)) v hv]

theorem run_near (rs : List ℝ) : (∀ r ∈ rs, 0 ≤ r) → ∀ v w c, 0 ≤ v → v ≤ w → w ≤ v + c →
    pure rs v ≤ run rs w ∧ run rs w ≤ pure rs v + c + rs.length * 1e-16 := by
  induction rs with
  | nil =>
    intro _ v w c _ h1 h2
    exact ⟨h1, by simpa [run, pure] using h2⟩
  | cons r rs ih =>
    intro hr v w c hv h1 h2
    have hr0 := hr r List.mem_cons_self
    obtain ⟨h3, h4⟩ := combined_le hr0 hv (show v ≤ w + 1e-16 by linarith)
    obtain ⟨h5, h6⟩ := ih (fun x hx => hr x (List.mem_cons_of_mem _ hx)) (combined r v) (combined r (w + 1e-16))
      (c + 1e-16) (combined_nonneg hr0 hv) h3 (by linarith)
    refine ⟨h5, h6.trans (le_of_eq ?_)⟩
    show pure rs (combined r v) + (c + 1e-16) + rs.length * 1e-16 = pure rs (combined r v) + c + ((rs.length + 1 : ℕ) : ℝ) * 1e-16
    push_cast
    ring

theorem run_perm {rs rs' : List ℝ} (h : rs.Perm rs') (hr : ∀ r ∈ rs, 0 ≤ r) {v : ℝ} (hv : 0 ≤ v) :
    |run rs v - run rs' v| ≤ rs.length * 1e-16 := by
  obtain ⟨h1, h2⟩ := run_near rs hr v v 0 hv le_rfl (by linarith)
  obtain ⟨h3, h4⟩ := run_near rs' (fun x hx => hr x (h.mem_iff.mpr hx)) v v 0 hv le_rfl (by linarith)
  rw [← pure_perm h hr v hv] at h3 h4
  rw [← h.length_eq] at h4
  rw [abs_le]
  constructor <;> linarith

end Order

namespace RelativeKalman

/-- what an observation at the time of the filter does, as long as the covariance is diagonal -/
theorem process_diagonal {s s' : RelativeKalman} (h : Inv s) (hq : s.q = DEFAULT_NOISE) {ob : SpaceObservation}
    (hs' : process ob s = (.ok (), s')) (ht : ob.observer_state.epoch = s.epoch) {a b c u v w : ℝ}
    (hd : s.p00.toMatrix = Matrix.diagonal ![a, b, c, u, v, w]) (ha : 0 ≤ a) (hb : 0 ≤ b) (hc : 0 ≤ c) :
    ∃ e, hillErrors ob = .ok e ∧ s'.epoch = s.epoch ∧
      s'.p00.toMatrix = Matrix.diagonal ![Spec.combined (e.x ^ 2) (a + 1e-16), Spec.combined (e.y ^ 2) (b + 1e-16),
        Spec.combined (e.z ^ 2) (c + 1e-16), u + 1e-16, v + 1e-16, w + 1e-16] ∧
      s'.x00.vx = s.x00.vx ∧ s'.x00.vy = s.x00.vy ∧ s'.x00.vz = s.x00.vz := by
  rcases hz : hillMeasurement ob with e1 | z
  · simp [RelativeKalman.process, hz] at hs'
  rcases he : hillErrors ob with e1 | e
  · simp [RelativeKalman.process, hz, he] at hs'
  obtain ⟨F, P, K, X, x', hF, hP, hPd, hK, hX, hx, hp⟩ := process_ok h hz he
  rw [hp] at hs'
  simp only [Prod.mk.injEq, true_and] at hs'
  subst hs'
  rw [Hill.systemMatrix_ok h.n, Except.ok.injEq, ht, sub_self, zero_mul] at hF
  have hF1 : F.toMatrix = 1 := by rw [← hF, phi_zero]
  have hPM : P.toMatrix = Matrix.diagonal ![a + 1e-16, b + 1e-16, c + 1e-16, u + 1e-16, v + 1e-16, w + 1e-16] := by
    rw [hP, predicted_toMatrix, hF1, hq, DEFAULT_NOISE, diag6_toMatrix, Matrix.transpose_one, Matrix.one_mul,
      Matrix.mul_one, hd, Matrix.diagonal_add]
    congr 1
    ext i
    match i with | 0 | 1 | 2 | 3 | 4 | 5 => simp
  have hS := innovation_posDef hPd (posSemidef_measurement e)
  have hu := (Matrix.isUnit_iff_isUnit_det _).mp hS.isUnit
  obtain ⟨a', rfl⟩ : ∃ a', a = a' - 1e-16 := ⟨a + 1e-16, by ring⟩
  obtain ⟨b', rfl⟩ : ∃ b', b = b' - 1e-16 := ⟨b + 1e-16, by ring⟩
  obtain ⟨c', rfl⟩ : ∃ c', c = c' - 1e-16 := ⟨c + 1e-16, by ring⟩
  simp only [sub_add_cancel] at hPM ⊢
  have ha' : a' + e.x * e.x ≠ 0 := by nlinarith [mul_self_nonneg e.x]
  have hb' : b' + e.y * e.y ≠ 0 := by nlinarith [mul_self_nonneg e.y]
  have hc' : c' + e.z * e.z ≠ 0 := by nlinarith [mul_self_nonneg e.z]
  have hST : (innovation P (measurementCovariance e)).toMatrix =
      Matrix.diagonal ![a' + e.x * e.x, b' + e.y * e.y, c' + e.z * e.z] := by
    rw [innovation_toMatrix, measurementCovariance_toMatrix, hPM]
    ext i j
    rw [Matrix.add_apply, Matrix.mul_apply]
    match i with
    | 0 | 1 | 2 => match j with
      | 0 | 1 | 2 => simp [Fin.sum_univ_six, Mat36.toMatrix, H, Vec6.toFun, Matrix.mul_apply, Matrix.diagonal_apply]
  have hPH : P.toMatrix * H.toMatrix.transpose = !![a', 0, 0; 0, b', 0; 0, 0, c'; 0, 0, 0; 0, 0, 0; 0, 0, 0] := by
    rw [hPM]
    ext i j
    match i with
    | 0 | 1 | 2 | 3 | 4 | 5 => match j with | 0 | 1 | 2 => simp [Mat36.toMatrix, H, Vec6.toFun]
  have hK0 : K.toMatrix = !![a' / (a' + e.x * e.x), 0, 0; 0, b' / (b' + e.y * e.y), 0; 0, 0, c' / (c' + e.z * e.z);
      0, 0, 0; 0, 0, 0; 0, 0, 0] := by
    ext i j
    have := congrFun (congrFun hK i) j
    rw [hST, hPH, Matrix.mul_diagonal] at this
    match j with
    | 0 =>
      match i with | 0 | 1 | 2 | 3 | 4 | 5 => simpa [eq_div_iff ha', ha'] using this
    | 1 =>
      match i with | 0 | 1 | 2 | 3 | 4 | 5 => simpa [eq_div_iff hb', hb'] using this
    | 2 =>
      match i with | 0 | 1 | 2 | 3 | 4 | 5 => simpa [eq_div_iff hc', hc'] using this
  have hXf : X.toFun = s.x00.toFun := by rw [hX, Mat6.mulVec_toFun, hF1, Matrix.one_mulVec]
  have hxf : ∀ i : Fin 6, 3 ≤ i → x'.toFun i = s.x00.toFun i := by
    intro i hi
    rw [hx, Vec6.plus_toFun, Mat63.mulVec_toFun, hXf, hK0, Pi.add_apply]
    match i, hi with | 3, _ | 4, _ | 5, _ => simp [Matrix.mulVec, dotProduct, Fin.sum_univ_three]
  have ha2 : a' + e.x ^ 2 ≠ 0 := by rwa [sq]
  have hb2 : b' + e.y ^ 2 ≠ 0 := by rwa [sq]
  have hc2 : c' + e.z ^ 2 ≠ 0 := by rwa [sq]
  rw [innovation_toMatrix] at hK
  refine ⟨e, rfl, ht, ?_, hxf 3 (by decide), hxf 4 (by decide), hxf 5 (by decide)⟩
  rw [joseph_toMatrix, (updated_optimal hPd.isHermitian (posSemidef_measurement e).isHermitian hK 0).1, hPM, hK0]
  ext i j
  rw [Matrix.mul_diagonal]
  match i with
  | 0 | 1 | 2 | 3 | 4 | 5 => match j with
    | 0 | 1 | 2 | 3 | 4 | 5 =>
      simp [Mat36.toMatrix, H, Vec6.toFun, Spec.combined, sq]
      try (field_simp; ring)

/-- the errors that the filter assigns to an observation, zero where it raises -/
noncomputable def errors (ob : SpaceObservation) : Vec3 :=
  match hillErrors ob with
  | .ok e => e
  | .error _ => ⟨0, 0, 0⟩

theorem processAll_diagonal (obs : List SpaceObservation) : ∀ {s s' : RelativeKalman}, Inv s → s.q = DEFAULT_NOISE →
    processAll obs s = (.ok (), s') → (∀ ob ∈ obs, ob.observer_state.epoch = s.epoch) → ∀ {a b c u v w : ℝ},
    s.p00.toMatrix = Matrix.diagonal ![a, b, c, u, v, w] → 0 ≤ a → 0 ≤ b → 0 ≤ c →
      s'.p00.toMatrix = Matrix.diagonal ![Order.run (obs.map fun ob => (errors ob).x ^ 2) a,
        Order.run (obs.map fun ob => (errors ob).y ^ 2) b, Order.run (obs.map fun ob => (errors ob).z ^ 2) c,
        u + obs.length * 1e-16, v + obs.length * 1e-16, w + obs.length * 1e-16] ∧
      s'.x00.vx = s.x00.vx ∧ s'.x00.vy = s.x00.vy ∧ s'.x00.vz = s.x00.vz := by
  induction obs with
  | nil =>
    intro s s' _ _ hs' _ a b c u v w hd _ _ _
    cases hs'
    simp [Order.run, hd]
  | cons ob obs ih =>
    intro s s' h hq hs' ht a b c u v w hd ha hb hc
    simp only [processAll] at hs'
    rw [PyM.bind_apply] at hs'
    rcases h1 : RelativeKalman.process ob s with ⟨r1, s1⟩
    rw [h1] at hs'
    rcases r1 with _ | _
    · simp at hs'
    have hi1 := h.process ob
    have hf1 : Fixed s (RelativeKalman.process ob s).2 := Fixed.process ⟨rfl, rfl⟩ ob
    rw [h1] at hi1 hf1
    obtain ⟨e, he, h2, h3, h4, h5, h6⟩ := process_diagonal h hq h1 (ht ob List.mem_cons_self) hd ha hb hc
    have hee : errors ob = e := by simp [errors, he]
    obtain ⟨k1, k2, k3, k4⟩ := ih hi1 (hf1.1.trans hq) hs'
      (fun o ho => by rw [h2]; exact ht o (List.mem_cons_of_mem _ ho)) h3
      (Order.combined_nonneg (sq_nonneg _) (by linarith)) (Order.combined_nonneg (sq_nonneg _) (by linarith))
      (Order.combined_nonneg (sq_nonneg _) (by linarith))
    refine ⟨?_, k2.trans h4, k3.trans h5, k4.trans h6⟩
    have hl : ∀ x : ℝ, x + 1e-16 + obs.length * 1e-16 = x + ((ob :: obs).length : ℝ) * 1e-16 := by
      intro x
      push_cast [List.length_cons]
      ring
    rw [k1, hl, hl, hl]
    simp only [List.map_cons, hee, Order.run, List.foldl_cons]

end RelativeKalman

/-! ## C183 -/

/-- A new filter processes the same observations, all made at its own epoch, in two different orders.  Then both orders
leave the estimate of the velocity as it was and give the same variances of the velocity, and the variances of each
coordinate of the position differ by at most `1e-16` km² per observation. -/
theorem C183_order_partial (epoch : Epoch) (p : Hill) (s s' t' : RelativeKalman)
    (hs : RelativeKalman.new epoch p = .ok s) (obs obs' : List SpaceObservation) (hperm : obs.Perm obs')
    (hobs : ∀ ob ∈ obs, ob.observer_state.epoch = epoch)
    (hs' : RelativeKalman.processAll obs s = (.ok (), s')) (ht' : RelativeKalman.processAll obs' s = (.ok (), t')) :
    (s'.x00.vx = t'.x00.vx ∧ s'.x00.vy = t'.x00.vy ∧ s'.x00.vz = t'.x00.vz) ∧
    (s'.x00.vx = p.state.vector.vx ∧ s'.x00.vy = p.state.vector.vy ∧ s'.x00.vz = p.state.vector.vz) ∧
    (s'.p00.diagonal.vx = t'.p00.diagonal.vx ∧ s'.p00.diagonal.vy = t'.p00.diagonal.vy ∧
      s'.p00.diagonal.vz = t'.p00.diagonal.vz) ∧
    |s'.p00.diagonal.x - t'.p00.diagonal.x| ≤ obs.length * 1e-16 ∧
    |s'.p00.diagonal.y - t'.p00.diagonal.y| ≤ obs.length * 1e-16 ∧
    |s'.p00.diagonal.z - t'.p00.diagonal.z| ≤ obs.length * 1e-16 := by
  obtain ⟨h1, -, h2, h3, -⟩ := C54_initial epoch p s hs
  have hi := (RelativeKalman.new_inv hs).1
  have hq := (RelativeKalman.new_fixed hs).1
  obtain ⟨k1, k2, k3, k4⟩ := RelativeKalman.processAll_diagonal obs hi hq hs' (by rw [h1]; exact hobs) h3 (by norm_num)
    (by norm_num) (by norm_num)
  obtain ⟨l1, l2, l3, l4⟩ := RelativeKalman.processAll_diagonal obs' hi hq ht'
    (by rw [h1]; exact fun ob hob => hobs ob (hperm.mem_iff.mpr hob)) h3 (by norm_num) (by norm_num) (by norm_num)
  have hd : ∀ (q : RelativeKalman) (d : Fin 6 → ℝ), q.p00.toMatrix = Matrix.diagonal d → q.p00.diagonal.toFun = d := by
    intro q d h
    rw [Mat6.diagonal_toFun, h, Matrix.diag_diagonal]
  have d1 := hd _ _ k1
  have d2 := hd _ _ l1
  rw [← hperm.length_eq] at d2
  have e1 : ∀ i, _ := fun i => congrFun d1 i
  have e2 : ∀ i, _ := fun i => congrFun d2 i
  have hpos : ∀ f : SpaceObservation → ℝ, |Order.run (obs.map fun ob => f ob ^ 2) 0.5 -
      Order.run (obs'.map fun ob => f ob ^ 2) 0.5| ≤ obs.length * 1e-16 := by
    intro f
    have := Order.run_perm (hperm.map fun ob => f ob ^ 2) (by
      intro r hr
      obtain ⟨ob, -, rfl⟩ := List.mem_map.mp hr
      exact sq_nonneg _) (v := 0.5) (by norm_num)
    rwa [List.length_map] at this
  refine ⟨⟨by rw [k2, l2], by rw [k3, l3], by rw [k4, l4]⟩, ⟨by rw [k2, h2], by rw [k3, h2], by rw [k4, h2]⟩,
    ⟨(e1 3).trans (e2 3).symm, (e1 4).trans (e2 4).symm, (e1 5).trans (e2 5).symm⟩, ?_, ?_, ?_⟩
  · have g1 : s'.p00.diagonal.x = _ := e1 0
    have g2 : t'.p00.diagonal.x = _ := e2 0
    rw [g1, g2]
    exact hpos fun ob => (RelativeKalman.errors ob).x
  · have g1 : s'.p00.diagonal.y = _ := e1 1
    have g2 : t'.p00.diagonal.y = _ := e2 1
    rw [g1, g2]
    exact hpos fun ob => (RelativeKalman.errors ob).y
  · have g1 : s'.p00.diagonal.z = _ := e1 2
    have g2 : t'.p00.diagonal.z = _ := e2 2
    rw [g1, g2]
    exact hpos fun ob => (RelativeKalman.errors ob).z

/-- The position does depend on the order: let one of two observations be assigned an along-track error and the other none.
Whatever the filter went through before and at whatever times they are made, the filter claims to know the along-track
position exactly if the accurate one is processed last, but not if it is processed first. -/
theorem C183_order_violated (epoch : Epoch) (p : Hill) (s : RelativeKalman) (hs : RelativeKalman.new epoch p = .ok s)
    (cs : List RelativeKalman.Call) (ob ob' : SpaceObservation) (e e' : Vec3)
    (he : RelativeKalman.hillErrors ob = .ok e) (he' : RelativeKalman.hillErrors ob' = .ok e') (h0 : e.y = 0)
    (h1 : e'.y ≠ 0) (s' t' : RelativeKalman)
    (hs' : RelativeKalman.processAll [ob', ob] (RelativeKalman.after cs s) = (.ok (), s'))
    (ht' : RelativeKalman.processAll [ob, ob'] (RelativeKalman.after cs s) = (.ok (), t')) :
    s'.p00.diagonal.y = 0 ∧ t'.p00.diagonal.y ≠ 0 := by
  have two : ∀ (a b : SpaceObservation) (q : RelativeKalman),
      RelativeKalman.processAll [a, b] (RelativeKalman.after cs s) = (.ok (), q) →
      RelativeKalman.process b (RelativeKalman.after (cs ++ [.process a]) s) = (.ok (), q) := by
    intro a b q h
    simp only [RelativeKalman.processAll] at h
    rw [PyM.bind_apply] at h
    have hafter : RelativeKalman.after (cs ++ [.process a]) s =
        (RelativeKalman.process a (RelativeKalman.after cs s)).2 := by
      simp [RelativeKalman.after, RelativeKalman.Call.run]
    rw [hafter]
    rcases h2 : RelativeKalman.process a (RelativeKalman.after cs s) with ⟨r, q1⟩
    rw [h2] at h
    rcases r with _ | _
    · simp at h
    simp only at h
    rw [PyM.bind_apply] at h
    rcases h3 : RelativeKalman.process b q1 with ⟨r, q2⟩
    rw [h3] at h
    rcases r with _ | _
    · simp at h
    exact h
  obtain ⟨f, hf, -, hy, -⟩ := C107_certainty_partial epoch p s hs _ ob s' (two _ _ _ hs')
  obtain ⟨f', hf', -, hy', -⟩ := C107_certainty_partial epoch p s hs _ ob' t' (two _ _ _ ht')
  rw [he, Except.ok.injEq] at hf
  rw [he', Except.ok.injEq] at hf'
  subst hf hf'
  exact ⟨hy.mpr h0, fun h => h1 (hy'.mp h)⟩

/-- an observer on a geosynchronous orbit looks along its velocity at a target ten kilometres away -/
noncomputable def alongOb (t : Epoch) (ρ : ℝ) : SpaceObservation := SpaceObservation.new (geoAt t) ⟨0, 10, 0⟩ ρ 0

/-- the filter assigns it an along-track error that is the angle under which the range error is seen from the centre of the
Earth -/
theorem along_measured (t : Epoch) (ρ : ℝ) : (∃ z, RelativeKalman.hillMeasurement (alongOb t ρ) = .ok z) ∧
    ∃ e, RelativeKalman.hillErrors (alongOb t ρ) = .ok e ∧ e.y = arctan (ρ / 42164) * 42164 := by
  have conv : ∀ y : ℝ, ∃ h, gcrfToHcw (geoAt t) (GCRF.new t ((geoAt t).position.plus ⟨0, y, 0⟩) (geoAt t).velocity) =
      .ok h ∧ h.position.y = arctan (y / 42164) * 42164 := by
    intro y
    have hpos : (geoAt t).position.plus ⟨0, y, 0⟩ = ⟨42164, y, 0⟩ := by
      ext <;> simp [geoAt, GCRF.new, State.new, Vec3.copy, Vec3.plus]
    rw [hpos]
    obtain ⟨h, -, h1, -⟩ := C32_round_trip (geoAt t) (geoAt_nonDegenerate t) (GCRF.new t ⟨42164, y, 0⟩ (geoAt t).velocity)
      (by
        rw [geoAt_cross]
        intro h
        have := congrArg Vec3.y h
        simp only [GCRF.new, State.new, Vec3.cross, Vec3.copy] at this
        norm_num at this)
    refine ⟨h, h1, ?_⟩
    rw [gcrfToHcw_position (geoAt_frame t) h1, geoAt_magnitude]
    have hv : (⟨⟨1, 0, 0⟩, ⟨0, 1, 0⟩, ⟨0, 0, 1⟩⟩ : Mat3).mulVec (GCRF.new t ⟨42164, y, 0⟩ (geoAt t).velocity).position =
        ⟨42164, y, 0⟩ := by
      ext <;> simp [Mat3.mulVec, Vec3.dot, GCRF.new, State.new, Vec3.copy]
    simp only [hv]
    rw [pyAtan2_of_pos (by norm_num)]
  constructor
  · obtain ⟨h, h1, -⟩ := conv 10
    refine ⟨h.position, ?_⟩
    simp only [RelativeKalman.hillMeasurement, bind_eq_ok, pure_eq_ok, Except.ok.injEq]
    exact ⟨h, h1, rfl⟩
  · obtain ⟨h, h1, h2⟩ := conv ρ
    refine ⟨h.position, ?_, h2⟩
    simp only [RelativeKalman.hillErrors, bind_eq_ok, pure_eq_ok, Except.ok.injEq]
    refine ⟨h, ?_, rfl⟩
    have hsph := C23_cartesian ⟨0, 10, 0⟩
    have hm : (⟨0, 10, 0⟩ : Vec3).magnitude = 10 := Vec3.magnitude_of_dot (by norm_num) (by simp [Vec3.dot]; norm_num)
    have hs : (SphericalPosition.toCartesian ⟨(alongOb t ρ).range + (alongOb t ρ).range_error,
        (alongOb t ρ).right_ascension + (alongOb t ρ).angular_error,
        (alongOb t ρ).declination + (alongOb t ρ).angular_error⟩).minus (alongOb t ρ).observed_direction = ⟨0, ρ, 0⟩ := by
      simp only [alongOb, SpaceObservation.new, add_zero]
      simp only [SphericalPosition.toCartesian, SphericalPosition.fromCartesian, Vec3.scaled, Vec3.mk.injEq, hm] at hsph ⊢
      obtain ⟨h1, h2, h3⟩ := hsph
      ext
      · simp only [Vec3.minus, Vec3.copy]
        linear_combination (10 + ρ) / 10 * h1
      · simp only [Vec3.minus, Vec3.copy]
        linear_combination (10 + ρ) / 10 * h2
      · simp only [Vec3.minus, Vec3.copy]
        linear_combination (10 + ρ) / 10 * h3
    rw [hs]
    exact h1

/-- for instance, with a range error of one kilometre and none, at the same instant -/
theorem C183_violated : ∃ p s s' t', Hill.new (State.new ⟨0⟩ ⟨0, 9, 0⟩ ⟨0, 0, 0⟩) 42164 = .ok p ∧
    RelativeKalman.new ⟨0⟩ p = .ok s ∧ RelativeKalman.processAll [alongOb ⟨0⟩ 1, alongOb ⟨0⟩ 0] s = (.ok (), s') ∧
    RelativeKalman.processAll [alongOb ⟨0⟩ 0, alongOb ⟨0⟩ 1] s = (.ok (), t') ∧
    s'.p00.diagonal.y = 0 ∧ t'.p00.diagonal.y ≠ 0 := by
  obtain ⟨p, hp, hn, -⟩ := hill_new_ok (State.new ⟨0⟩ ⟨0, 9, 0⟩ ⟨0, 0, 0⟩) (show (0:ℝ) < 42164 by norm_num)
  obtain ⟨s, hs⟩ : ∃ s, RelativeKalman.new ⟨0⟩ p = .ok s := by
    simp only [RelativeKalman.new, Hill.systemMatrix_ok hn.ne', ok_bind, pure_eq_ok]
    exact ⟨_, rfl⟩
  have hi := (RelativeKalman.new_inv hs).1
  obtain ⟨hz, e, he, hy⟩ := along_measured ⟨0⟩ 0
  obtain ⟨hz', e', he', hy'⟩ := along_measured ⟨0⟩ 1
  obtain ⟨s', hs'⟩ := RelativeKalman.processAll_ok [alongOb ⟨0⟩ 1, alongOb ⟨0⟩ 0] hi (by
    intro ob hob
    simp only [List.mem_cons, List.not_mem_nil, or_false] at hob
    rcases hob with rfl | rfl
    · exact ⟨hz', e', he'⟩
    · exact ⟨hz, e, he⟩)
  obtain ⟨t', ht'⟩ := RelativeKalman.processAll_ok [alongOb ⟨0⟩ 0, alongOb ⟨0⟩ 1] hi (by
    intro ob hob
    simp only [List.mem_cons, List.not_mem_nil, or_false] at hob
    rcases hob with rfl | rfl
    · exact ⟨hz, e, he⟩
    · exact ⟨hz', e', he'⟩)
  obtain ⟨k1, k2⟩ := C183_order_violated ⟨0⟩ p s hs [] _ _ e e' he he' (by rw [hy]; simp)
    (by
      rw [hy']
      have : 0 < arctan (1 / 42164) := arctan_pos.mpr (by norm_num)
      positivity) s' t' hs' ht'
  exact ⟨p, s, s', t', hp, hs, hs', ht', k1, k2⟩

end Openspace
