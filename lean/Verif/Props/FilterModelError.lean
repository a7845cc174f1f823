import Verif.Props.FilterError
import Verif.Props.HillTruth

/-!
# C126: the filter's error when the target does not move by the filter's equations
-/

namespace Openspace

open Real Spec

section

open Matrix

variable {n : Type} [Fintype n] [DecidableEq n]

/-- the prediction keeps the error within the covariance, up to the error of the prediction in units of the process noise -/
theorem within_predict_error {c m : ℝ} (hc : 0 ≤ c) (hm : 0 ≤ m) {e v : n → ℝ} {P Q : Matrix n n ℝ}
    (hP : P.PosSemidef) (hQ : Q.PosSemidef) (h : Spec.Within c e P) (hv : Spec.Within m v Q) (F : Matrix n n ℝ) :
    Spec.Within (c + m) (F *ᵥ e - v) (F * P * Fᵀ + Q) := by
  intro w
  rw [Matrix.add_mulVec, dotProduct_add, quad_congr, dotProduct_sub, Matrix.dotProduct_mulVec, ← Matrix.mulVec_transpose,
    sub_eq_add_neg]
  exact sq_add_le hc hm (quad_nonneg hP _) (quad_nonneg hQ _) (h _) (by rw [neg_sq]; exact hv w)

end

namespace RelativeKalman

/-- processing one observation of a target that moved from `X` to `Y`, not exactly as predicted -/
theorem process_within_error {s s' : RelativeKalman} (h : Inv s) {ob : SpaceObservation} {z e : Vec3}
    (hz : hillMeasurement ob = .ok z) (he : hillErrors ob = .ok e) (hs' : process ob s = (.ok (), s')) {c d m : ℝ}
    (hc : 0 ≤ c) (hd : 0 ≤ d) (hm : 0 ≤ m) {X Y : Vec6} {S : Mat6}
    (hS : s.propagator.systemMatrix ((ob.observer_state.epoch.value - s.epoch.value) * SECONDS_IN_DAY) = .ok S)
    (hXY : Spec.Within m (Y.minus (S.mulVec X)).toFun s.q.toMatrix)
    (hX : Spec.Within c (s.x00.minus X).toFun s.p00.toMatrix)
    (hv : Spec.Within d (z.minus ⟨Y.x, Y.y, Y.z⟩).toFun (measurementCovariance e).toMatrix) :
    Spec.Within (c + m + d) (s'.x00.minus Y).toFun s'.p00.toMatrix ∧
    s'.epoch = ob.observer_state.epoch ∧ s'.propagator.n = s.propagator.n ∧ s'.q = s.q := by
  obtain ⟨F, P, K, W, x', hF, hP, hPd, hK, hW, hx, hp⟩ := process_ok h hz he
  rw [hp] at hs'
  simp only [Prod.mk.injEq, true_and] at hs'
  rw [hF, Except.ok.injEq] at hS
  subst hS
  subst hs'
  refine ⟨?_, rfl, rfl, rfl⟩
  simp only
  rw [joseph_toMatrix]
  have h1 := within_predict_error hc hm h.p00 h.q.posSemidef hX hXY F.toMatrix
  have h2 : P.toMatrix = F.toMatrix * s.p00.toMatrix * F.toMatrix.transpose + s.q.toMatrix := by
    rw [hP, Mat6.plus_toMatrix, Mat6.mul_toMatrix, Mat6.mul_toMatrix, Mat6.transpose_toMatrix, ← Matrix.mul_assoc]
  rw [← h2] at h1
  have h3 := within_update (add_nonneg hc hm) hd hPd.posSemidef (posSemidef_measurement e) h1 hv H.toMatrix K.toMatrix
  have h4 : (x'.minus Y).toFun = (1 - K.toMatrix * H.toMatrix).mulVec
      (F.toMatrix.mulVec (s.x00.minus X).toFun - (Y.minus (F.mulVec X)).toFun) +
        K.toMatrix.mulVec (z.minus ⟨Y.x, Y.y, Y.z⟩).toFun := by
    have hFs : F.toMatrix.mulVec (s.x00.minus X).toFun - (Y.minus (F.mulVec X)).toFun = W.toFun - Y.toFun := by
      rw [Vec6.minus_toFun, Vec6.minus_toFun, Matrix.mulVec_sub, ← Mat6.mulVec_toFun, ← Mat6.mulVec_toFun, ← hW]
      abel
    rw [hFs, ← H_position, Vec6.minus_toFun, hx, Vec6.plus_toFun, Mat63.mulVec_toFun, Vec3.minus_toFun, Vec3.minus_toFun,
      Mat36.mulVec_toFun, Mat36.mulVec_toFun, Matrix.sub_mulVec, Matrix.one_mulVec, ← Matrix.mulVec_mulVec]
    simp only [Matrix.mulVec_sub]
    abel
  rw [h4]
  exact h3

/-- the times of the observations, in seconds after the epoch -/
noncomputable def times (epoch : Epoch) (obs : List (SpaceObservation × ℝ)) : List ℝ :=
  obs.map fun od => (od.1.observer_state.epoch.value - epoch.value) * SECONDS_IN_DAY

theorem processAll_within_error {p : Hill} {Q : Mat6} {X : ℝ → Vec6} {m : ℝ} (hm : 0 ≤ m) (epoch : Epoch)
    (obs : List (SpaceObservation × ℝ)) :
    ∀ (s : RelativeKalman) (c : ℝ), Inv s → s.propagator.n = p.n → s.q = Q → 0 ≤ c →
    Spec.Within c (s.x00.minus (X ((s.epoch.value - epoch.value) * SECONDS_IN_DAY))).toFun s.p00.toMatrix →
    List.IsChain (fun t u => ∃ S, p.systemMatrix (u - t) = .ok S ∧
      Spec.Within m ((X u).minus (S.mulVec (X t))).toFun Q.toMatrix)
      ((s.epoch.value - epoch.value) * SECONDS_IN_DAY :: times epoch obs) →
    (∀ od ∈ obs, 0 ≤ od.2 ∧ ∃ z e, hillMeasurement od.1 = .ok z ∧ hillErrors od.1 = .ok e ∧
      Spec.Within od.2 (z.minus
        (let Y := X ((od.1.observer_state.epoch.value - epoch.value) * SECONDS_IN_DAY); ⟨Y.x, Y.y, Y.z⟩)).toFun
        (Matrix.diagonal ![e.x ^ 2, e.y ^ 2, e.z ^ 2])) →
    ∃ s', processAll (obs.map Prod.fst) s = (.ok (), s') ∧
      Spec.Within (c + (obs.map Prod.snd).sum + obs.length * m)
        (s'.x00.minus (X ((s'.epoch.value - epoch.value) * SECONDS_IN_DAY))).toFun s'.p00.toMatrix := by
  induction obs with
  | nil =>
    intro s c _ _ _ _ h _ _
    exact ⟨s, rfl, by simpa using h⟩
  | cons od obs ih =>
    intro s c hi hsn hq hc h hchain hobs
    obtain ⟨hd, z, e, hz, he, hv⟩ := hobs od List.mem_cons_self
    obtain ⟨F, P, K, W, x', -, -, -, -, -, -, hp⟩ := process_ok hi hz he
    obtain ⟨s1, hs1⟩ : ∃ s1, process od.1 s = (.ok (), s1) := ⟨_, hp⟩
    simp only [times, List.map_cons, List.isChain_cons_cons] at hchain
    obtain ⟨⟨S, hS, hSw⟩, hchain⟩ := hchain
    rw [← sub_mul, sub_sub_sub_cancel_right] at hS
    have hS' : s.propagator.systemMatrix ((od.1.observer_state.epoch.value - s.epoch.value) * SECONDS_IN_DAY) = .ok S := by
      rw [← hS]; simp only [Hill.systemMatrix, hsn]
    have hmm : (measurementCovariance e).toMatrix = Matrix.diagonal ![e.x ^ 2, e.y ^ 2, e.z ^ 2] := by
      rw [measurementCovariance_toMatrix, sq, sq, sq]
    rw [← hmm] at hv
    rw [← hq] at hSw
    obtain ⟨h1, h2, h3, h4⟩ := process_within_error hi hz he hs1 hc hd hm hS' hSw h hv
    have hi1 : Inv s1 := by
      have := hi.process od.1
      rwa [hs1] at this
    rw [← h2] at h1
    obtain ⟨s', h5, h6⟩ := ih s1 (c + m + od.2) hi1 (h3.trans hsn) (h4.trans hq) (by positivity) h1
      (by rw [h2]; exact hchain) (fun od' h' => hobs od' (List.mem_cons_of_mem _ h'))
    refine ⟨s', ?_, ?_⟩
    · simp only [List.map_cons, processAll]
      rw [PyM.bind_apply, hs1]
      exact h5
    · simp only [List.map_cons, List.sum_cons, List.length_cons, Nat.cast_add, Nat.cast_one]
      convert h6 using 1
      ring

end RelativeKalman

/-! ## C126 -/

/-- Let the target move in any way: `X` is its relative state as a function of the seconds since the epoch of the filter.
Suppose that from each observation to the next, and from the start to the first, the state predicted from the true one is
off, along every direction, by at most `√m` standard deviations of the process noise of the filter (`1e-8` km and
`1e-8` km/s in every coordinate).  With initial and measurement errors as in C108, none of the calls raises, and after `N`
observations the error of the estimate is along every direction at most `√(c + ∑ d + N m)` of the standard deviations that
the filter reports. -/
theorem C126_bound (epoch : Epoch) (p : Hill) (s : RelativeKalman) (h : RelativeKalman.new epoch p = .ok s)
    (X : ℝ → Vec6) (c m : ℝ) (hc : 0 ≤ c) (hm : 0 ≤ m)
    (h0 : Spec.Within c (s.x00.minus (X 0)).toFun s.p00.toMatrix) (obs : List (SpaceObservation × ℝ))
    (hmodel : List.IsChain (fun t u => ∃ S, p.systemMatrix (u - t) = .ok S ∧
      Spec.Within m ((X u).minus (S.mulVec (X t))).toFun (Matrix.diagonal fun _ => 1e-16))
      (0 :: obs.map fun od => (od.1.observer_state.epoch.value - epoch.value) * SECONDS_IN_DAY))
    (hobs : ∀ od ∈ obs, 0 ≤ od.2 ∧ ∃ z e, RelativeKalman.hillMeasurement od.1 = .ok z ∧
      RelativeKalman.hillErrors od.1 = .ok e ∧
      Spec.Within od.2 (z.minus
        (let Y := X ((od.1.observer_state.epoch.value - epoch.value) * SECONDS_IN_DAY); ⟨Y.x, Y.y, Y.z⟩)).toFun
        (Matrix.diagonal ![e.x ^ 2, e.y ^ 2, e.z ^ 2])) :
    ∃ s', RelativeKalman.processAll (obs.map Prod.fst) s = (.ok (), s') ∧
      Spec.Within (c + (obs.map Prod.snd).sum + obs.length * m)
        (s'.x00.minus (X ((s'.epoch.value - epoch.value) * SECONDS_IN_DAY))).toFun s'.p00.toMatrix := by
  obtain ⟨h1, h2, -, -, hq, -⟩ := C54_initial epoch p s h
  have hi := (RelativeKalman.new_inv h).1
  have e0 : (s.epoch.value - epoch.value) * SECONDS_IN_DAY = 0 := by rw [h1, sub_self, zero_mul]
  have hQ : (Matrix.diagonal fun _ => 1e-16 : Matrix (Fin 6) (Fin 6) ℝ) = s.q.toMatrix := by
    rw [hq]
    congr 1
    funext i
    match i with | 0 | 1 | 2 | 3 | 4 | 5 => rfl
  rw [hQ] at hmodel
  refine RelativeKalman.processAll_within_error (p := p) hm epoch obs s c hi (by rw [h2]) rfl hc ?_ ?_ hobs
  · rw [e0]; exact h0
  · rw [e0]; exact hmodel

/-- the state of the target relative to a satellite in circular orbit, in the frame that turns with the satellite -/
noncomputable def relState (b : OrthonormalBasis (Fin 3) ℝ Space) (a n : ℝ) (R V : ℝ → Space) (t : ℝ) : Vec6 :=
  let d := R t - circular b a n t
  ⟨relX b n t d, relY b n t d, relZ b d,
    relX b n t (V t) + n * relY b n t d, relY b n t (V t) - n * (a + relX b n t d), relZ b (V t)⟩

/-- the attraction less its linearisation -/
theorem attraction_error {a D n r x y z : ℝ} (ha : 0 < a) (hmu : n ^ 2 * a ^ 3 = Earth.MU) (hD0 : 0 ≤ D)
    (hDa : D ≤ a / 10) (hr : r ^ 2 = (a + x) ^ 2 + y ^ 2 + z ^ 2) (hr0 : 0 ≤ r) (hd : x ^ 2 + y ^ 2 + z ^ 2 ≤ D ^ 2) :
    |-(Earth.MU / r ^ 3) * (a + x) + n ^ 2 * a - 2 * n ^ 2 * x| ≤ 11 * (n ^ 2 * (D ^ 2 / a)) ∧
    |-(Earth.MU / r ^ 3) * y + n ^ 2 * y| ≤ 4 * (n ^ 2 * (D ^ 2 / a)) ∧
    |-(Earth.MU / r ^ 3) * z + n ^ 2 * z| ≤ 4 * (n ^ 2 * (D ^ 2 / a)) := by
  have hxa : |x| ≤ a / 10 := by
    refine abs_le_of_sq_le_sq ?_ (by positivity)
    calc x ^ 2 ≤ D ^ 2 := by nlinarith [sq_nonneg y, sq_nonneg z]
      _ ≤ _ := pow_le_pow_left₀ hD0 hDa 2
  have hRp : 0 < r := by
    have h2 : 0 < a + x := by linarith [(abs_le.mp hxa).1]
    by_contra hc
    have : r = 0 := le_antisymm (not_lt.mp hc) hr0
    rw [this] at hr
    nlinarith [sq_nonneg y, sq_nonneg z]
  have key := attraction_linear (u := x / a) (v := y / a) (w := z / a) (e := D / a) (s := r / a)
    (by rw [div_le_iff₀ ha]; linarith) (by positivity)
    (by
      rw [div_pow, div_pow, div_pow, div_pow, ← add_div, ← add_div]
      gcongr)
    (by positivity) (by rw [div_pow, hr]; field_simp)
  have hc : 0 ≤ n ^ 2 * a := by positivity
  have sc : ∀ k A B c : ℝ, |k| ≤ c * (D / a) ^ 2 → n ^ 2 * a * k = A → B = c * (n ^ 2 * (D ^ 2 / a)) → |A| ≤ B := by
    intro k A B c hk hA hB
    rw [← hA, hB, abs_mul, abs_of_nonneg hc]
    calc n ^ 2 * a * |k| ≤ n ^ 2 * a * (c * (D / a) ^ 2) := by gcongr
      _ = _ := by field_simp
  refine ⟨sc _ _ _ _ key.1 ?_ rfl, sc _ _ _ _ key.2.1 ?_ rfl, sc _ _ _ _ key.2.2 ?_ rfl⟩
  · rw [← hmu]; field_simp; ring
  · rw [← hmu]; field_simp
  · rw [← hmu]; field_simp

/-- C94 between any two times -/
theorem relState_mismatch {a D n t u : ℝ} (ha : 0 < a) (hn : 0 < n) (hmu : n ^ 2 * a ^ 3 = Earth.MU)
    (b : OrthonormalBasis (Fin 3) ℝ Space) (R V : ℝ → Space) (hR : TwoBody Earth.MU (Set.uIcc t u) R V)
    (hD : ∀ s ∈ Set.uIcc t u, ‖R s - circular b a n s‖ ≤ D) (hDa : D ≤ a / 10) :
    let w := (relState b a n R V u).minus ((Hill.phi n (u - t)).mulVec (relState b a n R V t))
    let e := 25 * (n * (u - t)) ^ 2 * (D ^ 2 / a)
    let e' := 50 * |n * (u - t)| * n * (D ^ 2 / a)
    |w.x| ≤ e ∧ |w.y| ≤ e ∧ |w.z| ≤ e ∧ |w.vx| ≤ e' ∧ |w.vy| ≤ e' ∧ |w.vz| ≤ e' := by
  have hD0 : 0 ≤ D := (norm_nonneg _).trans (hD t Set.left_mem_uIcc)
  obtain ⟨hnorm, hpert⟩ := relative_motion (a := a) (n := n) b hR
  simp only [relState]
  obtain ⟨x, hx⟩ : ∃ x : ℝ → ℝ, x = fun t => relX b n t (R t - circular b a n t) := ⟨_, rfl⟩
  obtain ⟨y, hy⟩ : ∃ y : ℝ → ℝ, y = fun t => relY b n t (R t - circular b a n t) := ⟨_, rfl⟩
  obtain ⟨z, hz⟩ : ∃ z : ℝ → ℝ, z = fun t => relZ b (R t - circular b a n t) := ⟨_, rfl⟩
  have hx' : ∀ t, relX b n t (R t - circular b a n t) = x t := fun t => by rw [hx]
  have hy' : ∀ t, relY b n t (R t - circular b a n t) = y t := fun t => by rw [hy]
  have hz' : ∀ t, relZ b (R t - circular b a n t) = z t := fun t => by rw [hz]
  simp only [hx', hy', hz'] at hnorm hpert ⊢
  have hin : ∀ t' ∈ Set.uIcc t u,
      |-(Earth.MU / ‖R t'‖ ^ 3) * (a + x t') + n ^ 2 * a - 2 * n ^ 2 * x t'| ≤ 11 * (n ^ 2 * (D ^ 2 / a)) ∧
      |-(Earth.MU / ‖R t'‖ ^ 3) * y t' + n ^ 2 * y t'| ≤ 4 * (n ^ 2 * (D ^ 2 / a)) ∧
      |-(Earth.MU / ‖R t'‖ ^ 3) * z t' + n ^ 2 * z t'| ≤ 4 * (n ^ 2 * (D ^ 2 / a)) := by
    intro t ht
    have hd := rel_norm b n t (R t - circular b a n t)
    rw [hx', hy', hz'] at hd
    have hd2 : x t ^ 2 + y t ^ 2 + z t ^ 2 ≤ D ^ 2 := by
      rw [hd]; exact pow_le_pow_left₀ (norm_nonneg _) (hD t ht) 2
    exact attraction_error ha hmu hD0 hDa (hnorm t) (norm_nonneg _) hd2
  obtain ⟨vx, hvx⟩ : ∃ f : ℝ → ℝ, f = fun t => relX b n t (V t) + n * y t := ⟨_, rfl⟩
  obtain ⟨vy, hvy⟩ : ∃ f : ℝ → ℝ, f = fun t => relY b n t (V t) - n * (a + x t) := ⟨_, rfl⟩
  obtain ⟨vz, hvz⟩ : ∃ f : ℝ → ℝ, f = fun t => relZ b (V t) := ⟨_, rfl⟩
  have hvx' : ∀ t, relX b n t (V t) + n * y t = vx t := fun t => by rw [hvx]
  have hvy' : ∀ t, relY b n t (V t) - n * (a + x t) = vy t := fun t => by rw [hvy]
  have hvz' : ∀ t, relZ b (V t) = vz t := fun t => by rw [hvz]
  simp only [hvx', hvy', hvz'] at hpert ⊢
  have hs : ∀ v ∈ Set.uIcc 0 (u - t), t + v ∈ Set.uIcc t u := by
    intro v hv
    rw [Set.mem_uIcc] at hv ⊢
    rcases hv with hv | hv
    · left; constructor <;> linarith [hv.1, hv.2]
    · right; constructor <;> linarith [hv.1, hv.2]
  have err := perturbed_error (T := u - t) (x := fun v => x (t + v)) (y := fun v => y (t + v)) (z := fun v => z (t + v))
    (vx := fun v => vx (t + v)) (vy := fun v => vy (t + v)) (vz := fun v => vz (t + v)) hn
    ⟨fun v hv => (hpert.dx _ (hs v hv)).comp_const_add t v, fun v hv => (hpert.dy _ (hs v hv)).comp_const_add t v,
      fun v hv => (hpert.dz _ (hs v hv)).comp_const_add t v, fun v hv => (hpert.dvx _ (hs v hv)).comp_const_add t v,
      fun v hv => (hpert.dvy _ (hs v hv)).comp_const_add t v, fun v hv => (hpert.dvz _ (hs v hv)).comp_const_add t v⟩
    (fun v hv => (hin _ (hs v hv)).1) (fun v hv => (hin _ (hs v hv)).2.1) (fun v hv => (hin _ (hs v hv)).2.2)
  simp only [add_sub_cancel, add_zero] at err
  obtain ⟨k, hk⟩ : ∃ k, k = D ^ 2 / a := ⟨_, rfl⟩
  have hk0 : 0 ≤ k := by rw [hk]; positivity
  rw [← hk] at err ⊢
  obtain ⟨T, hT⟩ : ∃ T, T = u - t := ⟨_, rfl⟩
  rw [← hT] at err ⊢
  simp only [Vec6.minus]
  obtain ⟨g1, g2, g3, g4, g5, g6⟩ := err
  have hT : 0 ≤ n ^ 2 * k * T ^ 2 := by positivity
  have hT' : 0 ≤ n ^ 2 * k * |T| := by positivity
  have eT : 50 * |n * T| * n * k = 50 * (n ^ 2 * k * |T|) := by rw [abs_mul, abs_of_pos hn]; ring
  have eT2 : 25 * (n * T) ^ 2 * k = 25 * (n ^ 2 * k * T ^ 2) := by ring
  rw [eT, eT2]
  refine ⟨g1.trans ?_, g2.trans ?_, g3.trans ?_, g4.trans ?_, g5.trans ?_, g6.trans ?_⟩ <;> linarith

/-- In particular, let the observer be on a circular orbit of radius `a` and the target in two-body motion that stays
within `D ≤ a / 10` of it, with no more than `T` seconds between observations.  Then the prediction errors are covered by
`m = 3 (e² + e'²) / 1e-16` with `e = 25 (n T)² D² / a` and `e' = 50 n² T D² / a`. -/
theorem C126_two_body (epoch : Epoch) (st : State) (a D T : ℝ) (p : Hill) (hp : Hill.new st a = .ok p) (ha : 0 < a)
    (s : RelativeKalman) (h : RelativeKalman.new epoch p = .ok s)
    (b : OrthonormalBasis (Fin 3) ℝ Space) (R V : ℝ → Space) (lo hi : ℝ)
    (hR : TwoBody Earth.MU (Set.Icc lo hi) R V) (hD : ∀ t ∈ Set.Icc lo hi, ‖R t - circular b a p.n t‖ ≤ D)
    (hDa : D ≤ a / 10) (c : ℝ) (hc : 0 ≤ c)
    (h0 : Spec.Within c (s.x00.minus (relState b a p.n R V 0)).toFun s.p00.toMatrix) (obs : List (SpaceObservation × ℝ))
    (hT : List.IsChain (fun t u => |u - t| ≤ T ∧ t ∈ Set.Icc lo hi ∧ u ∈ Set.Icc lo hi)
      (0 :: obs.map fun od => (od.1.observer_state.epoch.value - epoch.value) * SECONDS_IN_DAY))
    (hobs : ∀ od ∈ obs, 0 ≤ od.2 ∧ ∃ z e, RelativeKalman.hillMeasurement od.1 = .ok z ∧
      RelativeKalman.hillErrors od.1 = .ok e ∧
      Spec.Within od.2 (z.minus
        (let Y := relState b a p.n R V ((od.1.observer_state.epoch.value - epoch.value) * SECONDS_IN_DAY);
          ⟨Y.x, Y.y, Y.z⟩)).toFun
        (Matrix.diagonal ![e.x ^ 2, e.y ^ 2, e.z ^ 2])) :
    ∃ s', RelativeKalman.processAll (obs.map Prod.fst) s = (.ok (), s') ∧
      let e := 25 * (p.n * T) ^ 2 * (D ^ 2 / a)
      let e' := 50 * (p.n * T) * p.n * (D ^ 2 / a)
      Spec.Within (c + (obs.map Prod.snd).sum + obs.length * (3 * (e ^ 2 + e' ^ 2) / 1e-16))
        (s'.x00.minus (relState b a p.n R V ((s'.epoch.value - epoch.value) * SECONDS_IN_DAY))).toFun
        s'.p00.toMatrix := by
  obtain ⟨p', hp', hn, hmu, -, -⟩ := hill_new_ok st ha
  rw [hp] at hp'; cases hp'
  refine C126_bound epoch p s h (relState b a p.n R V) c _ hc (by positivity) h0 obs (hT.imp ?_) hobs
  rintro t u ⟨htu, ht, hu⟩
  have hD0 : 0 ≤ D := (norm_nonneg _).trans (hD t ht)
  have hI : Set.uIcc t u ⊆ Set.Icc lo hi := Set.uIcc_subset_Icc ht hu
  refine ⟨_, Hill.systemMatrix_ok hn.ne' _, ?_⟩
  obtain ⟨w, hw⟩ : ∃ w, w = (relState b a p.n R V u).minus ((Hill.phi p.n (u - t)).mulVec (relState b a p.n R V t)) :=
    ⟨_, rfl⟩
  have key := relState_mismatch ha hn hmu b R V 
    ⟨fun t ht => hR.velocity t (hI ht), fun t ht => hR.attraction t (hI ht)⟩ (t := t) (u := u)
    (fun s hs => hD s (hI hs)) hDa
  simp only [← hw] at key ⊢
  obtain ⟨k, hk⟩ : ∃ k, k = D ^ 2 / a := ⟨_, rfl⟩
  have hk0 : 0 ≤ k := by rw [hk]; positivity
  rw [← hk] at key ⊢
  have hT0 : 0 ≤ T := (abs_nonneg _).trans htu
  have b1 : 25 * (p.n * (u - t)) ^ 2 * k ≤ 25 * (p.n * T) ^ 2 * k := by
    have : (p.n * (u - t)) ^ 2 ≤ (p.n * T) ^ 2 := by
      rw [mul_pow, mul_pow, ← sq_abs (u - t)]
      gcongr
    gcongr
  have b2 : 50 * |p.n * (u - t)| * p.n * k ≤ 50 * (p.n * T) * p.n * k := by
    rw [abs_mul, abs_of_pos hn]
    gcongr
  obtain ⟨g1, g2, g3, g4, g5, g6⟩ := key
  obtain ⟨e, he⟩ : ∃ e, e = 25 * (p.n * T) ^ 2 * k := ⟨_, rfl⟩
  obtain ⟨e', he'⟩ : ∃ e, e = 50 * (p.n * T) * p.n * k := ⟨_, rfl⟩
  rw [← he] at b1 ⊢
  rw [← he'] at b2 ⊢
  have sq1 : ∀ v B C : ℝ, |v| ≤ B → B ≤ C → v ^ 2 ≤ C ^ 2 := fun v B C h1 h2 => by
    rw [← sq_abs]; exact pow_le_pow_left₀ (abs_nonneg _) (h1.trans h2) 2
  refine within_mono ?_ ?_ (within_diagonal w.toFun (fun _ => 1e-16) (fun _ => by norm_num))
  · rw [Fin.sum_univ_six]
    simp only [Vec6.toFun, Matrix.cons_val, ← add_div]
    have := sq1 _ _ _ g1 b1
    have := sq1 _ _ _ g2 b1
    have := sq1 _ _ _ g3 b1
    have := sq1 _ _ _ g4 b2
    have := sq1 _ _ _ g5 b2
    have := sq1 _ _ _ g6 b2
    gcongr
    linarith
  · exact Matrix.PosSemidef.diagonal fun _ => by norm_num

/-! ## the hypotheses are met: a target on the orbit of a geosynchronous observer, ten kilometres behind -/

theorem within_diagonal_zero {n : Type} [Fintype n] [DecidableEq n] (e d : n → ℝ)
    (hd : ∀ i, 0 < d i ∨ d i = 0 ∧ e i = 0) : Spec.Within (∑ i, e i ^ 2 / d i) e (Matrix.diagonal d) := by
  have h0 : ∀ i, 0 ≤ d i := fun i => by rcases hd i with h | ⟨h, -⟩ <;> linarith
  intro w
  simp only [dotProduct, Matrix.mulVec_diagonal]
  refine Finset.sum_sq_le_sum_mul_sum_of_sq_le_mul _ (fun i _ => ?_) (fun i _ => ?_) (fun i _ => ?_)
  · have := h0 i; positivity
  · have := mul_nonneg (h0 i) (sq_nonneg (w i)); linarith
  · rcases hd i with h | ⟨h, h'⟩
    · have := h.ne'
      refine le_of_eq ?_
      field_simp
    · rw [h, h']; simp

/-- ten kilometres behind the observer -/
noncomputable def behindTarget : Vec3 := ⟨42164 * cos (-(10 / 42164)), 42164 * sin (-(10 / 42164)), 0⟩

/-- the observation of that target, with a range error of one tenth of the range -/
noncomputable def behindOb (t : Epoch) : SpaceObservation :=
  SpaceObservation.new (geoAt t) (behindTarget.minus ⟨42164, 0, 0⟩) ((behindTarget.minus ⟨42164, 0, 0⟩).magnitude / 10) 0

/-- the Hill coordinates of a position in the orbital plane of the observer -/
theorem geoAt_planar (t : Epoch) {X Y : ℝ} (hX : 0 < X) :
    ∃ hcw, gcrfToHcw (geoAt t) (GCRF.new t ⟨X, Y, 0⟩ (geoAt t).velocity) = .ok hcw ∧
      hcw.position = ⟨√(X ^ 2 + Y ^ 2) - 42164, pyAtan2 Y X * 42164, 0⟩ := by
  obtain ⟨hcw, -, h1, -⟩ := C32_round_trip (geoAt t) (geoAt_nonDegenerate t) (GCRF.new t ⟨X, Y, 0⟩ (geoAt t).velocity)
    (by
      rw [geoAt_cross]
      intro h
      have := congrArg Vec3.y h
      simp only [GCRF.new, State.new, Vec3.cross, Vec3.copy] at this
      have h1 : 0 < 42164 * 3.0747 * X := by positivity
      linarith)
  refine ⟨hcw, h1, ?_⟩
  have h2 := gcrfToHcw_position (geoAt_frame t) h1
  rw [h2]
  have hm : (GCRF.new t ⟨X, Y, 0⟩ (geoAt t).velocity).position.magnitude = √(X ^ 2 + Y ^ 2) :=
    Vec3.magnitude_of_dot (sqrt_nonneg _) (by
      rw [sq_sqrt (by positivity)]
      simp only [GCRF.new, State.new, Vec3.copy, Vec3.dot]
      ring)
  have hv : (⟨⟨1, 0, 0⟩, ⟨0, 1, 0⟩, ⟨0, 0, 1⟩⟩ : Mat3).mulVec
      (GCRF.new t ⟨X, Y, 0⟩ (geoAt t).velocity).position = ⟨X, Y, 0⟩ := by
    ext <;> simp [Mat3.mulVec, Vec3.dot, GCRF.new, State.new, Vec3.copy]
  rw [hm, hv, geoAt_magnitude]
  simp

theorem behind_measured (t : Epoch) : RelativeKalman.hillMeasurement (behindOb t) = .ok ⟨0, -10, 0⟩ ∧
    ∃ x y, x ≠ 0 ∧ y ≠ 0 ∧ RelativeKalman.hillErrors (behindOb t) = .ok ⟨x, y, 0⟩ := by
  have hs0 : 0 < sin (10 / 42164) := sin_pos_of_pos_of_lt_pi (by norm_num) (by linarith [pi_gt_three])
  have hcos : 0 < cos (10 / 42164) := cos_pos_of_mem_Ioo ⟨by linarith [pi_gt_three], by linarith [pi_gt_three]⟩
  have hcos1 : cos (10 / 42164) < 1 := by
    nlinarith [sin_sq_add_cos_sq (10 / 42164 : ℝ), cos_le_one (10 / 42164 : ℝ)]
  constructor
  · obtain ⟨hcw, h1, h2⟩ := geoAt_planar t (X := 42164 * cos (-(10 / 42164))) (Y := 42164 * sin (-(10 / 42164)))
      (by rw [cos_neg]; positivity)
    simp only [RelativeKalman.hillMeasurement, bind_eq_ok, pure_eq_ok, Except.ok.injEq]
    refine ⟨hcw, ?_, ?_⟩
    · rw [← h1]
      have hw : (geoAt t).position.plus (behindTarget.minus ⟨42164, 0, 0⟩) =
          ⟨42164 * cos (-(10 / 42164)), 42164 * sin (-(10 / 42164)), 0⟩ := by
        ext <;> simp [geoAt, GCRF.new, State.new, Vec3.copy, Vec3.plus, Vec3.minus, behindTarget]
      rw [← hw]
      rfl
    · rw [h2, pyAtan2_polar (by norm_num) (by linarith [pi_gt_three]) (by linarith [pi_gt_three]),
        show (42164 * cos (-(10 / 42164))) ^ 2 + (42164 * sin (-(10 / 42164))) ^ 2 = (42164 : ℝ) ^ 2 by
          linear_combination 42164 ^ 2 * sin_sq_add_cos_sq (-(10 / 42164) : ℝ), sqrt_sq (by norm_num)]
      ext <;> norm_num
  · obtain ⟨d, hd⟩ : ∃ d, d = behindTarget.minus ⟨42164, 0, 0⟩ := ⟨_, rfl⟩
    have hdx : d.x = 42164 * (cos (10 / 42164) - 1) := by
      rw [hd]; simp only [behindTarget, Vec3.minus, cos_neg]; ring
    have hdy : d.y = -(42164 * sin (10 / 42164)) := by
      rw [hd]; simp only [behindTarget, Vec3.minus, sin_neg]; ring
    have hdz : d.z = 0 := by rw [hd]; simp [behindTarget, Vec3.minus]
    have hsph : SphericalPosition.toCartesian ⟨(SphericalPosition.fromCartesian d).radius + d.magnitude / 10,
        (SphericalPosition.fromCartesian d).right_ascension + 0, (SphericalPosition.fromCartesian d).declination + 0⟩ =
        d.scaled 1.1 := by
      conv_rhs => rw [← C23_cartesian d]
      have : (SphericalPosition.fromCartesian d).radius = d.magnitude := rfl
      rw [add_zero, add_zero]
      ext <;> simp only [SphericalPosition.toCartesian, Vec3.scaled, this] <;> ring
    obtain ⟨hcw, h1, h2⟩ := geoAt_planar t (X := 42164 + d.x / 10) (Y := d.y / 10) (by rw [hdx]; linarith)
    refine ⟨√((42164 + d.x / 10) ^ 2 + (d.y / 10) ^ 2) - 42164, pyAtan2 (d.y / 10) (42164 + d.x / 10) * 42164, ?_, ?_, ?_⟩
    rotate_left 2
    · simp only [RelativeKalman.hillErrors, bind_eq_ok, pure_eq_ok, Except.ok.injEq]
      refine ⟨hcw, ?_, h2⟩
      rw [← h1]
      have hw : (geoAt t).position.plus ((d.scaled 1.1).minus d) = ⟨42164 + d.x / 10, d.y / 10, 0⟩ := by
        ext <;> simp only [geoAt, GCRF.new, State.new, Vec3.copy, Vec3.plus, Vec3.minus, Vec3.scaled, hdz] <;> ring
      rw [← hw, ← hsph, hd]
      rfl
    · intro h
      have h3 : √((42164 + d.x / 10) ^ 2 + (d.y / 10) ^ 2) ^ 2 = 42164 ^ 2 := by rw [sub_eq_zero.mp h]
      rw [sq_sqrt (by positivity), hdx, hdy] at h3
      nlinarith [sin_sq_add_cos_sq (10 / 42164 : ℝ)]
    · intro h
      have h3 : pyAtan2 (d.y / 10) (42164 + d.x / 10) = 0 := by simpa using h
      rw [pyAtan2, Complex.arg_eq_zero_iff] at h3
      have h4 : d.y / 10 = 0 := h3.2
      rw [hdy] at h4
      linarith

/-- the relative state of the target, the same at all times -/
theorem behind_relState (b : OrthonormalBasis (Fin 3) ℝ Space) (a n phi t : ℝ) :
    relState b a n (fun t => (a * cos (n * t - phi)) • b 0 + (a * sin (n * t - phi)) • b 1)
      (fun t => (-(a * n * sin (n * t - phi))) • b 0 + (a * n * cos (n * t - phi)) • b 1) t =
      ⟨a * (cos phi - 1), -(a * sin phi), 0, 0, 0, 0⟩ := by
  obtain ⟨h00, h11, h01, h10, h20, h21⟩ := basis_inner b
  have cs := cos_sq_add_sin_sq (n * t)
  have cp : cos phi = cos (n * t) * cos (n * t - phi) + sin (n * t) * sin (n * t - phi) := by
    rw [← cos_sub]; congr 1; ring
  have sp : sin phi = sin (n * t) * cos (n * t - phi) - cos (n * t) * sin (n * t - phi) := by
    rw [← sin_sub]; congr 1; ring
  ext <;> simp only [relState, relX, relY, relZ, circular, radial, inTrack, inner_sub_right, inner_add_left,
    inner_add_right, inner_smul_left, inner_smul_right, h00, h11, h01, h10, h20, h21, conj_trivial, cp, sp]
  · linear_combination -a * cs
  · ring
  · ring
  · ring
  · linear_combination a * n * cs
  · ring

/-- such a target can be observed at any sequence of times -/
example (ts : List Epoch) : ∃ (st : State) (p : Hill) (s s' : RelativeKalman) (b : OrthonormalBasis (Fin 3) ℝ Space)
    (R V : ℝ → Space) (C : ℝ), Hill.new st 42164 = .ok p ∧ RelativeKalman.new ⟨0⟩ p = .ok s ∧
    TwoBody Earth.MU Set.univ R V ∧ RelativeKalman.processAll (ts.map behindOb) s = (.ok (), s') ∧
    Spec.Within C (s'.x00.minus (relState b 42164 p.n R V (s'.epoch.value * SECONDS_IN_DAY))).toFun s'.p00.toMatrix := by
  have ha : (0 : ℝ) < 42164 := by norm_num
  obtain ⟨p, hp, hn, hmu, -, hst⟩ := hill_new_ok (State.new ⟨0⟩ ⟨0, -9, 0⟩ ⟨0, 0, 0⟩) ha
  have hs : ∃ s, RelativeKalman.new ⟨0⟩ p = .ok s := by
    simp only [RelativeKalman.new, Hill.systemMatrix_ok hn.ne', ok_bind, pure_eq_ok]
    exact ⟨_, rfl⟩
  obtain ⟨s, hs⟩ := hs
  let b := EuclideanSpace.basisFun (Fin 3) ℝ
  let R := fun t : ℝ => ((42164 : ℝ) * cos (p.n * t - 10 / 42164)) • b 0 + ((42164 : ℝ) * sin (p.n * t - 10 / 42164)) • b 1
  let V := fun t : ℝ => (-((42164 : ℝ) * p.n * sin (p.n * t - 10 / 42164))) • b 0 +
    ((42164 : ℝ) * p.n * cos (p.n * t - 10 / 42164)) • b 1
  obtain ⟨X0, hX0⟩ : ∃ X0 : Vec6, X0 = ⟨42164 * (cos (10 / 42164) - 1), -(42164 * sin (10 / 42164)), 0, 0, 0, 0⟩ :=
    ⟨_, rfl⟩
  have hrel : ∀ t, relState b 42164 p.n R V t = X0 := fun t => by
    rw [hX0]; exact behind_relState b 42164 p.n (10 / 42164) t
  obtain ⟨-, -, -, hpc, -⟩ := C54_initial ⟨0⟩ p s hs
  have h0 := within_diagonal (s.x00.minus X0).toFun (![0.5, 0.5, 0.5, 5e-5, 5e-5, 5e-5] : Fin 6 → ℝ)
    (by intro i; match i with | 0 | 1 | 2 | 3 | 4 | 5 => simp; try norm_num)
  rw [← hpc] at h0
  obtain ⟨c, hc⟩ : ∃ c, c = ∑ i, (s.x00.minus X0).toFun i ^ 2 / (![0.5, 0.5, 0.5, 5e-5, 5e-5, 5e-5] : Fin 6 → ℝ) i :=
    ⟨_, rfl⟩
  rw [← hc] at h0
  have hc0 : 0 ≤ c := by
    rw [hc]
    exact Finset.sum_nonneg fun i _ => by match i with | 0 | 1 | 2 | 3 | 4 | 5 => simp; positivity
  have hd : ∀ t, ∃ d, 0 ≤ d ∧ ∃ z e, RelativeKalman.hillMeasurement (behindOb t) = .ok z ∧
      RelativeKalman.hillErrors (behindOb t) = .ok e ∧
      Spec.Within d (z.minus ⟨X0.x, X0.y, X0.z⟩).toFun (Matrix.diagonal ![e.x ^ 2, e.y ^ 2, e.z ^ 2]) := by
    intro t
    obtain ⟨h1, x, y, hx, hy, h2⟩ := behind_measured t
    refine ⟨_, ?_, _, _, h1, h2, within_diagonal_zero _ _ ?_⟩
    · refine Finset.sum_nonneg fun i _ => ?_
      match i with | 0 | 1 | 2 => simp; try positivity
    · intro i
      match i with
      | 0 => left; simp only [Matrix.cons_val]; positivity
      | 1 => left; simp only [Matrix.cons_val]; positivity
      | 2 => right; simp [Vec3.minus, Vec3.toFun, hX0]
  choose d hd0 hd using hd
  obtain ⟨B, hB⟩ : ∃ B : ℝ, ∀ x ∈ (0 :: (ts.map fun t => (behindOb t, d t)).map
      fun od => (od.1.observer_state.epoch.value - (⟨0⟩ : Epoch).value) * SECONDS_IN_DAY), |x| ≤ B :=
    ⟨_, fun x hx => List.single_le_sum (l := (0 :: (ts.map fun t => (behindOb t, d t)).map
      fun od => (od.1.observer_state.epoch.value - (⟨0⟩ : Epoch).value) * SECONDS_IN_DAY).map abs)
      (by
        intro y hy
        obtain ⟨z, -, rfl⟩ := List.mem_map.mp hy
        exact abs_nonneg z) _ (List.mem_map_of_mem hx)⟩
  obtain ⟨s', h1, h2⟩ := C126_two_body ⟨0⟩ _ 42164 (42164 * (10 / 42164)) (2 * B) p hp ha s hs b R V (-B) B
    ⟨fun t _ => (trailing_twoBody ha hmu b Set.univ).velocity t trivial,
      fun t _ => (trailing_twoBody ha hmu b Set.univ).attraction t trivial⟩
    (fun t _ => trailing_distance ha (by norm_num) b t) (by norm_num) c hc0 (by rw [hrel]; exact h0) (ts.map fun t => (behindOb t, d t))
    (List.Pairwise.isChain (List.pairwise_of_forall_mem_list fun t ht u hu => by
      have h1 := abs_le.mp (hB t ht)
      have h2 := abs_le.mp (hB u hu)
      exact ⟨abs_le.mpr ⟨by linarith, by linarith⟩, h1, h2⟩))
    (by
      intro od hod
      obtain ⟨t, -, rfl⟩ := List.mem_map.mp hod
      refine ⟨hd0 t, ?_⟩
      simp only [hrel]
      exact hd t)
  have e1 : (ts.map fun t => (behindOb t, d t)).map Prod.fst = ts.map behindOb := by simp [Function.comp_def]
  rw [e1] at h1
  rw [show (s'.epoch.value - (⟨0⟩ : Epoch).value) = s'.epoch.value from sub_zero _] at h2
  exact ⟨_, p, s, s', b, R, V, _, hp, hs, trailing_twoBody ha hmu b Set.univ, h1, h2⟩

end Openspace
