import Verif.Lemmas.Kalman
import Mathlib.Algebra.Order.Star.Real
import Verif.Model.Filtering
import Verif.Props.Linalg
import Verif.Props.Hill
import Verif.Props.Positions
import Verif.Props.Maneuvers

/-!
# C51 to C54: the relative Kalman filter
-/

namespace Openspace

open Real

namespace RelativeKalman

/-! ## Histories -/

/-- the public methods of the filter -/
inductive Call
  | process (ob : SpaceObservation)
  | predict (dt : ℝ)
  | update
  | predictState (dt : ℝ)
  | predictCovariance
  | gain
  | updateState
  | updateCovariance

/-- calling a public method -/
noncomputable def Call.run : Call → PyM RelativeKalman Unit
  | .process ob => RelativeKalman.process ob
  | .predict dt => RelativeKalman.predict dt
  | .update => RelativeKalman.update
  | .predictState dt => RelativeKalman.predictState dt
  | .predictCovariance => RelativeKalman.predictCovariance
  | .gain => RelativeKalman.gain
  | .updateState => RelativeKalman.updateState
  | .updateCovariance => RelativeKalman.updateCovariance

/-- the filter after a sequence of calls, any of which may have raised -/
noncomputable def after (cs : List Call) (s : RelativeKalman) : RelativeKalman :=
  cs.foldl (fun s c => (c.run s).2) s

/-- what is always true of a filter -/
structure Inv (s : RelativeKalman) : Prop where
  n : s.propagator.n ≠ 0
  p00 : s.p00.toMatrix.PosSemidef
  q : s.q.toMatrix.PosDef
  p10 : ∀ p, s.p10 = some p → p.toMatrix.PosDef
  r : ∀ r, s.r = some r → r.toMatrix.PosSemidef

theorem diag6_toMatrix (a b c d e f : ℝ) :
    (diag6 a b c d e f).toMatrix = Matrix.diagonal ![a, b, c, d, e, f] := by
  ext i j
  rw [Matrix.diagonal_apply]
  match i with
  | 0 | 1 | 2 | 3 | 4 | 5 => match j with | 0 | 1 | 2 | 3 | 4 | 5 => simp [Mat6.toMatrix, diag6, Vec6.toFun]

theorem posDef_diag6 {a b c d e f : ℝ} (ha : 0 < a) (hb : 0 < b) (hc : 0 < c) (hd : 0 < d) (he : 0 < e)
    (hf : 0 < f) : (diag6 a b c d e f).toMatrix.PosDef := by
  rw [diag6_toMatrix]
  refine Matrix.PosDef.diagonal fun i => ?_
  match i with | 0 | 1 | 2 | 3 | 4 | 5 => simpa

theorem measurementCovariance_toMatrix (e : Vec3) :
    (measurementCovariance e).toMatrix = Matrix.diagonal ![e.x * e.x, e.y * e.y, e.z * e.z] := by
  ext i j
  rw [Matrix.diagonal_apply]
  match i with
  | 0 | 1 | 2 => match j with | 0 | 1 | 2 => simp [Mat3.toMatrix, measurementCovariance, Vec3.toFun]

theorem posSemidef_measurement (e : Vec3) : (measurementCovariance e).toMatrix.PosSemidef := by
  rw [measurementCovariance_toMatrix]
  refine Matrix.PosSemidef.diagonal fun i => ?_
  match i with | 0 | 1 | 2 => simpa using mul_self_nonneg _

theorem H_mul_HT : H.toMatrix * HT.toMatrix = 1 := by
  rw [HT, Mat36.transpose_toMatrix]
  ext i j
  match i with
  | 0 | 1 | 2 => match j with
    | 0 | 1 | 2 => simp [Matrix.mul_apply, Fin.sum_univ_six, Mat36.toMatrix, H, Vec6.toFun]

theorem HT_toMatrix : HT.toMatrix = H.toMatrix.transpose := Mat36.transpose_toMatrix _

/-- the matrix that the gain computation inverts -/
noncomputable def innovation (p : Mat6) (r : Mat3) : Mat3 := (H.mul63 (p.mul63 HT)).plus r

theorem innovation_toMatrix (p : Mat6) (r : Mat3) : (innovation p r).toMatrix =
    H.toMatrix * p.toMatrix * H.toMatrix.transpose + r.toMatrix := by
  rw [innovation, Mat3.plus_toMatrix, Mat36.mul63_toMatrix, Mat6.mul63_toMatrix, HT_toMatrix, Matrix.mul_assoc]

theorem innovation_posDef {p : Mat6} {r : Mat3} (hp : p.toMatrix.PosDef) (hr : r.toMatrix.PosSemidef) :
    (innovation p r).toMatrix.PosDef := by
  rw [innovation_toMatrix]
  exact posDef_innovation hp hr (by rw [← HT_toMatrix]; exact H_mul_HT)

/-- the gain -/
theorem gain_ok {p : Mat6} {r : Mat3} (hp : p.toMatrix.PosDef) (hr : r.toMatrix.PosSemidef) :
    ∃ inv, (innovation p r).inverse = .ok inv ∧
      (p.mul63 (HT.mul3 inv)).toMatrix * (innovation p r).toMatrix = p.toMatrix * H.toMatrix.transpose := by
  have hS := innovation_posDef hp hr
  obtain ⟨-, h, -⟩ := C02_inverse (innovation p r)
  obtain ⟨inv, h1, h2, h3⟩ := h hS.det_pos.ne'
  refine ⟨inv, h1, ?_⟩
  rw [Mat6.mul63_toMatrix, Mat63.mul3_toMatrix, Matrix.mul_assoc, Matrix.mul_assoc, h3, Matrix.mul_one, HT_toMatrix]

/-- the covariance update as the textbook formula -/
theorem joseph_toMatrix (k : Mat63) (r : Mat3) (p : Mat6) :
    (((I.minus (k.mul36 H)).mul (p.mul (I.minus (k.mul36 H)).transpose)).plus
      (k.mul36 (r.mul36 k.transpose))).toMatrix =
    Spec.updatedCovariance p.toMatrix H.toMatrix r.toMatrix k.toMatrix := by
  rw [Mat6.plus_toMatrix, Mat6.mul_toMatrix, Mat6.mul_toMatrix, Mat6.transpose_toMatrix, Mat6.minus_toMatrix,
    Mat63.mul36_toMatrix, Mat63.mul36_toMatrix, Mat3.mul36_toMatrix, Mat63.transpose_toMatrix, I,
    Mat6.identity_toMatrix, Spec.updatedCovariance, Matrix.mul_assoc, Matrix.mul_assoc]

/-- every public call keeps the invariant, whether it returns or raises -/
theorem Inv.predictState {s : RelativeKalman} (h : Inv s) (dt : ℝ) : Inv (RelativeKalman.predictState dt s).2 := by
  simp only [RelativeKalman.predictState, PyM.get_bind_apply, Hill.systemMatrix_ok h.n, PyM.lift_ok_bind_apply,
    PyM.modify_apply]
  exact ⟨h.n, h.p00, h.q, h.p10, h.r⟩

theorem Inv.predictCovariance {s : RelativeKalman} (h : Inv s) : Inv (RelativeKalman.predictCovariance s).2 := by
  simp only [RelativeKalman.predictCovariance, PyM.modify_apply]
  refine ⟨h.n, h.p00, h.q, ?_, h.r⟩
  intro p hp
  simp only [Option.some.injEq] at hp
  rw [← hp, Mat6.plus_toMatrix, Mat6.mul_toMatrix, Mat6.mul_toMatrix, Mat6.transpose_toMatrix, ← Matrix.mul_assoc]
  exact posDef_predict h.p00 h.q _

theorem Inv.gain {s : RelativeKalman} (h : Inv s) : Inv (RelativeKalman.gain s).2 := by
  simp only [RelativeKalman.gain, PyM.get_bind_apply]
  rcases hp : s.p10 with _ | p
  · exact h
  rcases hr : s.r with _ | r
  · exact h
  simp only [attr, PyM.lift_ok_bind_apply]
  rcases Mat3.inverse _ with e | inv
  · exact h
  simp only [PyM.lift_ok_bind_apply, PyM.modify_apply]
  exact ⟨h.n, h.p00, h.q, h.p10, h.r⟩

theorem Inv.updateState {s : RelativeKalman} (h : Inv s) : Inv (RelativeKalman.updateState s).2 := by
  simp only [RelativeKalman.updateState, PyM.get_bind_apply]
  rcases s.x10 with _ | x
  · exact h
  rcases s.k with _ | k
  · exact h
  rcases s.z with _ | z
  · exact h
  simp only [attr, PyM.lift_ok_bind_apply, PyM.modify_apply]
  exact ⟨h.n, h.p00, h.q, h.p10, h.r⟩

theorem Inv.updateCovariance {s : RelativeKalman} (h : Inv s) : Inv (RelativeKalman.updateCovariance s).2 := by
  simp only [RelativeKalman.updateCovariance, PyM.get_bind_apply]
  rcases s.k with _ | k
  · exact h
  rcases hr : s.r with _ | r
  · exact h
  rcases hp : s.p10 with _ | p
  · exact h
  simp only [attr, PyM.lift_ok_bind_apply, PyM.modify_apply]
  refine ⟨h.n, ?_, h.q, h.p10, h.r⟩
  simp only
  rw [joseph_toMatrix]
  exact posSemidef_updated (h.p10 p hp).posSemidef (h.r r hr) _ _

theorem Inv.bind {m : PyM RelativeKalman Unit} {f : Unit → PyM RelativeKalman Unit}
    (hm : ∀ s, Inv s → Inv (m s).2) (hf : ∀ u s, Inv s → Inv (f u s).2) :
    ∀ s, Inv s → Inv ((m >>= f) s).2 := by
  intro s hs
  rw [PyM.bind_apply]
  have := hm s hs
  rcases hms : m s with ⟨r, s'⟩
  rw [hms] at this
  cases r with
  | error e => exact this
  | ok u => exact hf u s' this

theorem Inv.predict {s : RelativeKalman} (h : Inv s) (dt : ℝ) : Inv (RelativeKalman.predict dt s).2 :=
  Inv.bind (fun _ h => h.predictState dt) (fun _ _ h => h.predictCovariance) s h

theorem Inv.update {s : RelativeKalman} (h : Inv s) : Inv (RelativeKalman.update s).2 :=
  Inv.bind (fun _ h => h.gain) (fun _ => Inv.bind (fun _ h => h.updateState) (fun _ _ h => h.updateCovariance)) s h

theorem Inv.process {s : RelativeKalman} (h : Inv s) (ob : SpaceObservation) : Inv (RelativeKalman.process ob s).2 := by
  simp only [RelativeKalman.process, PyM.get_bind_apply, PyM.modify_bind_apply]
  rcases hillMeasurement ob with e | z
  · exact ⟨h.n, h.p00, h.q, h.p10, h.r⟩
  simp only [PyM.lift_ok_bind_apply, PyM.modify_bind_apply]
  rcases hillErrors ob with e | err
  · exact ⟨h.n, h.p00, h.q, h.p10, h.r⟩
  simp only [PyM.lift_ok_bind_apply, PyM.modify_bind_apply]
  refine Inv.bind (fun _ h => h.predict _) (fun _ _ h => h.update) _ ⟨h.n, h.p00, h.q, h.p10, ?_⟩
  intro r hr
  simp only [Option.some.injEq] at hr
  rw [← hr]
  exact posSemidef_measurement err

theorem Inv.call {s : RelativeKalman} (h : Inv s) (c : Call) : Inv (c.run s).2 := by
  cases c with
  | process ob => exact h.process ob
  | predict dt => exact h.predict dt
  | update => exact h.update
  | predictState dt => exact h.predictState dt
  | predictCovariance => exact h.predictCovariance
  | gain => exact h.gain
  | updateState => exact h.updateState
  | updateCovariance => exact h.updateCovariance

theorem Inv.after {s : RelativeKalman} (h : Inv s) (cs : List Call) : Inv (RelativeKalman.after cs s) := by
  induction cs generalizing s with
  | nil => exact h
  | cons c cs ih => exact ih (h.call c)

theorem new_inv {epoch : Epoch} {p : Hill} {s : RelativeKalman} (h : RelativeKalman.new epoch p = .ok s) :
    Inv s ∧ s.p10 = none ∧ s.r = none := by
  have hn : p.n ≠ 0 := by
    intro hn
    simp [RelativeKalman.new, Hill.systemMatrix_raises hn] at h
  simp only [RelativeKalman.new, Hill.systemMatrix_ok hn, ok_bind, pure_eq_ok, Except.ok.injEq] at h
  subst h
  refine ⟨⟨hn, ?_, ?_, ?_, ?_⟩, rfl, rfl⟩
  · exact (posDef_diag6 (by norm_num) (by norm_num) (by norm_num) (by norm_num) (by norm_num) (by norm_num)).posSemidef
  · exact posDef_diag6 (by norm_num) (by norm_num) (by norm_num) (by norm_num) (by norm_num) (by norm_num)
  · intro p hp; cases hp
  · intro p hp; cases hp

/-- everything a call of `process` does when the two conversions of the observation succeed -/
theorem process_ok {s : RelativeKalman} (h : Inv s) {ob : SpaceObservation} {z e : Vec3}
    (hz : hillMeasurement ob = .ok z) (he : hillErrors ob = .ok e) :
    ∃ F P K X x', s.propagator.systemMatrix
        ((ob.observer_state.epoch.value - s.epoch.value) * SECONDS_IN_DAY) = .ok F ∧
      P = (F.mul (s.p00.mul F.transpose)).plus s.q ∧ P.toMatrix.PosDef ∧
      K.toMatrix * (innovation P (measurementCovariance e)).toMatrix = P.toMatrix * H.toMatrix.transpose ∧
      X = F.mulVec s.x00 ∧ x' = X.plus (K.mulVec (z.minus (H.mulVec X))) ∧
      process ob s = (.ok (),
        { s with
          epoch := ob.observer_state.epoch, z := some z, r := some (measurementCovariance e)
          range_error := ob.range_error, angular_error := ob.angular_error, f := F
          x10 := some X, p10 := some P, k := some K, x00 := x'
          propagator := { s.propagator with state := State.fromStateVector x' }
          p00 := ((I.minus (K.mul36 H)).mul (P.mul (I.minus (K.mul36 H)).transpose)).plus
            (K.mul36 ((measurementCovariance e).mul36 K.transpose)) }) := by
  obtain ⟨F, hF⟩ : ∃ F, s.propagator.systemMatrix
      ((ob.observer_state.epoch.value - s.epoch.value) * SECONDS_IN_DAY) = .ok F := ⟨_, Hill.systemMatrix_ok h.n _⟩
  have hP : ((F.mul (s.p00.mul F.transpose)).plus s.q).toMatrix.PosDef := by
    rw [Mat6.plus_toMatrix, Mat6.mul_toMatrix, Mat6.mul_toMatrix, Mat6.transpose_toMatrix, ← Matrix.mul_assoc]
    exact posDef_predict h.p00 h.q _
  obtain ⟨inv, hinv, hK⟩ := gain_ok hP (posSemidef_measurement e)
  refine ⟨F, _, _, _, _, hF, rfl, hP, hK, rfl, rfl, ?_⟩
  simp only [RelativeKalman.process, PyM.get_bind_apply, PyM.modify_bind_apply, hz, he, PyM.lift_ok_bind_apply]
  rw [PyM.bind_apply]
  simp only [RelativeKalman.predict, RelativeKalman.predictState, RelativeKalman.predictCovariance]
  rw [PyM.bind_apply]
  simp only [PyM.get_bind_apply, PyM.modify_apply, hF, PyM.lift_ok_bind_apply,
    RelativeKalman.update]
  rw [PyM.bind_apply]
  simp only [RelativeKalman.gain, PyM.get_bind_apply, attr, PyM.lift_ok_bind_apply]
  simp only [innovation] at hinv
  rw [hinv]
  simp only [PyM.lift_ok_bind_apply, PyM.modify_apply]
  rw [PyM.bind_apply]
  simp only [RelativeKalman.updateState, RelativeKalman.updateCovariance, PyM.get_bind_apply, attr,
    PyM.lift_ok_bind_apply, PyM.modify_apply]
  rfl

end RelativeKalman

/-! ## C51 -/

/-- whatever sequence of public methods is called on a new filter, and whichever of them raise, the
covariance is symmetric positive semidefinite and the predicted covariance, once set, positive definite -/
theorem C51_covariance (epoch : Epoch) (p : Hill) (s : RelativeKalman) (h : RelativeKalman.new epoch p = .ok s)
    (cs : List RelativeKalman.Call) :
    (RelativeKalman.after cs s).p00.toMatrix.PosSemidef ∧
    (RelativeKalman.after cs s).p00.toMatrix.IsSymm ∧
    ∀ p10, (RelativeKalman.after cs s).p10 = some p10 → p10.toMatrix.PosDef := by
  have hi := ((RelativeKalman.new_inv h).1).after cs
  refine ⟨hi.p00, ?_, hi.p10⟩
  have := hi.p00.isHermitian
  rwa [Matrix.IsHermitian, Matrix.conjTranspose_eq_transpose_of_trivial] at this

/-- in particular no variance is ever negative -/
theorem C51_variances (epoch : Epoch) (p : Hill) (s : RelativeKalman) (h : RelativeKalman.new epoch p = .ok s)
    (cs : List RelativeKalman.Call) (i : Fin 6) :
    0 ≤ (RelativeKalman.after cs s).p00.diagonal.toFun i := by
  rw [Mat6.diagonal_toFun]
  exact (C51_covariance epoch p s h cs).1.diag_nonneg

/-! ## C52 -/

/-- the matrix `H P Hᵀ + R` inverted by the gain computation has positive determinant in every state that
any history can reach -/
theorem C52_determinant (epoch : Epoch) (p : Hill) (s : RelativeKalman) (h : RelativeKalman.new epoch p = .ok s)
    (cs : List RelativeKalman.Call) (P : Mat6) (R : Mat3) (hP : (RelativeKalman.after cs s).p10 = some P)
    (hR : (RelativeKalman.after cs s).r = some R) :
    0 < (RelativeKalman.H.toMatrix * P.toMatrix * RelativeKalman.H.toMatrix.transpose + R.toMatrix).det := by
  have hi := ((RelativeKalman.new_inv h).1).after cs
  rw [← RelativeKalman.innovation_toMatrix]
  exact (RelativeKalman.innovation_posDef (hi.p10 P hP) (hi.r R hR)).det_pos

/-- so, after any history, processing an observation raises exactly when converting the observation to the
Hill frame raises, and never because of a singular matrix -/
theorem C52_never_singular (epoch : Epoch) (p : Hill) (s : RelativeKalman) (h : RelativeKalman.new epoch p = .ok s)
    (cs : List RelativeKalman.Call) (ob : SpaceObservation) (e : PyErr) :
    (RelativeKalman.process ob (RelativeKalman.after cs s)).1 = .error e ↔
      RelativeKalman.hillMeasurement ob = .error e ∨
      ((∃ z, RelativeKalman.hillMeasurement ob = .ok z) ∧ RelativeKalman.hillErrors ob = .error e) := by
  have hi := ((RelativeKalman.new_inv h).1).after cs
  generalize RelativeKalman.after cs s = s' at hi
  rcases hz : RelativeKalman.hillMeasurement ob with e1 | z
  · simp [RelativeKalman.process, hz]
  rcases he : RelativeKalman.hillErrors ob with e1 | e'
  · simp [RelativeKalman.process, hz, he]
  · obtain ⟨F, P, K, X, x', -, -, -, -, -, -, h⟩ := RelativeKalman.process_ok hi hz he
    simp [h]

/-- and the gain computation itself can only complain about attributes that were never set -/
theorem C52_gain (epoch : Epoch) (p : Hill) (s : RelativeKalman) (h : RelativeKalman.new epoch p = .ok s)
    (cs : List RelativeKalman.Call) (e : PyErr) (he : (RelativeKalman.gain (RelativeKalman.after cs s)).1 = .error e) :
    e = .attributeError := by
  have hi := ((RelativeKalman.new_inv h).1).after cs
  generalize RelativeKalman.after cs s = s' at *
  rcases hp : s'.p10 with _ | P
  · simpa [RelativeKalman.gain, hp, RelativeKalman.attr, eq_comm] using he
  rcases hr : s'.r with _ | R
  · simpa [RelativeKalman.gain, hp, hr, RelativeKalman.attr, eq_comm] using he
  obtain ⟨inv, hinv, -⟩ := RelativeKalman.gain_ok (hi.p10 P hp) (hi.r R hr)
  simp only [RelativeKalman.innovation] at hinv
  simp [RelativeKalman.gain, hp, hr, RelativeKalman.attr, hinv] at he

/-- the observer must be on a non-degenerate orbit, and neither the measured point nor the point displaced
by the measurement errors may lie exactly on the orbit normal; then processing succeeds, after any history -/
theorem C52_succeeds (epoch : Epoch) (p : Hill) (s : RelativeKalman) (h : RelativeKalman.new epoch p = .ok s)
    (cs : List RelativeKalman.Call) (ob : SpaceObservation) (ho : ob.observer_state.NonDegenerate)
    (h1 : (ob.observer_state.position.cross ob.observer_state.velocity).cross
      (ob.observer_state.position.plus ob.observed_direction) ≠ ⟨0, 0, 0⟩)
    (h2 : (ob.observer_state.position.cross ob.observer_state.velocity).cross
      (ob.observer_state.position.plus ((SphericalPosition.toCartesian ⟨ob.range + ob.range_error,
        ob.right_ascension + ob.angular_error, ob.declination + ob.angular_error⟩).minus
          ob.observed_direction)) ≠ ⟨0, 0, 0⟩) :
    ∃ s', RelativeKalman.process ob (RelativeKalman.after cs s) = (.ok (), s') := by
  have hi := ((RelativeKalman.new_inv h).1).after cs
  obtain ⟨z, -, hz, -⟩ := C32_round_trip ob.observer_state ho (GCRF.new ob.observer_state.epoch
    (ob.observer_state.position.plus ob.observed_direction) ob.observer_state.velocity) h1
  obtain ⟨e, -, he, -⟩ := C32_round_trip ob.observer_state ho (GCRF.new ob.observer_state.epoch
    (ob.observer_state.position.plus ((SphericalPosition.toCartesian ⟨ob.range + ob.range_error,
        ob.right_ascension + ob.angular_error, ob.declination + ob.angular_error⟩).minus
          ob.observed_direction)) ob.observer_state.velocity) h2
  obtain ⟨F, P, K, X, x', -, -, -, -, -, -, hp⟩ := RelativeKalman.process_ok hi
    (ob := ob) (z := z.position) (e := e.position)
    (by simp only [RelativeKalman.hillMeasurement, hz, ok_bind, pure_eq_ok])
    (by simp only [RelativeKalman.hillErrors, he, ok_bind, pure_eq_ok])
  exact ⟨_, hp⟩

/-- a concrete filter and observation: an error-free sighting 10 km ahead of a geosynchronous observer can be
processed after any history -/
theorem geo_process (cs : List RelativeKalman.Call) : ∃ p s s',
    Hill.new (State.new ⟨0⟩ ⟨1, 2, 3⟩ ⟨0, 0, 0⟩) 42164 = .ok p ∧ RelativeKalman.new geoState.epoch p = .ok s ∧
    RelativeKalman.process (SpaceObservation.new geoState ⟨0, 10, 0⟩ 0 0) (RelativeKalman.after cs s) = (.ok (), s') := by
  obtain ⟨p, hp, hn, -⟩ := hill_new_ok (State.new ⟨0⟩ ⟨1, 2, 3⟩ ⟨0, 0, 0⟩) (show (0:ℝ) < 42164 by norm_num)
  have hs : ∃ s, RelativeKalman.new geoState.epoch p = .ok s := by
    simp only [RelativeKalman.new, Hill.systemMatrix_ok hn.ne', ok_bind, pure_eq_ok]
    exact ⟨_, rfl⟩
  obtain ⟨s, hs⟩ := hs
  have hsph := C23_cartesian ⟨0, 10, 0⟩
  obtain ⟨s', h⟩ := C52_succeeds _ p s hs cs (SpaceObservation.new geoState ⟨0, 10, 0⟩ 0 0)
    geoState_nonDegenerate
    (by
      simp only [SpaceObservation.new, geoState, GCRF.copy, GCRF.new, State.new, Vec3.cross, Vec3.copy, Vec3.plus]
      intro h
      have := congrArg Vec3.x h
      norm_num at this)
    (by
      simp only [SpaceObservation.new, add_zero]
      rw [hsph]
      simp only [geoState, GCRF.copy, GCRF.new, State.new, Vec3.cross, Vec3.copy, Vec3.plus, Vec3.minus]
      intro h
      have := congrArg Vec3.y h
      norm_num at this)
  exact ⟨p, s, s', hp, hs, h⟩

/-! ## C53 -/

/-- every successful call of `process`, after any history, is the minimum-variance update: the new
covariance is `(1 - K H) P`, it is below the predicted covariance `P`, and below what any other gain `G`
would have given -/
theorem C53_optimal (epoch : Epoch) (p : Hill) (s : RelativeKalman) (h : RelativeKalman.new epoch p = .ok s)
    (cs : List RelativeKalman.Call) (ob : SpaceObservation) (s' : RelativeKalman)
    (hs' : RelativeKalman.process ob (RelativeKalman.after cs s) = (.ok (), s')) :
    ∃ P K R, s'.p10 = some P ∧ s'.k = some K ∧ s'.r = some R ∧
      s'.p00.toMatrix =
        Spec.updatedCovariance P.toMatrix RelativeKalman.H.toMatrix R.toMatrix K.toMatrix ∧
      s'.p00.toMatrix = (1 - K.toMatrix * RelativeKalman.H.toMatrix) * P.toMatrix ∧
      (P.toMatrix - s'.p00.toMatrix).PosSemidef ∧
      ∀ G : Matrix (Fin 6) (Fin 3) ℝ,
        (Spec.updatedCovariance P.toMatrix RelativeKalman.H.toMatrix R.toMatrix G - s'.p00.toMatrix).PosSemidef := by
  have hi := ((RelativeKalman.new_inv h).1).after cs
  generalize RelativeKalman.after cs s = s0 at *
  rcases hz : RelativeKalman.hillMeasurement ob with e1 | z
  · simp [RelativeKalman.process, hz] at hs'
  rcases he : RelativeKalman.hillErrors ob with e1 | e'
  · simp [RelativeKalman.process, hz, he] at hs'
  obtain ⟨F, P, K, X, x', -, -, hP, hK, -, -, hp⟩ := RelativeKalman.process_ok hi hz he
  rw [hp] at hs'
  simp only [Prod.mk.injEq, true_and] at hs'
  subst hs'
  have hR := RelativeKalman.posSemidef_measurement e'
  have hS := RelativeKalman.innovation_posDef hP hR
  rw [RelativeKalman.innovation_toMatrix] at hK hS
  have key := updated_optimal hP.isHermitian hR.isHermitian hK
  refine ⟨P, K, _, rfl, rfl, rfl, RelativeKalman.joseph_toMatrix _ _ _, ?_, ?_, ?_⟩
  all_goals simp only [RelativeKalman.joseph_toMatrix]
  · exact (key 0).1
  · rw [(key 0).2.1, sub_sub_cancel]
    exact posSemidef_congr hS.posSemidef _
  · intro G
    rw [(key G).2.2, add_sub_cancel_left]
    exact posSemidef_congr hS.posSemidef _

/-! ## C54 -/

/-- an error-free observation has zero Hill-frame errors -/
theorem hillErrors_exact {o : GCRF} {d e : Vec3}
    (h : RelativeKalman.hillErrors (SpaceObservation.new o d 0 0) = .ok e) : e = ⟨0, 0, 0⟩ := by
  have hsph : SphericalPosition.toCartesian ⟨(SpaceObservation.new o d 0 0).range + 0,
      (SpaceObservation.new o d 0 0).right_ascension + 0, (SpaceObservation.new o d 0 0).declination + 0⟩ = d := by
    simp only [add_zero]; exact C23_cartesian d
  have hrange : (SpaceObservation.new o d 0 0).range_error = 0 := rfl
  have hang : (SpaceObservation.new o d 0 0).angular_error = 0 := rfl
  have hdir : (SpaceObservation.new o d 0 0).observed_direction = d := rfl
  have hobs : (SpaceObservation.new o d 0 0).observer_state = o.copy := rfl
  simp only [RelativeKalman.hillErrors, hrange, hang, hsph, hdir, hobs] at h
  have hz : d.minus d = ⟨0, 0, 0⟩ := by ext <;> simp [Vec3.minus]
  have hpz : o.copy.position.plus ⟨0, 0, 0⟩ = o.copy.position := by ext <;> simp [Vec3.plus]
  rw [hz, hpz] at h
  simp only [bind_eq_ok, pure_eq_ok, Except.ok.injEq] at h
  obtain ⟨hh, h1, rfl⟩ := h
  by_cases hc : o.copy.position.cross o.copy.velocity = ⟨0, 0, 0⟩
  · exfalso
    simp only [gcrfToHcw, bind_eq_ok, frameMatrix, hc] at h1
    obtain ⟨M, ⟨_, -, c, h3, -⟩, -⟩ := h1
    rw [Vec3.normalized_eq_ok] at h3
    exact h3.1 rfl
  have hnd : o.copy.NonDegenerate := nonDegenerate_iff.mpr hc
  have hR := Vec3.magnitude_pos.mpr (position_ne_of_cross hc)
  obtain ⟨M, hM, -⟩ := C33_frame o.copy hnd
  have hat := hcwToGcrf_at_origin hc hM o.copy.epoch ⟨0, 0, 0⟩
  obtain ⟨g, k, g1, g2, g3, -⟩ := C31_round_trip o.copy hnd (State.new o.copy.epoch ⟨0, 0, 0⟩ ⟨0, 0, 0⟩)
    (by simp [State.new, Vec3.copy]; exact hR) (by simp [State.new, Vec3.copy]; positivity)
    (by simp [State.new, Vec3.copy]; positivity)
  rw [hat] at g1
  simp only [Except.ok.injEq] at g1
  have e0 : o.copy.velocity.plus (M.transpose.mulVec ⟨0, 0, 0⟩) = o.copy.velocity := by
    ext <;> simp [Vec3.plus, Mat3.mulVec, Vec3.dot]
  rw [e0] at g1
  rw [← g1, h1] at g2
  cases g2
  rw [g3]; rfl

/-- with an error-free observation, the position part of the updated state is the measurement -/
theorem C54_exact_measurement (epoch : Epoch) (p : Hill) (s : RelativeKalman)
    (h : RelativeKalman.new epoch p = .ok s) (cs : List RelativeKalman.Call) (o : GCRF) (d : Vec3)
    (s' : RelativeKalman)
    (hs' : RelativeKalman.process (SpaceObservation.new o d 0 0) (RelativeKalman.after cs s) = (.ok (), s')) :
    ∃ hcw, gcrfToHcw o.copy (GCRF.new o.epoch (o.position.plus d) o.velocity) = .ok hcw ∧
      s'.x00.x = hcw.position.x ∧ s'.x00.y = hcw.position.y ∧ s'.x00.z = hcw.position.z := by
  have hi := ((RelativeKalman.new_inv h).1).after cs
  generalize RelativeKalman.after cs s = s0 at *
  rcases hz : RelativeKalman.hillMeasurement (SpaceObservation.new o d 0 0) with e1 | z
  · simp [RelativeKalman.process, hz] at hs'
  rcases he : RelativeKalman.hillErrors (SpaceObservation.new o d 0 0) with e1 | e'
  · simp [RelativeKalman.process, hz, he] at hs'
  obtain ⟨F, P, K, X, x', -, -, hP, hK, -, hx, hp⟩ := RelativeKalman.process_ok hi hz he
  rw [hp] at hs'
  simp only [Prod.mk.injEq, true_and] at hs'
  have he0 := hillErrors_exact he
  subst he0
  have hz' := hz
  simp only [RelativeKalman.hillMeasurement, bind_eq_ok, pure_eq_ok, Except.ok.injEq] at hz'
  obtain ⟨hcw, hh, hzz⟩ := hz'
  refine ⟨hcw, hh, ?_⟩
  -- with R = 0 the gain satisfies H K = 1
  have hS := RelativeKalman.innovation_posDef hP (RelativeKalman.posSemidef_measurement ⟨0, 0, 0⟩)
  have hR0 : (RelativeKalman.measurementCovariance ⟨0, 0, 0⟩).toMatrix = 0 := by
    rw [RelativeKalman.measurementCovariance_toMatrix]
    ext i j
    rw [Matrix.diagonal_apply]
    match i with
    | 0 | 1 | 2 => simp
  have hHK : RelativeKalman.H.toMatrix * K.toMatrix = 1 := by
    have hu := hS.isUnit
    have e1 : RelativeKalman.H.toMatrix * K.toMatrix *
        (RelativeKalman.innovation P (RelativeKalman.measurementCovariance ⟨0, 0, 0⟩)).toMatrix =
        1 * (RelativeKalman.innovation P (RelativeKalman.measurementCovariance ⟨0, 0, 0⟩)).toMatrix := by
      rw [Matrix.mul_assoc, hK, Matrix.one_mul, RelativeKalman.innovation_toMatrix, hR0, add_zero, Matrix.mul_assoc]
    exact hu.mul_right_cancel e1
  have hfinal : RelativeKalman.H.mulVec x' = z := by
    have inj : ∀ a b : Vec3, a.toFun = b.toFun → a = b := by
      intro a b hab
      have h0 := congrFun hab 0; have h1 := congrFun hab 1; have h2 := congrFun hab 2
      simp [Vec3.toFun] at h0 h1 h2
      ext <;> assumption
    apply inj
    rw [Mat36.mulVec_toFun, hx, Vec6.plus_toFun, Matrix.mulVec_add, Mat63.mulVec_toFun, Matrix.mulVec_mulVec, hHK,
      Matrix.one_mulVec, Vec3.minus_toFun, Mat36.mulVec_toFun, add_sub_cancel]
  rw [← hs']
  simp only
  rw [hzz, ← hfinal]
  simp [RelativeKalman.H, Mat36.mulVec, Vec6.dot]

/-- if the prediction already agrees with the measurement, the update does not change the state -/
theorem C54_no_innovation (epoch : Epoch) (p : Hill) (s : RelativeKalman)
    (h : RelativeKalman.new epoch p = .ok s) (cs : List RelativeKalman.Call) (ob : SpaceObservation)
    (s' : RelativeKalman) (X : Vec6) (z : Vec3)
    (hs' : RelativeKalman.process ob (RelativeKalman.after cs s) = (.ok (), s'))
    (hX : s'.x10 = some X) (hz : s'.z = some z) (heq : z = ⟨X.x, X.y, X.z⟩) : s'.x00 = X := by
  have hi := ((RelativeKalman.new_inv h).1).after cs
  generalize RelativeKalman.after cs s = s0 at *
  rcases hz' : RelativeKalman.hillMeasurement ob with e1 | z'
  · simp [RelativeKalman.process, hz'] at hs'
  rcases he : RelativeKalman.hillErrors ob with e1 | e'
  · simp [RelativeKalman.process, hz', he] at hs'
  obtain ⟨F, P, K, X', x', -, -, hP, hK, -, hx, hp⟩ := RelativeKalman.process_ok hi hz' he
  rw [hp] at hs'
  simp only [Prod.mk.injEq, true_and] at hs'
  subst hs'
  simp only [Option.some.injEq] at hX hz
  subst hX hz
  rw [hx, heq]
  ext <;> simp [RelativeKalman.H, Mat36.mulVec, Mat63.mulVec, Vec6.dot, Vec6.plus, Vec3.dot, Vec3.minus]

/-- the prediction is the Clohessy-Wiltshire propagation over the time since the last observation, the
filter's epoch becomes that of the observation, and the propagator holds the updated state -/
theorem C54_bookkeeping (epoch : Epoch) (p : Hill) (s : RelativeKalman)
    (h : RelativeKalman.new epoch p = .ok s) (cs : List RelativeKalman.Call) (ob : SpaceObservation)
    (s' : RelativeKalman)
    (hs' : RelativeKalman.process ob (RelativeKalman.after cs s) = (.ok (), s')) :
    s'.epoch = ob.observer_state.epoch ∧
    (∃ F, (RelativeKalman.after cs s).propagator.systemMatrix
        ((ob.observer_state.epoch.value - (RelativeKalman.after cs s).epoch.value) * SECONDS_IN_DAY) = .ok F ∧
      s'.x10 = some (F.mulVec (RelativeKalman.after cs s).x00)) ∧
    s'.propagator.state.vector = s'.x00 ∧ s'.propagator.n = (RelativeKalman.after cs s).propagator.n := by
  have hi := ((RelativeKalman.new_inv h).1).after cs
  generalize RelativeKalman.after cs s = s0 at *
  rcases hz' : RelativeKalman.hillMeasurement ob with e1 | z'
  · simp [RelativeKalman.process, hz'] at hs'
  rcases he : RelativeKalman.hillErrors ob with e1 | e'
  · simp [RelativeKalman.process, hz', he] at hs'
  obtain ⟨F, P, K, X', x', hF, -, hP, hK, hX, hx, hp⟩ := RelativeKalman.process_ok hi hz' he
  rw [hp] at hs'
  simp only [Prod.mk.injEq, true_and] at hs'
  subst hs'
  exact ⟨rfl, ⟨F, hF, by rw [hX]⟩, rfl, rfl⟩

/-- a new filter starts at the given time from the state of the given propagator, with standard deviations of
`√0.5` km and `√5e-5` km/s and a process noise of `1e-16` in every coordinate, so the first prediction covers the time
from the given epoch to the first observation -/
theorem C54_initial (epoch : Epoch) (p : Hill) (s : RelativeKalman) (h : RelativeKalman.new epoch p = .ok s) :
    s.epoch = epoch ∧ s.propagator = p ∧ s.x00 = p.state.vector ∧
    s.p00.toMatrix = Matrix.diagonal ![0.5, 0.5, 0.5, 5e-5, 5e-5, 5e-5] ∧
    s.q.toMatrix = Matrix.diagonal ![1e-16, 1e-16, 1e-16, 1e-16, 1e-16, 1e-16] ∧
    ∀ (ob : SpaceObservation) (s' : RelativeKalman), RelativeKalman.process ob s = (.ok (), s') →
      ∃ F, p.systemMatrix ((ob.observer_state.epoch.value - epoch.value) * SECONDS_IN_DAY) = .ok F ∧
        s'.x10 = some (F.mulVec p.state.vector) := by
  have hb := C54_bookkeeping epoch p s h []
  simp only [RelativeKalman.new, bind_eq_ok, pure_eq_ok, Except.ok.injEq] at h
  obtain ⟨f, -, rfl⟩ := h
  exact ⟨rfl, rfl, rfl, RelativeKalman.diag6_toMatrix _ _ _ _ _ _, RelativeKalman.diag6_toMatrix _ _ _ _ _ _,
    fun ob s' h => (hb ob s' h).2.1⟩

end Openspace
