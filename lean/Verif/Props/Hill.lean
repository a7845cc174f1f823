import Verif.Lemmas.Matrix
import Verif.Model.Relative
import Verif.Spec.Hill
import Mathlib.Analysis.SpecialFunctions.Trigonometric.Deriv
import Mathlib.Analysis.Calculus.MeanValue

/-!
# C48 to C50: the relative-motion propagator
-/

namespace Openspace

open Real

/-! ## The transition matrix -/

namespace Hill

/-- the entries of the transition matrix -/
noncomputable def phi (n t : ℝ) : Mat6 :=
  ⟨⟨4 - 3 * cos (n * t), 0, 0, sin (n * t) * (1 / n), 2 * (1 - cos (n * t)) * (1 / n), 0⟩,
   ⟨6 * (sin (n * t) - n * t), 1, 0, -2 * (1 - cos (n * t)) * (1 / n),
     (4 * sin (n * t) - 3 * n * t) * (1 / n), 0⟩,
   ⟨0, 0, cos (n * t), 0, 0, sin (n * t) * (1 / n)⟩,
   ⟨3 * n * sin (n * t), 0, 0, cos (n * t), 2 * sin (n * t), 0⟩,
   ⟨-6 * n * (1 - cos (n * t)), 0, 0, -2 * sin (n * t), 4 * cos (n * t) - 3, 0⟩,
   ⟨0, 0, -n * sin (n * t), 0, 0, cos (n * t)⟩⟩

theorem systemMatrix_ok {p : Hill} (hn : p.n ≠ 0) (t : ℝ) : p.systemMatrix t = .ok (phi p.n t) := by
  simp only [systemMatrix, pyDiv_ok hn, ok_bind, pure_eq_ok, pySin, pyCos, phi]

theorem systemMatrix_raises {p : Hill} (hn : p.n = 0) (t : ℝ) :
    p.systemMatrix t = .error .zeroDivision := by
  simp only [systemMatrix, hn, pyDiv_zero, error_bind]

theorem phi_zero_mulVec (n : ℝ) (x : Vec6) : (phi n 0).mulVec x = x := by
  ext <;> simp [phi, Mat6.mulVec, Vec6.dot] <;> ring

theorem phi_add_mulVec {n : ℝ} (hn : n ≠ 0) (s t : ℝ) (x : Vec6) :
    (phi n (s + t)).mulVec x = (phi n s).mulVec ((phi n t).mulVec x) := by
  ext <;> simp only [phi, Mat6.mulVec, Vec6.dot, mul_add n s t, sin_add, cos_add] <;> field_simp <;> ring

theorem stepBySeconds_ok {p : Hill} (hn : p.n ≠ 0) (t : ℝ) :
    stepBySeconds t p = (.ok (), { p with state := State.fromStateVector ((phi p.n t).mulVec p.state.vector) }) := by
  simp only [stepBySeconds, PyM.get_bind_apply, systemMatrix_ok hn, PyM.lift_ok_bind_apply, PyM.modify_apply]

theorem hasDerivAt_trig (n A B C D t : ℝ) :
    HasDerivAt (fun t => A + B * sin (n * t) + C * cos (n * t) + D * t)
      (B * cos (n * t) * n - C * sin (n * t) * n + D) t := by
  have hl : HasDerivAt (fun t => n * t) n t := by simpa using (hasDerivAt_id t).const_mul n
  have e := (((hl.sin.const_mul B).const_add A).add (hl.cos.const_mul C)).add ((hasDerivAt_id t).const_mul D)
  exact e.congr_deriv (by ring)

theorem mulVec_eq_of_toMatrix {m k : Mat6} (h : ∀ x, m.mulVec x = k.mulVec x) : m.toMatrix = k.toMatrix := by
  apply Matrix.mulVec_injective
  ext v i
  have := h ⟨v 0, v 1, v 2, v 3, v 4, v 5⟩
  have e : (⟨v 0, v 1, v 2, v 3, v 4, v 5⟩ : Vec6).toFun = v := by
    ext i; match i with | 0 | 1 | 2 | 3 | 4 | 5 => rfl
  rw [← e, ← Mat6.mulVec_toFun, ← Mat6.mulVec_toFun, this]

end Hill

/-! ## C48 -/

/-- constructing with a positive semi-major axis succeeds and gives the mean motion of Kepler's third law -/
theorem C48_mean_motion (s : State) {a : ℝ} (ha : 0 < a) :
    ∃ p, Hill.new s a = .ok p ∧ 0 < p.n ∧ p.n ^ 2 * a ^ 3 = Earth.MU ∧ p.sma = a ∧ p.state = s.copy := by
  have hmu : 0 < Earth.MU := by norm_num [Earth.MU]
  have h3 : 0 < a * a * a := by positivity
  have hq : 0 < Earth.MU / (a * a * a) := by positivity
  refine ⟨⟨s.copy, a, √(Earth.MU / (a * a * a)), 600⟩, ?_, sqrt_pos.mpr hq, ?_, rfl, rfl⟩
  · simp only [Hill.new, pyDiv_ok h3.ne', ok_bind, pySqrt_ok hq.le, pure_eq_ok]
  · simp only
    rw [sq_sqrt hq.le]; field_simp

theorem hill_new_ok (s : State) {a : ℝ} (ha : 0 < a) :
    ∃ p, Hill.new s a = .ok p ∧ 0 < p.n ∧ p.n ^ 2 * a ^ 3 = Earth.MU ∧ p.sma = a ∧ p.state = s.copy :=
  C48_mean_motion s ha

/-- at time zero the matrix is the identity -/
theorem C48_identity (p : Hill) (hn : p.n ≠ 0) : ∃ S, p.systemMatrix 0 = .ok S ∧ S.toMatrix = 1 := by
  refine ⟨_, Hill.systemMatrix_ok hn 0, ?_⟩
  rw [← Mat6.identity_toMatrix]
  apply Hill.mulVec_eq_of_toMatrix
  intro x
  rw [Hill.phi_zero_mulVec]
  ext <;> simp [Mat6.identity, Mat6.mulVec, Vec6.dot]

/-- group law -/
theorem C48_group (p : Hill) (hn : p.n ≠ 0) (s t : ℝ) :
    ∃ A B C, p.systemMatrix s = .ok A ∧ p.systemMatrix t = .ok B ∧ p.systemMatrix (s + t) = .ok C ∧
      C.toMatrix = A.toMatrix * B.toMatrix := by
  refine ⟨_, _, _, Hill.systemMatrix_ok hn s, Hill.systemMatrix_ok hn t, Hill.systemMatrix_ok hn _, ?_⟩
  rw [← Mat6.mul_toMatrix]
  apply Hill.mulVec_eq_of_toMatrix
  intro x
  rw [Hill.phi_add_mulVec hn]
  apply Vec6.toFun_injective
  rw [Mat6.mulVec_toFun, Mat6.mulVec_toFun, Mat6.mulVec_toFun, Mat6.mul_toMatrix, Matrix.mulVec_mulVec]

/-- the propagated state is a solution of the Clohessy-Wiltshire equations -/
theorem C48_solves (p : Hill) (hn : p.n ≠ 0) (x₀ : Vec6) :
    ∃ X : ℝ → Vec6, (∀ t, ∃ S, p.systemMatrix t = .ok S ∧ X t = S.mulVec x₀) ∧ X 0 = x₀ ∧
      Spec.ClohessyWiltshire p.n (fun t => (X t).x) (fun t => (X t).y) (fun t => (X t).z)
        (fun t => (X t).vx) (fun t => (X t).vy) (fun t => (X t).vz) := by
  refine ⟨fun t => (Hill.phi p.n t).mulVec x₀, fun t => ⟨_, Hill.systemMatrix_ok hn t, rfl⟩,
    Hill.phi_zero_mulVec _ _, ?_⟩
  generalize p.n = n at *
  constructor <;> intro t
  all_goals simp only [Hill.phi, Mat6.mulVec, Vec6.dot]
  · have e := Hill.hasDerivAt_trig n (4 * x₀.x + 2 * (1 / n) * x₀.vy) (1 / n * x₀.vx) (-3 * x₀.x - 2 * (1 / n) * x₀.vy) 0 t
    refine (e.congr_of_eventuallyEq (.of_forall fun t => ?_)).congr_deriv ?_
    · ring
    · field_simp; ring
  · have e := Hill.hasDerivAt_trig n (x₀.y - 2 * (1 / n) * x₀.vx) (6 * x₀.x + 4 * (1 / n) * x₀.vy)
      (2 * (1 / n) * x₀.vx) (-6 * n * x₀.x - 3 * n * (1 / n) * x₀.vy) t
    refine (e.congr_of_eventuallyEq (.of_forall fun t => ?_)).congr_deriv ?_
    · ring
    · field_simp; ring
  · have e := Hill.hasDerivAt_trig n 0 (1 / n * x₀.vz) x₀.z 0 t
    refine (e.congr_of_eventuallyEq (.of_forall fun t => ?_)).congr_deriv ?_
    · ring
    · field_simp; ring
  · have e := Hill.hasDerivAt_trig n 0 (3 * n * x₀.x + 2 * x₀.vy) x₀.vx 0 t
    refine (e.congr_of_eventuallyEq (.of_forall fun t => ?_)).congr_deriv ?_
    · ring
    · field_simp; ring
  · have e := Hill.hasDerivAt_trig n (-6 * n * x₀.x - 3 * x₀.vy) (-2 * x₀.vx) (6 * n * x₀.x + 4 * x₀.vy) 0 t
    refine (e.congr_of_eventuallyEq (.of_forall fun t => ?_)).congr_deriv ?_
    · ring
    · field_simp; ring
  · have e := Hill.hasDerivAt_trig n 0 (-n * x₀.z) x₀.vz 0 t
    refine (e.congr_of_eventuallyEq (.of_forall fun t => ?_)).congr_deriv ?_
    · ring
    · field_simp; ring

/-- and it is the only one: any solution is given by the transition matrix -/
theorem C48_unique (p : Hill) (hn : p.n ≠ 0) {x y z vx vy vz : ℝ → ℝ}
    (h : Spec.ClohessyWiltshire p.n x y z vx vy vz) (t : ℝ) :
    ∃ S, p.systemMatrix t = .ok S ∧
      (⟨x t, y t, z t, vx t, vy t, vz t⟩ : Vec6) = S.mulVec ⟨x 0, y 0, z 0, vx 0, vy 0, vz 0⟩ := by
  refine ⟨_, Hill.systemMatrix_ok hn t, ?_⟩
  generalize p.n = n at *
  -- the state transported back to time zero does not move
  have key : ∀ t, (Hill.phi n (-t)).mulVec ⟨x t, y t, z t, vx t, vy t, vz t⟩ = ⟨x 0, y 0, z 0, vx 0, vy 0, vz 0⟩ := by
    have const : ∀ f : ℝ → ℝ, (∀ t, HasDerivAt f 0 t) → ∀ t, f t = f 0 := fun f hf t =>
      is_const_of_deriv_eq_zero (fun t => (hf t).differentiableAt) (fun t => (hf t).deriv) t 0
    have hT : ∀ A B C D t, HasDerivAt (fun t => A + B * sin (n * -t) + C * cos (n * -t) + D * t)
        (-(B * cos (n * -t) * n) + C * sin (n * -t) * n + D) t := by
      intro A B C D t
      refine ((Hill.hasDerivAt_trig n A (-B) C D t).congr_of_eventuallyEq (.of_forall fun t => ?_)).congr_deriv ?_
      · simp only [mul_neg, sin_neg, cos_neg]; ring
      · simp only [mul_neg, sin_neg, cos_neg]; ring
    intro t
    have e1 := const (fun t => (4 + 0 * sin (n * -t) + (-3) * cos (n * -t) + 0 * t) * x t + (0 + (1 / n) * sin (n * -t) + 0 * cos (n * -t) + 0 * t) * vx t + ((2 * (1 / n)) + 0 * sin (n * -t) + (-2 * (1 / n)) * cos (n * -t) + 0 * t) * vy t) (fun t => by
      refine ((((hT 4 0 (-3) 0 t).mul (h.dx t)).add ((hT 0 (1 / n) 0 0 t).mul (h.dvx t))).add ((hT (2 * (1 / n)) 0 (-2 * (1 / n)) 0 t).mul (h.dvy t))).congr_deriv ?_
      field_simp; ring) t
    have e2 := const (fun t => (0 + 6 * sin (n * -t) + 0 * cos (n * -t) + (6 * n) * t) * x t + (1 + 0 * sin (n * -t) + 0 * cos (n * -t) + 0 * t) * y t + ((-2 * (1 / n)) + 0 * sin (n * -t) + (2 * (1 / n)) * cos (n * -t) + 0 * t) * vx t + (0 + (4 * (1 / n)) * sin (n * -t) + 0 * cos (n * -t) + (3 * n * (1 / n)) * t) * vy t) (fun t => by
      refine (((((hT 0 6 0 (6 * n) t).mul (h.dx t)).add ((hT 1 0 0 0 t).mul (h.dy t))).add ((hT (-2 * (1 / n)) 0 (2 * (1 / n)) 0 t).mul (h.dvx t))).add ((hT 0 (4 * (1 / n)) 0 (3 * n * (1 / n)) t).mul (h.dvy t))).congr_deriv ?_
      field_simp; ring) t
    have e3 := const (fun t => (0 + 0 * sin (n * -t) + 1 * cos (n * -t) + 0 * t) * z t + (0 + (1 / n) * sin (n * -t) + 0 * cos (n * -t) + 0 * t) * vz t) (fun t => by
      refine (((hT 0 0 1 0 t).mul (h.dz t)).add ((hT 0 (1 / n) 0 0 t).mul (h.dvz t))).congr_deriv ?_
      field_simp; ring) t
    have e4 := const (fun t => (0 + (3 * n) * sin (n * -t) + 0 * cos (n * -t) + 0 * t) * x t + (0 + 0 * sin (n * -t) + 1 * cos (n * -t) + 0 * t) * vx t + (0 + 2 * sin (n * -t) + 0 * cos (n * -t) + 0 * t) * vy t) (fun t => by
      refine ((((hT 0 (3 * n) 0 0 t).mul (h.dx t)).add ((hT 0 0 1 0 t).mul (h.dvx t))).add ((hT 0 2 0 0 t).mul (h.dvy t))).congr_deriv ?_
      field_simp; ring) t
    have e5 := const (fun t => ((-6 * n) + 0 * sin (n * -t) + (6 * n) * cos (n * -t) + 0 * t) * x t + (0 + (-2) * sin (n * -t) + 0 * cos (n * -t) + 0 * t) * vx t + ((-3) + 0 * sin (n * -t) + 4 * cos (n * -t) + 0 * t) * vy t) (fun t => by
      refine ((((hT (-6 * n) 0 (6 * n) 0 t).mul (h.dx t)).add ((hT 0 (-2) 0 0 t).mul (h.dvx t))).add ((hT (-3) 0 4 0 t).mul (h.dvy t))).congr_deriv ?_
      field_simp; ring) t
    have e6 := const (fun t => (0 + (-n) * sin (n * -t) + 0 * cos (n * -t) + 0 * t) * z t + (0 + 0 * sin (n * -t) + 1 * cos (n * -t) + 0 * t) * vz t) (fun t => by
      refine (((hT 0 (-n) 0 0 t).mul (h.dz t)).add ((hT 0 0 1 0 t).mul (h.dvz t))).congr_deriv ?_
      field_simp; ring) t
    simp only [neg_zero, mul_zero, sin_zero, cos_zero] at e1 e2 e3 e4 e5 e6
    ext <;> simp only [Hill.phi, Mat6.mulVec, Vec6.dot]
    · linear_combination e1
    · linear_combination e2
    · linear_combination e3
    · linear_combination e4
    · linear_combination e5
    · linear_combination e6
  rw [← key t, ← Hill.phi_add_mulVec hn, add_neg_cancel, Hill.phi_zero_mulVec]

/-- so distinct elements of the group are inverse to each other: going back undoes going forward -/
theorem C48_inverse (p : Hill) (hn : p.n ≠ 0) (t : ℝ) :
    ∃ A B, p.systemMatrix t = .ok A ∧ p.systemMatrix (-t) = .ok B ∧ A.toMatrix * B.toMatrix = 1 := by
  obtain ⟨A, B, C, h1, h2, h3, h4⟩ := C48_group p hn t (-t)
  obtain ⟨S, h5, h6⟩ := C48_identity p hn
  rw [add_neg_cancel, h5] at h3
  cases h3
  exact ⟨A, B, h1, h2, by rw [← h4, h6]⟩

/-- the only failure -/
theorem C48_raises (p : Hill) (t : ℝ) : (p.n = 0 ↔ p.systemMatrix t = .error .zeroDivision) ∧
    (p.n ≠ 0 ↔ ∃ S, p.systemMatrix t = .ok S) := by
  by_cases hn : p.n = 0
  · simp [hn, Hill.systemMatrix_raises hn]
  · simp [hn, Hill.systemMatrix_ok hn]

/-- every propagator built with a positive semi-major axis qualifies -/
example (s : State) : ∃ p, Hill.new s 42164 = .ok p ∧ p.n ≠ 0 := by
  obtain ⟨p, h, hn, -⟩ := hill_new_ok s (show (0:ℝ) < 42164 by norm_num)
  exact ⟨p, h, hn.ne'⟩

/-! ## C49 -/

/-- a sequence of calls `step_by_seconds(t)` for `t` in `ts` -/
noncomputable def Hill.steps : List ℝ → PyM Hill Unit
  | [] => pure ()
  | t :: ts => do
    Hill.stepBySeconds t
    Hill.steps ts

theorem Hill.steps_ok {p : Hill} (hn : p.n ≠ 0) (t : ℝ) (ts : List ℝ) :
    Hill.steps (t :: ts) p = Hill.stepBySeconds (t + ts.sum) p := by
  induction ts generalizing p t with
  | nil =>
    show (Hill.stepBySeconds t >>= fun _ => pure ()) p = _
    rw [PyM.bind_apply, Hill.stepBySeconds_ok hn]
    simp only [List.sum_nil, add_zero, Hill.stepBySeconds_ok hn]
    rfl
  | cons u us ih =>
    show (Hill.stepBySeconds t >>= fun _ => Hill.steps (u :: us)) p = _
    rw [PyM.bind_apply, Hill.stepBySeconds_ok hn]
    simp only
    rw [ih (by exact hn), Hill.stepBySeconds_ok hn, Hill.stepBySeconds_ok (by exact hn)]
    simp only [List.sum_cons]
    rw [show t + (u + us.sum) = (u + us.sum) + t by ring, Hill.phi_add_mulVec hn (u + us.sum) t]
    rfl

/-- any non-empty sequence of steps succeeds and equals one step by the total time -/
theorem C49_compose (p : Hill) (hn : p.n ≠ 0) (ts : List ℝ) (hts : ts ≠ []) :
    ∃ q, Hill.steps ts p = (.ok (), q) ∧ Hill.stepBySeconds ts.sum p = (.ok (), q) := by
  rcases ts with _ | ⟨t, ts⟩
  · exact absurd rfl hts
  · rw [Hill.steps_ok hn]
    exact ⟨_, Hill.stepBySeconds_ok hn _, Hill.stepBySeconds_ok hn _⟩

/-- repeated `step()` is one step of the total time -/
theorem C49_step (p : Hill) (hn : p.n ≠ 0) (k : ℕ) :
    PyM.repeatN (k + 1) Hill.step p = Hill.stepBySeconds ((k + 1) * p.step_size) p := by
  have h1 : ∀ q : Hill, Hill.step q = Hill.stepBySeconds q.step_size q := fun q => by
    simp only [Hill.step, PyM.get_bind_apply]
  induction k generalizing p with
  | zero =>
    show (Hill.step >>= fun _ => pure ()) p = _
    rw [PyM.bind_apply, h1, Hill.stepBySeconds_ok hn]
    simp only [Nat.cast_zero, zero_add, one_mul, Hill.stepBySeconds_ok hn]
    rfl
  | succ k ih =>
    show (Hill.step >>= fun _ => PyM.repeatN (k + 1) Hill.step) p = _
    rw [PyM.bind_apply, h1, Hill.stepBySeconds_ok hn]
    simp only
    rw [ih _ (by exact hn), Hill.stepBySeconds_ok hn, Hill.stepBySeconds_ok (by exact hn)]
    push_cast
    rw [show (k + 1 + 1 : ℝ) * p.step_size = (k + 1) * p.step_size + p.step_size by ring,
      Hill.phi_add_mulVec hn _ p.step_size]
    rfl

/-- the relative-motion invariants are kept by every sequence of steps -/
theorem C49_invariants (p : Hill) (hn : p.n ≠ 0) (ts : List ℝ) (hts : ts ≠ []) :
    ∃ q, Hill.steps ts p = (.ok (), q) ∧
      q.state.vector.vy + 2 * q.n * q.state.vector.x = p.state.vector.vy + 2 * p.n * p.state.vector.x ∧
      q.state.vector.vz ^ 2 + q.n ^ 2 * q.state.vector.z ^ 2 =
        p.state.vector.vz ^ 2 + p.n ^ 2 * p.state.vector.z ^ 2 := by
  obtain ⟨q, h1, h2⟩ := C49_compose p hn ts hts
  refine ⟨q, h1, ?_⟩
  rw [Hill.stepBySeconds_ok hn] at h2
  simp only [Prod.mk.injEq, true_and] at h2
  subst h2
  generalize ts.sum = t
  have hs := sin_sq_add_cos_sq (p.n * t)
  obtain ⟨x, hx⟩ : ∃ x, x = p.state.vector := ⟨_, rfl⟩
  simp only [State.fromStateVector, State.new, Vec6.fromPosVel, Vec3.copy, ← hx]
  simp only [Hill.phi, Mat6.mulVec, Vec6.dot]
  constructor
  · field_simp; ring
  · field_simp
    linear_combination (x.vz ^ 2 + p.n ^ 2 * x.z ^ 2) * hs

/-- drift-free relative orbits are periodic -/
theorem C49_periodic (p : Hill) (hn : p.n ≠ 0)
    (hdrift : p.state.vector.vy = -2 * p.n * p.state.vector.x) :
    ∃ q, Hill.stepBySeconds (2 * π / p.n) p = (.ok (), q) ∧ q.state.vector = p.state.vector := by
  refine ⟨_, Hill.stepBySeconds_ok hn _, ?_⟩
  obtain ⟨x, hx⟩ : ∃ x, x = p.state.vector := ⟨_, rfl⟩
  rw [← hx] at hdrift
  simp only [State.fromStateVector, State.new, Vec6.fromPosVel, Vec3.copy, ← hx]
  have e : p.n * (2 * π / p.n) = 2 * π := by field_simp
  have e' : 3 * p.n * (2 * π / p.n) = 6 * π := by field_simp; norm_num
  simp only [Hill.phi, Mat6.mulVec, Vec6.dot, e, e', sin_two_pi, cos_two_pi]
  ext <;> simp only [hdrift] <;> field_simp <;> ring

/-- and the converse: with drift, the state has moved along the track after one period -/
theorem C49_drift (p : Hill) (hn : p.n ≠ 0) :
    ∃ q, Hill.stepBySeconds (2 * π / p.n) p = (.ok (), q) ∧
      q.state.vector.y - p.state.vector.y = -(6 * π / p.n) * (2 * p.n * p.state.vector.x + p.state.vector.vy) := by
  refine ⟨_, Hill.stepBySeconds_ok hn _, ?_⟩
  obtain ⟨x, hx⟩ : ∃ x, x = p.state.vector := ⟨_, rfl⟩
  simp only [State.fromStateVector, State.new, Vec6.fromPosVel, Vec3.copy, ← hx]
  have e : p.n * (2 * π / p.n) = 2 * π := by field_simp
  have e' : 3 * p.n * (2 * π / p.n) = 6 * π := by field_simp; norm_num
  simp only [Hill.phi, Mat6.mulVec, Vec6.dot, e, e', sin_two_pi, cos_two_pi]
  field_simp; ring

/-! ## C50 -/

/-- the property is false, for every propagator and step: the epoch is reset to day zero -/
theorem C50_violated (p q : Hill) (t : ℝ) (h : Hill.stepBySeconds t p = (.ok (), q)) :
    q.state.epoch.value = 0 ∧
    (p.state.epoch.value + t / SECONDS_IN_DAY ≠ 0 → q.state.epoch.value ≠ p.state.epoch.value + t / SECONDS_IN_DAY) := by
  by_cases hn : p.n = 0
  · simp [Hill.stepBySeconds, PyM.get_bind_apply, Hill.systemMatrix_raises hn] at h
  · rw [Hill.stepBySeconds_ok hn] at h
    simp only [Prod.mk.injEq, true_and] at h
    subst h
    exact ⟨rfl, fun h => h.symm⟩

/-- for instance, one minute after the epoch 9000.0 -/
example (s : State) (hs : s.epoch.value = 9000) : ∃ p q, Hill.new s 42164 = .ok p ∧
    Hill.stepBySeconds 60 p = (.ok (), q) ∧ q.state.epoch.value ≠ p.state.epoch.value + 60 / SECONDS_IN_DAY := by
  obtain ⟨p, h, hn, -, -, hp⟩ := hill_new_ok s (show (0:ℝ) < 42164 by norm_num)
  refine ⟨p, _, h, Hill.stepBySeconds_ok hn.ne' 60, (C50_violated p _ 60 (Hill.stepBySeconds_ok hn.ne' 60)).2 ?_⟩
  have : p.state.epoch.value = 9000 := by rw [hp]; exact hs
  rw [this]; norm_num [SECONDS_IN_DAY]

end Openspace
