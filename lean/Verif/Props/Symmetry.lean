import Verif.Props.Celestial
import Verif.Props.Elements
import Verif.Props.Maneuvers
import Verif.Lemmas.Rotation

/-!
# Property C132: nothing depends on the choice of the inertial axes
-/

namespace Openspace

open Real

/-- the same state in axes turned by `m` -/
noncomputable def Spec.turned (m : Mat3) (s : GCRF) : GCRF :=
  GCRF.new s.epoch (m.mulVec s.position) (m.mulVec s.velocity)

/-- the rotation about the polar axis by the angle `a` -/
noncomputable def Spec.polarTurn (a : ℝ) : Mat3 :=
  ⟨⟨cos a, -sin a, 0⟩, ⟨sin a, cos a, 0⟩, ⟨0, 0, 1⟩⟩

namespace Symmetry

variable {m : Mat3}

theorem normalized_mulVec (h : m.IsRotation) (v : Vec3) :
    (m.mulVec v).normalized = v.normalized.map m.mulVec := by
  have hm := h.orth.magnitude_mulVec v
  simp only [Vec3.normalized, hm]
  by_cases h0 : v.magnitude = 0
  · simp [pyDiv, h0, Except.map]
  · simp only [pyDiv_ok h0, ok_bind, pure_eq_ok, Except.map]
    congr 1
    ext <;> simp only [Mat3.mulVec, Vec3.dot, Vec3.scaled] <;> ring

theorem frameMatrix_turned (h : m.IsRotation) (o : GCRF) :
    frameMatrix (Spec.turned m o) = (frameMatrix o).map fun f => ⟨m.mulVec f.row1, m.mulVec f.row2, m.mulVec f.row3⟩ := by
  simp only [frameMatrix]
  have e1 : (Spec.turned m o).position = m.mulVec o.position := rfl
  have e2 : (Spec.turned m o).velocity = m.mulVec o.velocity := rfl
  rw [e1, e2, h.cross_mulVec, normalized_mulVec h, normalized_mulVec h]
  cases o.position.normalized with
  | error e => rfl
  | ok r =>
    cases (o.position.cross o.velocity).normalized with
    | error e => rfl
    | ok c =>
      simp only [Except.map, ok_bind, pure_eq_ok]
      rw [h.cross_mulVec]

theorem mulVec_turned (h : m.IsRotation) (f : Mat3) (v : Vec3) :
    (Mat3.mk (m.mulVec f.row1) (m.mulVec f.row2) (m.mulVec f.row3)).mulVec (m.mulVec v) = f.mulVec v := by
  have := h.orth
  show Vec3.mk _ _ _ = Vec3.mk _ _ _
  rw [this.dot_mulVec, this.dot_mulVec, this.dot_mulVec]

theorem transpose_turned (f : Mat3) (v : Vec3) :
    (Mat3.mk (m.mulVec f.row1) (m.mulVec f.row2) (m.mulVec f.row3)).transpose.mulVec v =
      m.mulVec (f.transpose.mulVec v) := by
  ext <;> simp only [Mat3.mulVec, Mat3.transpose, Vec3.dot] <;> ring

theorem polarTurn_isRotation (a : ℝ) : (Spec.polarTurn a).IsRotation := by
  have hsc := sin_sq_add_cos_sq a
  refine Mat3.Orth.isRotation ⟨?_, ?_, ?_, ?_, ?_, ?_⟩ ?_ <;>
    simp only [Spec.polarTurn, Vec3.dot, Mat3.determinant] <;> linarith

end Symmetry

open Symmetry

/-- Hill coordinates are the same in all inertial axes, errors included -/
theorem C132_hill {m : Mat3} (h : m.IsRotation) (o s : GCRF) :
    gcrfToHcw (Spec.turned m o) (Spec.turned m s) = gcrfToHcw o s := by
  have e1 : (Spec.turned m o).position = m.mulVec o.position := rfl
  have e2 : (Spec.turned m o).velocity = m.mulVec o.velocity := rfl
  have e3 : (Spec.turned m s).position = m.mulVec s.position := rfl
  have e4 : (Spec.turned m s).velocity = m.mulVec s.velocity := rfl
  have e5 : (Spec.turned m o).epoch = o.epoch := rfl
  simp only [gcrfToHcw, frameMatrix_turned h, e1, e2, e3, e4, e5, h.orth.magnitude_mulVec]
  cases frameMatrix o with
  | error e => rfl
  | ok f => simp only [Except.map, ok_bind, mulVec_turned h]

/-- the conversion back turns with the axes -/
theorem C132_back {m : Mat3} (h : m.IsRotation) (o : GCRF) (s : State) :
    hcwToGcrf s (Spec.turned m o) = (hcwToGcrf s o).map (Spec.turned m) := by
  have e1 : (Spec.turned m o).position = m.mulVec o.position := rfl
  have e2 : (Spec.turned m o).velocity = m.mulVec o.velocity := rfl
  have e5 : (Spec.turned m o).epoch = o.epoch := rfl
  simp only [hcwToGcrf, frameMatrix_turned h, e1, e2, e5, h.orth.magnitude_mulVec]
  cases frameMatrix o with
  | error e => rfl
  | ok f =>
    simp only [Except.map, ok_bind, mulVec_turned h, transpose_turned]
    by_cases h0 : o.position.magnitude = 0
    · simp [pyDiv, h0]
    · simp only [pyDiv_ok h0, ok_bind, pure_eq_ok]
      rfl

/-- an impulsive manoeuvre turns with the axes: if the states of two spacecraft differ by a rotation of the axes, then
the same radial, in-track, cross-track command succeeds or raises for both, and their states still differ by the same
rotation -/
theorem C132_impulse {ι : Type} [DecidableEq ι] {m : Mat3} (h : m.IsRotation) (w w' : World ι) (i : ι) (dv : Vec3)
    (hs : (w' i).currentState = Spec.turned m (w i).currentState) :
    (Spacecraft.impulsiveManeuver i dv w').1 = (Spacecraft.impulsiveManeuver i dv w).1 ∧
    ∀ v, Spacecraft.impulsiveManeuver i dv w = (.ok (), v) → ∃ v', Spacecraft.impulsiveManeuver i dv w' = (.ok (), v') ∧
      (v' i).currentState = Spec.turned m (v i).currentState := by
  have e0 : (w' i).currentEpoch = (w i).currentEpoch := by
    show (w' i).currentState.epoch = (w i).currentState.epoch
    rw [hs]; rfl
  have hb := C132_back h (w i).currentState (State.new (w i).currentEpoch ⟨0, 0, 0⟩ dv)
  rw [← hs] at hb
  have run : ∀ w : World ι, Spacecraft.impulsiveManeuver i dv w =
      match hcwToGcrf (State.new (w i).currentEpoch ⟨0, 0, 0⟩ dv) (w i).currentState with
      | .error e => (.error e, w)
      | .ok g => (.ok (), Function.update w i { w i with propagator := RK4.new g }) := by
    intro w
    simp only [Spacecraft.impulsiveManeuver, Spacecraft.read, Spacecraft.assign, PyM.lift, PyM.modify, bind, PyM.bind]
    cases hcwToGcrf (State.new (w i).currentEpoch ⟨0, 0, 0⟩ dv) (w i).currentState <;> rfl
  rw [run w', run w, e0, hb]
  cases hcwToGcrf (State.new (w i).currentEpoch ⟨0, 0, 0⟩ dv) (w i).currentState with
  | error e => exact ⟨rfl, fun v hv => by simp at hv⟩
  | ok g =>
    refine ⟨rfl, fun v hv => ⟨_, rfl, ?_⟩⟩
    simp only [Prod.mk.injEq, true_and] at hv
    subst hv
    simp only [Function.update_self, Spacecraft.currentState]
    rfl

/-- the same state in axes turned about the polar axis has the same elements, except for the right ascension of the
ascending node, which is turned too -/
theorem C132_elements (a : ℝ) (s : State) :
    (∀ e, ClassicalElements.fromIjk s = .error e →
      ClassicalElements.fromIjk (Spec.turned (Spec.polarTurn a) (GCRF.new s.epoch s.position s.velocity)).toState = .error e) ∧
    ∀ el, ClassicalElements.fromIjk s = .ok el → ∃ Ω,
      ClassicalElements.fromIjk (Spec.turned (Spec.polarTurn a) (GCRF.new s.epoch s.position s.velocity)).toState =
        .ok { el with raan := Ω } ∧ 0 ≤ Ω ∧ Ω < 2 * π ∧
      ((s.position.cross s.velocity).x ≠ 0 ∨ (s.position.cross s.velocity).y ≠ 0 → ∃ k : ℤ, Ω = el.raan + a + 2 * π * k) := by
  have hrot := polarTurn_isRotation a
  obtain ⟨m, hm⟩ : ∃ m, m = Spec.polarTurn a := ⟨_, rfl⟩
  obtain ⟨r, hr⟩ : ∃ r, r = s.position := ⟨_, rfl⟩
  obtain ⟨v, hv⟩ : ∃ v, v = s.velocity := ⟨_, rfl⟩
  have e1 : (Spec.turned m (GCRF.new s.epoch s.position s.velocity)).toState.position = m.mulVec r := by rw [hr]; rfl
  have e2 : (Spec.turned m (GCRF.new s.epoch s.position s.velocity)).toState.velocity = m.mulVec v := by rw [hv]; rfl
  have e3 : (Spec.turned m (GCRF.new s.epoch s.position s.velocity)).toState.epoch = s.epoch := rfl
  rw [← hm] at hrot ⊢
  obtain ⟨T, hT⟩ : ∃ T, T = (Spec.turned m (GCRF.new s.epoch s.position s.velocity)).toState := ⟨_, rfl⟩
  rw [← hT] at e1 e2 e3 ⊢
  have ew : hFromRV (m.mulVec r) (m.mulVec v) = m.mulVec (hFromRV r v) := hrot.cross_mulVec r v
  have ez : ∀ x : Vec3, m.mulVec x = ⟨cos a * x.x - sin a * x.y, sin a * x.x + cos a * x.y, x.z⟩ := by
    intro x; rw [hm]; ext <;> simp only [Spec.polarTurn, Mat3.mulVec, Vec3.dot] <;> ring
  have hsc := sin_sq_add_cos_sq a
  have ei : ∀ x : Vec3, incFromW (m.mulVec x) = incFromW x := by
    intro x
    rw [ez]
    simp only [incFromW]
    congr 2
    linear_combination (x.x ^ 2 + x.y ^ 2) * hsc
  have eu : ∀ x y : Vec3, uFromRW (m.mulVec x) (m.mulVec y) = uFromRW x y := by
    intro x y
    rw [ez, ez]
    simp only [uFromRW]
    congr 2
    linear_combination (x.y * y.x - x.x * y.y) * hsc
  simp only [ClassicalElements.fromIjk, e1, e2, e3, ← hr, ← hv, ew, normalized_mulVec hrot, hrot.orth.magnitude_mulVec,
    hrot.orth.dot_mulVec]
  cases hw : (hFromRV r v).normalized with
  | error e => exact ⟨fun e' h => by simpa [Except.map] using h, fun el h => by simp at h⟩
  | ok w =>
    simp only [Except.map, ok_bind, ei, eu]
    cases h1 : aFromMuRV Earth.MU r.magnitude v.magnitude with
    | error e => exact ⟨fun e' h => h, fun el h => by simp at h⟩
    | ok sma =>
    simp only [ok_bind]
    cases h2 : pFromMuH Earth.MU (hFromRV r v).magnitude with
    | error e => exact ⟨fun e' h => h, fun el h => by simp at h⟩
    | ok p =>
    simp only [ok_bind]
    cases h3 : eFromAP sma p with
    | error e => exact ⟨fun e' h => h, fun el h => by simp at h⟩
    | ok e =>
    simp only [ok_bind]
    cases h4 : nFromAMu sma Earth.MU with
    | error e => exact ⟨fun e' h => h, fun el h => by simp at h⟩
    | ok n =>
    simp only [ok_bind]
    cases h5 : eaFromRdvRAN (r.dot v) r.magnitude sma n with
    | error e => exact ⟨fun e' h => h, fun el h => by simp at h⟩
    | ok ea =>
    simp only [ok_bind]
    cases h6 : nuFromEEa e ea with
    | error e => exact ⟨fun e' h => h, fun el h => by simp at h⟩
    | ok nu =>
    simp only [ok_bind, pure_eq_ok, Except.ok.injEq]
    refine ⟨fun e' h => by simp at h, ?_⟩
    rintro el rfl
    have hrange := wrapNeg_atan2_range (m.mulVec w).x (-(m.mulVec w).y)
    refine ⟨raanFromW (m.mulVec w), rfl, hrange.1, hrange.2, fun hpol => ?_⟩
    have hwne : w.x ≠ 0 ∨ w.y ≠ 0 := by
      obtain ⟨k, hk, hkw⟩ : ∃ k : ℝ, k ≠ 0 ∧ w = (hFromRV r v).scaled k := by
        obtain ⟨g1, g2⟩ := Vec3.normalized_eq_ok.mp hw
        exact ⟨_, one_div_ne_zero (Vec3.magnitude_ne_zero.mpr g1), g2⟩
      rw [hkw]
      simp only [Vec3.scaled]
      rcases hpol with h | h
      · exact Or.inl (mul_ne_zero h hk)
      · exact Or.inr (mul_ne_zero h hk)
    have hρ : 0 < √(w.y * w.y + w.x * w.x) := by
      apply Real.sqrt_pos.mpr
      rcases hwne with h | h
      · nlinarith [mul_self_pos.mpr h, mul_self_nonneg w.y]
      · nlinarith [mul_self_pos.mpr h, mul_self_nonneg w.x]
    have c0 := mul_cos_atan2 w.x (-w.y)
    have s0 := mul_sin_atan2 w.x (-w.y)
    have c1 := mul_cos_atan2 (m.mulVec w).x (-(m.mulVec w).y)
    have s1 := mul_sin_atan2 (m.mulVec w).x (-(m.mulVec w).y)
    have q0 : -w.y * -w.y + w.x * w.x = w.y * w.y + w.x * w.x := by ring
    have q1 : -(m.mulVec w).y * -(m.mulVec w).y + (m.mulVec w).x * (m.mulVec w).x = w.y * w.y + w.x * w.x := by
      rw [ez]; linear_combination (w.x ^ 2 + w.y ^ 2) * hsc
    rw [q0] at c0 s0
    rw [q1] at c1 s1
    rw [ez] at c1 s1
    rw [← wrapNeg_cos] at c0 c1
    rw [← wrapNeg_sin] at s0 s1
    have hc : cos (raanFromW (m.mulVec w)) = cos (raanFromW w + a) := by
      apply mul_left_cancel₀ hρ.ne'
      rw [cos_add]
      simp only [raanFromW]
      rw [ez]
      linear_combination c1 - cos a * c0 + sin a * s0
    have hs : sin (raanFromW (m.mulVec w)) = sin (raanFromW w + a) := by
      apply mul_left_cancel₀ hρ.ne'
      rw [sin_add]
      simp only [raanFromW]
      rw [ez]
      linear_combination s1 - cos a * s0 - sin a * c0
    obtain ⟨k, hk⟩ := Real.Angle.angle_eq_iff_two_pi_dvd_sub.mp (Real.Angle.cos_sin_inj hc hs)
    exact ⟨k, by linarith⟩

/-- a rotation about a general axis, and a state in general position -/
example : ∃ m, Vec3.rotationMatrix ⟨1, 2, 3⟩ 0.7 = .ok m ∧ m.IsRotation ∧
    (GCRF.new ⟨0⟩ ⟨7000, 0, 100⟩ ⟨0, 7, 2⟩).NonDegenerate ∧
    ((⟨7000, 0, 100⟩ : Vec3).cross ⟨0, 7, 2⟩).x ≠ 0 := by
  obtain ⟨m, h1, h2⟩ := rotationMatrix_isRotation (axis := ⟨1, 2, 3⟩) (by simp) 0.7
  refine ⟨m, h1, h2, ?_, ?_⟩
  · rw [nonDegenerate_iff]
    simp [GCRF.new, State.new, Vec3.cross, Vec3.copy]
  · norm_num [Vec3.cross]

end Openspace
