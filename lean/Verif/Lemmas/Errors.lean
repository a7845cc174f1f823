import Verif.Lemmas.Spacecraft

/-!
# Which exceptions the numerical code can raise

`Tame x`: the outcome `x` is neither an `AttributeError` nor a `RecursionError`.
-/

set_option linter.unusedSectionVars false
set_option linter.unusedVariables false

namespace Openspace

/-- neither `AttributeError` nor `RecursionError` -/
def Tame {α : Type} (x : Py α) : Prop := ∀ e, x = .error e → e ≠ .attributeError ∧ e ≠ .recursionError

namespace Tame

variable {α β : Type}

theorem ok (a : α) : Tame (Except.ok a : Py α) := fun e h => by cases h
theorem pure (a : α) : Tame (Pure.pure a : Py α) := fun e h => by cases h

theorem error {e : PyErr} (h1 : e ≠ .attributeError) (h2 : e ≠ .recursionError) :
    Tame (Except.error e : Py α) := fun e' h => by cases h; exact ⟨h1, h2⟩

theorem bind {x : Py α} {f : α → Py β} (hx : Tame x) (hf : ∀ a, Tame (f a)) : Tame (x >>= f) := by
  intro e h
  rcases bind_eq_error.mp h with h | ⟨a, -, h⟩
  · exact hx e h
  · exact hf a e h

theorem ite {c : Prop} [Decidable c] {x y : Py α} (hx : Tame x) (hy : Tame y) : Tame (if c then x else y) := by
  split
  · exact hx
  · exact hy

theorem pyDiv (a b : ℝ) : Tame (pyDiv a b) := by
  unfold Openspace.pyDiv; exact ite (error (by simp) (by simp)) (ok _)

theorem pySqrt (a : ℝ) : Tame (pySqrt a) := by
  unfold Openspace.pySqrt; exact ite (error (by simp) (by simp)) (ok _)

theorem pyAsin (a : ℝ) : Tame (pyAsin a) := by
  unfold Openspace.pyAsin; exact ite (error (by simp) (by simp)) (ok _)

theorem pyAcos (a : ℝ) : Tame (pyAcos a) := by
  unfold Openspace.pyAcos; exact ite (error (by simp) (by simp)) (ok _)

theorem pyLog (a : ℝ) : Tame (pyLog a) := by
  unfold Openspace.pyLog; exact ite (error (by simp) (by simp)) (ok _)

theorem pyLog10 (a : ℝ) : Tame (pyLog10 a) := by
  unfold Openspace.pyLog10; exact ite (error (by simp) (by simp)) (ok _)

theorem pyPow (a b : ℝ) : Tame (pyPow a b) := by
  unfold Openspace.pyPow; exact ite (error (by simp) (by simp)) (ok _)

theorem pyIndex2 (t : List (List ℝ)) (n m : Nat) : Tame (pyIndex2 t n m) := by
  unfold Openspace.pyIndex2
  split
  · exact error (by simp) (by simp)
  · split
    · exact error (by simp) (by simp)
    · exact ok _

theorem foldlM {γ : Type} {f : β → γ → Py β} (hf : ∀ b c, Tame (f b c)) (l : List γ) (b : β) :
    Tame (l.foldlM f b) := by
  induction l generalizing b with
  | nil => exact ok _
  | cons c l ih => exact bind (hf b c) fun b' => ih b'

end Tame

/-- prove `Tame` by descending through the program -/
macro "tame" : tactic => `(tactic|
  repeat' (first
    | exact Tame.ok _ | exact Tame.pure _ | exact Tame.pyDiv _ _ | exact Tame.pySqrt _ | exact Tame.pyAsin _
    | exact Tame.pyAcos _ | exact Tame.pyLog _ | exact Tame.pyLog10 _ | exact Tame.pyPow _ _
    | exact Tame.pyIndex2 _ _ _ | assumption
    | refine Tame.bind ?_ fun _ => ?_ | refine Tame.ite ?_ ?_))

theorem Tame.normalized (v : Vec3) : Tame v.normalized := by unfold Vec3.normalized; tame
theorem Tame.angle (v u : Vec3) : Tame (v.angle u) := by unfold Vec3.angle; tame

theorem Tame.rotationMatrix (v : Vec3) (t : ℝ) : Tame (Vec3.rotationMatrix v t) := by
  have := Tame.normalized v
  unfold Vec3.rotationMatrix; tame

theorem Tame.rotationAboutAxis (v a : Vec3) (t : ℝ) : Tame (v.rotationAboutAxis a t) := by
  have := Tame.rotationMatrix a t
  unfold Vec3.rotationAboutAxis; tame

theorem Tame.gcrfToItrf (v : Vec3) (t : Epoch) : Tame (PositionConvert.gcrfToItrf v t) := by
  unfold PositionConvert.gcrfToItrf Earth.rotation
  exact (Tame.rotationMatrix _ _).bind fun _ => Tame.pure _

theorem Tame.itrfToGcrf (v : Vec3) (t : Epoch) : Tame (PositionConvert.itrfToGcrf v t) := by
  unfold PositionConvert.itrfToGcrf PositionConvert.itrfToMod PositionConvert.itrfToTod Earth.rotation
  exact (((Tame.rotationMatrix _ _).bind fun _ => Tame.pure _).bind fun _ => Tame.pure _).bind fun _ => Tame.pure _

theorem Tame.moon (t : Epoch) : Tame (Moon.getPosition t) := by
  unfold Moon.getPosition; exact Tame.rotationAboutAxis _ _ _

theorem Tame.gravitySums (p : List (List ℝ)) (a b c : ℝ) : Tame (Openspace.gravitySums p a b c) := by
  unfold Openspace.gravitySums
  refine Tame.foldlM (fun acc n => Tame.foldlM (fun acc m => ?_) _ _) _ _
  unfold gravityTerm; tame

theorem Tame.gravityItrf (e : Vec3) (m : ℝ) : Tame (Openspace.gravityItrf e m) := by
  have := Tame.gravitySums
  unfold Openspace.gravityItrf
  refine Tame.bind (Tame.pyDiv _ _) fun _ => Tame.bind (Tame.pyDiv _ _) fun _ => Tame.bind (this _ _ _ _) fun _ => ?_
  tame

theorem Tame.thirdBody (s p : Vec3) (m : ℝ) : Tame (GCRF.thirdBody s p m) := by unfold GCRF.thirdBody; tame

theorem Tame.derivative (s : GCRF) : Tame s.derivative := by
  have h1 : Tame s.accelerationFromEarth := by unfold GCRF.accelerationFromEarth; tame
  have h2 : Tame s.accelerationFromMoon := by
    unfold GCRF.accelerationFromMoon; exact (Tame.moon _).bind fun _ => Tame.thirdBody _ _ _
  have h3 : Tame s.accelerationFromSun := Tame.thirdBody _ _ _
  have h4 : Tame s.accelerationFromSrp := by
    have := Tame.normalized s.sunVector
    unfold GCRF.accelerationFromSrp; tame
  have h5 : Tame s.accelerationFromGravity := by
    unfold GCRF.accelerationFromGravity
    exact (Tame.gcrfToItrf _ _).bind fun _ => (Tame.gravityItrf _ _).bind fun _ => Tame.itrfToGcrf _ _
  unfold GCRF.derivative; tame

theorem Tame.frameMatrix (g : GCRF) : Tame (Openspace.frameMatrix g) := by
  have := Tame.normalized
  unfold Openspace.frameMatrix
  exact (this _).bind fun _ => (this _).bind fun _ => Tame.pure _

theorem Tame.gcrfToHcw (a b : GCRF) : Tame (Openspace.gcrfToHcw a b) := by
  have := Tame.frameMatrix a
  unfold Openspace.gcrfToHcw; tame

theorem Tame.hcwToGcrf (a : State) (b : GCRF) : Tame (Openspace.hcwToGcrf a b) := by
  have := Tame.frameMatrix b
  unfold Openspace.hcwToGcrf; tame

theorem Tame.thrustVector (p : RK4) (t : ℝ) : Tame (p.thrustVector t) := by
  have := Tame.normalized p.thrust_direction
  unfold RK4.thrustVector; tame

theorem Tame.stage (p : RK4) (e : Epoch) (r v : Vec3) (t : ℝ) : Tame (p.stage e r v t) := by
  unfold RK4.stage
  exact (Tame.thrustVector _ _).bind fun _ => Tame.derivative _

/-! ## Methods -/

namespace PyM

variable {σ α β : Type}

/-- the method never raises `AttributeError` or `RecursionError` -/
def Tame (m : PyM σ α) : Prop := ∀ s, Openspace.Tame (m s).1

theorem Tame.bind {m : PyM σ α} {f : α → PyM σ β} (hm : Tame m) (hf : ∀ a, Tame (f a)) : Tame (m >>= f) := by
  intro s
  rw [PyM.bind_apply]
  have := hm s
  rcases h : m s with ⟨r, s'⟩
  rw [h] at this
  cases r with
  | error e => intro e' he; cases he; exact this e rfl
  | ok a => exact hf a s'

theorem Tame.lift {x : Py α} (h : Openspace.Tame x) : Tame (PyM.lift x : PyM σ α) := fun _ => h
theorem Tame.pure (a : α) : Tame (Pure.pure a : PyM σ α) := fun _ => Openspace.Tame.ok a
theorem Tame.get : Tame (PyM.get : PyM σ σ) := fun _ => Openspace.Tame.ok _
theorem Tame.modify (f : σ → σ) : Tame (PyM.modify f) := fun _ => Openspace.Tame.ok _

theorem Tame.repeatN {m : PyM σ Unit} (hm : Tame m) (n : Nat) : Tame (PyM.repeatN n m) := by
  induction n with
  | zero => exact Tame.pure ()
  | succ n ih => exact hm.bind fun _ => ih

theorem Tame.ite {c : Prop} [Decidable c] {x y : PyM σ α} (hx : Tame x) (hy : Tame y) :
    Tame (if c then x else y) := by
  split
  · exact hx
  · exact hy

end PyM

theorem tame_step : PyM.Tame RK4.step := by
  unfold RK4.step
  exact PyM.Tame.get.bind fun p => (PyM.Tame.lift (Tame.thrustVector _ _)).bind fun _ =>
    (PyM.Tame.modify _).bind fun _ => PyM.Tame.get.bind fun _ => (PyM.Tame.lift (Tame.derivative _)).bind fun _ =>
    (PyM.Tame.lift (Tame.stage _ _ _ _ _)).bind fun _ => (PyM.Tame.lift (Tame.stage _ _ _ _ _)).bind fun _ =>
    (PyM.Tame.lift (Tame.stage _ _ _ _ _)).bind fun _ => PyM.Tame.modify _

theorem tame_stepToEpoch (t : Epoch) : PyM.Tame (RK4.stepToEpoch t) := by
  unfold RK4.stepToEpoch
  refine PyM.Tame.get.bind fun p => ?_
  refine PyM.Tame.ite ((PyM.Tame.modify _).bind fun _ => ?_) ?_ <;>
    exact (PyM.Tame.repeatN tame_step _).bind fun _ => PyM.Tame.modify _

theorem tame_maneuver (v : Vec3) (a b c : ℝ) : PyM.Tame (RK4.maneuver v a b c) := by
  unfold RK4.maneuver
  have : Tame (RK4.burnDuration v a b c) := by unfold RK4.burnDuration; tame
  exact (PyM.Tame.lift this).bind fun _ => (PyM.Tame.modify _).bind fun _ => PyM.Tame.get.bind fun _ =>
    (tame_stepToEpoch _).bind fun _ => PyM.Tame.modify _

theorem tame_onPropagator {ι α : Type} [DecidableEq ι] (i : ι) {m : PyM RK4 α} (hm : PyM.Tame m) :
    PyM.Tame (Spacecraft.onPropagator i m) := fun w => hm (w i).propagator

/-- processing an observation reads no attribute that it did not set itself -/
theorem tame_process (ob : SpaceObservation) : PyM.Tame (RelativeKalman.process ob) := by
  intro s
  have hz : Tame (RelativeKalman.hillMeasurement ob) := by
    unfold RelativeKalman.hillMeasurement; exact (Tame.gcrfToHcw _ _).bind fun _ => Tame.pure _
  have he : Tame (RelativeKalman.hillErrors ob) := by
    unfold RelativeKalman.hillErrors; exact (Tame.gcrfToHcw _ _).bind fun _ => Tame.pure _
  have hm : ∀ (p : Hill) t, Tame (p.systemMatrix t) := fun p t => by unfold Hill.systemMatrix; tame
  have hi : ∀ m : Mat3, Tame m.inverse := fun m => by unfold Mat3.inverse; tame
  unfold RelativeKalman.process
  simp only [PyM.get_bind_apply, PyM.modify_bind_apply]
  rcases hz0 : RelativeKalman.hillMeasurement ob with e | z
  · intro e' h; cases h; exact hz e hz0
  simp only [PyM.lift_ok_bind_apply, PyM.modify_bind_apply]
  rcases he0 : RelativeKalman.hillErrors ob with e | er
  · intro e' h; cases h; exact he e he0
  simp only [PyM.lift_ok_bind_apply, PyM.modify_bind_apply]
  have hF := hm s.propagator ((ob.observer_state.epoch.value - s.epoch.value) * SECONDS_IN_DAY)
  unfold RelativeKalman.predict RelativeKalman.predictState RelativeKalman.predictCovariance
  rw [PyM.bind_apply, PyM.bind_apply]
  simp only [PyM.get_bind_apply]
  rcases hF0 : s.propagator.systemMatrix ((ob.observer_state.epoch.value - s.epoch.value) * SECONDS_IN_DAY) with e | F
  · intro e' h; cases h; exact hF e hF0
  simp only [PyM.lift_ok_bind_apply, PyM.modify_apply]
  unfold RelativeKalman.update RelativeKalman.gain
  rw [PyM.bind_apply]
  simp only [PyM.get_bind_apply, RelativeKalman.attr, PyM.lift_ok_bind_apply]
  have hI := hi ((RelativeKalman.H.mul63
    (((F.mul (s.p00.mul F.transpose)).plus s.q).mul63 RelativeKalman.HT)).plus (RelativeKalman.measurementCovariance er))
  rcases hI0 : ((RelativeKalman.H.mul63
    (((F.mul (s.p00.mul F.transpose)).plus s.q).mul63 RelativeKalman.HT)).plus
      (RelativeKalman.measurementCovariance er)).inverse with e | inv
  · intro e' h; cases h; exact hI e hI0
  · exact Tame.ok ()

end Openspace
