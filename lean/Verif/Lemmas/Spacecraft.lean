import Verif.Lemmas.Inertial
import Verif.Model.Artificial

/-!
# Programs that call the spacecraft API

`Call` is one call of a public mutating method of `Spacecraft`; a history is any finite sequence of
calls on any of the objects, where a call that raises is followed by the next call (the user caught
the exception).
-/

set_option linter.unusedSectionVars false
set_option linter.unusedVariables false

namespace Openspace

namespace Spacecraft

variable {ι : Type} [DecidableEq ι]

/-- the public mutating methods of `Spacecraft` (artificial.py) -/
inductive Call (ι : Type)
  | step (self : ι)
  | stepToEpoch (self : ι) (epoch : Epoch)
  | updateAttitude (self : ι)
  | trackLvlh (self : ι)
  | trackSun (self : ι)
  | trackState (self target : ι)
  | impulsiveManeuver (self : ι) (ric : Vec3)
  | finiteManeuver (self : ι) (ric : Vec3)
  | acquire (self seed : ι)
  | processWfov (self target : ι) (z1 z2 u : ℝ)
  | processNfov (self target : ι) (z1 z2 u : ℝ)

/-- running a call, with `depth` the recursion limit -/
noncomputable def Call.run (depth : Nat) : Call ι → PyM (World ι) Unit
  | .step i => Spacecraft.step depth i
  | .stepToEpoch i t => Spacecraft.stepToEpoch depth i t
  | .updateAttitude i => Spacecraft.updateAttitude depth i
  | .trackLvlh i => Spacecraft.trackLvlh depth i
  | .trackSun i => Spacecraft.trackSun depth i
  | .trackState i j => Spacecraft.trackState depth i j
  | .impulsiveManeuver i v => Spacecraft.impulsiveManeuver i v
  | .finiteManeuver i v => Spacecraft.finiteManeuver i v
  | .acquire i j => Spacecraft.acquire depth i j
  | .processWfov i j z1 z2 u => Spacecraft.processWfov i j z1 z2 u
  | .processNfov i j z1 z2 u => Spacecraft.processNfov i j z1 z2 u

/-- the world after a history of calls, exceptions being caught between calls -/
noncomputable def after (depth : Nat) : List (Call ι) → World ι → World ι
  | [], w => w
  | c :: cs, w => after depth cs (c.run depth w).2

/-- every object was made by the constructor -/
def Fresh (w : World ι) : Prop := ∀ i, ∃ g, Spacecraft.new g = .ok (w i)

/-! ## Preservation of a predicate of the world by a call, whatever its outcome -/

def Preserves {α : Type} (P : World ι → Prop) (m : PyM (World ι) α) : Prop := ∀ w, P w → P (m w).2

variable {P : World ι → Prop} {α β : Type}

theorem Preserves.bind {m : PyM (World ι) α} {f : α → PyM (World ι) β} (hm : Preserves P m)
    (hf : ∀ a, Preserves P (f a)) : Preserves P (m >>= f) := by
  intro w hw
  rw [PyM.bind_apply]
  have := hm w hw
  rcases h : m w with ⟨r, w'⟩
  rw [h] at this
  cases r with
  | error e => exact this
  | ok a => exact hf a w' this

theorem Preserves.pure (a : α) : Preserves P (pure a : PyM (World ι) α) := fun _ h => h
theorem Preserves.get : Preserves P (PyM.get : PyM (World ι) (World ι)) := fun _ h => h
theorem Preserves.lift (x : Py α) : Preserves P (PyM.lift x) := fun _ h => h
theorem Preserves.throw (e : PyErr) : Preserves P (PyM.throw e : PyM (World ι) α) := fun _ h => h
theorem Preserves.read (i : ι) : Preserves P (Spacecraft.read i) := fun _ h => h

/-- lifting of a predicate on objects to some of the objects -/
def AllOn (S : ι → Prop) (Q : Spacecraft ι → Prop) (w : World ι) : Prop := ∀ i, S i → Q (w i)

/-- lifting of a predicate on objects -/
def All (Q : Spacecraft ι → Prop) (w : World ι) : Prop := ∀ i, Q (w i)

variable {S : ι → Prop} {Q : Spacecraft ι → Prop}

theorem On.update {w : World ι} (hw : AllOn S Q w) {i : ι} {s : Spacecraft ι} (hs : S i → Q s) :
    AllOn S Q (Function.update w i s) := by
  intro j hj
  by_cases h : j = i
  · subst h; rw [Function.update_self]; exact hs hj
  · rw [Function.update_of_ne h]; exact hw j hj

theorem On.assign {i : ι} {f : Spacecraft ι → Spacecraft ι} (hf : ∀ s, Q s → Q (f s)) :
    Preserves (AllOn S Q) (Spacecraft.assign i f) := fun w hw => On.update hw fun h => hf _ (hw i h)

theorem On.onPropagator {i : ι} {m : PyM RK4 α}
    (hm : ∀ s : Spacecraft ι, Q s → Q { s with propagator := (m s.propagator).2 }) :
    Preserves (AllOn S Q) (Spacecraft.onPropagator i m) := by
  intro w hw
  unfold Spacecraft.onPropagator PyM.zoom
  exact On.update hw fun h => hm _ (hw i h)

/-- the end of `update_attitude` -/
noncomputable def finishCall (i : ι) : PyM (World ι) Unit := do
  let s ← read i
  let s' ← PyM.lift s.finishSlew
  assign i fun _ => s'

theorem finishCall_apply (i : ι) (w : World ι) :
    finishCall i w = match (w i).finishSlew with
      | .ok s' => (.ok (), Function.update w i s')
      | .error e => (.error e, w) := by
  show (PyM.lift (w i).finishSlew >>= fun s' => assign i fun _ => s') w = _
  rcases (w i).finishSlew with e | s' <;> rfl

theorem finishSlew_cases (s : Spacecraft ι) :
    (s.slewing = true ∧ s.slew_stop = none ∧ s.finishSlew = .error .attributeError) ∨
    s.finishSlew = .ok s ∨ s.finishSlew = .ok { s with slewing := false } := by
  unfold finishSlew
  split
  · rename_i h
    split
    · rename_i h'; exact Or.inl ⟨h, h', rfl⟩
    · split
      · exact Or.inr (Or.inr rfl)
      · exact Or.inr (Or.inl rfl)
  · exact Or.inr (Or.inl rfl)

theorem On.finishCall {i : ι} (hQ : ∀ s, Q s → Q { s with slewing := false }) :
    Preserves (AllOn S Q) (finishCall i) := by
  intro w hw
  rw [finishCall_apply]
  rcases finishSlew_cases (w i) with ⟨-, -, h⟩ | h | h
  · rw [h]; exact hw
  · rw [h]; exact On.update hw (hw i)
  · rw [h]; exact On.update hw fun h => hQ _ (hw i h)

/-- `update_attitude` by cases on the mode -/
theorem updateAttitude_succ (depth : Nat) (i : ι) (w : World ι) :
    updateAttitude (depth + 1) i w =
      if (w i).steering = LVLH then (assign i lvlhAttitude >>= fun _ => finishCall i) w
      else if (w i).steering = SOLAR then (assign i solarAttitude >>= fun _ => finishCall i) w
      else if (w i).steering = TARGET then
        match (w i).tracked_target with
        | none => (.error .attributeError, w)
        | some t =>
          if (w t).currentEpoch.value ≠ (w i).currentEpoch.value then
            ((do
              onPropagator t (RK4.stepToEpoch (w i).currentEpoch)
              updateAttitude depth t
              let tgt ← read t
              assign i fun s => s.targetAttitude tgt
              finishCall i) : PyM (World ι) Unit) w
          else ((do
              let tgt ← read t
              assign i fun s => s.targetAttitude tgt
              finishCall i) : PyM (World ι) Unit) w
      else finishCall i w := by
  rw [updateAttitude]
  show ((if (w i).steering = LVLH then _ else _) : PyM (World ι) Unit) w = _
  split
  · rfl
  · split
    · rfl
    · split
      · rcases (w i).tracked_target with _ | t
        · rfl
        · show ((if (w t).currentEpoch.value ≠ (w i).currentEpoch.value then _ else _) : PyM (World ι) Unit) w = _
          simp only
          split <;> rfl
      · rfl

/-- the part of the object that attitude updates may change is the attitude and the slew flag, and
the propagator of the tracked spacecraft -/
structure AttitudeStable (Q : Spacecraft ι → Prop) : Prop where
  attitude : ∀ s x y z, Q s → Q { s with body_x := x, body_y := y, body_z := z }
  slew : ∀ s, Q s → Q { s with slewing := false }
  stepTo : ∀ s t, Q s → Q { s with propagator := (RK4.stepToEpoch t s.propagator).2 }

theorem On.updateAttitude (hQ : AttitudeStable Q) (depth : Nat) (i : ι) :
    Preserves (AllOn S Q) (Spacecraft.updateAttitude depth i) := by
  induction depth generalizing i with
  | zero => exact Preserves.throw _
  | succ d ih =>
    have hfin : Preserves (AllOn S Q) (Spacecraft.finishCall i) := On.finishCall hQ.slew
    intro w hw
    rw [updateAttitude_succ]
    split
    · exact (On.assign (fun s h => hQ.attitude s _ _ _ h)).bind (fun _ => hfin) w hw
    · split
      · exact (On.assign (fun s h => hQ.attitude s _ _ _ h)).bind (fun _ => hfin) w hw
      · split
        · split
          · exact hw
          · split
            · refine Preserves.bind (On.onPropagator fun s h => hQ.stepTo s _ h) (fun _ =>
                (ih _).bind fun _ => (Preserves.read _).bind fun tgt =>
                  (On.assign (fun s h => ?_)).bind fun _ => hfin) w hw
              exact hQ.attitude s _ _ _ h
            · refine ((Preserves.read _).bind fun tgt =>
                  (On.assign (fun s h => ?_)).bind fun _ => hfin) w hw
              exact hQ.attitude s _ _ _ h
        · exact hfin w hw

/-- a predicate that no API call other than a mode change can break -/
structure QuietStable (Q : Spacecraft ι → Prop) : Prop extends AttitudeStable Q where
  step : ∀ s, Q s → Q { s with propagator := (RK4.step s.propagator).2 }
  filter : ∀ s f, Q s → Q { s with filter := f }
  impulse : ∀ s g, Q s → Q { s with propagator := RK4.new g }
  maneuver : ∀ s dv, Q s → Q { s with propagator := (RK4.maneuver dv s.m_dot s.totalMass s.isp s.propagator).2 }
  mass : ∀ s m, Q s → Q { s with propellant_mass := m }

/-- a predicate that no API call can break -/
structure ApiStable (Q : Spacecraft ι → Prop) : Prop extends QuietStable Q where
  mode : ∀ s m t, (m = LVLH ∨ m = SOLAR ∨ m = TARGET) → (m = TARGET → t ≠ none) → Q s →
    Q { s with steering := m, tracked_target := t, slewing := true }
  stop : ∀ s e, Q s → Q { s with slew_stop := some e }

theorem Preserves.ite {c : Prop} [Decidable c] {a b : PyM (World ι) α} (ha : Preserves P a)
    (hb : Preserves P b) : Preserves P (if c then a else b) := by
  split
  · exact ha
  · exact hb

theorem On.beginSlew (hQ : ApiStable Q) (i : ι) (m : String) (t : Option ι)
    (hm : m = LVLH ∨ m = SOLAR ∨ m = TARGET) (ht : m = TARGET → t ≠ none)
    (pt : Spacecraft ι → World ι → Vec3) : Preserves (AllOn S Q) (Spacecraft.beginSlew i m t pt) :=
  (On.assign fun s h => hQ.mode s _ _ hm (fun h => by
      have := ht h
      cases t with
      | none => exact absurd rfl this
      | some a => simp) h).bind fun _ => Preserves.get.bind fun _ =>
    (Preserves.read i).bind fun _ => (Preserves.lift _).bind fun _ =>
      On.assign fun s h => hQ.stop s _ h

theorem On.track (hQ : ApiStable Q) (depth : Nat) (i : ι) (m : String) (t : Option ι)
    (hm : m = LVLH ∨ m = SOLAR ∨ m = TARGET) (ht : m = TARGET → t ≠ none)
    (pt : Spacecraft ι → World ι → Vec3) :
    Preserves (AllOn S Q) (do
      let s ← Spacecraft.read i
      if s.steering ≠ m then Spacecraft.beginSlew i m t pt else Pure.pure ()
      Spacecraft.updateAttitude depth i) := by
  refine (Preserves.read i).bind fun s => ?_
  refine Preserves.ite ?_ ?_
  · exact (On.beginSlew hQ i m t hm ht pt).bind fun _ => On.updateAttitude hQ.toAttitudeStable depth i
  · exact On.updateAttitude hQ.toAttitudeStable depth i

theorem On.filterProcess (hQ : QuietStable Q) (i : ι) (ob : SpaceObservation) :
    Preserves (AllOn S Q) (Spacecraft.filterProcess i ob) := by
  intro w hw
  show AllOn S Q ((match (w i).filter with
    | none => (PyM.throw .attributeError : PyM (World ι) Unit)
    | some flt => PyM.zoom (fun _ => flt)
        (fun w f => Function.update w i { w i with filter := some f }) (RelativeKalman.process ob)) w).2
  rcases (w i).filter with _ | flt
  · exact hw
  · exact On.update hw fun h => hQ.filter _ _ (hw i h)

/-- the calls that may change the steering mode of an object -/
def Call.modeChange : Call ι → Option ι
  | .trackLvlh i => some i
  | .trackSun i => some i
  | .trackState i _ => some i
  | .acquire i _ => some i
  | _ => none

theorem On.quiet (hQ : QuietStable Q) (depth : Nat) (c : Call ι) (hc : c.modeChange = none) :
    Preserves (AllOn S Q) (c.run depth) := by
  have hup := fun i => On.updateAttitude (S := S) hQ.toAttitudeStable depth i
  cases c with
  | step i => exact (On.onPropagator fun s h => hQ.step s h).bind fun _ => hup i
  | stepToEpoch i t => exact (On.onPropagator fun s h => hQ.stepTo s t h).bind fun _ => hup i
  | updateAttitude i => exact hup i
  | trackLvlh i => cases hc
  | trackSun i => cases hc
  | trackState i j => cases hc
  | acquire i j => cases hc
  | impulsiveManeuver i v =>
    exact (Preserves.read i).bind fun s => (Preserves.lift _).bind fun g =>
      On.assign fun s h => hQ.impulse s g h
  | finiteManeuver i v =>
    intro w hw
    show AllOn S Q ((PyM.lift (frameMatrix (w i).currentState) >>= fun fm => _) w).2
    rcases frameMatrix (w i).currentState with e | fm
    · exact hw
    · rw [PyM.lift_ok_bind_apply, PyM.bind_apply]
      have h1 : AllOn S Q (Spacecraft.onPropagator i (RK4.maneuver (fm.mulVec v) (w i).m_dot (w i).totalMass (w i).isp) w).2 :=
        On.update hw fun h => hQ.maneuver _ _ (hw i h)
      rcases hst : Spacecraft.onPropagator i (RK4.maneuver (fm.mulVec v) (w i).m_dot (w i).totalMass (w i).isp) w with ⟨r, w'⟩
      rw [hst] at h1
      cases r with
      | error e => exact h1
      | ok u =>
        refine ((Preserves.read i).bind fun s => (Preserves.lift _).bind fun _ => (Preserves.lift _).bind fun _ =>
          (Preserves.lift _).bind fun _ => On.assign fun s h => ?_) w' h1
        exact hQ.mass s _ h
  | processWfov i j z1 z2 u =>
    exact (Preserves.read i).bind fun s => (Preserves.read j).bind fun t => (Preserves.lift _).bind fun ob =>
      On.filterProcess hQ i ob
  | processNfov i j z1 z2 u =>
    exact (Preserves.read i).bind fun s => (Preserves.read j).bind fun t => (Preserves.lift _).bind fun ob =>
      On.filterProcess hQ i ob

theorem On.call (hQ : ApiStable Q) (depth : Nat) (c : Call ι) :
    Preserves (AllOn S Q) (c.run depth) := by
  have h1 : LVLH ≠ TARGET := by decide
  have h2 : SOLAR ≠ TARGET := by decide
  cases c with
  | trackLvlh i => exact On.track hQ depth i _ _ (Or.inl rfl) (fun h => absurd h h1) _
  | trackSun i => exact On.track hQ depth i _ _ (Or.inr (Or.inl rfl)) (fun h => absurd h h2) _
  | trackState i j => exact On.track hQ depth i _ _ (Or.inr (Or.inr rfl)) (fun _ => by simp) _
  | acquire i j =>
    refine (Preserves.read i).bind fun s => (Preserves.read j).bind fun t => (Preserves.lift _).bind fun _ =>
      (Preserves.lift _).bind fun _ => (Preserves.lift _).bind fun _ => (Preserves.lift _).bind fun _ =>
      (On.assign fun s h => hQ.filter s _ h).bind fun _ =>
        On.track hQ depth i _ _ (Or.inr (Or.inr rfl)) (fun _ => by simp) _
  | step i => exact On.quiet hQ.toQuietStable depth _ rfl
  | stepToEpoch i t => exact On.quiet hQ.toQuietStable depth _ rfl
  | updateAttitude i => exact On.quiet hQ.toQuietStable depth _ rfl
  | impulsiveManeuver i v => exact On.quiet hQ.toQuietStable depth _ rfl
  | finiteManeuver i v => exact On.quiet hQ.toQuietStable depth _ rfl
  | processWfov i j z1 z2 u => exact On.quiet hQ.toQuietStable depth _ rfl
  | processNfov i j z1 z2 u => exact On.quiet hQ.toQuietStable depth _ rfl

/-- an API-stable predicate holds after every history -/
theorem on_after_all (hQ : ApiStable Q) (depth : Nat) (cs : List (Call ι)) {w : World ι} (hw : AllOn S Q w) :
    AllOn S Q (after depth cs w) := by
  induction cs generalizing w with
  | nil => exact hw
  | cons c cs ih => exact ih (On.call hQ depth c w hw)

/-! ## The same for all objects -/

theorem all_iff {w : World ι} : All Q w ↔ AllOn (fun _ => True) Q w := ⟨fun h i _ => h i, fun h i => h i trivial⟩

theorem preserves_all {m : PyM (World ι) α} (h : Preserves (AllOn (fun _ => True) Q) m) : Preserves (All Q) m :=
  fun w hw => all_iff.mpr (h w (all_iff.mp hw))

theorem all_update {w : World ι} (hw : All Q w) {i : ι} {s : Spacecraft ι} (hs : Q s) :
    All Q (Function.update w i s) := all_iff.mpr (On.update (all_iff.mp hw) fun _ => hs)

theorem Preserves.onPropagator {i : ι} {m : PyM RK4 α}
    (hm : ∀ s : Spacecraft ι, Q s → Q { s with propagator := (m s.propagator).2 }) :
    Preserves (All Q) (Spacecraft.onPropagator i m) := preserves_all (On.onPropagator hm)

theorem Preserves.updateAttitude (hQ : AttitudeStable Q) (depth : Nat) (i : ι) :
    Preserves (All Q) (Spacecraft.updateAttitude depth i) := preserves_all (On.updateAttitude hQ depth i)

theorem Preserves.quiet (hQ : QuietStable Q) (depth : Nat) (c : Call ι) (hc : c.modeChange = none) :
    Preserves (All Q) (c.run depth) := preserves_all (On.quiet hQ depth c hc)

theorem Preserves.call (hQ : ApiStable Q) (depth : Nat) (c : Call ι) :
    Preserves (All Q) (c.run depth) := preserves_all (On.call hQ depth c)

theorem after_all (hQ : ApiStable Q) (depth : Nat) (cs : List (Call ι)) {w : World ι} (hw : All Q w) :
    All Q (after depth cs w) := all_iff.mpr (on_after_all hQ depth cs (all_iff.mp hw))

end Spacecraft

end Openspace
