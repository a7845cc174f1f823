import Verif.Lemmas.Spacecraft

/-!
# Two runs of the spacecraft API side by side

`Sim B S Q m m'`: from worlds which agree on the spacecraft in `S` (as far as motion and attitude go, or completely
if `B`), `m` and `m'` have the same outcome, leave worlds which agree in the same way, and change nothing outside `S`.
-/

set_option linter.unusedSectionVars false

namespace Openspace

namespace Spacecraft

variable {ι : Type} [DecidableEq ι]

/-- two spacecraft objects with the same motion, mass, engine and attitude -/
structure SameMotion (s s' : Spacecraft ι) : Prop where
  propagator : s.propagator = s'.propagator
  steering : s.steering = s'.steering
  tracked_target : s.tracked_target = s'.tracked_target
  slewing : s.slewing = s'.slewing
  slew_stop : s.slew_stop = s'.slew_stop
  slew_scalar : s.slew_scalar = s'.slew_scalar
  m_dot : s.m_dot = s'.m_dot
  isp : s.isp = s'.isp
  dry_mass : s.dry_mass = s'.dry_mass
  propellant_mass : s.propellant_mass = s'.propellant_mass
  body_x : s.body_x = s'.body_x
  body_y : s.body_y = s'.body_y
  body_z : s.body_z = s'.body_z

theorem SameMotion.refl (s : Spacecraft ι) : SameMotion s s :=
  ⟨rfl, rfl, rfl, rfl, rfl, rfl, rfl, rfl, rfl, rfl, rfl, rfl, rfl⟩

theorem SameMotion.symm {s s' : Spacecraft ι} (h : SameMotion s s') : SameMotion s' s :=
  ⟨h.1.symm, h.2.symm, h.3.symm, h.4.symm, h.5.symm, h.6.symm, h.7.symm, h.8.symm, h.9.symm, h.10.symm, h.11.symm,
    h.12.symm, h.13.symm⟩

theorem SameMotion.trans {s s' s'' : Spacecraft ι} (h : SameMotion s s') (k : SameMotion s' s'') : SameMotion s s'' :=
  ⟨h.1.trans k.1, h.2.trans k.2, h.3.trans k.3, h.4.trans k.4, h.5.trans k.5, h.6.trans k.6, h.7.trans k.7,
    h.8.trans k.8, h.9.trans k.9, h.10.trans k.10, h.11.trans k.11, h.12.trans k.12, h.13.trans k.13⟩

/-- the same motion, or the same object if `B` -/
def Alike (B : Prop) (s s' : Spacecraft ι) : Prop := SameMotion s s' ∧ (B → s = s')

/-- what the spacecraft tracks is in `S` -/
def TracksIn (S : ι → Prop) (s : Spacecraft ι) : Prop :=
  s.steering = TARGET → ∀ t, s.tracked_target = some t → S t

/-- whatever a spacecraft of `S` tracks is in `S` -/
def Closed (S : ι → Prop) (w : World ι) : Prop := ∀ k, S k → TracksIn S (w k)

/-- agreement of two worlds on `S` -/
def Agree (B : Prop) (S : ι → Prop) (w w' : World ι) : Prop := ∀ k, S k → Alike B (w k) (w' k)

/-- both raise the same exception, or both return related values -/
def SameOutcome {α β : Type} (Q : α → β → Prop) : Except PyErr α → Except PyErr β → Prop
  | .ok a, .ok b => Q a b
  | .error e, .error e' => e = e'
  | _, _ => False

theorem sameOutcome_refl {α : Type} {Q : α → α → Prop} (hQ : ∀ a, Q a a) (x : Except PyErr α) : SameOutcome Q x x := by
  cases x with
  | error e => rfl
  | ok a => exact hQ a

theorem sameOutcome_of_eq {α : Type} {x y : Except PyErr α} (h : x = y) : SameOutcome Eq x y := by
  subst h; exact sameOutcome_refl (fun _ => rfl) x

theorem sameOutcome_eq {α : Type} {x y : Except PyErr α} (h : SameOutcome Eq x y) : x = y := by
  rcases x with e | a <;> rcases y with e' | b <;> simp_all [SameOutcome]

variable {B : Prop} {S : ι → Prop} {α β γ δ : Type}

def Sim (B : Prop) (S : ι → Prop) (Q : α → β → Prop) (m : PyM (World ι) α) (m' : PyM (World ι) β) : Prop :=
  ∀ w w', Agree B S w w' → Closed S w → SameOutcome Q (m w).1 (m' w').1 ∧ Agree B S (m w).2 (m' w').2 ∧
    Closed S (m w).2 ∧ ∀ k, ¬ S k → (m w).2 k = w k

theorem Sim.bind {Q : α → β → Prop} {R : γ → δ → Prop} {m : PyM (World ι) α} {m' : PyM (World ι) β}
    {f : α → PyM (World ι) γ} {f' : β → PyM (World ι) δ} (hm : Sim B S Q m m') (hf : ∀ a b, Q a b → Sim B S R (f a) (f' b)) :
    Sim B S R (m >>= f) (m' >>= f') := by
  intro w w' h hc
  rw [PyM.bind_apply, PyM.bind_apply]
  obtain ⟨h1, h2, h3, h4⟩ := hm w w' h hc
  rcases hw : m w with ⟨r, u⟩
  rcases hw' : m' w' with ⟨r', u'⟩
  rw [hw, hw'] at h1 h2
  rw [hw] at h3 h4
  cases r with
  | error e =>
    cases r' with
    | error e' => exact ⟨h1, h2, h3, h4⟩
    | ok b => exact h1.elim
  | ok a =>
    cases r' with
    | error e' => exact h1.elim
    | ok b =>
      obtain ⟨g1, g2, g3, g4⟩ := hf a b h1 u u' h2 h3
      exact ⟨g1, g2, g3, fun k hk => (g4 k hk).trans (h4 k hk)⟩

theorem Sim.pure {Q : α → β → Prop} {a : α} {b : β} (h : Q a b) :
    Sim B S Q (Pure.pure a : PyM (World ι) α) (Pure.pure b : PyM (World ι) β) :=
  fun _ _ hw hc => ⟨h, hw, hc, fun _ _ => rfl⟩

theorem Sim.throw {Q : α → β → Prop} (e : PyErr) :
    Sim B S Q (PyM.throw e : PyM (World ι) α) (PyM.throw e : PyM (World ι) β) :=
  fun _ _ hw hc => ⟨rfl, hw, hc, fun _ _ => rfl⟩

theorem Sim.lift {Q : α → β → Prop} {x : Py α} {y : Py β} (h : SameOutcome Q x y) :
    Sim B S Q (PyM.lift x) (PyM.lift y) :=
  fun _ _ hw hc => ⟨h, hw, hc, fun _ _ => rfl⟩

theorem Sim.get : Sim B S (Agree B S) (PyM.get : PyM (World ι) (World ι)) PyM.get :=
  fun _ _ hw hc => ⟨hw, hw, hc, fun _ _ => rfl⟩

/-- the object read is one that tracks within `S` -/
theorem Sim.read {i : ι} (hi : S i) :
    Sim B S (fun s s' => Alike B s s' ∧ TracksIn S s) (read i : PyM (World ι) (Spacecraft ι)) (read i) :=
  fun w w' hw hc => ⟨⟨hw i hi, hc i hi⟩, hw, hc, fun _ _ => rfl⟩

theorem agree_update {w w' : World ι} {i : ι} {s s' : Spacecraft ι} (hi : S i) (h : Agree B S w w') (hc : Closed S w)
    (hs : Alike B s s') (ht : TracksIn S s) :
    Agree B S (Function.update w i s) (Function.update w' i s') ∧ Closed S (Function.update w i s) ∧
      ∀ k, ¬ S k → Function.update w i s k = w k := by
  refine ⟨fun k hk => ?_, fun k hk => ?_, fun k hk => ?_⟩
  · by_cases e : k = i
    · subst e; rw [Function.update_self, Function.update_self]; exact hs
    · rw [Function.update_of_ne e, Function.update_of_ne e]; exact h k hk
  · by_cases e : k = i
    · subst e; rw [Function.update_self]; exact ht
    · rw [Function.update_of_ne e]; exact hc k hk
  · have e : k ≠ i := fun e => hk (e ▸ hi)
    rw [Function.update_of_ne e]

theorem Sim.assign {i : ι} (hi : S i) {f f' : Spacecraft ι → Spacecraft ι}
    (hf : ∀ s s', Alike B s s' → TracksIn S s → Alike B (f s) (f' s') ∧ TracksIn S (f s)) :
    Sim B S Eq (assign i f) (assign i f') := by
  intro w w' h hc
  obtain ⟨h1, h2⟩ := hf _ _ (h i hi) (hc i hi)
  exact ⟨rfl, agree_update hi h hc h1 h2⟩

theorem Sim.onPropagator {i : ι} (hi : S i) (m : PyM RK4 α) :
    Sim B S Eq (onPropagator i m : PyM (World ι) α) (onPropagator i m) := by
  intro w w' h hc
  have e := (h i hi).1.propagator
  unfold Spacecraft.onPropagator PyM.zoom
  refine ⟨sameOutcome_of_eq ?_, agree_update hi h hc ⟨?_, fun b => ?_⟩ (hc i hi)⟩
  · simp only [e]
  · obtain ⟨h1, h2, h3, h4, h5, h6, h7, h8, h9, h10, h11, h12, h13⟩ := (h i hi).1
    exact ⟨by simp only [e], h2, h3, h4, h5, h6, h7, h8, h9, h10, h11, h12, h13⟩
  · simp only [(h i hi).2 b]

theorem SameMotion.position {s s' : Spacecraft ι} (h : SameMotion s s') : s.position = s'.position := by
  unfold Spacecraft.position currentState; rw [h.propagator]

theorem SameMotion.velocity {s s' : Spacecraft ι} (h : SameMotion s s') : s.velocity = s'.velocity := by
  unfold Spacecraft.velocity; rw [h.propagator]

theorem SameMotion.currentState {s s' : Spacecraft ι} (h : SameMotion s s') : s.currentState = s'.currentState := by
  unfold Spacecraft.currentState; rw [h.propagator]

theorem SameMotion.currentEpoch {s s' : Spacecraft ι} (h : SameMotion s s') : s.currentEpoch = s'.currentEpoch := by
  unfold Spacecraft.currentEpoch; rw [h.currentState]

theorem SameMotion.sunVector {s s' : Spacecraft ι} (h : SameMotion s s') : s.sunVector = s'.sunVector := by
  unfold Spacecraft.sunVector; rw [h.currentState]

theorem SameMotion.targetVector {s s' t t' : Spacecraft ι} (h : SameMotion s s') (k : SameMotion t t') :
    s.targetVector t = s'.targetVector t' := by
  unfold Spacecraft.targetVector; rw [h.position, k.position]

theorem SameMotion.totalMass {s s' : Spacecraft ι} (h : SameMotion s s') : s.totalMass = s'.totalMass := by
  unfold Spacecraft.totalMass; rw [h.dry_mass, h.propellant_mass]

theorem SameMotion.sma {s s' : Spacecraft ι} (h : SameMotion s s') : s.sma = s'.sma := by
  unfold Spacecraft.sma; rw [h.position, h.velocity]

theorem Sim.finishCall {i : ι} (hi : S i) : Sim B S Eq (finishCall i : PyM (World ι) Unit) (finishCall i) := by
  refine (Sim.read hi).bind fun s s' hs => (Sim.lift (Q := fun s s' => Alike B s s' ∧ TracksIn S s) ?_).bind
    fun t t' ht => Sim.assign hi fun _ _ _ _ => ht
  obtain ⟨⟨h, hB⟩, hc⟩ := hs
  unfold finishSlew
  rw [← h.slewing, ← h.slew_stop, ← h.currentEpoch]
  split
  · split
    · rfl
    · split
      · obtain ⟨h1, h2, h3, h4, h5, h6, h7, h8, h9, h10, h11, h12, h13⟩ := h
        exact ⟨⟨⟨h1, h2, h3, rfl, rfl, h6, h7, h8, h9, h10, h11, h12, h13⟩, fun b => by rw [hB b]⟩, hc⟩
      · exact ⟨⟨h, hB⟩, hc⟩
  · exact ⟨⟨h, hB⟩, hc⟩

theorem alike_lvlh {s s' : Spacecraft ι} (h : Alike B s s') (hc : TracksIn S s) :
    Alike B s.lvlhAttitude s'.lvlhAttitude ∧ TracksIn S s.lvlhAttitude := by
  obtain ⟨h, hB⟩ := h
  refine ⟨⟨?_, fun b => by rw [hB b]⟩, hc⟩
  have hp := h.position
  have hv := h.velocity
  obtain ⟨h1, h2, h3, h4, h5, h6, h7, h8, h9, h10, h11, h12, h13⟩ := h
  refine ⟨h1, h2, h3, h4, h5, h6, h7, h8, h9, h10, ?_, ?_, ?_⟩ <;> simp only [lvlhAttitude, earthVector, hp, hv]

theorem alike_solar {s s' : Spacecraft ι} (h : Alike B s s') (hc : TracksIn S s) :
    Alike B s.solarAttitude s'.solarAttitude ∧ TracksIn S s.solarAttitude := by
  obtain ⟨h, hB⟩ := h
  refine ⟨⟨?_, fun b => by rw [hB b]⟩, hc⟩
  have hp := h.sunVector
  obtain ⟨h1, h2, h3, h4, h5, h6, h7, h8, h9, h10, h11, h12, h13⟩ := h
  refine ⟨h1, h2, h3, h4, h5, h6, h7, h8, h9, h10, ?_, ?_, ?_⟩ <;> simp only [solarAttitude, hp]

theorem alike_target {s s' t t' : Spacecraft ι} (h : Alike B s s') (hc : TracksIn S s) (ht : Alike B t t') :
    Alike B (s.targetAttitude t) (s'.targetAttitude t') ∧ TracksIn S (s.targetAttitude t) := by
  obtain ⟨h, hB⟩ := h
  obtain ⟨ht, htB⟩ := ht
  refine ⟨⟨?_, fun b => by rw [hB b, htB b]⟩, hc⟩
  have hp := h.sunVector
  have hv := h.targetVector ht
  obtain ⟨h1, h2, h3, h4, h5, h6, h7, h8, h9, h10, h11, h12, h13⟩ := h
  refine ⟨h1, h2, h3, h4, h5, h6, h7, h8, h9, h10, ?_, ?_, ?_⟩ <;> simp only [targetAttitude, hp, hv]

theorem Sim.updateAttitude (d : ℕ) {i : ι} (hi : S i) :
    Sim B S Eq (updateAttitude d i : PyM (World ι) Unit) (updateAttitude d i) := by
  induction d generalizing i with
  | zero => exact Sim.throw _
  | succ d ih =>
    intro w w' h hc
    rw [updateAttitude_succ, updateAttitude_succ]
    obtain ⟨hs, -⟩ := h i hi
    rw [← hs.steering, ← hs.tracked_target, ← hs.currentEpoch]
    split
    · exact ((Sim.assign hi fun _ _ => alike_lvlh).bind fun _ _ _ => Sim.finishCall hi) w w' h hc
    · split
      · exact ((Sim.assign hi fun _ _ => alike_solar).bind fun _ _ _ => Sim.finishCall hi) w w' h hc
      · split
        · rename_i hT
          split
          · exact ⟨rfl, h, hc, fun _ _ => rfl⟩
          · rename_i t ht
            have hSt : S t := hc i hi hT t ht
            rw [← (h t hSt).1.currentEpoch]
            have hend : Sim B S Eq
                ((do
                  let tgt ← Spacecraft.read t
                  Spacecraft.assign i fun s => s.targetAttitude tgt
                  Spacecraft.finishCall i) : PyM (World ι) Unit)
                (do
                  let tgt ← Spacecraft.read t
                  Spacecraft.assign i fun s => s.targetAttitude tgt
                  Spacecraft.finishCall i) :=
              (Sim.read hSt).bind fun t t' ht => (Sim.assign hi fun _ _ hs hc => alike_target hs hc ht.1).bind
                fun _ _ _ => Sim.finishCall hi
            split
            · exact ((Sim.onPropagator hSt _).bind fun _ _ _ => (ih hSt).bind fun _ _ _ => hend) w w' h hc
            · exact hend w w' h hc
        · exact Sim.finishCall hi w w' h hc

theorem Sim.beginSlew {i : ι} (hi : S i) (m : String) (t : Option ι) (pt : Spacecraft ι → World ι → Vec3)
    (ht : ∀ j, t = some j → S j) (hm : m = TARGET → t ≠ none)
    (hpt : ∀ s s' w w', Alike B s s' → Agree B S w w' → pt s w = pt s' w') :
    Sim B S Eq (beginSlew i m t pt) (beginSlew i m t pt) := by
  unfold Spacecraft.beginSlew
  refine (Sim.assign hi fun s s' h hc => ?_).bind fun _ _ _ => Sim.get.bind fun u u' hu =>
    (Sim.read hi).bind fun s s' hs => (Sim.lift (Q := Eq) (sameOutcome_of_eq ?_)).bind fun a a' ha =>
    Sim.assign hi fun s s' h hc => ?_
  · obtain ⟨h, hB⟩ := h
    refine ⟨⟨?_, fun b => by rw [hB b]⟩, ?_⟩
    · obtain ⟨h1, h2, h3, h4, h5, h6, h7, h8, h9, h10, h11, h12, h13⟩ := h
      exact ⟨h1, rfl, by simp only [h3], rfl, h5, h6, h7, h8, h9, h10, h11, h12, h13⟩
    · intro hT k hk
      cases t with
      | none => exact absurd rfl (hm hT)
      | some j => exact ht k (by simpa using hk)
  · rw [hs.1.1.body_z, hpt _ _ _ _ hs.1 hu]
  · obtain ⟨h, hB⟩ := h
    subst ha
    refine ⟨⟨?_, fun b => by rw [hB b]⟩, hc⟩
    have he := h.currentEpoch
    obtain ⟨h1, h2, h3, h4, h5, h6, h7, h8, h9, h10, h11, h12, h13⟩ := h
    exact ⟨h1, h2, h3, h4, by simp only [he, h6], h6, h7, h8, h9, h10, h11, h12, h13⟩

theorem Sim.trackState (d : ℕ) {i j : ι} (hi : S i) (hj : S j) :
    Sim B S Eq (trackState d i j : PyM (World ι) Unit) (trackState d i j) := by
  unfold Spacecraft.trackState
  refine (Sim.read hi).bind fun s s' hs => ?_
  rw [← hs.1.1.steering]
  dsimp only
  split
  · exact (Sim.beginSlew hi _ _ _ (fun k hk => by cases hk; exact hj) (by simp)
      fun s s' w w' h hw => h.1.targetVector (hw j hj).1).bind fun _ _ _ => Sim.updateAttitude d hi
  · exact Sim.updateAttitude d hi

theorem Sim.trackSun (d : ℕ) {i : ι} (hi : S i) :
    Sim B S Eq (trackSun d i : PyM (World ι) Unit) (trackSun d i) := by
  unfold Spacecraft.trackSun
  refine (Sim.read hi).bind fun s s' hs => ?_
  rw [← hs.1.1.steering]
  dsimp only
  split
  · exact (Sim.beginSlew hi _ _ _ (by simp) (by simp [SOLAR, TARGET])
      fun s s' w w' h hw => by rw [h.1.sunVector]).bind fun _ _ _ => Sim.updateAttitude d hi
  · exact Sim.updateAttitude d hi

theorem Sim.trackLvlh (d : ℕ) {i : ι} (hi : S i) :
    Sim B S Eq (trackLvlh d i : PyM (World ι) Unit) (trackLvlh d i) := by
  unfold Spacecraft.trackLvlh
  refine (Sim.read hi).bind fun s s' hs => ?_
  rw [← hs.1.1.steering]
  dsimp only
  split
  · exact (Sim.beginSlew hi _ _ _ (by simp) (by simp [LVLH, TARGET])
      fun s s' w w' h hw => by rw [h.1.position]).bind fun _ _ _ => Sim.updateAttitude d hi
  · exact Sim.updateAttitude d hi

theorem Sim.stepFamily (d : ℕ) {i : ι} (hi : S i) (m : PyM RK4 Unit) :
    Sim B S Eq (do Spacecraft.onPropagator i m; Spacecraft.updateAttitude d i : PyM (World ι) Unit)
      (do Spacecraft.onPropagator i m; Spacecraft.updateAttitude d i) :=
  (Sim.onPropagator hi m).bind fun _ _ _ => Sim.updateAttitude d hi

theorem Sim.impulsiveManeuver {i : ι} (hi : S i) (v : Vec3) :
    Sim B S Eq (impulsiveManeuver i v : PyM (World ι) Unit) (impulsiveManeuver i v) := by
  unfold Spacecraft.impulsiveManeuver
  refine (Sim.read hi).bind fun s s' hs => (Sim.lift (Q := Eq) (sameOutcome_of_eq ?_)).bind fun a a' ha =>
    Sim.assign hi fun s s' h hc => ?_
  · rw [hs.1.1.currentEpoch, hs.1.1.currentState]
  · subst ha
    obtain ⟨h, hB⟩ := h
    refine ⟨⟨?_, fun b => by rw [hB b]⟩, hc⟩
    obtain ⟨h1, h2, h3, h4, h5, h6, h7, h8, h9, h10, h11, h12, h13⟩ := h
    exact ⟨rfl, h2, h3, h4, h5, h6, h7, h8, h9, h10, h11, h12, h13⟩

theorem Sim.finiteManeuver {i : ι} (hi : S i) (v : Vec3) :
    Sim B S Eq (finiteManeuver i v : PyM (World ι) Unit) (finiteManeuver i v) := by
  unfold Spacecraft.finiteManeuver
  refine (Sim.read hi).bind fun s s' hs => (Sim.lift (Q := Eq) (sameOutcome_of_eq ?_)).bind fun a a' ha => ?_
  · rw [hs.1.1.currentState]
  subst ha
  simp only [hs.1.1.m_dot, hs.1.1.totalMass, hs.1.1.isp]
  refine (Sim.onPropagator hi _).bind fun _ _ _ => (Sim.read hi).bind fun s s' hs =>
    (Sim.lift (Q := Eq) (sameOutcome_of_eq ?_)).bind fun a a' ha => (Sim.lift (Q := Eq) (sameOutcome_of_eq ?_)).bind
      fun r r' hr => (Sim.lift (Q := Eq) (sameOutcome_of_eq ?_)).bind fun x x' hx => Sim.assign hi fun s s' h hc => ?_
  · rw [hs.1.1.m_dot, hs.1.1.totalMass]
  · rw [ha]
  · rw [ha, hs.1.1.isp]
  · subst hr hx
    obtain ⟨h, hB⟩ := h
    refine ⟨⟨?_, fun b => by rw [hB b]⟩, hc⟩
    obtain ⟨h1, h2, h3, h4, h5, h6, h7, h8, h9, h10, h11, h12, h13⟩ := h
    exact ⟨h1, h2, h3, h4, h5, h6, h7, h8, h9, by simp only [h7, h10], h11, h12, h13⟩

theorem Sim.acquire (d : ℕ) {i j : ι} (hi : S i) (hj : S j) :
    Sim B S Eq (acquire d i j : PyM (World ι) Unit) (acquire d i j) := by
  unfold Spacecraft.acquire
  refine (Sim.read hi).bind fun s s' hs => (Sim.read hj).bind fun t t' ht =>
    (Sim.lift (Q := Eq) (sameOutcome_of_eq ?_)).bind fun r r' hr => (Sim.lift (Q := Eq) (sameOutcome_of_eq ?_)).bind
      fun a a' ha => (Sim.lift (Q := Eq) (sameOutcome_of_eq ?_)).bind fun p p' hp =>
      (Sim.lift (Q := Eq) (sameOutcome_of_eq ?_)).bind fun f f' hf => (Sim.assign hi fun s s' h hc => ?_).bind
      fun _ _ _ => Sim.trackState d hi hj
  · rw [hs.1.1.currentState, ht.1.1.currentState]
  · rw [hs.1.1.sma]
  · rw [hr, ha]
  · rw [hs.1.1.currentEpoch, hp]
  · subst hf
    obtain ⟨h, hB⟩ := h
    refine ⟨⟨?_, fun b => by rw [hB b]⟩, hc⟩
    obtain ⟨h1, h2, h3, h4, h5, h6, h7, h8, h9, h10, h11, h12, h13⟩ := h
    exact ⟨h1, h2, h3, h4, h5, h6, h7, h8, h9, h10, h11, h12, h13⟩

/-- processing an observation, for worlds that agree completely -/
theorem Sim.filterProcess (hB : B) {i : ι} (hi : S i) (ob : SpaceObservation) :
    Sim B S Eq (filterProcess i ob : PyM (World ι) Unit) (filterProcess i ob) := by
  intro w w' h hc
  have e := (h i hi).2 hB
  have h1 : Spacecraft.filterProcess i ob w = match (w i).filter with
      | none => (.error .attributeError, w)
      | some f => ((RelativeKalman.process ob f).1,
          Function.update w i { w i with filter := some (RelativeKalman.process ob f).2 }) := by
    show (match (w i).filter with | none => _ | some flt => _ : PyM (World ι) Unit) w = _
    cases (w i).filter <;> rfl
  have h2 : Spacecraft.filterProcess i ob w' = match (w' i).filter with
      | none => (.error .attributeError, w')
      | some f => ((RelativeKalman.process ob f).1,
          Function.update w' i { w' i with filter := some (RelativeKalman.process ob f).2 }) := by
    show (match (w' i).filter with | none => _ | some flt => _ : PyM (World ι) Unit) w' = _
    cases (w' i).filter <;> rfl
  rw [h1, h2, ← e]
  cases (w i).filter with
  | none => exact ⟨rfl, h, hc, fun _ _ => rfl⟩
  | some f =>
    exact ⟨sameOutcome_of_eq rfl, agree_update hi h hc ⟨SameMotion.refl _, fun _ => rfl⟩ (hc i hi)⟩

theorem Sim.process (hB : B) {i j : ι} (hi : S i) (hj : S j) (f : Spacecraft ι → Spacecraft ι → Py SpaceObservation) :
    Sim B S Eq
      (do
        let s ← Spacecraft.read i
        let t ← Spacecraft.read j
        let ob ← PyM.lift (f s t)
        Spacecraft.filterProcess i ob : PyM (World ι) Unit)
      (do
        let s ← Spacecraft.read i
        let t ← Spacecraft.read j
        let ob ← PyM.lift (f s t)
        Spacecraft.filterProcess i ob) := by
  refine (Sim.read hi).bind fun s s' hs => (Sim.read hj).bind fun t t' ht =>
    (Sim.lift (Q := Eq) (sameOutcome_of_eq ?_)).bind fun o o' ho => ?_
  · rw [hs.1.2 hB, ht.1.2 hB]
  · subst ho
    exact Sim.filterProcess hB hi o

end Spacecraft

end Openspace
