import Verif.Lemmas.Spacecraft

/-!
# C147: what a call can change
-/

namespace Openspace

namespace Spacecraft

variable {ι : Type} [DecidableEq ι]

/-- the attributes of a spacecraft, in groups -/
inductive Part
  | design | filter | propellant | mode | attitude | motion

/-- two spacecraft have the same values of the attributes of a group -/
def AgreeOn : Part → Spacecraft ι → Spacecraft ι → Prop
  | .design, s, t => s.initial_state = t.initial_state ∧ s.albedo = t.albedo ∧ s.body_radius = t.body_radius ∧
      s.wfov = t.wfov ∧ s.nfov = t.nfov ∧ s.slew_scalar = t.slew_scalar ∧ s.pointing_accuracy = t.pointing_accuracy ∧
      s.m_dot = t.m_dot ∧ s.isp = t.isp ∧ s.dry_mass = t.dry_mass
  | .filter, s, t => s.filter = t.filter
  | .propellant, s, t => s.propellant_mass = t.propellant_mass
  | .mode, s, t => s.steering = t.steering ∧ s.tracked_target = t.tracked_target
  | .attitude, s, t => s.slewing = t.slewing ∧ s.slew_stop = t.slew_stop ∧ s.body_x = t.body_x ∧ s.body_y = t.body_y ∧
      s.body_z = t.body_z
  | .motion, s, t => s.propagator = t.propagator

/-- the attributes that a call may change, and of which spacecraft -/
def Call.mayChange : Call ι → Part → ι → Prop
  | .step _, p, _ | .stepToEpoch _ _, p, _ | .updateAttitude _, p, _ => p = .attitude ∨ p = .motion
  | .trackLvlh i, p, k | .trackSun i, p, k | .trackState i _, p, k => p = .attitude ∨ p = .motion ∨ p = .mode ∧ k = i
  | .acquire i _, p, k => p = .attitude ∨ p = .motion ∨ (p = .mode ∨ p = .filter) ∧ k = i
  | .impulsiveManeuver i _, p, k => p = .motion ∧ k = i
  | .finiteManeuver i _, p, k => (p = .motion ∨ p = .propellant) ∧ k = i
  | .processWfov i _ _ _ _, p, k | .processNfov i _ _ _ _, p, k => p = .filter ∧ k = i

theorem AgreeOn.refl (p : Part) (s : Spacecraft ι) : AgreeOn p s s := by cases p <;> simp [AgreeOn]

theorem AgreeOn.trans {p : Part} {s t u : Spacecraft ι} (h : AgreeOn p s t) (h' : AgreeOn p t u) : AgreeOn p s u := by
  cases p <;> simp only [AgreeOn] at * <;> simp_all

/-- the groups cover all attributes -/
theorem AgreeOn.all {s t : Spacecraft ι} (h : ∀ p, AgreeOn p s t) : s = t := by
  have h1 := h .design
  have h2 := h .filter
  have h3 := h .propellant
  have h4 := h .mode
  have h5 := h .attitude
  have h6 := h .motion
  simp only [AgreeOn] at *
  ext1 <;> simp_all

variable {S : ι → Prop} {Q : Spacecraft ι → Prop}

theorem On.assign' {i : ι} {f : Spacecraft ι → Spacecraft ι} (hf : S i → ∀ s, Q s → Q (f s)) :
    Preserves (AllOn S Q) (Spacecraft.assign i f) := fun w hw => On.update hw fun h => hf h _ (hw i h)

theorem On.onPropagator' {α : Type} {i : ι} {m : PyM RK4 α}
    (hm : S i → ∀ s : Spacecraft ι, Q s → ∀ p, Q { s with propagator := p }) :
    Preserves (AllOn S Q) (Spacecraft.onPropagator i m) := by
  intro w hw
  unfold Spacecraft.onPropagator PyM.zoom
  exact On.update hw fun h => hm h _ (hw i h) _

theorem On.track' (hQ : AttitudeStable Q) (depth : Nat) (i : ι) (m : String) (t : Option ι)
    (pt : Spacecraft ι → World ι → Vec3)
    (h1 : S i → ∀ s, Q s → Q { s with
      steering := m, tracked_target := if t.isSome then t else s.tracked_target, slewing := true })
    (h2 : ∀ s e, Q s → Q { s with slew_stop := e }) :
    Preserves (AllOn S Q) (do
      let s ← Spacecraft.read i
      if s.steering ≠ m then Spacecraft.beginSlew i m t pt else Pure.pure ()
      Spacecraft.updateAttitude depth i) := by
  refine (Preserves.read i).bind fun s => ?_
  refine Preserves.ite ?_ ?_
  · exact ((On.assign' h1).bind fun _ => Preserves.get.bind fun _ => (Preserves.read i).bind fun _ => (Preserves.lift _).bind fun _ =>
      On.assign fun s h => h2 s _ h).bind fun _ => On.updateAttitude hQ depth i
  · exact On.updateAttitude hQ depth i

theorem On.filterProcess' (i : ι) (ob : SpaceObservation) (hQ : S i → ∀ s f, Q s → Q { s with filter := f }) :
    Preserves (AllOn S Q) (Spacecraft.filterProcess i ob) := by
  intro w hw
  show AllOn S Q ((match (w i).filter with
    | none => (PyM.throw .attributeError : PyM (World ι) Unit)
    | some flt => PyM.zoom (fun _ => flt)
        (fun w f => Function.update w i { w i with filter := some f }) (RelativeKalman.process ob)) w).2
  rcases (w i).filter with _ | flt
  · exact hw
  · exact On.update hw fun h => hQ h _ _ (hw i h)

theorem AgreeOn.attitudeStable {p : Part} (h1 : p ≠ .attitude) (h2 : p ≠ .motion) (s0 : Spacecraft ι) :
    AttitudeStable fun s => AgreeOn p s s0 := by
  cases p <;> first | exact absurd rfl h1 | exact absurd rfl h2 | exact ⟨fun _ _ _ _ h => h, fun _ h => h, fun _ _ h => h⟩

theorem AgreeOn.call (d : ℕ) (c : Call ι) (p : Part) (k : ι) (h : ¬ c.mayChange p k) (s0 : Spacecraft ι) :
    Preserves (AllOn (fun i => i = k) fun s => AgreeOn p s s0) (c.run d) := by
  cases c with
  | step i =>
    simp only [Call.mayChange, not_or] at h
    have hQ := AgreeOn.attitudeStable h.1 h.2 s0
    refine (On.onPropagator' fun _ s hs q => ?_).bind fun _ => On.updateAttitude hQ d i
    cases p <;> first | exact absurd rfl h.2 | exact hs
  | stepToEpoch i t =>
    simp only [Call.mayChange, not_or] at h
    have hQ := AgreeOn.attitudeStable h.1 h.2 s0
    refine (On.onPropagator' fun _ s hs q => ?_).bind fun _ => On.updateAttitude hQ d i
    cases p <;> first | exact absurd rfl h.2 | exact hs
  | updateAttitude i =>
    simp only [Call.mayChange, not_or] at h
    exact On.updateAttitude (AgreeOn.attitudeStable h.1 h.2 s0) d i
  | trackLvlh i =>
    simp only [Call.mayChange, not_or] at h
    refine On.track' (AgreeOn.attitudeStable h.1 h.2.1 s0) d i _ _ _ (fun hi s hs => ?_) fun s e hs => ?_
    · cases p <;> first | exact absurd rfl h.1 | exact absurd ⟨rfl, hi.symm⟩ h.2.2 | exact hs
    · cases p <;> first | exact absurd rfl h.1 | exact hs
  | trackSun i =>
    simp only [Call.mayChange, not_or] at h
    refine On.track' (AgreeOn.attitudeStable h.1 h.2.1 s0) d i _ _ _ (fun hi s hs => ?_) fun s e hs => ?_
    · cases p <;> first | exact absurd rfl h.1 | exact absurd ⟨rfl, hi.symm⟩ h.2.2 | exact hs
    · cases p <;> first | exact absurd rfl h.1 | exact hs
  | trackState i j =>
    simp only [Call.mayChange, not_or] at h
    refine On.track' (AgreeOn.attitudeStable h.1 h.2.1 s0) d i _ _ _ (fun hi s hs => ?_) fun s e hs => ?_
    · cases p <;> first | exact absurd rfl h.1 | exact absurd ⟨rfl, hi.symm⟩ h.2.2 | exact hs
    · cases p <;> first | exact absurd rfl h.1 | exact hs
  | acquire i j =>
    simp only [Call.mayChange, not_or] at h
    refine (Preserves.read i).bind fun s => (Preserves.read j).bind fun t => (Preserves.lift _).bind fun _ =>
      (Preserves.lift _).bind fun _ => (Preserves.lift _).bind fun _ => (Preserves.lift _).bind fun _ =>
      (On.assign' fun hi s hs => ?_).bind fun _ =>
        On.track' (AgreeOn.attitudeStable h.1 h.2.1 s0) d i _ _ _ (fun hi s hs => ?_) fun s e hs => ?_
    · cases p <;> first | exact absurd ⟨Or.inr rfl, hi.symm⟩ h.2.2 | exact hs
    · cases p <;> first | exact absurd rfl h.1 | exact absurd ⟨Or.inl rfl, hi.symm⟩ h.2.2 | exact hs
    · cases p <;> first | exact absurd rfl h.1 | exact hs
  | impulsiveManeuver i v =>
    refine (Preserves.read i).bind fun s => (Preserves.lift _).bind fun g => On.assign' fun hi s hs => ?_
    cases p <;> first | exact absurd ⟨rfl, hi.symm⟩ h | exact hs
  | finiteManeuver i v =>
    refine (Preserves.read i).bind fun s => (Preserves.lift _).bind fun g => (On.onPropagator' fun hi s hs q => ?_).bind fun _ =>
      (Preserves.read i).bind fun s => (Preserves.lift _).bind fun _ => (Preserves.lift _).bind fun _ =>
      (Preserves.lift _).bind fun _ => On.assign' fun hi s hs => ?_
    · cases p <;> first | exact absurd ⟨Or.inl rfl, hi.symm⟩ h | exact hs
    · cases p <;> first | exact absurd ⟨Or.inr rfl, hi.symm⟩ h | exact hs
  | processWfov i j z1 z2 u =>
    refine (Preserves.read i).bind fun s => (Preserves.read j).bind fun t => (Preserves.lift _).bind fun ob =>
      On.filterProcess' i ob fun hi s f hs => ?_
    cases p <;> first | exact absurd ⟨rfl, hi.symm⟩ h | exact hs
  | processNfov i j z1 z2 u =>
    refine (Preserves.read i).bind fun s => (Preserves.read j).bind fun t => (Preserves.lift _).bind fun ob =>
      On.filterProcess' i ob fun hi s f hs => ?_
    cases p <;> first | exact absurd ⟨rfl, hi.symm⟩ h | exact hs

end Spacecraft

open Spacecraft

variable {ι : Type} [DecidableEq ι]

/-- In every history of calls, returning or raising, a spacecraft keeps the attributes that none of the calls may change. -/
theorem C147_frame (d : ℕ) (cs : List (Call ι)) (p : Part) (k : ι) (h : ∀ c ∈ cs, ¬ c.mayChange p k) (w : World ι) :
    AgreeOn p (after d cs w k) (w k) := by
  induction cs generalizing w with
  | nil => exact AgreeOn.refl p _
  | cons c cs ih =>
    have h1 := ih (fun c' hc => h c' (List.mem_cons_of_mem _ hc)) (c.run d w).2
    have h2 := AgreeOn.call d c p k (h c List.mem_cons_self) (w k) w (fun i hi => by subst hi; exact AgreeOn.refl p _) k rfl
    exact h1.trans h2

/-- so no history changes the design of a spacecraft: its initial state, albedo, radius, cameras, slew rate, pointing
accuracy, mass flow, specific impulse and dry mass -/
theorem C147_design (d : ℕ) (cs : List (Call ι)) (k : ι) (w : World ι) : AgreeOn .design (after d cs w k) (w k) :=
  C147_frame d cs .design k (fun c _ => by cases c <;> simp [Call.mayChange]) w

/-- a call changes nothing of a spacecraft of which it may change no group -/
theorem C147_untouched (d : ℕ) (cs : List (Call ι)) (k : ι) (h : ∀ c ∈ cs, ∀ p, ¬ c.mayChange p k) (w : World ι) :
    after d cs w k = w k := AgreeOn.all fun p => C147_frame d cs p k (fun c hc => h c hc p) w

/-- burns and observations of one spacecraft and steps of another leave the filter and the mode of a third alone, and
burns leave its filter alone -/
example (w : World (Fin 3)) (v : Vec3) : let w' := after 10 [.finiteManeuver 0 v, .step 1, .processWfov 0 2 0 0 0, .step 0] w
    AgreeOn .filter (w' 2) (w 2) ∧ AgreeOn .mode (w' 0) (w 0) ∧ AgreeOn .propellant (w' 1) (w 1) :=
  ⟨C147_frame _ _ _ _ (by simp [Call.mayChange]) _, C147_frame _ _ _ _ (by simp [Call.mayChange]) _,
    C147_frame _ _ _ _ (by simp [Call.mayChange]) _⟩

example (w : World (Fin 3)) (v : Vec3) : after 10 [.finiteManeuver 0 v, .impulsiveManeuver 1 v, .processNfov 0 2 0 0 0] w 2 = w 2 :=
  C147_untouched _ _ _ (by simp [Call.mayChange]) _

end Openspace
