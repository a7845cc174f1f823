import Verif.Props.Attitude
import Verif.Lemmas.Interference

/-!
# C127: sensing does not influence the truth.  C128: spacecraft that do not track each other do not influence each other
-/

set_option linter.unusedSectionVars false

namespace Openspace

namespace Spacecraft

variable {ι : Type} [DecidableEq ι]

/-! ## C127 -/

/-- one line of a program: a call, or an assignment of attributes that describe sensors and appearance -/
inductive Event (ι : Type)
  | call (c : Call ι)
  | configure (self : ι) (albedo body_radius pointing_accuracy : ℝ) (wfov nfov : Camera)

noncomputable def Event.run (d : ℕ) : Event ι → PyM (World ι) Unit
  | .call c => c.run d
  | .configure i al r p wf nf =>
    assign i fun s => { s with albedo := al, body_radius := r, pointing_accuracy := p, wfov := wf, nfov := nf }

/-- the calls that are not about sensing -/
def Event.moves : Event ι → Option (Call ι)
  | .call (.processWfov ..) => none
  | .call (.processNfov ..) => none
  | .call c => some c
  | .configure .. => none

/-- the world after a program, exceptions being caught between its lines -/
noncomputable def afterEvents (d : ℕ) : List (Event ι) → World ι → World ι
  | [], w => w
  | e :: es, w => afterEvents d es (e.run d w).2

/-- what the calls that are not about sensing return or raise -/
noncomputable def outcomes (d : ℕ) : List (Event ι) → World ι → List (Except PyErr Unit)
  | [], _ => []
  | e :: es, w => (if e.moves.isSome then [(e.run d w).1] else []) ++ outcomes d es (e.run d w).2

theorem filterProcess_sameMotion (i : ι) (ob : SpaceObservation) (w : World ι) (k : ι) :
    SameMotion ((filterProcess i ob w).2 k) (w k) := by
  have h1 : filterProcess i ob w = match (w i).filter with
      | none => (.error .attributeError, w)
      | some f => ((RelativeKalman.process ob f).1,
          Function.update w i { w i with filter := some (RelativeKalman.process ob f).2 }) := by
    show (match (w i).filter with | none => _ | some flt => _ : PyM (World ι) Unit) w = _
    cases (w i).filter <;> rfl
  rw [h1]
  cases (w i).filter with
  | none => exact SameMotion.refl _
  | some f =>
    show SameMotion (Function.update w i _ k) (w k)
    by_cases h : k = i
    · subst h
      rw [Function.update_self]
      exact ⟨rfl, rfl, rfl, rfl, rfl, rfl, rfl, rfl, rfl, rfl, rfl, rfl, rfl⟩
    · rw [Function.update_of_ne h]; exact SameMotion.refl _

theorem process_sameMotion (i j : ι) (f : Spacecraft ι → Spacecraft ι → Py SpaceObservation) (w : World ι) (k : ι) :
    SameMotion (((do
        let s ← Spacecraft.read i
        let t ← Spacecraft.read j
        let ob ← PyM.lift (f s t)
        filterProcess i ob : PyM (World ι) Unit) w).2 k) (w k) := by
  show SameMotion (((PyM.lift (f (w i) (w j)) >>= fun ob => filterProcess i ob) w).2 k) (w k)
  rw [PyM.bind_apply]
  rcases f (w i) (w j) with e | ob
  · exact SameMotion.refl _
  · exact filterProcess_sameMotion i ob w k

theorem event_still (d : ℕ) (e : Event ι) (he : e.moves = none) (w : World ι) (k : ι) :
    SameMotion ((e.run d w).2 k) (w k) := by
  match e, he with
  | .call (.processWfov i j z1 z2 u), _ => exact process_sameMotion i j (fun s t => s.observeWfov t z1 z2 u) w k
  | .call (.processNfov i j z1 z2 u), _ => exact process_sameMotion i j (fun s t => s.observeNfov t z1 z2 u) w k
  | .configure i _ _ _ _ _, _ =>
    by_cases h : k = i
    · subst h
      show SameMotion (Function.update w k _ k) (w k)
      rw [Function.update_self]
      exact ⟨rfl, rfl, rfl, rfl, rfl, rfl, rfl, rfl, rfl, rfl, rfl, rfl, rfl⟩
    · show SameMotion (Function.update w i _ k) (w k)
      rw [Function.update_of_ne h]; exact SameMotion.refl _

/-- the spacecraft a call names -/
def Call.subjects : Call ι → List ι
  | .step i | .stepToEpoch i _ | .updateAttitude i | .trackLvlh i | .trackSun i | .impulsiveManeuver i _
  | .finiteManeuver i _ => [i]
  | .trackState i j | .acquire i j | .processWfov i j _ _ _ | .processNfov i j _ _ _ => [i, j]

theorem Sim.call {B : Prop} {S : ι → Prop} (d : ℕ) (c : Call ι) (hS : ∀ i ∈ c.subjects, S i)
    (hc : B ∨ (Event.call c).moves = some c) : Sim B S Eq (c.run d) (c.run d) := by
  match c with
  | .step i => exact Sim.stepFamily d (hS i (by simp [Call.subjects])) _
  | .stepToEpoch i t => exact Sim.stepFamily d (hS i (by simp [Call.subjects])) _
  | .updateAttitude i => exact Sim.updateAttitude d (hS i (by simp [Call.subjects]))
  | .trackLvlh i => exact Sim.trackLvlh d (hS i (by simp [Call.subjects]))
  | .trackSun i => exact Sim.trackSun d (hS i (by simp [Call.subjects]))
  | .trackState i j => exact Sim.trackState d (hS i (by simp [Call.subjects])) (hS j (by simp [Call.subjects]))
  | .impulsiveManeuver i v => exact Sim.impulsiveManeuver (hS i (by simp [Call.subjects])) v
  | .finiteManeuver i v => exact Sim.finiteManeuver (hS i (by simp [Call.subjects])) v
  | .acquire i j => exact Sim.acquire d (hS i (by simp [Call.subjects])) (hS j (by simp [Call.subjects]))
  | .processWfov i j z1 z2 u =>
    rcases hc with hB | h
    · exact Sim.process hB (hS i (by simp [Call.subjects])) (hS j (by simp [Call.subjects]))
        fun s t => s.observeWfov t z1 z2 u
    · simp [Event.moves] at h
  | .processNfov i j z1 z2 u =>
    rcases hc with hB | h
    · exact Sim.process hB (hS i (by simp [Call.subjects])) (hS j (by simp [Call.subjects]))
        fun s t => s.observeNfov t z1 z2 u
    · simp [Event.moves] at h

theorem moves_some {e : Event ι} {c : Call ι} (h : e.moves = some c) : e = .call c := by
  match e, h with
  | .call (.step _), h | .call (.stepToEpoch _ _), h | .call (.updateAttitude _), h | .call (.trackLvlh _), h
  | .call (.trackSun _), h | .call (.trackState _ _), h | .call (.impulsiveManeuver _ _), h
  | .call (.finiteManeuver _ _), h | .call (.acquire _ _), h => cases h; rfl

theorem events_calls (d : ℕ) (es : List (Event ι)) (w w' : World ι) (h : ∀ i, SameMotion (w i) (w' i)) :
    (∀ i, SameMotion (afterEvents d es w i) (afterEvents d ((es.filterMap Event.moves).map .call) w' i)) ∧
    outcomes d es w = outcomes d ((es.filterMap Event.moves).map .call) w' := by
  induction es generalizing w w' with
  | nil => exact ⟨h, rfl⟩
  | cons e es ih =>
    rcases he : e.moves with _ | c
    · rw [List.filterMap_cons_none he]
      have := ih (e.run d w).2 w' fun i => (event_still d e he w i).trans (h i)
      simpa [afterEvents, outcomes, he] using this
    · rw [List.filterMap_cons_some he]
      have hec := moves_some he
      subst hec
      obtain ⟨h1, h2, -, -⟩ := Sim.call (B := False) (S := fun _ => True) d c (fun _ _ => trivial) (Or.inr he) w w'
        (fun k _ => ⟨h k, False.elim⟩) (fun _ _ _ _ _ => trivial)
      have := ih (c.run d w).2 (c.run d w').2 fun i => (h2 i trivial).1
      refine ⟨this.1, ?_⟩
      show (if (Event.call c).moves.isSome then [(c.run d w).1] else []) ++ _ =
        (if (Event.call c).moves.isSome then [(c.run d w').1] else []) ++ _
      rw [sameOutcome_eq h1]
      exact congrArg _ this.2

end Spacecraft

open Spacecraft

variable {ι : Type} [DecidableEq ι]

/-- two programs that make the same calls other than the processing of observations, from spacecraft which differ at
most in filter, albedo, radius, cameras, pointing accuracy and the stored initial state: whatever they observe,
whatever the random draws and whatever they assign to those attributes, all spacecraft end with the same motion,
masses and attitude, and each of those calls returns or raises alike -/
theorem C127_sensing (d : ℕ) (es es' : List (Event ι)) (he : es.filterMap Event.moves = es'.filterMap Event.moves)
    (w w' : World ι) (h : ∀ i, SameMotion (w i) (w' i)) :
    (∀ i, SameMotion (afterEvents d es w i) (afterEvents d es' w' i)) ∧ outcomes d es w = outcomes d es' w' := by
  obtain ⟨h1, h2⟩ := events_calls d es w w' h
  obtain ⟨h3, h4⟩ := events_calls d es' w' w' fun i => SameMotion.refl _
  rw [he] at h1 h2
  exact ⟨fun i => (h1 i).trans (h3 i).symm, h2.trans h4.symm⟩

/-- two runs of the same program with different draws, and a program with the observations left out and a target of
another size and brightness -/
example (d : ℕ) (w : World (Fin 2)) (z1 z2 u z1' z2' u' al r p : ℝ) (wf nf : Camera) :
    (∀ i, SameMotion (afterEvents d [.call (.acquire 0 1), .call (.step 0), .call (.processWfov 0 1 z1 z2 u), .call (.step 0)] w i)
      (afterEvents d [.call (.acquire 0 1), .call (.step 0), .call (.processWfov 0 1 z1' z2' u'), .call (.step 0)] w i)) ∧
    (∀ i, SameMotion (afterEvents d [.call (.acquire 0 1), .call (.step 0), .call (.processWfov 0 1 z1 z2 u), .call (.step 0)] w i)
      (afterEvents d [.configure 1 al r p wf nf, .call (.acquire 0 1), .call (.step 0), .call (.step 0)] w i)) :=
  ⟨(C127_sensing d _ _ (by rfl) w w fun _ => SameMotion.refl _).1,
    (C127_sensing d _ _ (by rfl) w w fun _ => SameMotion.refl _).1⟩

/-! ## C128 -/

namespace Spacecraft

/-- what the calls about `S` return or raise -/
noncomputable def outcomesOn (S : ι → Prop) [DecidablePred S] (d : ℕ) : List (Call ι) → World ι → List (Except PyErr Unit)
  | [], _ => []
  | c :: cs, w => (if ∀ i ∈ c.subjects, S i then [(c.run d w).1] else []) ++ outcomesOn S d cs (c.run d w).2

end Spacecraft

/-- a call that names spacecraft of `S` only, where what they track is in `S` too, changes no other spacecraft, and
what it returns and how it changes those of `S` does not depend on the others -/
theorem C128_local (S : ι → Prop) (d : ℕ) (c : Call ι) (hc : ∀ i ∈ c.subjects, S i) (w w' : World ι) (hw : Closed S w)
    (h : ∀ i, S i → w i = w' i) :
    (∀ i, ¬ S i → (c.run d w).2 i = w i) ∧ Closed S (c.run d w).2 ∧
    (c.run d w).1 = (c.run d w').1 ∧ ∀ i, S i → (c.run d w).2 i = (c.run d w').2 i := by
  obtain ⟨h1, h2, h3, h4⟩ := Sim.call (B := True) d c hc (Or.inl trivial) w w'
    (fun k hk => ⟨h k hk ▸ SameMotion.refl _, fun _ => h k hk⟩) hw
  exact ⟨h4, h3, sameOutcome_eq h1, fun i hi => (h2 i hi).2 trivial⟩

/-- calls on other spacecraft leave alone what those of `S` track -/
theorem closed_of_others {S : ι → Prop} {d : ℕ} {c : Call ι} (hc : ∀ i ∈ c.subjects, ¬ S i) {w : World ι}
    (hw : Closed S w) (hw' : Closed (fun i => ¬ S i) w) : Closed S (c.run d w).2 := by
  obtain ⟨h1, -, -, -⟩ := C128_local (fun i => ¬ S i) d c hc w w hw' fun _ _ => rfl
  intro k hk
  rw [h1 k (not_not.mpr hk)]
  exact hw k hk

/-- two groups of spacecraft which do not track each other: in every history of calls on the one or the other, however
interleaved, each group fares as if only the calls about it had been made -/
theorem C128_independent (S : ι → Prop) [DecidablePred S] (d : ℕ) (cs : List (Call ι))
    (hcs : ∀ c ∈ cs, (∀ i ∈ c.subjects, S i) ∨ ∀ i ∈ c.subjects, ¬ S i) (w : World ι) (hw : Closed S w)
    (hw' : Closed (fun i => ¬ S i) w) :
    (∀ i, S i → after d cs w i = after d (cs.filter fun c => decide (∀ i ∈ c.subjects, S i)) w i) ∧
    outcomesOn S d cs w = outcomesOn S d (cs.filter fun c => decide (∀ i ∈ c.subjects, S i)) w := by
  suffices H : ∀ (cs : List (Call ι)), (∀ c ∈ cs, (∀ i ∈ c.subjects, S i) ∨ ∀ i ∈ c.subjects, ¬ S i) →
      ∀ w u : World ι, Closed S w → Closed (fun i => ¬ S i) w → (∀ i, S i → w i = u i) →
      (∀ i, S i → after d cs w i = after d (cs.filter fun c => decide (∀ i ∈ c.subjects, S i)) u i) ∧
      outcomesOn S d cs w = outcomesOn S d (cs.filter fun c => decide (∀ i ∈ c.subjects, S i)) u from
    H cs hcs w w hw hw' fun _ _ => rfl
  intro cs
  induction cs with
  | nil => exact fun _ w u _ _ h => ⟨h, rfl⟩
  | cons c cs ih =>
    intro hcs w u hw hw' h
    have hrest := ih fun c hc => hcs c (List.mem_cons_of_mem _ hc)
    by_cases hS : ∀ i ∈ c.subjects, S i
    · rw [List.filter_cons_of_pos (by simpa using hS)]
      obtain ⟨h1, h2, h3, h4⟩ := C128_local S d c hS w u hw h
      have hcl : Closed (fun i => ¬ S i) (c.run d w).2 :=
        closed_of_others (S := fun i => ¬ S i) (fun i hi => not_not.mpr (hS i hi)) hw'
          (by simpa only [not_not] using hw)
      obtain ⟨g1, g2⟩ := hrest (c.run d w).2 (c.run d u).2 h2 hcl h4
      refine ⟨g1, ?_⟩
      rw [outcomesOn, outcomesOn, if_pos hS, if_pos hS, h3, g2]
    · have hS' := (hcs c List.mem_cons_self).resolve_left hS
      rw [List.filter_cons_of_neg (by simpa using hS)]
      obtain ⟨h1, h2, -, -⟩ := C128_local (fun i => ¬ S i) d c hS' w w hw' fun _ _ => rfl
      obtain ⟨g1, g2⟩ := hrest (c.run d w).2 u (closed_of_others hS' hw hw') h2
        fun i hi => (h1 i (not_not.mpr hi)).trans (h i hi)
      refine ⟨g1, ?_⟩
      rw [outcomesOn, if_neg hS, List.nil_append, g2]

/-- so calls on the two groups may be made in either order -/
theorem C128_order (S : ι → Prop) (d : ℕ) (c c' : Call ι) (hc : ∀ i ∈ c.subjects, S i) (hc' : ∀ i ∈ c'.subjects, ¬ S i)
    (w : World ι) (hw : Closed S w) (hw' : Closed (fun i => ¬ S i) w) :
    (c'.run d (c.run d w).2).2 = (c.run d (c'.run d w).2).2 ∧
    (c.run d w).1 = (c.run d (c'.run d w).2).1 ∧ (c'.run d w).1 = (c'.run d (c.run d w).2).1 := by
  obtain ⟨h1, h2, -, -⟩ := C128_local S d c hc w w hw fun _ _ => rfl
  obtain ⟨k1, k2, -, -⟩ := C128_local (fun i => ¬ S i) d c' hc' w w hw' fun _ _ => rfl
  obtain ⟨a1, -, a3, a4⟩ := C128_local S d c hc w (c'.run d w).2 hw fun i hi => (k1 i (not_not.mpr hi)).symm
  obtain ⟨b1, -, b3, b4⟩ := C128_local (fun i => ¬ S i) d c' hc' w (c.run d w).2 hw' fun i hi => (h1 i hi).symm
  refine ⟨funext fun i => ?_, a3, b3⟩
  by_cases hi : S i
  · obtain ⟨e1, -, -, -⟩ := C128_local (fun i => ¬ S i) d c' hc' (c.run d w).2 (c.run d w).2
      (closed_of_others (S := fun i => ¬ S i) (fun i hi => not_not.mpr (hc i hi)) hw'
        (by simpa only [not_not] using hw)) fun _ _ => rfl
    rw [e1 i (not_not.mpr hi), a4 i hi]
  · obtain ⟨e1, -, -, -⟩ := C128_local S d c hc (c'.run d w).2 (c'.run d w).2 (closed_of_others hc' hw hw')
      fun _ _ => rfl
    rw [e1 i hi, b4 i hi]

/-- new spacecraft track nothing; then 0 and 1 track each other, as do 2 and 3 -/
example (d : ℕ) (w : World (Fin 4)) (hw : Fresh w) :
    (∀ i, i < 2 → after d [.trackState 0 1, .trackState 2 3, .trackState 1 0, .step 0, .step 2, .impulsiveManeuver 3 ⟨1, 0, 0⟩, .step 1] w i =
      after d [.trackState 0 1, .trackState 1 0, .step 0, .step 1] w i) ∧
    after d [.step 0, .step 2] w = after d [.step 2, .step 0] w := by
  have hc : ∀ S : Fin 4 → Prop, Closed S w := by
    intro S k _ hT
    rw [(fresh_fields hw k).1] at hT
    exact absurd hT (by decide)
  refine ⟨?_, (C128_order (fun i => i < 2) d (.step 0) (.step 2) (by simp [Call.subjects]) (by simp [Call.subjects]) w (hc _) (hc _)).1⟩
  have := (C128_independent (fun i => i < 2) d [.trackState 0 1, .trackState 2 3, .trackState 1 0, .step 0, .step 2,
    .impulsiveManeuver 3 ⟨1, 0, 0⟩, .step 1] (by simp [Call.subjects]) w (hc _) (hc _)).1
  simpa [Call.subjects] using this

end Openspace
