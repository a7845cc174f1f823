import Verif.Lemmas.Errors
import Verif.Props.Propagation
import Mathlib.Data.Fintype.Card

/-!
# What an attitude update can do to every object of the world
-/

set_option linter.unusedSectionVars false
set_option linter.unusedVariables false

namespace Openspace

namespace Spacecraft

variable {ι : Type} [DecidableEq ι]

theorem currentEpoch_eq (s : Spacecraft ι) : s.currentEpoch = s.propagator.state.epoch := rfl
theorem position_eq (s : Spacecraft ι) : s.position = s.propagator.state.position := rfl
theorem velocity_eq (s : Spacecraft ι) : s.velocity = s.propagator.state.velocity := rfl

/-- what an update at epoch `E` may do to one object, whatever its outcome -/
structure Upd (E : Epoch) (s s' : Spacecraft ι) : Prop where
  /-- only the attitude, the slew flag and the propagator may change -/
  frame : s' = { s with
    body_x := s'.body_x, body_y := s'.body_y, body_z := s'.body_z, slewing := s'.slewing
    propagator := s'.propagator }
  /-- the propagator is untouched or was asked once to go to `E` from another epoch -/
  prop : s'.propagator = s.propagator ∨
    (s.currentEpoch ≠ E ∧ s'.propagator = (RK4.stepToEpoch E s.propagator).2)
  /-- the slew flag is untouched, or cleared at `E`, later than the stop epoch -/
  slew : s'.slewing = s.slewing ∨ (s.slewing = true ∧ s'.slewing = false ∧ s'.currentEpoch = E ∧
    ∃ T, s.slew_stop = some T ∧ T.value < E.value)

/-- the same for an update that succeeds -/
structure UpdOk (E : Epoch) (s s' : Spacecraft ι) : Prop extends Upd E s s' where
  sync : s'.propagator = s.propagator ∨ RK4.stepToEpoch E s.propagator = (.ok (), s'.propagator)

theorem UpdOk.refl (E : Epoch) (s : Spacecraft ι) : UpdOk E s s :=
  { frame := rfl, prop := Or.inl rfl, slew := Or.inl rfl, sync := Or.inl rfl }

theorem UpdOk.epoch {E : Epoch} {s s' : Spacecraft ι} (h : UpdOk E s s') :
    s'.propagator = s.propagator ∨ s'.currentEpoch = E := by
  rcases h.sync with h | h
  · exact Or.inl h
  · exact Or.inr (C41_lands _ _ _ h).1

theorem Upd.synced {E : Epoch} {s s' : Spacecraft ι} (h : Upd E s s') (hs : s.currentEpoch = E) :
    s'.propagator = s.propagator := by
  rcases h.prop with h | h
  · exact h
  · exact absurd hs h.1

theorem Upd.fields {E : Epoch} {s s' : Spacecraft ι} (h : Upd E s s') :
    s'.steering = s.steering ∧ s'.tracked_target = s.tracked_target ∧ s'.slew_stop = s.slew_stop ∧
    s'.slew_scalar = s.slew_scalar ∧ s'.filter = s.filter := by
  rw [h.frame]; exact ⟨rfl, rfl, rfl, rfl, rfl⟩

theorem UpdOk.trans {E : Epoch} {s s1 s2 : Spacecraft ι} (h : UpdOk E s s1) (h' : Upd E s1 s2) :
    Upd E s s2 := by
  have hf := h.fields
  refine ⟨?_, ?_, ?_⟩
  · rw [h'.frame, h.frame]
  · rcases h.epoch with e | e
    · rcases h'.prop with e' | ⟨e1, e2⟩
      · exact Or.inl (e'.trans e)
      · refine Or.inr ⟨?_, by rw [e2, e]⟩
        rw [currentEpoch_eq, ← e, ← currentEpoch_eq]; exact e1
    · rw [h'.synced e]; exact h.prop
  · rcases h.slew with e | ⟨e1, e2, e3, T, hT, hlt⟩
    · rcases h'.slew with e' | ⟨e1', e2', e3', T, hT, hlt⟩
      · exact Or.inl (e'.trans e)
      · exact Or.inr ⟨by rw [← e]; exact e1', e2', e3', T, by rw [← hf.2.2.1]; exact hT, hlt⟩
    · refine Or.inr ⟨e1, ?_, ?_, T, hT, hlt⟩
      · rcases h'.slew with e' | ⟨e1', -⟩
        · rw [e', e2]
        · rw [e2] at e1'; cases e1'
      · rw [currentEpoch_eq, h'.synced e3, ← currentEpoch_eq]; exact e3

theorem UpdOk.trans' {E : Epoch} {s s1 s2 : Spacecraft ι} (h : UpdOk E s s1) (h' : UpdOk E s1 s2) :
    UpdOk E s s2 := by
  refine ⟨h.trans h'.toUpd, ?_⟩
  rcases h.epoch with e | e
  · rcases h'.sync with e' | e'
    · exact Or.inl (e'.trans e)
    · rw [e] at e'; exact Or.inr e'
  · rw [h'.synced e]; exact h.sync

/-- change of the attitude only -/
theorem UpdOk.attitude (E : Epoch) (s : Spacecraft ι) (x y z : Vec3) :
    UpdOk E s { s with body_x := x, body_y := y, body_z := z } :=
  { frame := rfl, prop := Or.inl rfl, slew := Or.inl rfl, sync := Or.inl rfl }

theorem finishSlew_ok {E : Epoch} {s s' : Spacecraft ι} (hE : s.currentEpoch = E) (h : s.finishSlew = .ok s') :
    UpdOk E s s' ∧ s'.body_x = s.body_x ∧ s'.body_y = s.body_y ∧ s'.body_z = s.body_z ∧
    (s.slewing = true → ∃ T, s.slew_stop = some T ∧ (s'.slewing = true ↔ E.value ≤ T.value)) := by
  unfold finishSlew at h
  split at h
  · rename_i hs
    split at h
    · cases h
    · rename_i T hT
      simp only [Except.ok.injEq] at h
      by_cases hlt : s.currentEpoch.value > T.value
      · rw [if_pos hlt] at h
        subst h
        rw [hE] at hlt
        refine ⟨⟨⟨rfl, Or.inl rfl, Or.inr ⟨hs, rfl, hE, T, hT, hlt⟩⟩, Or.inl rfl⟩, rfl, rfl, rfl, fun _ => ⟨T, hT, ?_⟩⟩
        constructor
        · intro h; cases h
        · intro h; exact absurd hlt (not_lt.mpr h)
      · rw [if_neg hlt] at h
        subst h
        rw [hE] at hlt
        exact ⟨UpdOk.refl _ _, rfl, rfl, rfl, fun _ => ⟨T, hT, fun _ => not_lt.mp hlt, fun _ => hs⟩⟩
  · rename_i hs
    cases h
    exact ⟨UpdOk.refl _ _, rfl, rfl, rfl, fun h => absurd h hs⟩

/-- relation on worlds: every object is related -/
def Rel (R : Spacecraft ι → Spacecraft ι → Prop) (w w' : World ι) : Prop := ∀ k, R (w k) (w' k)

theorem rel_update {R : Spacecraft ι → Spacecraft ι → Prop} (hr : ∀ s, R s s) {w : World ι} {i : ι}
    {s : Spacecraft ι} (h : R (w i) s) : Rel R w (Function.update w i s) := by
  intro k
  by_cases hk : k = i
  · subst hk; rw [Function.update_self]; exact h
  · rw [Function.update_of_ne hk]; exact hr _

/-- the body axes prescribed by the steering mode of object `i` -/
def Pointed (w : World ι) (i : ι) : Prop :=
  ((w i).steering = LVLH → (w i).body_z = (w i).earthVector ∧ (w i).body_y = (w i).position.cross (w i).velocity ∧
    (w i).body_x = (w i).body_y.cross (w i).body_z) ∧
  ((w i).steering = SOLAR → (w i).body_z = (w i).sunVector.scaled (-1) ∧ (w i).body_x = (w i).body_z.cross ⟨0, 0, 1⟩ ∧
    (w i).body_y = (w i).body_z.cross (w i).body_x) ∧
  ((w i).steering = TARGET → ∃ t, (w i).tracked_target = some t ∧ (w i).body_z = (w i).targetVector (w t) ∧
    (w i).body_y = (w i).body_z.cross (w i).sunVector ∧ (w i).body_x = (w i).body_y.cross (w i).body_z ∧
    (w t).currentEpoch = (w i).currentEpoch)

/-- the conclusion of an update of `i` -/
structure Updated (i : ι) (E : Epoch) (w w' : World ι) : Prop where
  rel : Rel (UpdOk E) w w'
  pointed : Pointed w' i
  slew : (w i).slewing = true → ∃ T, (w i).slew_stop = some T ∧ ((w' i).slewing = true ↔ E.value ≤ T.value)

theorem Rel.trans {E : Epoch} {w w1 w2 : World ι} (h : Rel (UpdOk E) w w1) (h' : Rel (UpdOk E) w1 w2) :
    Rel (UpdOk E) w w2 := fun k => (h k).trans' (h' k)

theorem Rel.weaken {E : Epoch} {w w1 : World ι} (h : Rel (UpdOk E) w w1) : Rel (Upd E) w w1 :=
  fun k => (h k).toUpd

theorem Rel.trans_weak {E : Epoch} {w w1 w2 : World ι} (h : Rel (UpdOk E) w w1) (h' : Rel (Upd E) w1 w2) :
    Rel (Upd E) w w2 := fun k => (h k).trans (h' k)

theorem finishCall_any {i : ι} {E : Epoch} {w : World ι} (hE : (w i).currentEpoch = E) :
    Rel (Upd E) w (finishCall i w).2 := by
  rw [finishCall_apply]
  rcases h : (w i).finishSlew with e | s'
  · exact fun k => (UpdOk.refl _ _).toUpd
  · exact (rel_update (UpdOk.refl E) (finishSlew_ok hE h).1).weaken

theorem finishCall_eq_ok {i : ι} {E : Epoch} {w w' : World ι} (hE : (w i).currentEpoch = E)
    (h : finishCall i w = (.ok (), w')) :
    Rel (UpdOk E) w w' ∧ (w' i).body_x = (w i).body_x ∧ (w' i).body_y = (w i).body_y ∧ (w' i).body_z = (w i).body_z ∧
    (∀ k, (w' k).propagator = (w k).propagator) ∧
    ((w i).slewing = true → ∃ T, (w i).slew_stop = some T ∧ ((w' i).slewing = true ↔ E.value ≤ T.value)) := by
  rw [finishCall_apply] at h
  rcases hs : (w i).finishSlew with e | s'
  · rw [hs] at h; cases h
  rw [hs] at h
  simp only [Prod.mk.injEq, true_and] at h
  subst h
  obtain ⟨h1, h2, h3, h4, h5⟩ := finishSlew_ok hE hs
  refine ⟨rel_update (UpdOk.refl E) h1, ?_⟩
  rw [Function.update_self]
  refine ⟨h2, h3, h4, fun k => ?_, h5⟩
  by_cases hk : k = i
  · subst hk; rw [Function.update_self]; exact h1.toUpd.synced hE
  · rw [Function.update_of_ne hk]

/-- the mode-specific assignment followed by the end of `update_attitude` -/
theorem assign_finish_any {i : ι} {E : Epoch} {w : World ι} (hE : (w i).currentEpoch = E)
    {f : Spacecraft ι → Spacecraft ι} (hf : UpdOk E (w i) (f (w i))) (hf' : (f (w i)).propagator = (w i).propagator) :
    Rel (Upd E) w ((assign i f >>= fun _ => finishCall i) w).2 := by
  show Rel (Upd E) w (finishCall i (Function.update w i (f (w i)))).2
  refine (rel_update (UpdOk.refl E) hf).trans_weak (finishCall_any ?_)
  rw [Function.update_self, currentEpoch_eq, hf', ← currentEpoch_eq, hE]

theorem assign_finish_ok {i : ι} {E : Epoch} {w w' : World ι} (hE : (w i).currentEpoch = E)
    {f : Spacecraft ι → Spacecraft ι} (hf : UpdOk E (w i) (f (w i))) (hf' : (f (w i)).propagator = (w i).propagator)
    (hs : (f (w i)).slewing = (w i).slewing)
    (h : (assign i f >>= fun _ => finishCall i) w = (.ok (), w')) :
    Rel (UpdOk E) w w' ∧ (w' i).body_x = (f (w i)).body_x ∧ (w' i).body_y = (f (w i)).body_y ∧
    (w' i).body_z = (f (w i)).body_z ∧ (∀ k, (w' k).propagator = (w k).propagator) ∧
    ((w i).slewing = true → ∃ T, (w i).slew_stop = some T ∧ ((w' i).slewing = true ↔ E.value ≤ T.value)) := by
  change finishCall i (Function.update w i (f (w i))) = (.ok (), w') at h
  have hr := rel_update (UpdOk.refl E) hf
  obtain ⟨h1, h2, h3, h4, h5, h6⟩ := finishCall_eq_ok (E := E)
    (by rw [Function.update_self, currentEpoch_eq, hf', ← currentEpoch_eq, hE]) h
  rw [Function.update_self] at h2 h3 h4 h6
  refine ⟨hr.trans h1, h2, h3, h4, fun k => ?_, ?_⟩
  · rw [h5 k]
    by_cases hk : k = i
    · subst hk; rw [Function.update_self, hf']
    · rw [Function.update_of_ne hk]
  · intro hsl
    obtain ⟨T, hT, hiff⟩ := h6 (by rw [hs]; exact hsl)
    exact ⟨T, by rw [← hf.fields.2.2.1]; exact hT, hiff⟩

theorem rel_onPropagator_any {E : Epoch} {w : World ι} {t : ι} (h : (w t).currentEpoch ≠ E) :
    Rel (Upd E) w (onPropagator t (RK4.stepToEpoch E) w).2 := by
  unfold onPropagator PyM.zoom
  refine (fun k => ?_)
  show Upd E (w k) (Function.update w t _ k)
  by_cases hk : k = t
  · subst hk; rw [Function.update_self]
    exact ⟨rfl, Or.inr ⟨h, rfl⟩, Or.inl rfl⟩
  · rw [Function.update_of_ne hk]; exact (UpdOk.refl E _).toUpd

theorem onPropagator_eq_ok {α : Type} {m : PyM RK4 α} {w w' : World ι} {t : ι} {a : α} :
    onPropagator t m w = (.ok a, w') ↔
      ∃ p, m (w t).propagator = (.ok a, p) ∧ w' = Function.update w t { w t with propagator := p } := by
  unfold onPropagator PyM.zoom
  rcases h : m (w t).propagator with ⟨r, p⟩
  simp only [Prod.mk.injEq]
  constructor
  · rintro ⟨rfl, rfl⟩; exact ⟨p, ⟨rfl, rfl⟩, rfl⟩
  · rintro ⟨p, ⟨rfl, rfl⟩, rfl⟩; exact ⟨rfl, rfl⟩

theorem rel_onPropagator_ok {E : Epoch} {w w' : World ι} {t : ι} (h : (w t).currentEpoch ≠ E)
    (ho : onPropagator t (RK4.stepToEpoch E) w = (.ok (), w')) :
    Rel (UpdOk E) w w' ∧ (w' t).currentEpoch = E := by
  obtain ⟨p, hp, rfl⟩ := onPropagator_eq_ok.mp ho
  refine ⟨rel_update (UpdOk.refl E) ⟨⟨rfl, Or.inr ⟨h, ?_⟩, Or.inl rfl⟩, Or.inr hp⟩, ?_⟩
  · rw [hp]
  · rw [Function.update_self, currentEpoch_eq]
    exact (C41_lands _ _ _ hp).1

theorem epoch_ne_iff {a b : Epoch} : a.value ≠ b.value ↔ a ≠ b :=
  not_congr ⟨fun h => Epoch.ext h, fun h => by rw [h]⟩

/-- **The effect of `update_attitude`**: whatever its outcome, and when it succeeds. -/
theorem updateAttitude_effect (d : ℕ) (i : ι) (w : World ι) :
    Rel (Upd (w i).currentEpoch) w (updateAttitude d i w).2 ∧
    (∀ w', updateAttitude d i w = (.ok (), w') → Updated i (w i).currentEpoch w w') := by
  induction d generalizing i w with
  | zero => exact ⟨fun k => (UpdOk.refl _ _).toUpd, fun w' h => by cases h⟩
  | succ d ih =>
    obtain ⟨E, hE⟩ : ∃ E, E = (w i).currentEpoch := ⟨_, rfl⟩
    rw [← hE]
    rw [updateAttitude_succ]
    have h12 : LVLH ≠ SOLAR := by decide
    have h13 : LVLH ≠ TARGET := by decide
    have h23 : SOLAR ≠ TARGET := by decide
    split
    · rename_i hm
      refine ⟨assign_finish_any hE.symm (UpdOk.attitude _ _ _ _ _) rfl, fun w' h => ?_⟩
      obtain ⟨h1, h2, h3, h4, h5, h6⟩ := assign_finish_ok hE.symm (UpdOk.attitude _ _ _ _ _) rfl rfl h
      refine ⟨h1, ?_, h6⟩
      have hst : (w' i).steering = LVLH := by rw [(h1 i).fields.1, hm]
      refine ⟨fun _ => ?_, fun hx => absurd (hst.symm.trans hx) h12, fun hx => absurd (hst.symm.trans hx) h13⟩
      have hp : (w' i).position = (w i).position := by rw [position_eq, h5]; rfl
      have hv : (w' i).velocity = (w i).velocity := by rw [velocity_eq, h5]; rfl
      refine ⟨?_, ?_, ?_⟩
      · rw [h4]; show (w i).earthVector = _; simp only [earthVector, hp]
      · rw [h3, hp, hv]; rfl
      · rw [h2, h3, h4]; rfl
    · rename_i hm1
      split
      · rename_i hm
        refine ⟨assign_finish_any hE.symm (UpdOk.attitude _ _ _ _ _) rfl, fun w' h => ?_⟩
        obtain ⟨h1, h2, h3, h4, h5, h6⟩ := assign_finish_ok hE.symm (UpdOk.attitude _ _ _ _ _) rfl rfl h
        refine ⟨h1, ?_, h6⟩
        have hst : (w' i).steering = SOLAR := by rw [(h1 i).fields.1, hm]
        refine ⟨fun hx => absurd (hst.symm.trans hx) h12.symm, fun _ => ?_, fun hx => absurd (hst.symm.trans hx) h23⟩
        refine ⟨?_, ?_, ?_⟩
        · rw [h4]; simp only [solarAttitude, sunVector, currentState, h5]
        · rw [h2, h4]; rfl
        · rw [h3, h4, h2]; rfl
      · rename_i hm2
        split
        · rename_i hm
          rcases htt : (w i).tracked_target with _ | t
          · simp only
            exact ⟨fun k => (UpdOk.refl _ _).toUpd, fun w' h => by cases h⟩
          · simp only
            have fin : ∀ w1 : World ι, Rel (UpdOk E) w w1 → (w1 t).currentEpoch = E →
                Rel (Upd E) w ((assign i (fun s => s.targetAttitude (w1 t)) >>= fun _ => finishCall i) w1).2 ∧
                ∀ w', (assign i (fun s => s.targetAttitude (w1 t)) >>= fun _ => finishCall i) w1 = (.ok (), w') →
                  (w1 i).slewing = (w i).slewing ∨ (w1 i).slewing = false →
                  (((w i).slewing = true → (w1 i).slewing = false →
                    ∃ T, (w i).slew_stop = some T ∧ T.value < E.value)) → Updated i E w w' := by
              intro w1 hr ht
              have hE1 : (w1 i).currentEpoch = E := by
                rw [currentEpoch_eq, (hr i).synced hE.symm, ← currentEpoch_eq, hE]
              refine ⟨hr.trans_weak (assign_finish_any hE1 (UpdOk.attitude _ _ _ _ _) rfl), fun w' h hsl hsl2 => ?_⟩
              obtain ⟨h1, h2, h3, h4, h5, h6⟩ := assign_finish_ok hE1 (UpdOk.attitude _ _ _ _ _) rfl rfl h
              have hst : (w' i).steering = TARGET := by rw [(h1 i).fields.1, (hr i).fields.1, hm]
              refine ⟨hr.trans h1, ⟨fun hx => absurd (hst.symm.trans hx) h13.symm,
                fun hx => absurd (hst.symm.trans hx) h23.symm, fun _ => ⟨t, ?_, ?_, ?_, ?_, ?_⟩⟩, ?_⟩
              · rw [(h1 i).fields.2.1, (hr i).fields.2.1, htt]
              · rw [h4]; simp only [targetAttitude, targetVector, position_eq, h5]
              · rw [h3, h4]; simp only [targetAttitude, sunVector, currentState, h5]
              · rw [h2, h3, h4]; rfl
              · rw [currentEpoch_eq, h5, ← currentEpoch_eq, ht, currentEpoch_eq, h5, ← currentEpoch_eq, hE1]
              · intro hs
                rcases hsl with e | e
                · obtain ⟨T, hT, hiff⟩ := h6 (by rw [e, hs])
                  exact ⟨T, by rw [← (hr i).fields.2.2.1]; exact hT, hiff⟩
                · obtain ⟨T, hT, hlt⟩ := hsl2 hs e
                  refine ⟨T, hT, fun hx => ?_, fun hx => absurd hlt (not_lt.mpr hx)⟩
                  rcases (h1 i).slew with e' | ⟨e', -⟩
                  · rw [e', e] at hx; cases hx
                  · rw [e] at e'; cases e'
            split
            · rename_i hne
              rw [← hE, epoch_ne_iff] at hne
              rw [PyM.bind_apply]
              rcases ho : onPropagator t (RK4.stepToEpoch (w i).currentEpoch) w with ⟨r, w0⟩
              have hany := rel_onPropagator_any hne
              rw [← hE] at ho
              rw [ho] at hany
              cases r with
              | error e => exact ⟨hany, fun w' h => by cases h⟩
              | ok u =>
                obtain ⟨hr0, ht0⟩ := rel_onPropagator_ok hne ho
                simp only
                rw [PyM.bind_apply]
                have ih' := ih t w0
                rw [ht0] at ih'
                rcases hu : updateAttitude d t w0 with ⟨r, w1⟩
                rw [hu] at ih'
                cases r with
                | error e => exact ⟨hr0.trans_weak ih'.1, fun w' h => by cases h⟩
                | ok u =>
                  have hup := ih'.2 w1 rfl
                  have hr1 := hr0.trans hup.rel
                  have ht1 : (w1 t).currentEpoch = E := by
                    rw [currentEpoch_eq, (hup.rel t).synced ht0, ← currentEpoch_eq, ht0]
                  have hf := fin w1 hr1 ht1
                  refine ⟨hf.1, fun w' h => hf.2 w' h ?_ ?_⟩
                  · rcases (hr1 i).slew with e | e
                    · exact Or.inl e
                    · exact Or.inr e.2.1
                  · intro a b
                    rcases (hr1 i).slew with e | ⟨-, -, -, e⟩
                    · rw [a, b] at e; cases e
                    · exact e
            · rename_i hne
              have hf := fin w (fun k => UpdOk.refl _ _) (by
                rw [ne_eq, not_not, ← hE] at hne; exact Epoch.ext hne)
              refine ⟨hf.1, fun w' h => hf.2 w' h (Or.inl rfl) ?_⟩
              intro a b; rw [a] at b; cases b
        · rename_i hm3
          refine ⟨finishCall_any hE.symm, fun w' h => ?_⟩
          obtain ⟨h1, h2, h3, h4, h5, h6⟩ := finishCall_eq_ok hE.symm h
          have hst : (w' i).steering = (w i).steering := (h1 i).fields.1
          exact ⟨h1, ⟨fun hx => absurd (hst.symm.trans hx) hm1, fun hx => absurd (hst.symm.trans hx) hm2,
            fun hx => absurd (hst.symm.trans hx) hm3⟩, h6⟩

/-! ## Which exceptions an update can raise -/

/-- the attributes that the current mode reads are set -/
def Safe (s : Spacecraft ι) : Prop :=
  (s.slewing = true → s.slew_stop ≠ none) ∧ (s.steering = TARGET → s.tracked_target ≠ none)

theorem safe_quiet : QuietStable (Safe (ι := ι)) where
  attitude := fun _ _ _ _ h => h
  slew := fun _ h => ⟨fun hx => absurd hx (by simp), h.2⟩
  stepTo := fun _ _ h => h
  step := fun _ h => h
  filter := fun _ _ h => h
  impulse := fun _ _ h => h
  maneuver := fun _ _ h => h
  mass := fun _ _ h => h

/-- the number of spacecraft whose epoch is not `E` -/
noncomputable def unsynced [Fintype ι] (w : World ι) (E : Epoch) : ℕ := by
  classical exact (Finset.univ.filter fun k => (w k).currentEpoch ≠ E).card

theorem unsynced_lt [Fintype ι] {w w' : World ι} {E : Epoch} (h : Rel (UpdOk E) w w') {t : ι}
    (h1 : (w t).currentEpoch ≠ E) (h2 : (w' t).currentEpoch = E) : unsynced w' E < unsynced w E := by
  classical
  unfold unsynced
  apply Finset.card_lt_card
  rw [Finset.ssubset_iff_of_subset]
  · refine ⟨t, by simp [h1], by simp [h2]⟩
  · intro k hk
    simp only [Finset.mem_filter, Finset.mem_univ, true_and] at hk ⊢
    intro hx
    apply hk
    rw [currentEpoch_eq, (h k).synced hx, ← currentEpoch_eq, hx]

theorem unsynced_lt_card [Fintype ι] (w : World ι) (i : ι) : unsynced w (w i).currentEpoch < Fintype.card ι := by
  classical
  unfold unsynced
  rw [← Finset.card_univ]
  apply Finset.card_lt_card
  rw [Finset.ssubset_iff_of_subset (Finset.subset_univ _)]
  exact ⟨i, Finset.mem_univ _, by simp⟩

theorem finishCall_error {i : ι} {w w' : World ι} {e : PyErr} (h : finishCall i w = (.error e, w')) :
    e = .attributeError ∧ ¬ Safe (w i) := by
  rw [finishCall_apply] at h
  rcases finishSlew_cases (w i) with ⟨h1, h2, h3⟩ | h3 | h3
  · rw [h3] at h; cases h
    exact ⟨rfl, fun hs => hs.1 h1 h2⟩
  · rw [h3] at h; cases h
  · rw [h3] at h; cases h

/-- an update raises `AttributeError` only if some object reads an unset attribute, and uses at most one level
of recursion more than there are spacecraft at other epochs -/
theorem updateAttitude_error (d : ℕ) (i : ι) (w : World ι) (e : PyErr)
    (h : (updateAttitude d i w).1 = .error e) :
    (e = .attributeError → ¬ All Safe w) ∧
    (e = .recursionError → ∀ [Fintype ι], d ≤ unsynced w (w i).currentEpoch) := by
  induction d generalizing i w with
  | zero => cases h; exact ⟨fun h => (by cases h), fun _ => Nat.zero_le _⟩
  | succ d ih =>
    have hfin : ∀ (w1 : World ι) (f : Spacecraft ι → Spacecraft ι),
        (∀ s, Safe s → Safe (f s)) → All Safe w1 ∨ ¬ All Safe w →
        ((assign i f >>= fun _ => finishCall i) w1).1 = .error e →
        (e = .attributeError → ¬ All Safe w) ∧
        (e = .recursionError → ∀ [Fintype ι], d + 1 ≤ unsynced w (w i).currentEpoch) := by
      intro w1 f hf hw1 hx
      change (finishCall i (Function.update w1 i (f (w1 i)))).1 = .error e at hx
      rcases hy : finishCall i (Function.update w1 i (f (w1 i))) with ⟨r, w2⟩
      rw [hy] at hx
      simp only at hx
      subst hx
      obtain ⟨h1, h2⟩ := finishCall_error hy
      rw [Function.update_self] at h2
      refine ⟨fun _ hs => ?_, fun h => by rw [h1] at h; cases h⟩
      rcases hw1 with hw1 | hw1
      · exact h2 (hf _ (hw1 i))
      · exact hw1 hs
    rw [updateAttitude_succ] at h
    have hself : All Safe w ∨ ¬ All Safe w := em _
    split at h
    · exact hfin w lvlhAttitude (fun s hs => hs) hself h
    · split at h
      · exact hfin w solarAttitude (fun s hs => hs) hself h
      · split at h
        · rename_i hm
          rcases htt : (w i).tracked_target with _ | t
          · rw [htt] at h
            simp only [Except.error.injEq] at h
            subst h
            exact ⟨fun _ hs => (hs i).2 hm htt, fun h => by cases h⟩
          · rw [htt] at h
            simp only at h
            split at h
            · rename_i hne
              rw [epoch_ne_iff] at hne
              rw [PyM.bind_apply] at h
              have ht1 := tame_onPropagator t (tame_stepToEpoch (w i).currentEpoch) w
              have hp1 : Preserves (All Safe) (onPropagator t (RK4.stepToEpoch (w i).currentEpoch)) :=
                Preserves.onPropagator fun s h => safe_quiet.stepTo s _ h
              rcases ho : onPropagator t (RK4.stepToEpoch (w i).currentEpoch) w with ⟨r, w0⟩
              rw [ho] at h ht1
              cases r with
              | error e' =>
                simp only [Except.error.injEq] at h
                subst h
                exact ⟨fun h => absurd h (ht1 _ rfl).1, fun h => absurd h (ht1 _ rfl).2⟩
              | ok u =>
                obtain ⟨hr0, ht0⟩ := rel_onPropagator_ok hne ho
                simp only at h
                rw [PyM.bind_apply] at h
                rcases hu : updateAttitude d t w0 with ⟨r, w1⟩
                rw [hu] at h
                have hsafe0 : All Safe w → All Safe w0 := fun hs => by have := hp1 w hs; rw [ho] at this; exact this
                cases r with
                | error e' =>
                  simp only [Except.error.injEq] at h
                  subst h
                  obtain ⟨h1, h2⟩ := ih t w0 (by rw [hu])
                  refine ⟨fun hx hs => h1 hx (hsafe0 hs), fun hx _ => ?_⟩
                  have := h2 hx
                  rw [ht0] at this
                  have := unsynced_lt hr0 hne ht0
                  omega
                | ok u =>
                  have hp2 : Preserves (All Safe) (updateAttitude d t) :=
                    Preserves.updateAttitude safe_quiet.toAttitudeStable d t
                  refine hfin w1 (fun s => s.targetAttitude (w1 t)) (fun s hs => hs) ?_ h
                  by_cases hs : All Safe w
                  · left
                    have := hp2 w0 (hsafe0 hs); rw [hu] at this; exact this
                  · exact Or.inr hs
            · exact hfin w (fun s => s.targetAttitude (w t)) (fun s hs => hs) hself h
        · rcases hy : finishCall i w with ⟨r, w2⟩
          rw [hy] at h
          simp only at h
          subst h
          obtain ⟨h1, h2⟩ := finishCall_error hy
          exact ⟨fun _ hs => h2 (hs i), fun h => by rw [h1] at h; cases h⟩

end Spacecraft

end Openspace
