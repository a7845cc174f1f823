import Verif.Props.Attitude
import Verif.Props.Linalg

/-!
# C61 to C65: histories of calls, slews and tracking
-/

set_option linter.unusedSectionVars false

namespace Openspace

open Real Spacecraft

variable {ι : Type} [DecidableEq ι]

/-! ## C61 -/

/-- every mode-changing call of the history returned normally (the other calls may have raised) -/
def Orderly (d : ℕ) : List (Call ι) → World ι → Prop
  | [], _ => True
  | c :: cs, w => (c.modeChange = none ∨ (c.run d w).1 = .ok ()) ∧ Orderly d cs (c.run d w).2

theorem safe_update {d : ℕ} {i : ι} {w w' : World ι} (hw : All Safe w) (h : updateAttitude d i w = (.ok (), w')) :
    All Safe w' := by
  have := Preserves.updateAttitude safe_quiet.toAttitudeStable d i w hw
  rw [h] at this
  exact this

theorem safe_track {d : ℕ} {i : ι} {m : String} {t : Option ι} {pt : Spacecraft ι → World ι → Vec3} {w w' : World ι}
    (ht : m = TARGET → t ≠ none) (hw : All Safe w) (h : track d i m t pt w = (.ok (), w')) : All Safe w' := by
  obtain ⟨w1, h1, ⟨-, rfl⟩ | ⟨-, ang, -, rfl⟩⟩ := track_ok h
  · exact safe_update hw h1
  · refine safe_update (all_update hw ⟨fun _ => by simp, fun hx => ?_⟩) h1
    have := ht hx
    cases t with
    | none => exact absurd rfl this
    | some a => simp [slewStart]

theorem acquire_ok {d : ℕ} {i j : ι} {w w' : World ι} (h : acquire d i j w = (.ok (), w')) :
    ∃ f, trackState d i j (Function.update w i { w i with filter := some f }) = (.ok (), w') := by
  obtain ⟨_, w1, h1, h⟩ := PyM.bind_eq_ok.mp h
  cases h1
  obtain ⟨_, w1, h1, h⟩ := PyM.bind_eq_ok.mp h
  cases h1
  obtain ⟨_, w1, h1, h⟩ := PyM.bind_eq_ok.mp h
  obtain ⟨-, e⟩ := PyM.lift_eq_ok.mp h1
  rw [e] at h; clear h1 e
  obtain ⟨_, w1, h1, h⟩ := PyM.bind_eq_ok.mp h
  obtain ⟨-, e⟩ := PyM.lift_eq_ok.mp h1
  rw [e] at h; clear h1 e
  obtain ⟨_, w1, h1, h⟩ := PyM.bind_eq_ok.mp h
  obtain ⟨-, e⟩ := PyM.lift_eq_ok.mp h1
  rw [e] at h; clear h1 e
  obtain ⟨f, w1, h1, h⟩ := PyM.bind_eq_ok.mp h
  obtain ⟨-, e⟩ := PyM.lift_eq_ok.mp h1
  rw [e] at h; clear h1 e
  exact ⟨f, h⟩

theorem safe_call {d : ℕ} {c : Call ι} {w : World ι} (hw : All Safe w)
    (hc : c.modeChange = none ∨ (c.run d w).1 = .ok ()) : All Safe (c.run d w).2 := by
  rcases hc with hc | hc
  · exact Preserves.quiet safe_quiet d c hc w hw
  · rcases hr : c.run d w with ⟨r, w'⟩
    rw [hr] at hc
    simp only at hc
    subst hc
    have h1 : LVLH ≠ TARGET := by decide
    have h2 : SOLAR ≠ TARGET := by decide
    have hq : c.modeChange = none → All Safe w' := fun hc => by
      have := Preserves.quiet safe_quiet d c hc w hw
      rw [hr] at this; exact this
    cases c with
    | trackLvlh i => exact safe_track (fun h => absurd h h1) hw hr
    | trackSun i => exact safe_track (fun h => absurd h h2) hw hr
    | trackState i j => exact safe_track (t := some j) (fun _ => by simp) hw hr
    | acquire i j =>
      obtain ⟨f, h⟩ := acquire_ok hr
      exact safe_track (t := some j) (fun _ => by simp) (all_update hw (safe_quiet.filter _ _ (hw i))) h
    | step i => exact hq rfl
    | stepToEpoch i t => exact hq rfl
    | updateAttitude i => exact hq rfl
    | impulsiveManeuver i v => exact hq rfl
    | finiteManeuver i v => exact hq rfl
    | processWfov i j z1 z2 u => exact hq rfl
    | processNfov i j z1 z2 u => exact hq rfl

theorem safe_after {d : ℕ} {cs : List (Call ι)} {w : World ι} (hw : All Safe w) (hc : Orderly d cs w) :
    All Safe (after d cs w) := by
  induction cs generalizing w with
  | nil => exact hw
  | cons c cs ih => exact ih (safe_call hw hc.1) hc.2

theorem fresh_safe {w : World ι} (hw : Fresh w) : All Safe w := fun i =>
  ⟨fun h => (by rw [(fresh_fields hw i).2.2.1] at h; cases h),
   fun h => (by rw [(fresh_fields hw i).1] at h; exact absurd h (by decide))⟩

/-- outcome of a bind: the exception comes from one of the two parts -/
theorem bind_error_cases {σ α β : Type} {m : PyM σ α} {f : α → PyM σ β} {s : σ} {e : PyErr}
    (h : ((m >>= f) s).1 = .error e) :
    (m s).1 = .error e ∨ ∃ a s', m s = (.ok a, s') ∧ (f a s').1 = .error e := by
  rw [PyM.bind_apply] at h
  rcases hm : m s with ⟨r, s'⟩
  rw [hm] at h
  cases r with
  | error e' => left; simpa using h
  | ok a => exact Or.inr ⟨a, s', rfl, h⟩

/-- the exceptions of a track call -/
theorem track_error {d : ℕ} {i : ι} {m : String} {t : Option ι} {pt : Spacecraft ι → World ι → Vec3} {w : World ι}
    (ht : m = TARGET → t ≠ none) {e : PyErr} (h : (track d i m t pt w).1 = .error e) :
    (e = .attributeError → ¬ All Safe w) ∧
    (e = .recursionError → ∀ [Fintype ι], d ≤ unsynced w (w i).currentEpoch) := by
  rw [track_apply] at h
  split at h
  · rename_i hm
    rw [PyM.bind_apply, beginSlew_apply] at h
    simp only at h
    have hta := Tame.angle (w i).body_z (pt (slewStart (w i) m t) (Function.update w i (slewStart (w i) m t)))
    rcases ha : (w i).body_z.angle (pt (slewStart (w i) m t) (Function.update w i (slewStart (w i) m t))) with e' | ang
    · rw [ha] at h
      simp only [Except.error.injEq] at h
      subst h
      exact ⟨fun h => absurd h (hta _ ha).1, fun h => absurd h (hta _ ha).2⟩
    · rw [ha] at h
      simp only at h
      obtain ⟨h1, h2⟩ := updateAttitude_error d i _ e h
      refine ⟨fun hx hs => h1 hx (all_update hs ⟨fun _ => by simp, fun hx => ?_⟩), fun hx _ => ?_⟩
      · have := ht hx
        cases t with
        | none => exact absurd rfl this
        | some a => simp [slewStart]
      · have := h2 hx
        rw [Function.update_self] at this
        refine this.trans (le_of_eq ?_)
        unfold unsynced
        congr 1
        ext k
        simp only [Finset.mem_filter, Finset.mem_univ, true_and]
        by_cases hk : k = i
        · subst hk; rw [Function.update_self]; rfl
        · rw [Function.update_of_ne hk]; rfl
  · exact updateAttitude_error d i w e h

theorem tame_observe (cam : Camera) (s t : Spacecraft ι) (z1 z2 u : ℝ) : Tame (observe cam s t z1 z2 u) := by
  have h1 : Tame (cam.rangeError (s.targetVector t).magnitude (t.body_radius * 2)) := by
    unfold Camera.rangeError; tame
  have h2 : ∀ r, Tame ((s.targetVector t).withNoise r s.pointing_accuracy z1 z2 u) := fun r => by
    unfold Vec3.withNoise Vec3.withMagnitudeNoise Vec3.withAngularNoise
    have := Tame.normalized
    have := Tame.rotationAboutAxis
    refine Tame.bind (Tame.bind (Tame.normalized _) fun _ => Tame.pure _) fun _ =>
      Tame.bind (Tame.rotationAboutAxis _ _ _) fun _ => Tame.rotationAboutAxis _ _ _
  unfold observe
  exact h1.bind fun r => (h2 r).bind fun _ => Tame.pure _

theorem filterProcess_error {i : ι} {ob : SpaceObservation} {w : World ι} {e : PyErr}
    (h : (filterProcess i ob w).1 = .error e) :
    (e = .attributeError → (w i).filter = none) ∧ e ≠ .recursionError := by
  change ((match (w i).filter with
    | none => (PyM.throw .attributeError : PyM (World ι) Unit)
    | some flt => PyM.zoom (fun _ => flt)
        (fun w f => Function.update w i { w i with filter := some f }) (RelativeKalman.process ob)) w).1 = _ at h
  rcases hf : (w i).filter with _ | flt
  · rw [hf] at h; cases h; exact ⟨fun _ => rfl, by simp⟩
  · rw [hf] at h
    have := tame_process ob flt e h
    exact ⟨fun h => absurd h this.1, this.2⟩

theorem unsynced_update [Fintype ι] {w : World ι} {i : ι} {s : Spacecraft ι} (hs : s.propagator = (w i).propagator)
    (E : Epoch) : unsynced (Function.update w i s) E = unsynced w E := by
  unfold unsynced
  congr 1
  ext k
  simp only [Finset.mem_filter, Finset.mem_univ, true_and]
  by_cases hk : k = i
  · subst hk; rw [Function.update_self, currentEpoch_eq, currentEpoch_eq, hs]
  · rw [Function.update_of_ne hk]

/-- **Exceptions of every call**: an `AttributeError` means that some object was in a mode whose attributes are
not set, or that an observation was processed before `acquire`; a `RecursionError` means that the recursion
limit is below the number of spacecraft. -/
theorem call_error (d : ℕ) (c : Call ι) (w : World ι) (e : PyErr) (h : (c.run d w).1 = .error e) :
    (e = .attributeError → ¬ All Safe w ∨ ∃ i j z1 z2 u,
      (c = .processWfov i j z1 z2 u ∨ c = .processNfov i j z1 z2 u) ∧ (w i).filter = none) ∧
    (e = .recursionError → ∀ [Fintype ι], d < Fintype.card ι) := by
  have hstep : ∀ (i : ι) (m : PyM RK4 Unit), PyM.Tame m →
      (∀ s : Spacecraft ι, Safe s → Safe { s with propagator := (m s.propagator).2 }) →
      ((onPropagator i m >>= fun _ => updateAttitude d i) w).1 = .error e →
      (e = .attributeError → ¬ All Safe w) ∧ (e = .recursionError → ∀ [Fintype ι], d < Fintype.card ι) := by
    intro i m hm hs h
    rcases bind_error_cases h with h | ⟨a, w1, h1, h⟩
    · have := tame_onPropagator i hm w e h
      exact ⟨fun h => absurd h this.1, fun h => absurd h this.2⟩
    · obtain ⟨h2, h3⟩ := updateAttitude_error d i w1 e h
      refine ⟨fun hx hw => h2 hx ?_, fun hx _ => lt_of_le_of_lt (h3 hx) (unsynced_lt_card w1 i)⟩
      have := Preserves.onPropagator (i := i) hs w hw
      rw [h1] at this; exact this
  have htrack : ∀ (i : ι) (m : String) (t : Option ι) (pt : Spacecraft ι → World ι → Vec3) (w : World ι),
      (m = TARGET → t ≠ none) → (track d i m t pt w).1 = .error e →
      (e = .attributeError → ¬ All Safe w) ∧ (e = .recursionError → ∀ [Fintype ι], d < Fintype.card ι) := by
    intro i m t pt w ht h
    obtain ⟨h1, h2⟩ := track_error ht h
    exact ⟨h1, fun hx _ => lt_of_le_of_lt (h2 hx) (unsynced_lt_card w i)⟩
  have hlift : ∀ {α : Type} {x : Py α}, Tame x → x = .error e →
      (e = .attributeError → ¬ All Safe w ∨ ∃ i j z1 z2 u,
        (c = .processWfov i j z1 z2 u ∨ c = .processNfov i j z1 z2 u) ∧ (w i).filter = none) ∧
      (e = .recursionError → ∀ [Fintype ι], d < Fintype.card ι) := by
    intro α x hx h
    exact ⟨fun h' => absurd h' (hx e h).1, fun h' => absurd h' (hx e h).2⟩
  cases c with
  | step i =>
    obtain ⟨h1, h2⟩ := hstep i _ tame_step (fun s h => safe_quiet.step s h) h
    exact ⟨fun hx => Or.inl (h1 hx), h2⟩
  | stepToEpoch i t =>
    obtain ⟨h1, h2⟩ := hstep i _ (tame_stepToEpoch t) (fun s h => safe_quiet.stepTo s t h) h
    exact ⟨fun hx => Or.inl (h1 hx), h2⟩
  | updateAttitude i =>
    obtain ⟨h1, h2⟩ := updateAttitude_error d i w e h
    exact ⟨fun hx => Or.inl (h1 hx), fun hx _ => lt_of_le_of_lt (h2 hx) (unsynced_lt_card w i)⟩
  | trackLvlh i =>
    obtain ⟨h1, h2⟩ := htrack i _ _ _ w (fun h => absurd h (by decide)) h
    exact ⟨fun hx => Or.inl (h1 hx), h2⟩
  | trackSun i =>
    obtain ⟨h1, h2⟩ := htrack i _ _ _ w (fun h => absurd h (by decide)) h
    exact ⟨fun hx => Or.inl (h1 hx), h2⟩
  | trackState i j =>
    obtain ⟨h1, h2⟩ := htrack i _ (some j) _ w (fun _ => by simp) h
    exact ⟨fun hx => Or.inl (h1 hx), h2⟩
  | impulsiveManeuver i v =>
    change ((PyM.lift _ >>= fun g => assign i fun s => { s with propagator := RK4.new g }) w).1 = _ at h
    rcases bind_error_cases h with h | ⟨a, w1, h1, h⟩
    · exact hlift (Tame.hcwToGcrf _ _) h
    · cases h
  | finiteManeuver i v =>
    change ((PyM.lift _ >>= fun fm => _) w).1 = _ at h
    rcases bind_error_cases h with h | ⟨fm, w1, h1, h⟩
    · exact hlift (Tame.frameMatrix _) h
    rcases bind_error_cases h with h | ⟨_, w2, h2, h⟩
    · exact hlift (tame_onPropagator i (tame_maneuver _ _ _ _) w1) h
    rcases bind_error_cases h with h | ⟨s, w3, h3, h⟩
    · cases h
    rcases bind_error_cases h with h | ⟨_, w4, h4, h⟩
    · exact hlift (Tame.pyDiv _ _) h
    rcases bind_error_cases h with h | ⟨_, w5, h5, h⟩
    · exact hlift (Tame.pyDiv _ _) h
    rcases bind_error_cases h with h | ⟨_, w6, h6, h⟩
    · exact hlift (Tame.pyDiv _ _) h
    cases h
  | acquire i j =>
    have hs : Tame (w i).sma := by unfold sma aFromMuRV; tame
    have hn : ∀ r a, Tame (Hill.new r a) := fun r a => by unfold Hill.new; tame
    have hk : ∀ t p, Tame (RelativeKalman.new t p) := fun t p => by
      unfold RelativeKalman.new Hill.systemMatrix; tame
    change ((PyM.lift _ >>= fun rel => _) w).1 = _ at h
    rcases bind_error_cases h with h | ⟨_, w1, h1, h⟩
    · exact hlift (Tame.gcrfToHcw _ _) h
    obtain ⟨-, e1⟩ := PyM.lift_eq_ok.mp h1
    rw [e1] at h; clear h1 e1
    rcases bind_error_cases h with h | ⟨_, w1, h1, h⟩
    · exact hlift hs h
    obtain ⟨-, e1⟩ := PyM.lift_eq_ok.mp h1
    rw [e1] at h; clear h1 e1
    rcases bind_error_cases h with h | ⟨_, w1, h1, h⟩
    · exact hlift (hn _ _) h
    obtain ⟨-, e1⟩ := PyM.lift_eq_ok.mp h1
    rw [e1] at h; clear h1 e1
    rcases bind_error_cases h with h | ⟨f, w1, h1, h⟩
    · exact hlift (hk _ _) h
    obtain ⟨-, e1⟩ := PyM.lift_eq_ok.mp h1
    rw [e1] at h; clear h1 e1
    change (trackState d i j (Function.update w i { w i with filter := some f })).1 = _ at h
    obtain ⟨h1, h2⟩ := htrack i _ (some j) _ _ (fun _ => by simp) h
    exact ⟨fun hx => Or.inl fun hw => h1 hx (all_update hw (safe_quiet.filter _ _ (hw i))), h2⟩
  | processWfov i j z1 z2 u =>
    change ((PyM.lift _ >>= fun ob => filterProcess i ob) w).1 = _ at h
    rcases bind_error_cases h with h | ⟨ob, w1, h1, h⟩
    · exact hlift (tame_observe _ _ _ _ _ _) h
    obtain ⟨-, e1⟩ := PyM.lift_eq_ok.mp h1
    rw [e1] at h; clear h1 e1
    obtain ⟨h1, h2⟩ := filterProcess_error h
    exact ⟨fun hx => Or.inr ⟨i, j, z1, z2, u, Or.inl rfl, h1 hx⟩, fun hx => absurd hx h2⟩
  | processNfov i j z1 z2 u =>
    change ((PyM.lift _ >>= fun ob => filterProcess i ob) w).1 = _ at h
    rcases bind_error_cases h with h | ⟨ob, w1, h1, h⟩
    · exact hlift (tame_observe _ _ _ _ _ _) h
    obtain ⟨-, e1⟩ := PyM.lift_eq_ok.mp h1
    rw [e1] at h; clear h1 e1
    obtain ⟨h1, h2⟩ := filterProcess_error h
    exact ⟨fun hx => Or.inr ⟨i, j, z1, z2, u, Or.inr rfl, h1 hx⟩, fun hx => absurd hx h2⟩

/-- from new spacecraft, after every history in which no mode change raised, slewing implies a stored stop epoch
and mode `target` a stored target -/
theorem C61_invariant (w : World ι) (hw : Fresh w) (d : ℕ) (cs : List (Call ι)) (hc : Orderly d cs w) (i : ι) :
    ((after d cs w i).slewing = true → ∃ T, (after d cs w i).slew_stop = some T) ∧
    ((after d cs w i).steering = "target" → ∃ t, (after d cs w i).tracked_target = some t) := by
  have := safe_after (fresh_safe hw) hc i
  exact ⟨fun h => Option.ne_none_iff_exists'.mp (this.1 h), fun h => Option.ne_none_iff_exists'.mp (this.2 h)⟩

/-- so the next call, whichever it is, does not raise `AttributeError`, unless it processes an observation
before `acquire` -/
theorem C61_no_attribute_error (w : World ι) (hw : Fresh w) (d : ℕ) (cs : List (Call ι)) (hc : Orderly d cs w)
    (c : Call ι) (h : (c.run d (after d cs w)).1 = .error .attributeError) :
    ∃ i j z1 z2 u, (c = .processWfov i j z1 z2 u ∨ c = .processNfov i j z1 z2 u) ∧ (after d cs w i).filter = none := by
  rcases (call_error d c _ _ h).1 rfl with h | h
  · exact absurd (safe_after (fresh_safe hw) hc) h
  · exact h

/-! ## C65 -/

/-- after a successful step in mode `target`, tracker and tracked spacecraft are at the same epoch; the tracker
is where its own propagator put it -/
theorem C65_synchronised (d : ℕ) (w w' : World ι) (i t : ι) (c : Call ι)
    (hc : c = .step i ∨ (∃ e, c = .stepToEpoch i e) ∨ c = .updateAttitude i)
    (h : c.run d w = (.ok (), w')) (hm : (w i).steering = "target") (ht : (w i).tracked_target = some t) :
    (w' t).currentEpoch = (w' i).currentEpoch ∧ (w' i).tracked_target = some t ∧ (w' i).steering = "target" ∧
    (∀ e, c = .stepToEpoch i e → (w' i).currentEpoch = e ∧ (w' t).currentEpoch = e) ∧
    (c = .step i → RK4.step (w i).propagator = (.ok (), (w' i).propagator)) := by
  have key : ∀ w1 : World ι, (w1 i).steering = (w i).steering → (w1 i).tracked_target = (w i).tracked_target →
      updateAttitude d i w1 = (.ok (), w') →
      (w' t).currentEpoch = (w' i).currentEpoch ∧ (w' i).tracked_target = some t ∧ (w' i).steering = "target" ∧
      (w' i).propagator = (w1 i).propagator := by
    intro w1 h1 h2 hu
    have hup := (updateAttitude_effect d i w1).2 w' hu
    have hf := (hup.rel i).fields
    have hst : (w' i).steering = TARGET := by rw [hf.1, h1]; exact hm
    obtain ⟨t', ht', -, -, -, hE⟩ := hup.pointed.2.2 hst
    have : (w' i).tracked_target = some t := by rw [hf.2.1, h2, ht]
    rw [ht'] at this
    cases this
    exact ⟨hE, ht', hst, (hup.rel i).toUpd.synced rfl⟩
  rcases hc with rfl | ⟨e, rfl⟩ | rfl
  · obtain ⟨a, w1, h1, h2⟩ := PyM.bind_eq_ok.mp h
    obtain ⟨p, hp, rfl⟩ := onPropagator_eq_ok.mp h1
    obtain ⟨k1, k2, k3, k4⟩ := key _ (by rw [Function.update_self]) (by rw [Function.update_self]) h2
    rw [Function.update_self] at k4
    exact ⟨k1, k2, k3, fun e he => (by cases he), fun _ => (by rw [k4]; exact hp)⟩
  · obtain ⟨a, w1, h1, h2⟩ := PyM.bind_eq_ok.mp h
    obtain ⟨p, hp, rfl⟩ := onPropagator_eq_ok.mp h1
    obtain ⟨k1, k2, k3, k4⟩ := key _ (by rw [Function.update_self]) (by rw [Function.update_self]) h2
    rw [Function.update_self] at k4
    refine ⟨k1, k2, k3, fun e' he => ?_, fun he => (by cases he)⟩
    cases he
    have : (w' i).currentEpoch = e := by rw [currentEpoch_eq, k4]; exact (C41_lands _ _ _ hp).1
    exact ⟨this, by rw [k1, this]⟩
  · obtain ⟨k1, k2, k3, k4⟩ := key w rfl rfl h
    exact ⟨k1, k2, k3, fun e he => (by cases he), fun he => (by cases he)⟩

/-- for any tracking relation among `n` spacecraft, no call needs more than `n` levels of recursion -/
theorem C65_terminates [Fintype ι] (d : ℕ) (hd : Fintype.card ι ≤ d) (w : World ι) (c : Call ι) :
    (c.run d w).1 ≠ .error .recursionError := by
  intro h
  exact absurd ((call_error d c w _ h).2 rfl) (not_lt.mpr hd)

/-! ## What a mode change asks for -/

namespace Spacecraft

/-- spacecraft, mode and new pointing direction of a mode-changing call -/
noncomputable def Call.request : Call ι → World ι → Option (ι × String × Vec3)
  | .trackLvlh i, w => some (i, "lvlh", (w i).position.scaled (-1))
  | .trackSun i, w => some (i, "solar", (w i).sunVector.scaled (-1))
  | .trackState i j, w => some (i, "target", (w j).position.minus (w i).position)
  | .acquire i j, w => some (i, "target", (w j).position.minus (w i).position)
  | _, _ => none

/-- the target that a call names -/
def Call.names : Call ι → Option ι
  | .trackState _ j => some j
  | .acquire _ j => some j
  | _ => none

theorem filter_position {w : World ι} {i : ι} (f : Option RelativeKalman) (k : ι) :
    ((Function.update w i { w i with filter := f }) k).propagator = (w k).propagator := by
  by_cases hk : k = i
  · subst hk; rw [Function.update_self]
  · rw [Function.update_of_ne hk]

theorem slewStart_position {w : World ι} {i : ι} (m : String) (t : Option ι) (k : ι) :
    ((Function.update w i (slewStart (w i) m t)) k).position = (w k).position := by
  by_cases hk : k = i
  · subst hk; rw [Function.update_self]; rfl
  · rw [Function.update_of_ne hk]

/-- a mode-changing call is `track` with the requested mode and direction, after `acquire` has set the filter -/
theorem request_run {c : Call ι} {w : World ι} {i : ι} {m : String} {v : Vec3} (hc : c.request w = some (i, m, v))
    (d : ℕ) :
    ∃ pt : Spacecraft ι → World ι → Vec3, (m = TARGET → c.names ≠ none) ∧
      (∀ f, pt (slewStart ({ w i with filter := f }) m c.names)
        (Function.update (Function.update w i { w i with filter := f }) i
          (slewStart ({ w i with filter := f }) m c.names)) = v) ∧
      ((c.run d w = track d i m c.names pt w) ∨
       (∃ f, c.run d w = track d i m c.names pt (Function.update w i { w i with filter := some f })) ∨
       (∃ e, c.run d w = (.error e, w) ∧ e ≠ .attributeError ∧ e ≠ .recursionError)) := by
  have hacq : ∀ j, c = .acquire i j →
       ((∃ f, c.run d w = track d i TARGET (some j) (fun s w => s.targetVector (w j))
          (Function.update w i { w i with filter := some f })) ∨
       (∃ e, c.run d w = (.error e, w) ∧ e ≠ .attributeError ∧ e ≠ .recursionError)) := by
    intro j hj
    subst hj
    have hs : Tame (w i).sma := by unfold sma aFromMuRV; tame
    have hn : ∀ r a, Tame (Hill.new r a) := fun r a => by unfold Hill.new; tame
    have hk : ∀ t p, Tame (RelativeKalman.new t p) := fun t p => by
      unfold RelativeKalman.new Hill.systemMatrix; tame
    show (∃ f, (PyM.lift _ >>= fun rel => _) w = _) ∨ (∃ e, (PyM.lift _ >>= fun rel => _) w = _ ∧ _)
    simp only [PyM.bind_apply, PyM.lift]
    rcases h1 : gcrfToHcw (w i).currentState (w j).currentState with e | rel
    · exact Or.inr ⟨e, rfl, Tame.gcrfToHcw _ _ e h1⟩
    simp only
    rcases h2 : (w i).sma with e | a
    · exact Or.inr ⟨e, rfl, hs e h2⟩
    simp only
    rcases h3 : Hill.new rel a with e | hill
    · exact Or.inr ⟨e, rfl, hn _ _ e h3⟩
    simp only
    rcases h4 : RelativeKalman.new (w i).currentEpoch hill with e | f
    · exact Or.inr ⟨e, rfl, hk _ _ e h4⟩
    exact Or.inl ⟨f, rfl⟩
  cases c with
  | trackLvlh i' =>
    simp only [Call.request, Option.some.injEq, Prod.mk.injEq] at hc
    obtain ⟨rfl, rfl, rfl⟩ := hc
    exact ⟨fun s _ => s.position.scaled (-1), fun h => absurd h (by decide), fun _ => rfl, Or.inl rfl⟩
  | trackSun i' =>
    simp only [Call.request, Option.some.injEq, Prod.mk.injEq] at hc
    obtain ⟨rfl, rfl, rfl⟩ := hc
    exact ⟨fun s _ => s.sunVector.scaled (-1), fun h => absurd h (by decide), fun _ => rfl, Or.inl rfl⟩
  | trackState i' j =>
    simp only [Call.request, Option.some.injEq, Prod.mk.injEq] at hc
    obtain ⟨rfl, rfl, rfl⟩ := hc
    refine ⟨fun s w => s.targetVector (w j), fun _ => by simp [Call.names], fun f => ?_, Or.inl rfl⟩
    rw [Function.update_idem]
    show Vec3.minus ((Function.update w i' _ j).position) _ = _
    by_cases hj : j = i'
    · subst hj; rw [Function.update_self]; rfl
    · rw [Function.update_of_ne hj]; rfl
  | acquire i' j =>
    simp only [Call.request, Option.some.injEq, Prod.mk.injEq] at hc
    obtain ⟨rfl, rfl, rfl⟩ := hc
    refine ⟨fun s w => s.targetVector (w j), fun _ => by simp [Call.names], fun f => ?_, Or.inr (hacq j rfl)⟩
    rw [Function.update_idem]
    show Vec3.minus ((Function.update w i' _ j).position) _ = _
    by_cases hj : j = i'
    · subst hj; rw [Function.update_self]; rfl
    · rw [Function.update_of_ne hj]; rfl
  | _ => cases hc

/-- the two ways in which a successful mode change can go -/
theorem request_ok {c : Call ι} {w w' : World ι} {i : ι} {m : String} {v : Vec3} (hc : c.request w = some (i, m, v))
    {d : ℕ} (h : c.run d w = (.ok (), w')) :
    ∃ f w1, Spacecraft.updateAttitude d i w1 = (.ok (), w') ∧
      (((w i).steering = m ∧ w1 = Function.update w i { w i with filter := f }) ∨
       ((w i).steering ≠ m ∧ ∃ ang, (w i).body_z.angle v = .ok ang ∧
        w1 = Function.update w i { slewStart { w i with filter := f } m c.names with
          slew_stop := some ((w i).currentEpoch.plusDays (ang * (w i).slew_scalar)) })) := by
  obtain ⟨pt, -, hpt, hr⟩ := request_run hc d
  have key : ∀ f, track d i m c.names pt (Function.update w i { w i with filter := f }) = (.ok (), w') →
      ∃ w1, Spacecraft.updateAttitude d i w1 = (.ok (), w') ∧
      (((w i).steering = m ∧ w1 = Function.update w i { w i with filter := f }) ∨
       ((w i).steering ≠ m ∧ ∃ ang, (w i).body_z.angle v = .ok ang ∧
        w1 = Function.update w i { slewStart { w i with filter := f } m c.names with
          slew_stop := some ((w i).currentEpoch.plusDays (ang * (w i).slew_scalar)) })) := by
    intro f h
    obtain ⟨w1, h1, h2⟩ := track_ok h
    refine ⟨w1, h1, ?_⟩
    rw [Function.update_self] at h2
    rcases h2 with ⟨h2, rfl⟩ | ⟨h2, ang, h3, rfl⟩
    · exact Or.inl ⟨h2, rfl⟩
    · rw [hpt f] at h3
      refine Or.inr ⟨h2, ang, h3, ?_⟩
      rw [Function.update_idem]
      rfl
  rcases hr with hr | ⟨f, hr⟩ | ⟨e, hr, -⟩
  · rw [hr] at h
    refine ⟨(w i).filter, key _ ?_⟩
    rw [← h]
    congr 1
    exact Function.update_eq_self i w
  · rw [hr] at h; exact ⟨_, key _ h⟩
  · rw [hr] at h; cases h

end Spacecraft

/-! ## C62 -/

/-- the mode changes that cannot be carried out: a first slew (no stop epoch stored yet) for which the old or the
new pointing direction is the zero vector -/
def Spacecraft.Call.degenerate (c : Call ι) (w : World ι) : Prop :=
  ∃ i m v, c.request w = some (i, m, v) ∧ (w i).steering ≠ m ∧ (w i).slew_stop = none ∧
    ((w i).body_z = ⟨0, 0, 0⟩ ∨ v = ⟨0, 0, 0⟩)

theorem safe_not_degenerate {d : ℕ} {c : Call ι} {w : World ι} (hw : All Safe w) (hc : ¬ c.degenerate w) :
    All Safe (c.run d w).2 := by
  by_cases hq : c.modeChange = none
  · exact Preserves.quiet safe_quiet d c hq w hw
  obtain ⟨i, m, v, hr⟩ : ∃ i m v, c.request w = some (i, m, v) := by
    cases c <;> first | exact ⟨_, _, _, rfl⟩ | exact absurd rfl hq
  obtain ⟨pt, hn, hpt, hrun⟩ := request_run hr d
  have key : ∀ f, All Safe (track d i m c.names pt (Function.update w i { w i with filter := f })).2 := by
    intro f
    have hw1 : All Safe (Function.update w i { w i with filter := f }) := all_update hw (safe_quiet.filter _ _ (hw i))
    rw [track_apply]
    split
    · rename_i hm
      rw [Function.update_self] at hm
      rw [PyM.bind_apply, beginSlew_apply]
      simp only [Function.update_self]
      rw [hpt f]
      have ht : m = TARGET → (slewStart { w i with filter := f } m c.names).tracked_target ≠ none := by
        intro hx
        have := hn hx
        cases hnm : c.names with
        | none => exact absurd hnm this
        | some a => simp [slewStart]
      rcases ha : (w i).body_z.angle v with e | ang
      · have hz := (Vec3.angle_eq_error.mp ha).1
        have hst : (w i).slew_stop ≠ none := fun hs => hc ⟨i, m, v, hr, hm, hs, hz⟩
        exact all_update hw1 ⟨fun _ => hst, ht⟩
      · refine Preserves.updateAttitude safe_quiet.toAttitudeStable d i _ ?_
        exact all_update hw1 ⟨fun _ => by simp, ht⟩
    · exact Preserves.updateAttitude safe_quiet.toAttitudeStable d i _ hw1
  rcases hrun with h | ⟨f, h⟩ | ⟨e, h, -⟩
  · rw [h]
    have := key (w i).filter
    have e : Function.update w i { w i with filter := (w i).filter } = w := Function.update_eq_self i w
    rw [e] at this
    exact this
  · rw [h]; exact key _
  · rw [h]; exact hw

/-- no mode change of the history was degenerate -/
def Regular (d : ℕ) : List (Call ι) → World ι → Prop
  | [], _ => True
  | c :: cs, w => ¬ c.degenerate w ∧ Regular d cs (c.run d w).2

/-- what does hold: as long as no mode change is degenerate, calls may fail at any point, and still no later call
raises `AttributeError` (but for observations processed before `acquire`) -/
theorem C62_partial (w : World ι) (hw : Fresh w) (d : ℕ) (cs : List (Call ι)) (hc : Regular d cs w)
    (c : Call ι) (h : (c.run d (after d cs w)).1 = .error .attributeError) :
    ∃ i j z1 z2 u, (c = .processWfov i j z1 z2 u ∨ c = .processNfov i j z1 z2 u) ∧ (after d cs w i).filter = none := by
  have hs : All Safe (after d cs w) := by
    have := fresh_safe hw
    clear hw h
    induction cs generalizing w with
    | nil => exact this
    | cons c' cs ih => exact ih _ hc.2 (safe_not_degenerate this hc.1)
  rcases (call_error d c _ _ h).1 rfl with h | h
  · exact absurd hs h
  · exact h

/-- a spacecraft that has carried out one mode change has no degenerate mode change any more -/
theorem C62_once_partial (w w' : World ι) (d : ℕ) (c : Call ι) (i : ι) (m : String) (v : Vec3)
    (hr : c.request w = some (i, m, v)) (hm : (w i).steering ≠ m) (h : c.run d w = (.ok (), w')) (cs : List (Call ι)) :
    (after d cs w' i).slew_stop ≠ none := by
  have h0 : (w' i).slew_stop ≠ none := by
    obtain ⟨f, w1, h1, ⟨h2, -⟩ | ⟨-, ang, -, rfl⟩⟩ := request_ok hr h
    · exact absurd h2 hm
    · have := (((updateAttitude_effect d i _).2 w' h1).rel i).fields.2.2.1
      rw [this, Function.update_self]; simp
  have hP : ApiStable (fun s : Spacecraft ι => s.slew_stop ≠ none) :=
    { attitude := fun _ _ _ _ h => h
      slew := fun _ h => h
      stepTo := fun _ _ h => h
      step := fun _ h => h
      filter := fun _ _ h => h
      impulse := fun _ _ h => h
      maneuver := fun _ _ h => h
      mass := fun _ _ h => h
      mode := fun _ _ _ _ _ h => h
      stop := fun _ _ _ => by simp }
  exact on_after_all (S := (· = i)) hP d cs (fun k hk => by subst hk; exact h0) i rfl

/-- the property is false: a new spacecraft told to track an object at its own position and epoch raises
`ZeroDivisionError`, and from then on every update raises `AttributeError` -/
theorem C62_violated (w : World ι) (hw : Fresh w) (d : ℕ) (i j : ι) (hp : (w j).position = (w i).position)
    (he : (w j).currentEpoch = (w i).currentEpoch) :
    let w' := after (d + 1) [.trackState i j] w
    ((Call.trackState i j).run (d + 1) w).1 = .error .zeroDivision ∧
    ((Call.updateAttitude i).run (d + 1) w').1 = .error .attributeError ∧
    ((Call.stepToEpoch i (w i).currentEpoch).run (d + 1) w').1 = .error .attributeError ∧
    (∀ p, RK4.step (w i).propagator = (.ok (), p) → j = i →
      ((Call.step i).run (d + 1) w').1 = .error .attributeError) := by
  obtain ⟨f1, f2, f3, f4, -⟩ := fresh_fields hw i
  have hne : (w i).steering ≠ TARGET := by rw [f1]; decide
  have hrun : (Call.trackState i j).run (d + 1) w =
      (.error .zeroDivision, Function.update w i (slewStart (w i) TARGET (some j))) := by
    show track (d + 1) i TARGET (some j) (fun s w => s.targetVector (w j)) w = _
    rw [track_apply, if_pos hne, PyM.bind_apply, beginSlew_apply]
    have hz : (slewStart (w i) TARGET (some j)).targetVector ((Function.update w i (slewStart (w i) TARGET (some j))) j)
        = ⟨0, 0, 0⟩ := by
      show Vec3.minus ((Function.update w i (slewStart (w i) TARGET (some j))) j).position (w i).position = _
      rw [slewStart_position, hp]
      ext <;> simp [Vec3.minus]
    simp only [hz]
    rw [Vec3.angle_eq_error.mpr ⟨Or.inr rfl, rfl⟩]
  have hwd : after (d + 1) [.trackState i j] w = Function.update w i (slewStart (w i) TARGET (some j)) := by
    simp only [after, hrun]
  simp only [hwd]
  have hup : ∀ p : RK4, (j = i ∨ p.state.epoch = (w i).currentEpoch) →
      (updateAttitude (d + 1) i (Function.update w i { slewStart (w i) TARGET (some j) with propagator := p })).1 =
        .error .attributeError := by
    intro p hpj
    rw [updateAttitude_succ]
    have e1 : TARGET ≠ LVLH := by decide
    have e2 : TARGET ≠ SOLAR := by decide
    simp only [Function.update_self, slewStart, e1, e2, if_false, if_true, Option.isSome_some]
    have hep : ((Function.update w i { slewStart (w i) TARGET (some j) with propagator := p }) j).currentEpoch =
        p.state.epoch := by
      by_cases hj : j = i
      · subst hj; rw [Function.update_self]; rfl
      · rw [Function.update_of_ne hj, he]
        exact ((hpj.resolve_left hj)).symm
    simp only [slewStart, Option.isSome_some, if_true] at hep
    rw [hep, currentEpoch_eq]
    simp only [ne_eq, not_true_eq_false, if_false]
    show (finishCall i (Function.update _ i _)).1 = _
    rw [finishCall_apply, Function.update_self]
    simp only [Function.update_self, targetAttitude, finishSlew, f4, if_true]
  have hsame : ∀ p : RK4, Function.update (Function.update w i (slewStart (w i) TARGET (some j))) i
      { (Function.update w i (slewStart (w i) TARGET (some j))) i with propagator := p } =
      Function.update w i { slewStart (w i) TARGET (some j) with propagator := p } := by
    intro p; rw [Function.update_idem, Function.update_self]
  have hprop : ((Function.update w i (slewStart (w i) TARGET (some j))) i).propagator = (w i).propagator := by
    rw [Function.update_self]; rfl
  refine ⟨by rw [hrun], ?_, ?_, ?_⟩
  · have := hup (w i).propagator (Or.inr rfl)
    exact this
  · show ((onPropagator i (RK4.stepToEpoch (w i).currentEpoch) >>= fun _ => updateAttitude (d + 1) i) _).1 = _
    have h1 : onPropagator i (RK4.stepToEpoch (w i).currentEpoch) (Function.update w i (slewStart (w i) TARGET (some j)))
        = (.ok (), Function.update w i { slewStart (w i) TARGET (some j) with propagator := (w i).propagator }) :=
      onPropagator_eq_ok.mpr ⟨(w i).propagator, by rw [hprop]; exact C41_zero_span _, (hsame _).symm⟩
    rw [PyM.bind_apply, h1]
    exact hup _ (Or.inr rfl)
  · intro p hs hj
    show ((onPropagator i RK4.step >>= fun _ => updateAttitude (d + 1) i) _).1 = _
    have h1 : onPropagator i RK4.step (Function.update w i (slewStart (w i) TARGET (some j)))
        = (.ok (), Function.update w i { slewStart (w i) TARGET (some j) with propagator := p }) :=
      onPropagator_eq_ok.mpr ⟨p, by rw [hprop]; exact hs, (hsame _).symm⟩
    rw [PyM.bind_apply, h1]
    exact hup _ (Or.inl hj)

/-- such a world: two new spacecraft in the same place -/
example (g : GCRF) : ∃ w : World (Fin 2), Fresh w ∧ (w 1).position = (w 0).position ∧
    (w 1).currentEpoch = (w 0).currentEpoch := by
  obtain ⟨w, hw, hg⟩ := exists_fresh (ι := Fin 2) fun _ => g
  have : w 0 = w 1 := by have h0 := hg 0; rw [hg 1] at h0; exact (Except.ok.inj h0).symm
  exact ⟨w, hw, by rw [this], by rw [this]⟩

/-! ## C63 -/

/-- what does hold: from another mode, a successful `track_state` or `acquire` stores its argument and points
the payload at it -/
theorem C63_partial (d : ℕ) (w w' : World ι) (c : Call ι) (i j : ι) (hc : c = .trackState i j ∨ c = .acquire i j)
    (hm : (w i).steering ≠ "target") (h : c.run d w = (.ok (), w')) :
    (w' i).tracked_target = some j ∧ (w' i).steering = "target" ∧
    (w' i).body_z = (w' j).position.minus (w' i).position := by
  have hr : c.request w = some (i, "target", (w j).position.minus (w i).position) := by
    rcases hc with rfl | rfl <;> rfl
  have hn : c.names = some j := by rcases hc with rfl | rfl <;> rfl
  obtain ⟨f, w1, h1, ⟨h2, -⟩ | ⟨-, ang, -, rfl⟩⟩ := request_ok hr h
  · exact absurd h2 hm
  · have hup := (updateAttitude_effect d i _).2 w' h1
    have hf := (hup.rel i).fields
    simp only [Function.update_self, hn, slewStart, Option.isSome_some, if_true] at hf
    obtain ⟨t, ht, hz, -⟩ := hup.pointed.2.2 hf.1
    have htj : t = j := by rw [hf.2.1] at ht; exact (Option.some.inj ht).symm
    subst htj
    exact ⟨hf.2.1, hf.1, hz⟩

/-- the property is false: in mode `target` the argument is ignored -/
theorem C63_ignored_violated (d : ℕ) (w w' : World ι) (i j t : ι) (hm : (w i).steering = "target")
    (ht : (w i).tracked_target = some t) (h : (Call.trackState i j).run d w = (.ok (), w')) :
    (w' i).tracked_target = some t ∧ (w' i).body_z = (w' t).position.minus (w' i).position := by
  obtain ⟨f, w1, h1, ⟨-, rfl⟩ | ⟨h2, -⟩⟩ := request_ok (c := Call.trackState i j) rfl h
  · have hup := (updateAttitude_effect d i _).2 w' h1
    have hf := (hup.rel i).fields
    rw [Function.update_self] at hf
    obtain ⟨t', ht', hz, -⟩ := hup.pointed.2.2 (hf.1.trans hm)
    have htj : t' = t := by rw [hf.2.1] at ht'; exact Option.some.inj (ht'.symm.trans ht)
    subst htj
    exact ⟨ht', hz⟩
  · exact absurd hm h2

/-- an update in mode `target` at the epoch of the target succeeds -/
theorem update_target_ok (d : ℕ) (w : World ι) (i j : ι) (T : Epoch) (hm : (w i).steering = TARGET)
    (ht : (w i).tracked_target = some j) (hs : (w i).slew_stop = some T)
    (he : (w j).currentEpoch = (w i).currentEpoch) : ∃ w', updateAttitude (d + 1) i w = (.ok (), w') := by
  rw [updateAttitude_succ]
  have e1 : TARGET ≠ LVLH := by decide
  have e2 : TARGET ≠ SOLAR := by decide
  simp only [hm, e1, e2, if_false, if_true, ht, he, ne_eq, not_true_eq_false]
  show ∃ w', (finishCall i (Function.update _ i _)) = _
  rw [finishCall_apply, Function.update_self]
  have : (targetAttitude (w i) (w j)).slew_stop = some T := hs
  rcases finishSlew_cases (targetAttitude (w i) (w j)) with ⟨-, h, -⟩ | h | h
  · rw [this] at h; cases h
  · exact ⟨_, by rw [h]⟩
  · exact ⟨_, by rw [h]⟩

/-- a mode change does not move the objects that are at the epoch of the spacecraft -/
theorem request_keeps {c : Call ι} {w w' : World ι} {i : ι} {m : String} {v : Vec3}
    (hc : c.request w = some (i, m, v)) {d : ℕ} (h : c.run d w = (.ok (), w')) (k : ι)
    (hk : (w k).currentEpoch = (w i).currentEpoch) : (w' k).propagator = (w k).propagator := by
  obtain ⟨f, w1, h1, h2⟩ := request_ok hc h
  have e : ∀ k, (w1 k).propagator = (w k).propagator := by
    intro k
    rcases h2 with ⟨-, rfl⟩ | ⟨-, ang, -, rfl⟩
    · exact filter_position f k
    · by_cases hk : k = i
      · subst hk; rw [Function.update_self]; rfl
      · rw [Function.update_of_ne hk]
  have := (((updateAttitude_effect d i w1).2 w' h1).rel k).toUpd.synced
    (by rw [currentEpoch_eq, currentEpoch_eq, e, e]; exact hk)
  rw [this, e]

/-- a first `track_state` on a target elsewhere at the same epoch succeeds -/
theorem first_track_ok (d : ℕ) (w : World ι) (i j : ι) (hm : (w i).steering ≠ TARGET)
    (hb : (w i).body_z ≠ ⟨0, 0, 0⟩) (hv : (w j).position.minus (w i).position ≠ ⟨0, 0, 0⟩)
    (he : (w j).currentEpoch = (w i).currentEpoch) :
    ∃ w', (Call.trackState i j).run (d + 1) w = (.ok (), w') := by
  show ∃ w', track (d + 1) i TARGET (some j) (fun s w => s.targetVector (w j)) w = _
  rw [track_apply, if_pos hm, PyM.bind_apply, beginSlew_apply]
  have hz : (slewStart (w i) TARGET (some j)).targetVector ((Function.update w i (slewStart (w i) TARGET (some j))) j)
      = (w j).position.minus (w i).position := by
    show Vec3.minus ((Function.update w i (slewStart (w i) TARGET (some j))) j).position (w i).position = _
    rw [slewStart_position]
  simp only [hz]
  rw [Vec3.angle_ok hb hv]
  simp only
  apply update_target_ok (j := j)
  · rw [Function.update_self]; rfl
  · rw [Function.update_self]; rfl
  · rw [Function.update_self]
  · rw [Function.update_self]
    by_cases hj : j = i
    · subst hj; rw [Function.update_self]
    · rw [Function.update_of_ne hj, he]; rfl

/-- a second one, whatever its argument, succeeds too -/
theorem second_track_ok (d : ℕ) (w w' : World ι) (i j k : ι)
    (h : (Call.trackState i j).run (d + 1) w = (.ok (), w')) (hm : (w i).steering ≠ TARGET) :
    ∃ w'', (Call.trackState i k).run (d + 1) w' = (.ok (), w'') := by
  have hp := C63_partial (d + 1) w w' (.trackState i j) i j (Or.inl rfl) hm h
  have he := C60_attitude (d + 1) w w' (.trackState i j) i rfl h
  obtain ⟨t, ht, -, -, he, -⟩ := he.2.2 hp.2.1
  rw [hp.1] at ht
  cases ht
  have hs : ∃ T, (w' i).slew_stop = some T :=
    Option.ne_none_iff_exists'.mp (C62_once_partial w w' (d + 1) (.trackState i j) i _ _ rfl hm h [])
  obtain ⟨T, hT⟩ := hs
  obtain ⟨w'', h''⟩ := update_target_ok d w' i j T hp.2.1 hp.1 hT he
  refine ⟨w'', ?_⟩
  show track (d + 1) i TARGET (some k) (fun s w => s.targetVector (w k)) w' = _
  have hst : (w' i).steering = TARGET := hp.2.1
  rw [track_apply, if_neg (not_not.mpr hst)]
  exact h''

/-- a history of three new spacecraft in which the tracked target is not the argument of the last call, and the
payload does not point at it -/
theorem C63_violated : ∃ (w w' : World (Fin 3)), Fresh w ∧
    after 3 [.trackState 0 1] w = w' ∧
    ∃ w'', (Call.trackState 0 2).run 3 w' = (.ok (), w'') ∧
      (w'' 0).tracked_target = some 1 ∧ (w'' 0).body_z ≠ (w'' 2).position.minus (w'' 0).position := by
  obtain ⟨w, hw, hg⟩ := exists_fresh (ι := Fin 3) fun k =>
    GCRF.new ⟨0⟩ ⟨7000 + (k.val : ℝ), 0, 0⟩ ⟨0, 1, 0⟩
  have hpos : ∀ k, (w k).position = ⟨7000 + (k.val : ℝ), 0, 0⟩ ∧ (w k).currentEpoch = ⟨0⟩ := by
    intro k
    obtain ⟨s, h1, -, -, h2, -⟩ := new_ok (ι := Fin 3) (GCRF.new ⟨0⟩ ⟨7000 + (k.val : ℝ), 0, 0⟩ ⟨0, 1, 0⟩)
    rw [hg k] at h1
    cases h1
    rw [position_eq, currentEpoch_eq, h2]
    exact ⟨rfl, rfl⟩
  have hm : (w 0).steering ≠ TARGET := by rw [(fresh_fields hw 0).1]; decide
  have hb : (w 0).body_z ≠ ⟨0, 0, 0⟩ := by
    rw [(C60_modes w hw 0 [] 0).2.2.1, (hpos 0).1]
    simp [Vec3.scaled]
  obtain ⟨w1, h1⟩ := first_track_ok 2 w 0 1 hm hb (by rw [(hpos 0).1, (hpos 1).1]; simp [Vec3.minus])
    (by rw [(hpos 0).2, (hpos 1).2])
  obtain ⟨w2, h2⟩ := second_track_ok 2 w w1 0 1 2 h1 hm
  have hp := C63_partial 3 w w1 (.trackState 0 1) 0 1 (Or.inl rfl) hm h1
  have hq := C63_ignored_violated 3 w1 w2 0 2 1 hp.2.1 hp.1 h2
  refine ⟨w, w1, hw, by simp only [after]; rw [h1], w2, h2, hq.1, ?_⟩
  rw [hq.2]
  have hk1 : ∀ k, (w1 k).propagator = (w k).propagator := fun k =>
    request_keeps (c := .trackState 0 1) rfl h1 k (by rw [(hpos k).2, (hpos 0).2])
  have hk2 : ∀ k, (w2 k).propagator = (w1 k).propagator := fun k =>
    request_keeps (c := .trackState 0 2) rfl h2 k (by
      rw [currentEpoch_eq, hk1, currentEpoch_eq (w1 0), hk1, ← currentEpoch_eq, ← currentEpoch_eq, (hpos k).2, (hpos 0).2])
  have hp2 : ∀ k, (w2 k).position = ⟨7000 + (k.val : ℝ), 0, 0⟩ := fun k => by
    rw [position_eq, hk2, hk1, ← position_eq, (hpos k).1]
  rw [hp2, hp2, hp2]
  intro hx
  have := congrArg Vec3.x hx
  norm_num [Vec3.minus] at this

/-! ## C64 -/

/-- a mode change: the slew starts at the current epoch, takes the angle between the old and the new pointing
direction times the scalar, and is not over when the call returns. (The direction of a target is taken from its
position at its own epoch: the target is brought to the epoch of the tracker after that.) A repeated request for
the current mode starts no slew. -/
theorem C64_starts (d : ℕ) (w w' : World ι) (c : Call ι) (i : ι) (m : String) (v : Vec3)
    (hr : c.request w = some (i, m, v)) (h : c.run d w = (.ok (), w')) :
    ((w i).steering ≠ m → ∃ ang T, (w i).body_z.angle v = .ok ang ∧ (w' i).slew_stop = some T ∧
      T.value = (w i).currentEpoch.value + ang * (w i).slew_scalar ∧
      (w' i).steering = m ∧ (w' i).currentEpoch = (w i).currentEpoch ∧
      (0 ≤ (w i).slew_scalar → (w' i).slewing = true)) ∧
    ((w i).steering = m → (w' i).slew_stop = (w i).slew_stop ∧ ((w i).slewing = false → (w' i).slewing = false)) := by
  have hkeep := request_keeps hr h i rfl
  obtain ⟨f, w1, h1, ⟨h2, rfl⟩ | ⟨h2, ang, ha, rfl⟩⟩ := request_ok hr h
  · have hup := (updateAttitude_effect d i _).2 w' h1
    have hf := (hup.rel i).fields
    rw [Function.update_self] at hf
    refine ⟨fun hx => absurd h2 hx, fun _ => ⟨hf.2.2.1, fun hs => ?_⟩⟩
    rcases (hup.rel i).slew with e | ⟨-, e, -⟩
    · rw [e, Function.update_self]; exact hs
    · exact e
  · have hup := (updateAttitude_effect d i _).2 w' h1
    have hf := (hup.rel i).fields
    rw [Function.update_self] at hf
    refine ⟨fun _ => ⟨ang, _, ha, hf.2.2.1, rfl, hf.1, by rw [currentEpoch_eq, hkeep]; rfl, fun hsc => ?_⟩,
      fun hx => absurd hx h2⟩
    obtain ⟨T, hT, hiff⟩ := hup.slew (by rw [Function.update_self]; rfl)
    rw [Function.update_self] at hT hiff
    cases hT
    rw [hiff]
    show (w i).currentEpoch.value ≤ (w i).currentEpoch.value + ang * (w i).slew_scalar
    have := mul_nonneg (C04_angle_laws _ _ _ ha).1 hsc
    linarith

/-- by default the slew takes at most 360 s, after every history of calls -/
theorem C64_bounded (w0 : World ι) (hw : Fresh w0) (d : ℕ) (cs : List (Call ι)) (w' : World ι) (c : Call ι) (i : ι)
    (m : String) (v : Vec3) (hr : c.request (after d cs w0) = some (i, m, v)) (hm : (after d cs w0 i).steering ≠ m)
    (h : c.run d (after d cs w0) = (.ok (), w')) :
    (w' i).slewing = true ∧ ∃ T, (w' i).slew_stop = some T ∧ (w' i).currentEpoch.value ≤ T.value ∧
      (T.value - (w' i).currentEpoch.value) * 86400 ≤ 360 := by
  have hP : ApiStable (fun s : Spacecraft ι => s.slew_scalar = DEFAULT_SLEW_SCALE) :=
    { attitude := fun _ _ _ _ h => h
      slew := fun _ h => h
      stepTo := fun _ _ h => h
      step := fun _ h => h
      filter := fun _ _ h => h
      impulse := fun _ _ h => h
      maneuver := fun _ _ h => h
      mass := fun _ _ h => h
      mode := fun _ _ _ _ _ h => h
      stop := fun _ _ h => h }
  have hsc := after_all hP d cs (fun k => (fresh_fields hw k).2.2.2.2.1) i
  have hval : DEFAULT_SLEW_SCALE * (π * 86400) = 360 := by
    simp only [DEFAULT_SLEW_SCALE, pyRadians, pyPi, SECONDS_IN_DAY]
    have := pi_ne_zero
    field_simp
    norm_num
  have hpos : 0 ≤ DEFAULT_SLEW_SCALE := by
    by_contra hx
    push Not at hx
    have := mul_neg_of_neg_of_pos hx (by positivity : (0 : ℝ) < π * 86400)
    linarith
  obtain ⟨ang, T, ha, hT, hv, -, he, hs⟩ := (C64_starts d _ w' c i m v hr h).1 hm
  obtain ⟨a0, a1, -⟩ := C04_angle_laws _ _ _ ha
  rw [hsc] at hv hs
  refine ⟨hs hpos, T, hT, ?_, ?_⟩
  · rw [he, hv]; nlinarith [mul_nonneg a0 hpos]
  · rw [he, hv]
    have := mul_le_mul_of_nonneg_right a1 (mul_nonneg hpos (by norm_num : (0 : ℝ) ≤ 86400))
    linarith

/-- the slew of one object is as given -/
def SlewIs (i : ι) (b : Bool) (o : Option Epoch) (w : World ι) : Prop := (w i).slewing = b ∧ (w i).slew_stop = o

theorem SlewIs.assign {i j : ι} {b : Bool} {o : Option Epoch} {f : Spacecraft ι → Spacecraft ι}
    (hf : ∀ s, (f s).slewing = s.slewing ∧ (f s).slew_stop = s.slew_stop) :
    Preserves (SlewIs i b o) (Spacecraft.assign j f) := by
  intro w hw
  show ((Function.update w j (f (w j))) i).slewing = _ ∧ ((Function.update w j (f (w j))) i).slew_stop = _
  by_cases hj : i = j
  · subst hj; rw [Function.update_self, (hf _).1, (hf _).2]; exact hw
  · rw [Function.update_of_ne hj]; exact hw

theorem SlewIs.onPropagator {i j : ι} {b : Bool} {o : Option Epoch} (m : PyM RK4 Unit) :
    Preserves (SlewIs i b o) (Spacecraft.onPropagator j m) := fun w hw =>
  SlewIs.assign (f := fun s => { s with propagator := (m s.propagator).2 }) (fun _ => ⟨rfl, rfl⟩) w hw

theorem SlewIs.filterProcess {i j : ι} {b : Bool} {o : Option Epoch} (ob : SpaceObservation) :
    Preserves (SlewIs i b o) (Spacecraft.filterProcess j ob) := by
  intro w hw
  show SlewIs i b o ((match (w j).filter with
    | none => (PyM.throw .attributeError : PyM (World ι) Unit)
    | some flt => PyM.zoom (fun _ => flt)
      (fun w f => Function.update w j { w j with filter := some f }) (RelativeKalman.process ob)) w).2
  rcases (w j).filter with _ | flt
  · exact hw
  · exact SlewIs.assign (f := fun s => { s with filter := some ((RelativeKalman.process ob) flt).2 })
      (fun _ => ⟨rfl, rfl⟩) w hw

/-- calls that update no attitude leave every slew alone -/
theorem slew_untouched (d : ℕ) (c : Call ι) (hc : c.updates = none) (i : ι) (b : Bool) (o : Option Epoch) :
    Preserves (SlewIs i b o) (c.run d) := by
  cases c with
  | impulsiveManeuver j v =>
    exact (Preserves.read j).bind fun s => (Preserves.lift _).bind fun g => SlewIs.assign fun _ => ⟨rfl, rfl⟩
  | finiteManeuver j v =>
    exact (Preserves.read j).bind fun s => (Preserves.lift _).bind fun g => (SlewIs.onPropagator _).bind fun _ =>
      (Preserves.read j).bind fun s => (Preserves.lift _).bind fun _ => (Preserves.lift _).bind fun _ =>
      (Preserves.lift _).bind fun _ => SlewIs.assign fun _ => ⟨rfl, rfl⟩
  | processWfov j k z1 z2 u =>
    exact (Preserves.read j).bind fun s => (Preserves.read k).bind fun s => (Preserves.lift _).bind fun g =>
      SlewIs.filterProcess _
  | processNfov j k z1 z2 u =>
    exact (Preserves.read j).bind fun s => (Preserves.read k).bind fun s => (Preserves.lift _).bind fun g =>
      SlewIs.filterProcess _
  | _ => cases hc

/-- while the mode of a spacecraft is not changed, its stop epoch stays, and the flag is cleared by an update at a
later epoch and by nothing else, whatever is called and whatever fails -/
theorem C64_not_before (d : ℕ) (w : World ι) (c : Call ι) (i : ι) (T : Epoch) (hc : c.modeChange ≠ some i)
    (hs : (w i).slewing = true) (hT : (w i).slew_stop = some T) :
    ((c.run d w).2 i).slew_stop = some T ∧
    (((c.run d w).2 i).slewing = true ∨
      (((c.run d w).2 i).slewing = false ∧ T.value < ((c.run d w).2 i).currentEpoch.value)) := by
  -- an update somewhere
  have hup : ∀ (j : ι) (w : World ι), (w i).slewing = true → (w i).slew_stop = some T →
      ((Spacecraft.updateAttitude d j w).2 i).slew_stop = some T ∧
      (((Spacecraft.updateAttitude d j w).2 i).slewing = true ∨
      (((Spacecraft.updateAttitude d j w).2 i).slewing = false ∧
        T.value < ((Spacecraft.updateAttitude d j w).2 i).currentEpoch.value)) := by
    intro j w hs hT
    have hu := (updateAttitude_effect d j w).1 i
    refine ⟨by rw [hu.fields.2.2.1, hT], ?_⟩
    rcases hu.slew with e | ⟨-, e, hE, T', hT', hlt⟩
    · left; rw [e, hs]
    · right
      rw [hT] at hT'
      cases hT'
      rw [hE]
      exact ⟨e, hlt⟩
  have hstep : ∀ (j : ι) (m : PyM RK4 Unit),
      (((onPropagator j m >>= fun _ => Spacecraft.updateAttitude d j) w).2 i).slew_stop = some T ∧
      ((((onPropagator j m >>= fun _ => Spacecraft.updateAttitude d j) w).2 i).slewing = true ∨
      ((((onPropagator j m >>= fun _ => Spacecraft.updateAttitude d j) w).2 i).slewing = false ∧
        T.value < (((onPropagator j m >>= fun _ => Spacecraft.updateAttitude d j) w).2 i).currentEpoch.value)) := by
    intro j m
    rw [PyM.bind_apply]
    have hk : ((onPropagator j m w).2 i).slewing = true ∧ ((onPropagator j m w).2 i).slew_stop = some T := by
      show ((Function.update w j { w j with propagator := _ }) i).slewing = _ ∧
        ((Function.update w j { w j with propagator := _ }) i).slew_stop = _
      by_cases hj : i = j
      · subst hj; rw [Function.update_self]; exact ⟨hs, hT⟩
      · rw [Function.update_of_ne hj]; exact ⟨hs, hT⟩
    rcases ho : onPropagator j m w with ⟨r, w1⟩
    rw [ho] at hk
    cases r with
    | error e => exact ⟨hk.2, Or.inl hk.1⟩
    | ok a => exact hup j w1 hk.1 hk.2
  by_cases hu : c.updates = none
  · obtain ⟨h1, h2⟩ := slew_untouched d c hu i true (some T) w ⟨hs, hT⟩
    exact ⟨h2, Or.inl h1⟩
  by_cases hq : c.modeChange = none
  · cases c with
    | step j => exact hstep j _
    | stepToEpoch j t => exact hstep j _
    | updateAttitude j => exact hup j w hs hT
    | trackLvlh j => cases hq
    | trackSun j => cases hq
    | trackState j k => cases hq
    | acquire j k => cases hq
    | _ => exact absurd rfl hu
  · obtain ⟨j, m, v, hr, hji⟩ : ∃ j m v, c.request w = some (j, m, v) ∧ j ≠ i := by
      cases c with
      | trackLvlh j => exact ⟨_, _, _, rfl, fun h => hc (by rw [h]; rfl)⟩
      | trackSun j => exact ⟨_, _, _, rfl, fun h => hc (by rw [h]; rfl)⟩
      | trackState j k => exact ⟨_, _, _, rfl, fun h => hc (by rw [h]; rfl)⟩
      | acquire j k => exact ⟨_, _, _, rfl, fun h => hc (by rw [h]; rfl)⟩
      | _ => exact absurd rfl hq
    obtain ⟨pt, -, hpt, hrun⟩ := request_run hr d
    have htr : ∀ w1 : World ι, w1 i = w i →
        ((track d j m c.names pt w1).2 i).slew_stop = some T ∧
        (((track d j m c.names pt w1).2 i).slewing = true ∨
        (((track d j m c.names pt w1).2 i).slewing = false ∧
          T.value < ((track d j m c.names pt w1).2 i).currentEpoch.value)) := by
      intro w1 hw1
      rw [track_apply]
      split
      · rw [PyM.bind_apply, beginSlew_apply]
        simp only
        rcases (w1 j).body_z.angle (pt (slewStart (w1 j) m c.names)
          (Function.update w1 j (slewStart (w1 j) m c.names))) with e | ang
        · show ((Function.update w1 j _) i).slew_stop = _ ∧ (((Function.update w1 j _) i).slewing = _ ∨ _)
          rw [Function.update_of_ne (Ne.symm hji), hw1]
          exact ⟨hT, Or.inl hs⟩
        · refine hup j _ ?_ ?_ <;> rw [Function.update_of_ne (Ne.symm hji), hw1] <;> assumption
      · exact hup j w1 (by rw [hw1, hs]) (by rw [hw1, hT])
    rcases hrun with h | ⟨f, h⟩ | ⟨e, h, -⟩
    · rw [h]; exact htr w rfl
    · rw [h]; exact htr _ (Function.update_of_ne (Ne.symm hji) _ _)
    · rw [h]; exact ⟨hT, Or.inl hs⟩

/-- and the first successful update of the spacecraft at a later epoch does clear it -/
theorem C64_ends (d : ℕ) (w w' : World ι) (c : Call ι) (i : ι) (T : Epoch)
    (hc : c = .step i ∨ (∃ e, c = .stepToEpoch i e) ∨ c = .updateAttitude i)
    (hs : (w i).slewing = true) (hT : (w i).slew_stop = some T) (h : c.run d w = (.ok (), w')) :
    (w' i).slewing = true ↔ (w' i).currentEpoch.value ≤ T.value := by
  have key : ∀ w1 : World ι, (w1 i).slewing = true → (w1 i).slew_stop = some T →
      Spacecraft.updateAttitude d i w1 = (.ok (), w') →
      ((w' i).slewing = true ↔ (w' i).currentEpoch.value ≤ T.value) := by
    intro w1 h1 h2 hu
    have hup := (updateAttitude_effect d i w1).2 w' hu
    obtain ⟨T', hT', hiff⟩ := hup.slew h1
    rw [h2] at hT'
    cases hT'
    rw [hiff, currentEpoch_eq (w' i), (hup.rel i).toUpd.synced rfl]
    rfl
  rcases hc with rfl | ⟨e, rfl⟩ | rfl
  · obtain ⟨a, w1, h1, h2⟩ := PyM.bind_eq_ok.mp h
    obtain ⟨p, hp, rfl⟩ := onPropagator_eq_ok.mp h1
    exact key _ (by rw [Function.update_self]; exact hs) (by rw [Function.update_self]; exact hT) h2
  · obtain ⟨a, w1, h1, h2⟩ := PyM.bind_eq_ok.mp h
    obtain ⟨p, hp, rfl⟩ := onPropagator_eq_ok.mp h1
    exact key _ (by rw [Function.update_self]; exact hs) (by rw [Function.update_self]; exact hT) h2
  · exact key w hs hT h

/-- the hypotheses are met: two new spacecraft, the first one told to track the second one -/
example : ∃ (w w' : World (Fin 2)), Fresh w ∧ (w 0).steering ≠ "target" ∧
    (Call.trackState 0 1).run 2 w = (.ok (), w') ∧ (w' 0).slewing = true ∧ (w' 0).slew_stop ≠ none := by
  obtain ⟨w, hw, hg⟩ := exists_fresh (ι := Fin 2) fun k =>
    GCRF.new ⟨0⟩ ⟨7000 + (k.val : ℝ), 0, 0⟩ ⟨0, 1, 0⟩
  have hpos : ∀ k, (w k).position = ⟨7000 + (k.val : ℝ), 0, 0⟩ ∧ (w k).currentEpoch = ⟨0⟩ := by
    intro k
    obtain ⟨s, h1, -, -, h2, -⟩ := new_ok (ι := Fin 2) (GCRF.new ⟨0⟩ ⟨7000 + (k.val : ℝ), 0, 0⟩ ⟨0, 1, 0⟩)
    rw [hg k] at h1
    cases h1
    rw [position_eq, currentEpoch_eq, h2]
    exact ⟨rfl, rfl⟩
  have hm : (w 0).steering ≠ TARGET := by rw [(fresh_fields hw 0).1]; decide
  have hb : (w 0).body_z ≠ ⟨0, 0, 0⟩ := by
    rw [(C60_modes w hw 0 [] 0).2.2.1, (hpos 0).1]
    simp [Vec3.scaled]
  obtain ⟨w1, h1⟩ := first_track_ok 1 w 0 1 hm hb (by rw [(hpos 0).1, (hpos 1).1]; simp [Vec3.minus])
    (by rw [(hpos 0).2, (hpos 1).2])
  obtain ⟨b1, T, b2, -⟩ := C64_bounded w hw 2 [] w1 (.trackState 0 1) 0 _ _ rfl hm h1
  exact ⟨w, w1, hw, hm, h1, b1, by rw [b2]; simp⟩

/-- those of `C65_synchronised`, too: a tracker and a target for which the update succeeds -/
theorem tracking_example : ∃ (w w' : World (Fin 2)), (w 0).steering = "target" ∧ (w 0).tracked_target = some 1 ∧
    (Call.updateAttitude 0).run 2 w = (.ok (), w') := by
  obtain ⟨w, hw, hg⟩ := exists_fresh (ι := Fin 2) fun k =>
    GCRF.new ⟨0⟩ ⟨7000 + (k.val : ℝ), 0, 0⟩ ⟨0, 1, 0⟩
  have hpos : ∀ k, (w k).currentEpoch = ⟨0⟩ := by
    intro k
    obtain ⟨s, h1, -, -, h2, -⟩ := new_ok (ι := Fin 2) (GCRF.new ⟨0⟩ ⟨7000 + (k.val : ℝ), 0, 0⟩ ⟨0, 1, 0⟩)
    rw [hg k] at h1
    cases h1
    rw [currentEpoch_eq, h2]
    rfl
  obtain ⟨w', h⟩ := update_target_ok 1
    (Function.update w 0 { w 0 with steering := TARGET, tracked_target := some 1, slew_stop := some ⟨0⟩ }) 0 1 ⟨0⟩
    rfl rfl rfl (by
      rw [Function.update_of_ne (by decide), hpos 1, Function.update_self]
      exact (hpos 0).symm)
  exact ⟨_, w', rfl, rfl, h⟩

end Openspace
