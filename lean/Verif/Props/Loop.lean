import Verif.Props.AcquireCases
import Verif.Props.CasesMotion
import Verif.Model.Examples

/-!
# C119: the simulation loop of the examples
-/

set_option linter.unusedSectionVars false

namespace Openspace

open Real Spacecraft

variable {ι : Type} [DecidableEq ι]

/-- a call that returns leaves the clocks of both spacecraft and the step size of the first as they are if the clocks
agree -/
def KeepsClocks (chase target : ι) (body : PyM (World ι) Unit) : Prop :=
  ∀ w w', (w target).currentEpoch = (w chase).currentEpoch → body w = (.ok (), w') →
    (w' chase).currentEpoch = (w chase).currentEpoch ∧ (w' target).currentEpoch = (w target).currentEpoch ∧
    (w' chase).propagator.step_size = (w chase).propagator.step_size

theorem currentEpoch_of_propagator {s s' : Spacecraft ι} (h : s'.propagator = s.propagator) :
    s'.currentEpoch = s.currentEpoch := by
  rw [currentEpoch_eq, currentEpoch_eq, h]

/-- an iteration -/
theorem loop_iteration {d : ℕ} {i j : ι} (hij : i ≠ j) {w w1 w2 : World ι} (h1 : Spacecraft.step d i w = (.ok (), w1))
    (h2 : Spacecraft.stepToEpoch d j (w1 i).currentEpoch w1 = (.ok (), w2)) :
    (w2 i).currentEpoch.value = (w i).currentEpoch.value + (w i).propagator.step_size / 86400 ∧
    (w2 j).currentEpoch = (w2 i).currentEpoch ∧ (w2 i).propagator.step_size = (w i).propagator.step_size := by
  have hsec : SECONDS_IN_DAY = 86400 := by norm_num [SECONDS_IN_DAY]
  obtain ⟨_, v1, k1, k2⟩ := PyM.bind_eq_ok.mp h1
  obtain ⟨p, hp, rfl⟩ := onPropagator_eq_ok.mp k1
  have u1 := ((updateAttitude_effect d i _).2 w1 k2).rel i
  have e1 : (w1 i).propagator = p := by
    have := u1.toUpd.synced rfl
    rwa [Function.update_self] at this
  obtain ⟨_, v2, l1, l2⟩ := PyM.bind_eq_ok.mp h2
  obtain ⟨q, hq, rfl⟩ := onPropagator_eq_ok.mp l1
  have u2 := ((updateAttitude_effect d j _).2 w2 l2).rel
  have hq1 := (C41_lands _ _ _ hq).1
  have ej : (w2 j).propagator = q := by
    have := (u2 j).toUpd.synced rfl
    rwa [Function.update_self] at this
  have cj : (Function.update w1 j { w1 j with propagator := q } j).currentEpoch = (w1 i).currentEpoch := by
    rw [Function.update_self, currentEpoch_eq]; exact hq1
  have ei : (w2 i).propagator = (w1 i).propagator := by
    have := (u2 i).toUpd.synced (by rw [cj, Function.update_of_ne hij])
    rwa [Function.update_of_ne hij] at this
  have hfr := RK4.step_frame hp
  have ci : (w2 i).currentEpoch = (w1 i).currentEpoch := currentEpoch_of_propagator ei
  refine ⟨?_, ?_, ?_⟩
  · rw [ci, currentEpoch_eq, e1, currentEpoch_eq, ← hsec]; exact hfr.2.2.2.2.2.1
  · rw [ci, currentEpoch_eq, ej]; exact hq1
  · rw [ei, e1]; exact hfr.1

/-- In exact arithmetic the loop of the examples makes one iteration for every five minutes of the span, rounded up,
and both spacecraft end at the epoch so reached. -/
theorem C119_exact_partial (d fuel : ℕ) (chase target : ι) (hne : chase ≠ target) (stop : Epoch) (body : PyM (World ι) Unit)
    (hbody : KeepsClocks chase target body) (w w' : World ι) (n : ℕ)
    (hsync : (w target).currentEpoch = (w chase).currentEpoch) (hstep : (w chase).propagator.step_size = 300)
    (h : simulate d chase target stop body fuel w = (.ok n, w')) :
    IsLeast {k : ℕ | stop.value ≤ (w chase).currentEpoch.value + k * (300 / 86400)} n ∧
    (w' chase).currentEpoch.value = (w chase).currentEpoch.value + n * (300 / 86400) ∧
    (w' target).currentEpoch = (w' chase).currentEpoch := by
  have done : ∀ (w w' : World ι) (n : ℕ), (w target).currentEpoch = (w chase).currentEpoch →
      ¬ (w chase).currentEpoch.value < stop.value → ((.ok 0, w) : Except PyErr ℕ × World ι) = (.ok n, w') →
      IsLeast {k : ℕ | stop.value ≤ (w chase).currentEpoch.value + k * (300 / 86400)} n ∧
      (w' chase).currentEpoch.value = (w chase).currentEpoch.value + n * (300 / 86400) ∧
      (w' target).currentEpoch = (w' chase).currentEpoch := by
    intro w w' n hs hlt he
    obtain ⟨h1, h2⟩ := Prod.mk.inj he
    cases h1
    subst h2
    refine ⟨⟨?_, fun k _ => Nat.zero_le k⟩, by push_cast; ring, hs⟩
    show stop.value ≤ _
    push_cast
    linarith
  induction fuel generalizing w n with
  | zero =>
    by_cases hlt : (w chase).currentEpoch.value < stop.value
    · have : simulate d chase target stop body 0 w = (.error .outOfFuel, w) := by
        show (if (w chase).currentEpoch.value < stop.value then PyM.throw .outOfFuel else pure 0 : PyM (World ι) ℕ) w = _
        rw [if_pos hlt]; rfl
      rw [this] at h
      cases h
    · have : simulate d chase target stop body 0 w = (.ok 0, w) := by
        show (if (w chase).currentEpoch.value < stop.value then PyM.throw .outOfFuel else pure 0 : PyM (World ι) ℕ) w = _
        rw [if_neg hlt]; rfl
      rw [this] at h
      exact done w w' n hsync hlt h
  | succ fuel ih =>
    obtain ⟨c, w0, h0, h⟩ := PyM.bind_eq_ok.mp h
    cases h0
    by_cases hlt : (w chase).currentEpoch.value < stop.value
    · rw [if_pos hlt] at h
      obtain ⟨_, w1, h1, h⟩ := PyM.bind_eq_ok.mp h
      obtain ⟨c', w1', h1', h⟩ := PyM.bind_eq_ok.mp h
      cases h1'
      obtain ⟨_, w2, h2, h⟩ := PyM.bind_eq_ok.mp h
      obtain ⟨_, w3, h3, h⟩ := PyM.bind_eq_ok.mp h
      obtain ⟨m, w4, h4, h⟩ := PyM.bind_eq_ok.mp h
      cases h
      obtain ⟨a1, a2, a3⟩ := loop_iteration hne h1 h2
      obtain ⟨b1, b2, b3⟩ := hbody w2 w3 a2 h3
      obtain ⟨g1, g2, g3⟩ := ih w3 m (by rw [b1, b2, a2]) (by rw [b3, a3, hstep]) h4
      rw [b1, a1, hstep] at g1 g2
      refine ⟨⟨?_, fun k hk => ?_⟩, by rw [g2]; push_cast; ring, g3⟩
      · have := g1.1
        simp only [Set.mem_ofPred_eq] at this ⊢
        push_cast
        linarith
      · rcases k with - | k
        · simp only [Set.mem_ofPred_eq] at hk
          push_cast at hk
          linarith
        · have := g1.2 (show k ∈ _ by
            simp only [Set.mem_ofPred_eq] at hk ⊢
            push_cast at hk
            linarith)
          omega
    · rw [if_neg hlt] at h
      exact done w w' n hsync hlt h

/-! ## what the bodies of the examples do -/

/-- reading only -/
theorem KeepsClocks.pure (i j : ι) : KeepsClocks i j (pure ()) := by
  intro w w' _ h
  cases h
  exact ⟨rfl, rfl, rfl⟩

theorem KeepsClocks.seq {i j : ι} {m m' : PyM (World ι) Unit} (h : KeepsClocks i j m) (h' : KeepsClocks i j m') :
    KeepsClocks i j (m >>= fun _ => m') := by
  intro w w' hs hm
  obtain ⟨_, w1, h1, h2⟩ := PyM.bind_eq_ok.mp hm
  obtain ⟨a1, a2, a3⟩ := h w w1 hs h1
  obtain ⟨b1, b2, b3⟩ := h' w1 w' (by rw [a1, a2, hs]) h2
  exact ⟨b1.trans a1, b2.trans a2, b3.trans a3⟩

/-- `chase.track_state(target)` (example_kalman.py 44) -/
theorem KeepsClocks.trackState (d : ℕ) {i j : ι} : KeepsClocks i j (Spacecraft.trackState d i j) := by
  intro w w' hs hm
  obtain ⟨f0, w1, g1, g2⟩ := request_ok (c := .trackState i j) rfl (d := d) hm
  have hp : ∀ k, (w1 k).propagator = (w k).propagator := by
    intro k
    rcases g2 with ⟨-, rfl⟩ | ⟨-, ang, -, rfl⟩ <;>
      (by_cases hk : k = i
       · subst hk; simp only [Function.update_self, slewStart]
       · rw [Function.update_of_ne hk])
  have he : ∀ k, (w1 k).currentEpoch = (w k).currentEpoch := fun k => currentEpoch_of_propagator (hp k)
  have hu := ((updateAttitude_effect d i w1).2 w' g1).rel
  have ei := (hu i).toUpd.synced rfl
  have ej := (hu j).toUpd.synced (by rw [he, he, hs])
  refine ⟨(currentEpoch_of_propagator ei).trans (he i), (currentEpoch_of_propagator ej).trans (he j), ?_⟩
  rw [ei, hp]

/-- `chase.process_wfov(target)` (example_kalman.py 47) -/
theorem KeepsClocks.processWfov {i j : ι} (z1 z2 u : ℝ) : KeepsClocks i j (Spacecraft.processWfov i j z1 z2 u) := by
  intro w w' _ hm
  obtain ⟨f, ob, f', -, -, -, -, rfl⟩ := (C116_process 0 w i j z1 z2 u (.processWfov i j z1 z2 u) _ (Or.inl ⟨rfl, rfl⟩)).1 w' hm
  have hp : ∀ k, (Function.update w i { w i with filter := some f' } k).propagator = (w k).propagator := by
    intro k
    by_cases hk : k = i
    · subst hk; rw [Function.update_self]
    · rw [Function.update_of_ne hk]
  exact ⟨currentEpoch_of_propagator (hp i), currentEpoch_of_propagator (hp j), by rw [hp]⟩

/-- an update of a spacecraft in the mode of a new one succeeds -/
theorem update_lvlh_ok (d : ℕ) (w : World ι) (i : ι) (hm : (w i).steering = LVLH) (hs : (w i).slewing = false) :
    updateAttitude (d + 1) i w = (.ok (), Function.update w i (lvlhAttitude (w i))) := by
  rw [updateAttitude_succ, if_pos hm]
  show finishCall i (Function.update w i (lvlhAttitude (w i))) = _
  rw [finishCall_apply, Function.update_self]
  have : (lvlhAttitude (w i)).finishSlew = .ok (lvlhAttitude (w i)) := by
    have hf : (lvlhAttitude (w i)).slewing = false := hs
    simp [finishSlew, hf]
  rw [this]
  simp only [Function.update_idem]

/-- two new geosynchronous spacecraft and a loop of a minute: one iteration -/
example : ∃ (w w' : World (Fin 2)), Fresh w ∧ (w 1).currentEpoch = (w 0).currentEpoch ∧
    (w 0).propagator.step_size = 300 ∧
    simulate 3 0 1 ⟨59932 + 60 / 86400⟩ (pure ()) 5 w = (.ok 1, w') := by
  obtain ⟨w, hw, hg⟩ := exists_fresh (ι := Fin 2) fun _ => GCRF.new ⟨59932⟩ ⟨42164, 0, 0⟩ ⟨0, 3.07, 0⟩
  have hp : ∀ k, (w k).propagator = geoExample := fun k => (fresh_state (hg k)).1
  have he : ∀ k, (w k).currentEpoch = ⟨59932⟩ := fun k => by rw [currentEpoch_eq, hp]; rfl
  obtain ⟨p, hstep⟩ := geo_step
  have hpe : p.state.epoch = ⟨59932 + 300 / 86400⟩ := by
    have := (RK4.step_frame hstep).2.2.2.2.2.1
    ext
    rw [this, show geoExample.state.epoch = ⟨59932⟩ from rfl, show geoExample.step_size = 300 from rfl]
    norm_num [SECONDS_IN_DAY]
  obtain ⟨q, hfly⟩ := geoExample_flies 300 (by norm_num [abs_of_pos])
  obtain ⟨w1, hw1⟩ : ∃ w1, w1 = Function.update w 0 { w 0 with propagator := p } := ⟨_, rfl⟩
  have f0 := fresh_fields hw 0
  have f1 := fresh_fields hw 1
  have s1 : Spacecraft.step 3 0 w = (.ok (), Function.update w1 0 (lvlhAttitude (w1 0))) := by
    have : onPropagator 0 RK4.step w = (.ok (), w1) := by
      rw [hw1]; simp only [onPropagator, PyM.zoom, hp, hstep]
    rw [Spacecraft.step, PyM.bind_apply, this]
    exact update_lvlh_ok 2 w1 0 (by rw [hw1, Function.update_self]; exact f0.1)
      (by rw [hw1, Function.update_self]; exact f0.2.2.1)
  obtain ⟨w2, hw2⟩ : ∃ w2, w2 = Function.update w1 0 (lvlhAttitude (w1 0)) := ⟨_, rfl⟩
  rw [← hw2] at s1
  have c0 : (w2 0).currentEpoch = ⟨59932 + 300 / 86400⟩ := by
    rw [hw2, Function.update_self, currentEpoch_eq]
    show (w1 0).propagator.state.epoch = _
    rw [hw1, Function.update_self]; exact hpe
  have c1 : w2 1 = w 1 := by
    rw [hw2, Function.update_of_ne (by decide), hw1, Function.update_of_ne (by decide)]
  obtain ⟨w3, hw3⟩ : ∃ w3, w3 = Function.update w2 1 { w2 1 with propagator := q } := ⟨_, rfl⟩
  have s2 : Spacecraft.stepToEpoch 3 1 (w2 0).currentEpoch w2 =
      (.ok (), Function.update w3 1 (lvlhAttitude (w3 1))) := by
    have : onPropagator 1 (RK4.stepToEpoch (w2 0).currentEpoch) w2 = (.ok (), w3) := by
      rw [hw3]; simp only [onPropagator, PyM.zoom, c1, hp, c0, hfly]
    rw [Spacecraft.stepToEpoch, PyM.bind_apply, this]
    exact update_lvlh_ok 2 w3 1 (by rw [hw3, Function.update_self, c1]; exact f1.1)
      (by rw [hw3, Function.update_self, c1]; exact f1.2.2.1)
  obtain ⟨w4, hw4⟩ : ∃ w4, w4 = Function.update w3 1 (lvlhAttitude (w3 1)) := ⟨_, rfl⟩
  rw [← hw4] at s2
  have c4 : (w4 0).currentEpoch = ⟨59932 + 300 / 86400⟩ := by
    rw [hw4, Function.update_of_ne (by decide), hw3, Function.update_of_ne (by decide), c0]
  refine ⟨w, w4, hw, by rw [he, he], by rw [hp]; rfl, ?_⟩
  have last : simulate 3 0 1 ⟨59932 + 60 / 86400⟩ (pure ()) 4 w4 = (.ok 0, w4) := by
    rw [simulate, PyM.bind_apply]
    show (if (w4 0).currentEpoch.value < _ then _ else _ : PyM (World (Fin 2)) ℕ) w4 = _
    rw [c4, if_neg (by norm_num)]
    rfl
  rw [simulate, PyM.bind_apply]
  show (if (w 0).currentEpoch.value < _ then _ else _ : PyM (World (Fin 2)) ℕ) w = _
  rw [he, if_pos (by norm_num), PyM.bind_apply, s1]
  show (do Spacecraft.stepToEpoch 3 1 (w2 0).currentEpoch; pure (); let n ← simulate 3 0 1 _ (pure ()) 4; pure (n + 1) : PyM (World (Fin 2)) ℕ) w2 = _
  rw [PyM.bind_apply, s2]
  show (do let n ← simulate 3 0 1 _ (pure ()) 4; pure (n + 1) : PyM (World (Fin 2)) ℕ) w4 = _
  rw [PyM.bind_apply, last]
  rfl

end Openspace
