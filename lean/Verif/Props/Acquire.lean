import Verif.Props.Tracking
import Verif.Props.SimulatedObs
import Verif.Props.Kalman
import Verif.Props.HillPosition
import Verif.Props.StepSucceeds

/-!
# C116 and C117: `acquire`, `process_wfov` and `process_nfov`
-/

set_option linter.unusedSectionVars false

namespace Openspace

open Real Spacecraft

variable {ι : Type} [DecidableEq ι]

/-- the filter that `acquire` installs in `s` for a target `t` -/
structure AcquiredFilter (s t : Spacecraft ι) (f : RelativeKalman) : Prop where
  /-- it starts at the observer's time -/
  epoch : f.epoch = s.currentEpoch
  /-- it starts from the Hill coordinates of the target's state relative to the observer's state -/
  start : ∃ rel, gcrfToHcw s.currentState t.currentState = .ok rel ∧
    f.x00 = ⟨rel.position.x, rel.position.y, rel.position.z, rel.velocity.x, rel.velocity.y, rel.velocity.z⟩ ∧
    f.propagator.state.position = rel.position ∧ f.propagator.state.velocity = rel.velocity
  /-- its mean motion belongs to the semi-major axis `a` that the vis-viva equation gives for the observer -/
  motion : ∃ a, (2 / s.position.magnitude - s.velocity.magnitude ^ 2 / Earth.MU) * a = 1 ∧ 0 < a ∧
    0 < f.propagator.n ∧ f.propagator.n ^ 2 * a ^ 3 = Earth.MU
  /-- no observation has been processed -/
  covariance : f.p00.toMatrix = Matrix.diagonal ![0.5, 0.5, 0.5, 5e-5, 5e-5, 5e-5]

/-- a successful `acquire`, unpacked -/
theorem acquire_unpack {d : ℕ} {i j : ι} {w w' : World ι} (h : acquire d i j w = (.ok (), w')) :
    ∃ rel a hill f, gcrfToHcw (w i).currentState (w j).currentState = .ok rel ∧ (w i).sma = .ok a ∧
      Hill.new rel a = .ok hill ∧ RelativeKalman.new (w i).currentEpoch hill = .ok f ∧
      trackState d i j (Function.update w i { w i with filter := some f }) = (.ok (), w') := by
  obtain ⟨_, w1, h1, h⟩ := PyM.bind_eq_ok.mp h
  cases h1
  obtain ⟨_, w1, h1, h⟩ := PyM.bind_eq_ok.mp h
  cases h1
  obtain ⟨rel, w1, h1, h⟩ := PyM.bind_eq_ok.mp h
  obtain ⟨e1, e⟩ := PyM.lift_eq_ok.mp h1
  rw [e] at h; clear h1 e
  obtain ⟨a, w1, h1, h⟩ := PyM.bind_eq_ok.mp h
  obtain ⟨e2, e⟩ := PyM.lift_eq_ok.mp h1
  rw [e] at h; clear h1 e
  obtain ⟨hill, w1, h1, h⟩ := PyM.bind_eq_ok.mp h
  obtain ⟨e3, e⟩ := PyM.lift_eq_ok.mp h1
  rw [e] at h; clear h1 e
  obtain ⟨f, w1, h1, h⟩ := PyM.bind_eq_ok.mp h
  obtain ⟨e4, e⟩ := PyM.lift_eq_ok.mp h1
  rw [e] at h; clear h1 e
  exact ⟨rel, a, hill, f, e1, e2, e3, e4, h⟩

/-- `track_state` leaves the filters alone -/
theorem trackState_filter {d : ℕ} {i j : ι} {w w' : World ι} (h : trackState d i j w = (.ok (), w')) (k : ι) :
    (w' k).filter = (w k).filter := by
  obtain ⟨w1, h1, h2⟩ := track_ok (m := TARGET) (t := some j) (pt := fun s w => s.targetVector (w j)) h
  have e : (w1 k).filter = (w k).filter := by
    rcases h2 with ⟨-, rfl⟩ | ⟨-, ang, -, rfl⟩
    · rfl
    · by_cases hk : k = i
      · subst hk; rw [Function.update_self]; rfl
      · rw [Function.update_of_ne hk]
  rw [((((updateAttitude_effect d i w1).2 w' h1).rel k).toUpd.fields).2.2.2.2, e]

/-- what the library computes for the new filter is what it should be -/
theorem acquired_filter {s t : Spacecraft ι} {rel : State} {a : ℝ} {hill : Hill} {f : RelativeKalman}
    (h1 : gcrfToHcw s.currentState t.currentState = .ok rel) (h2 : s.sma = .ok a) (h3 : Hill.new rel a = .ok hill)
    (h4 : RelativeKalman.new s.currentEpoch hill = .ok f) : AcquiredFilter s t f := by
  obtain ⟨f1, f2, f3, f4, -⟩ := C54_initial _ _ _ h4
  have hmu : (0 : ℝ) < Earth.MU := by norm_num [Earth.MU]
  simp only [sma, aFromMuRV, bind_eq_ok, pyDiv_eq_ok] at h2
  obtain ⟨t1, ⟨hr, rfl⟩, t2, ⟨-, rfl⟩, hd, rfl⟩ := h2
  have h3' := h3
  simp only [Hill.new, bind_eq_ok, pyDiv_eq_ok, pure_eq_ok, Except.ok.injEq] at h3'
  obtain ⟨q, ⟨ha3, hq⟩, n, hn, rfl⟩ := h3'
  have hn0 : n ≠ 0 := by
    have := (RelativeKalman.new_inv h4).1.n
    rw [f2] at this; exact this
  obtain ⟨x, hx⟩ : ∃ x, x = 1 / (2 / s.position.magnitude - s.velocity.magnitude * s.velocity.magnitude / Earth.MU) :=
    ⟨_, rfl⟩
  rw [← hx] at ha3 hq
  subst hq
  have hxpos : 0 < x := by
    rw [pySqrt] at hn
    split at hn
    · cases hn
    · rename_i hq0
      have hqn := not_lt.mp hq0
      by_contra hneg
      have hx0 : x ≠ 0 := fun h => ha3 (by rw [h]; ring)
      have hlt : x < 0 := lt_of_le_of_ne (not_lt.mp hneg) hx0
      have : x * x * x < 0 := mul_neg_of_pos_of_neg (mul_pos_of_neg_of_neg hlt hlt) hlt
      exact absurd (div_neg_of_pos_of_neg hmu this) (not_lt.mpr hqn)
  have hnn : n = √(Earth.MU / (x * x * x)) := by
    rw [pySqrt_ok (by positivity)] at hn
    exact (Except.ok.inj hn).symm
  refine ⟨f1, ⟨rel, h1, ?_, ?_, ?_⟩, ⟨x, ?_, hxpos, ?_, ?_⟩, f4⟩
  · rw [f3]; rfl
  · rw [f2]; rfl
  · rw [f2]; rfl
  · rw [hx, pow_two]; exact mul_one_div_cancel hd
  · rw [f2]
    show 0 < n
    rw [hnn]; exact sqrt_pos.mpr (by positivity)
  · rw [f2]
    show n ^ 2 * x ^ 3 = _
    rw [hnn, sq_sqrt (by positivity)]
    field_simp

/-- A successful `acquire` gives the observer a new filter, which starts from the relative state of the target, and
moves nothing: neither the observer nor, if it is at the observer's epoch, the target. -/
theorem C116_acquire (d : ℕ) (w w' : World ι) (i j : ι) (h : (Call.acquire i j).run d w = (.ok (), w')) :
    (∃ f, (w' i).filter = some f ∧ AcquiredFilter (w i) (w j) f) ∧
    (∀ k, k ≠ i → (w' k).filter = (w k).filter) ∧
    (w' i).propagator = (w i).propagator ∧
    ((w j).currentEpoch = (w i).currentEpoch → (w' j).propagator = (w j).propagator) := by
  obtain ⟨rel, a, hill, f, h1, h2, h3, h4, h5⟩ := acquire_unpack h
  refine ⟨⟨f, ?_, acquired_filter h1 h2 h3 h4⟩, fun k hk => ?_, ?_, fun he => ?_⟩
  · rw [trackState_filter h5 i, Function.update_self]
  · rw [trackState_filter h5 k, Function.update_of_ne hk]
  · exact request_keeps (c := .acquire i j) rfl h i rfl
  · exact request_keeps (c := .acquire i j) rfl h j he

/-- `filter.process` of a spacecraft without a filter -/
theorem filterProcess_none {i : ι} {w : World ι} (hf : (w i).filter = none) (ob : SpaceObservation) :
    filterProcess i ob w = (.error .attributeError, w) := by
  show ((match (w i).filter with
    | none => (PyM.throw .attributeError : PyM (World ι) Unit)
    | some flt => PyM.zoom (fun _ => flt)
        (fun w f => Function.update w i { w i with filter := some f }) (RelativeKalman.process ob)) w) = _
  rw [hf]; rfl

/-- `filter.process` of a spacecraft with a filter -/
theorem filterProcess_some {i : ι} {w : World ι} {f f' : RelativeKalman} (hf : (w i).filter = some f)
    {ob : SpaceObservation} {r : Py Unit} (hp : RelativeKalman.process ob f = (r, f')) :
    filterProcess i ob w = (r, Function.update w i { w i with filter := some f' }) := by
  show ((match (w i).filter with
    | none => (PyM.throw .attributeError : PyM (World ι) Unit)
    | some flt => PyM.zoom (fun _ => flt)
        (fun w f => Function.update w i { w i with filter := some f }) (RelativeKalman.process ob)) w) = _
  rw [hf]
  simp only [PyM.zoom, hp]

/-- the two calls that process an observation, with the camera they use -/
def Processing (i j : ι) (z1 z2 u : ℝ) (c : Call ι) (cam : Spacecraft ι → Camera) : Prop :=
  (c = .processWfov i j z1 z2 u ∧ cam = Spacecraft.wfov) ∨ (c = .processNfov i j z1 z2 u ∧ cam = Spacecraft.nfov)

theorem processing_run {i j : ι} {z1 z2 u : ℝ} {c : Call ι} {cam : Spacecraft ι → Camera}
    (hc : Processing i j z1 z2 u c cam) (d : ℕ) (w : World ι) :
    c.run d w = (PyM.lift (observe (cam (w i)) (w i) (w j) z1 z2 u) >>= fun ob => filterProcess i ob) w := by
  rcases hc with ⟨rfl, rfl⟩ | ⟨rfl, rfl⟩ <;> rfl

/-- `process_wfov` and `process_nfov` observe the target with their camera and hand the observation to the observer's
filter; nothing else changes.  They raise if there is no filter, or if the observation or its processing raises, and
then the observer may keep a filter that was partly updated. -/
theorem C116_process (d : ℕ) (w : World ι) (i j : ι) (z1 z2 u : ℝ) (c : Call ι) (cam : Spacecraft ι → Camera)
    (hc : Processing i j z1 z2 u c cam) :
    (∀ w', c.run d w = (.ok (), w') → ∃ f ob f', (w i).filter = some f ∧
      observe (cam (w i)) (w i) (w j) z1 z2 u = .ok ob ∧ Observed (cam (w i)) (w i) (w j) z1 z2 ob ∧
      RelativeKalman.process ob f = (.ok (), f') ∧
      w' = Function.update w i { w i with filter := some f' }) ∧
    (∀ f ob f', (w i).filter = some f → observe (cam (w i)) (w i) (w j) z1 z2 u = .ok ob →
      RelativeKalman.process ob f = (.ok (), f') →
      c.run d w = (.ok (), Function.update w i { w i with filter := some f' })) ∧
    ((w i).filter = none → (c.run d w).1 ≠ .ok () ∧ (c.run d w).2 = w) ∧
    (∀ ob, observe (cam (w i)) (w i) (w j) z1 z2 u = .ok ob → (w i).filter = none →
      c.run d w = (.error .attributeError, w)) := by
  rw [processing_run hc, PyM.bind_apply]
  rcases ho : observe (cam (w i)) (w i) (w j) z1 z2 u with e | ob
  · refine ⟨fun w' h => ?_, fun f ob f' _ h => (by cases h), fun _ => ⟨by simp [PyM.lift], rfl⟩,
      fun ob h => (by cases h)⟩
    simp [PyM.lift] at h
  · simp only [PyM.lift]
    rcases hf : (w i).filter with _ | f
    · rw [filterProcess_none hf]
      refine ⟨fun w' h => by simp at h, fun f ob f' h => (by cases h), fun _ => by simp, fun _ _ _ => rfl⟩
    · rcases hp : RelativeKalman.process ob f with ⟨r, f'⟩
      rw [filterProcess_some hf hp]
      refine ⟨fun w' h => ?_, fun f1 ob1 f2 h1 h2 h3 => ?_, fun h => (by cases h), fun _ _ h => (by cases h)⟩
      · simp only [Prod.mk.injEq] at h
        obtain ⟨rfl, rfl⟩ := h
        exact ⟨f, ob, f', rfl, rfl, (observe_spec _ _ _ _ _ _).1 _ ho, hp, rfl⟩
      · cases h1; cases h2
        rw [hp] at h3
        cases h3
        rfl

/-- the observation is made from the state of the observer -/
theorem observe_observer {cam : Camera} {s t : Spacecraft ι} {z1 z2 u : ℝ} {ob : SpaceObservation}
    (h : observe cam s t z1 z2 u = .ok ob) : ob.observer_state = s.currentState := by
  simp only [observe, bind_eq_ok, pure_eq_ok, Except.ok.injEq] at h
  obtain ⟨_, -, _, -, rfl⟩ := h
  rfl

/-- the measurement of a noiseless observation is the position part of the Hill coordinates of the target -/
theorem noiseless_measurement {cam : Camera} {s t : Spacecraft ι} {u : ℝ} {ob : SpaceObservation}
    (h : observe cam s t 0 0 u = .ok ob) {rel : State} (hr : gcrfToHcw s.currentState t.currentState = .ok rel)
    {z : Vec3} (hz : RelativeKalman.hillMeasurement ob = .ok z) : z = rel.position := by
  have ho := ((observe_spec cam s t 0 0 u).1 ob h).exact rfl rfl
  simp only [RelativeKalman.hillMeasurement, bind_eq_ok, pure_eq_ok, Except.ok.injEq, observe_observer h] at hz
  obtain ⟨hcw, hh, rfl⟩ := hz
  have hM : ∃ M, frameMatrix s.currentState = .ok M := by
    simp only [gcrfToHcw, bind_eq_ok] at hr
    obtain ⟨M, hM, -⟩ := hr
    exact ⟨M, hM⟩
  obtain ⟨M, hM⟩ := hM
  rw [gcrfToHcw_position hM hh, gcrfToHcw_position hM hr]
  have e : (GCRF.new s.currentState.epoch (s.currentState.position.plus ob.observed_direction)
      s.currentState.velocity).position = t.currentState.position := ho
  rw [e]

/-- a successful `process` used the measurement of its observation -/
theorem process_measurement {f f' : RelativeKalman} {ob : SpaceObservation} (hi : f.Inv)
    (h : RelativeKalman.process ob f = (.ok (), f')) :
    ∃ z, RelativeKalman.hillMeasurement ob = .ok z ∧ f'.z = some z ∧ f'.epoch = ob.observer_state.epoch := by
  rcases hz : RelativeKalman.hillMeasurement ob with e1 | z
  · simp [RelativeKalman.process, hz] at h
  rcases he : RelativeKalman.hillErrors ob with e1 | e'
  · simp [RelativeKalman.process, hz, he] at h
  obtain ⟨F, P, K, X, x', -, -, -, -, -, -, hp⟩ := RelativeKalman.process_ok hi hz he
  rw [hp] at h
  cases h
  exact ⟨z, rfl, rfl, rfl⟩

/-- acquiring a target at the same epoch and processing a noiseless observation of it at once leaves the estimate at
the true relative state, and labels it with that epoch -/
theorem C116_truth (d : ℕ) (w w1 w2 : World ι) (i j : ι) (u : ℝ) (c : Call ι) (cam : Spacecraft ι → Camera)
    (he : (w j).currentEpoch = (w i).currentEpoch) (h1 : (Call.acquire i j).run d w = (.ok (), w1))
    (hc : Processing i j 0 0 u c cam) (h2 : c.run d w1 = (.ok (), w2)) :
    (∀ k, (w2 k).propagator = (w1 k).propagator) ∧
    ∃ rel f, gcrfToHcw (w2 i).currentState (w2 j).currentState = .ok rel ∧ (w2 i).filter = some f ∧
      f.epoch = (w2 i).currentEpoch ∧ f.z = some rel.position ∧
      f.x00 = ⟨rel.position.x, rel.position.y, rel.position.z, rel.velocity.x, rel.velocity.y, rel.velocity.z⟩ := by
  obtain ⟨rel, a, hill, f, a1, a2, a3, a4, a5⟩ := acquire_unpack h1
  obtain ⟨-, -, ki, kj⟩ := C116_acquire d w w1 i j h1
  have kj := kj he
  have hf1 : (w1 i).filter = some f := by rw [trackState_filter a5 i, Function.update_self]
  obtain ⟨f0, ob, f', g1, g2, -, g4, rfl⟩ := (C116_process d w1 i j 0 0 u c cam hc).1 w2 h2
  rw [hf1] at g1
  cases g1
  have hprop : ∀ k, ((Function.update w1 i { w1 i with filter := some f' }) k).propagator = (w1 k).propagator := by
    intro k
    by_cases hk : k = i
    · subst hk; rw [Function.update_self]
    · rw [Function.update_of_ne hk]
  have hcur : ∀ s t : Spacecraft ι, s.propagator = t.propagator → s.currentState = t.currentState := fun s t h => by
    simp only [currentState, h]
  have ci := hcur _ _ (ki : (w1 i).propagator = (w i).propagator)
  have cj := hcur _ _ (kj : (w1 j).propagator = (w j).propagator)
  have ci2 := hcur _ _ (hprop i)
  have cj2 := hcur _ _ (hprop j)
  have hrel : gcrfToHcw (w1 i).currentState (w1 j).currentState = .ok rel := by rw [ci, cj, a1]
  obtain ⟨f1, f2, f3, -, -, f5⟩ := C54_initial _ _ _ a4
  obtain ⟨F, hF, hX⟩ := f5 ob f' g4
  obtain ⟨z, hz, hz', hep⟩ := process_measurement (RelativeKalman.new_inv a4).1 g4
  have hobs := observe_observer g2
  have hzr := noiseless_measurement g2 hrel hz
  have hvec : hill.state.vector = ⟨rel.position.x, rel.position.y, rel.position.z, rel.velocity.x, rel.velocity.y,
      rel.velocity.z⟩ := by
    simp only [Hill.new, bind_eq_ok, pure_eq_ok, Except.ok.injEq] at a3
    obtain ⟨_, -, _, -, rfl⟩ := a3
    rfl
  have hn : hill.n ≠ 0 := by
    have := (RelativeKalman.new_inv a4).1.n
    rw [f2] at this; exact this
  have hepoch : (w1 i).currentState.epoch = (w i).currentEpoch := by rw [ci]; rfl
  have hFx : F.mulVec hill.state.vector = hill.state.vector := by
    rw [hobs, hepoch, sub_self, zero_mul, Hill.systemMatrix_ok hn, Except.ok.injEq] at hF
    rw [← hF]
    exact Hill.phi_zero_mulVec _ _
  rw [hFx] at hX
  have hx := C54_no_innovation _ hill f a4 [] ob f' hill.state.vector z g4 hX hz' (by rw [hzr, hvec])
  refine ⟨hprop, rel, f', by rw [ci2, cj2]; exact hrel, by rw [Function.update_self], ?_, by rw [hz', hzr], by rw [hx, hvec]⟩
  rw [hep, hobs]
  show _ = (_ : Spacecraft ι).currentState.epoch
  rw [ci2]

/-! ## cases -/

/-- `acquire` succeeds in setting the filter if the observer's orbit is bound and the Hill coordinates exist -/
theorem acquire_runs {w : World ι} {i j : ι} {rel : State} {a : ℝ}
    (h1 : gcrfToHcw (w i).currentState (w j).currentState = .ok rel) (h2 : (w i).sma = .ok a) (ha : 0 < a) (d : ℕ) :
    ∃ f, acquire d i j w = trackState d i j (Function.update w i { w i with filter := some f }) := by
  obtain ⟨hill, h3, hn, -⟩ := C48_mean_motion rel ha
  obtain ⟨f, h4⟩ : ∃ f, RelativeKalman.new (w i).currentEpoch hill = .ok f := by
    simp only [RelativeKalman.new, Hill.systemMatrix_ok hn.ne', ok_bind, pure_eq_ok]
    exact ⟨_, rfl⟩
  refine ⟨f, ?_⟩
  show (PyM.lift _ >>= fun rel => _) w = _
  simp only [PyM.bind_apply, PyM.lift, h1, h2, h3, h4]
  rfl

/-- an update in mode `target` succeeds if the propagation of the target to the epoch does, when the target is itself
in the mode a new spacecraft is in -/
theorem update_target_late (d : ℕ) (w : World ι) (i j : ι) (T : Epoch) (p : RK4) (hij : j ≠ i)
    (hm : (w i).steering = TARGET) (ht : (w i).tracked_target = some j) (hs : (w i).slew_stop = some T)
    (he : (w j).currentEpoch ≠ (w i).currentEpoch) (hj : (w j).steering = LVLH) (hsl : (w j).slewing = false)
    (hp : RK4.stepToEpoch (w i).currentEpoch (w j).propagator = (.ok (), p)) :
    ∃ w', updateAttitude (d + 2) i w = (.ok (), w') := by
  rw [updateAttitude_succ]
  have e1 : TARGET ≠ LVLH := by decide
  have e2 : TARGET ≠ SOLAR := by decide
  simp only [hm, e1, e2, if_false, if_true, ht, epoch_ne_iff.mpr he, ne_eq, not_false_eq_true]
  obtain ⟨w1, hw1⟩ : ∃ w1, w1 = Function.update w j { w j with propagator := p } := ⟨_, rfl⟩
  have h1 : onPropagator j (RK4.stepToEpoch (w i).currentEpoch) w = (.ok (), w1) := by
    rw [hw1]; simp only [onPropagator, PyM.zoom, hp]
  have hw1j : w1 j = { w j with propagator := p } := by rw [hw1, Function.update_self]
  obtain ⟨w2, hw2⟩ : ∃ w2, updateAttitude (d + 1) j w1 = (.ok (), w2) := by
    rw [updateAttitude_succ, if_pos (by rw [hw1j]; exact hj)]
    show ∃ w2, finishCall j (Function.update w1 j (lvlhAttitude (w1 j))) = _
    rw [finishCall_apply, Function.update_self]
    have : (lvlhAttitude (w1 j)).finishSlew = .ok (lvlhAttitude (w1 j)) := by
      have hf : (lvlhAttitude (w1 j)).slewing = false := by rw [hw1j]; exact hsl
      simp [finishSlew, hf]
    rw [this]
    exact ⟨_, rfl⟩
  rw [PyM.bind_apply, h1]
  simp only
  rw [PyM.bind_apply, hw2]
  simp only
  show ∃ w', finishCall i (Function.update w2 i (targetAttitude (w2 i) (w2 j))) = _
  rw [finishCall_apply, Function.update_self]
  have hstop : (targetAttitude (w2 i) (w2 j)).slew_stop = some T := by
    show (w2 i).slew_stop = some T
    rw [((((updateAttitude_effect (d + 1) j w1).2 w2 hw2).rel i).toUpd.fields).2.2.1, hw1,
      Function.update_of_ne hij.symm, hs]
  rcases finishSlew_cases (targetAttitude (w2 i) (w2 j)) with ⟨-, h, -⟩ | h | h
  · rw [hstop] at h; cases h
  · exact ⟨_, by rw [h]⟩
  · exact ⟨_, by rw [h]⟩

/-- a first `track_state` on a target at another epoch succeeds if the propagation of the target does -/
theorem first_track_late (d : ℕ) (w : World ι) (i j : ι) (p : RK4) (hij : j ≠ i) (hm : (w i).steering ≠ TARGET)
    (hb : (w i).body_z ≠ ⟨0, 0, 0⟩) (hv : (w j).position.minus (w i).position ≠ ⟨0, 0, 0⟩)
    (he : (w j).currentEpoch ≠ (w i).currentEpoch) (hj : (w j).steering = LVLH) (hsl : (w j).slewing = false)
    (hp : RK4.stepToEpoch (w i).currentEpoch (w j).propagator = (.ok (), p)) :
    ∃ w', trackState (d + 2) i j w = (.ok (), w') := by
  show ∃ w', track (d + 2) i TARGET (some j) (fun s w => s.targetVector (w j)) w = _
  rw [track_apply, if_pos hm, PyM.bind_apply, beginSlew_apply]
  have hz : (slewStart (w i) TARGET (some j)).targetVector ((Function.update w i (slewStart (w i) TARGET (some j))) j)
      = (w j).position.minus (w i).position := by
    show Vec3.minus ((Function.update w i (slewStart (w i) TARGET (some j))) j).position (w i).position = _
    rw [slewStart_position]
  simp only [hz]
  rw [Vec3.angle_ok hb hv]
  simp only
  apply update_target_late (j := j) (p := p) (hij := hij)
  · rw [Function.update_self]; rfl
  · rw [Function.update_self]; rfl
  · rw [Function.update_self]
  · rw [Function.update_self, Function.update_of_ne hij]; exact he
  · rw [Function.update_of_ne hij]; exact hj
  · rw [Function.update_of_ne hij]; exact hsl
  · rw [Function.update_self, Function.update_of_ne hij]; exact hp

/-! ## C117 -/

/-- the filter of `i` holds the true relative state of `j`, for the time at which both are -/
def FilterTrue (w : World ι) (i j : ι) : Prop :=
  (w j).currentEpoch = (w i).currentEpoch ∧ ∃ f rel, (w i).filter = some f ∧ f.epoch = (w i).currentEpoch ∧
    gcrfToHcw (w i).currentState (w j).currentState = .ok rel ∧
    f.x00 = ⟨rel.position.x, rel.position.y, rel.position.z, rel.velocity.x, rel.velocity.y, rel.velocity.z⟩

/-- what does hold: a new filter is right if the target is at the epoch of the observer -/
theorem C117_partial (d : ℕ) (w w' : World ι) (i j : ι) (he : (w j).currentEpoch = (w i).currentEpoch)
    (h : (Call.acquire i j).run d w = (.ok (), w')) : FilterTrue w' i j := by
  obtain ⟨⟨f, h1, h2⟩, -, ki, kj⟩ := C116_acquire d w w' i j h
  have kj := kj he
  obtain ⟨rel, h3, h4, -⟩ := h2.start
  have hcur : ∀ s t : Spacecraft ι, s.propagator = t.propagator → s.currentState = t.currentState := fun s t h => by
    simp only [currentState, h]
  refine ⟨by rw [currentEpoch_eq, currentEpoch_eq, ki, kj]; exact he, f, rel, h1, ?_, ?_, h4⟩
  · rw [h2.epoch, currentEpoch_eq, currentEpoch_eq, ki]
  · rw [hcur _ _ ki, hcur _ _ kj, h3]

/-- otherwise it holds the relative state of where the target was at its own epoch, labelled with the epoch of the
observer, while the target itself is moved on to that epoch -/
theorem C117_stale_violated (d : ℕ) (w w' : World ι) (i j : ι) (he : (w j).currentEpoch ≠ (w i).currentEpoch)
    (hm : (w i).steering ≠ "target") (h : (Call.acquire i j).run d w = (.ok (), w')) :
    ∃ f rel, (w' i).filter = some f ∧ f.epoch = (w' i).currentEpoch ∧ (w' j).currentEpoch = (w' i).currentEpoch ∧
      RK4.stepToEpoch (w' i).currentEpoch (w j).propagator = (.ok (), (w' j).propagator) ∧
      gcrfToHcw (w' i).currentState (w j).currentState = .ok rel ∧
      f.x00 = ⟨rel.position.x, rel.position.y, rel.position.z, rel.velocity.x, rel.velocity.y, rel.velocity.z⟩ := by
  obtain ⟨⟨f, h1, h2⟩, -, ki, -⟩ := C116_acquire d w w' i j h
  obtain ⟨rel, h3, h4, -⟩ := h2.start
  have hp := C63_partial d w w' (.acquire i j) i j (Or.inr rfl) hm h
  have ha := C60_attitude d w w' (.acquire i j) i rfl h
  obtain ⟨t, ht, -, -, het, -⟩ := ha.2.2 hp.2.1
  rw [hp.1] at ht
  cases ht
  have hcur : (w' i).currentState = (w i).currentState := by simp only [currentState, ki]
  have hep : (w' i).currentEpoch = (w i).currentEpoch := by rw [currentEpoch_eq, currentEpoch_eq, ki]
  refine ⟨f, rel, h1, by rw [h2.epoch, hep], het, ?_, by rw [hcur, h3], h4⟩
  have hji : j ≠ i := fun hj => he (by rw [hj])
  obtain ⟨f0, w1, g1, g2⟩ := request_ok (c := .acquire i j) rfl h
  have e1 : w1 j = w j ∧ (w1 i).currentEpoch = (w i).currentEpoch := by
    rcases g2 with ⟨-, rfl⟩ | ⟨-, ang, -, rfl⟩
    · exact ⟨Function.update_of_ne hji .., by rw [Function.update_self]; rfl⟩
    · exact ⟨Function.update_of_ne hji .., by rw [Function.update_self]; rfl⟩
  have hup := (((updateAttitude_effect d i w1).2 w' g1).rel j).sync
  rw [e1.1, e1.2] at hup
  rw [hep]
  rcases hup with hup | hup
  · rw [hep, currentEpoch_eq, hup] at het
    exact absurd het he
  · exact hup

end Openspace
