import Verif.Lemmas.Attitude
import Verif.Props.Maneuvers

/-!
# C60 to C65: attitude modes, slews and tracking
-/

set_option linter.unusedSectionVars false

namespace Openspace

open Real

variable {ι : Type} [DecidableEq ι]

namespace Spacecraft

/-- the object whose attitude a call recomputes as its last action -/
def Call.updates : Call ι → Option ι
  | .step i => some i
  | .stepToEpoch i _ => some i
  | .updateAttitude i => some i
  | .trackLvlh i => some i
  | .trackSun i => some i
  | .trackState i _ => some i
  | .acquire i _ => some i
  | _ => none

/-- the assignments at the start of a mode change -/
def slewStart (s : Spacecraft ι) (m : String) (t : Option ι) : Spacecraft ι :=
  { s with steering := m, tracked_target := if t.isSome then t else s.tracked_target, slewing := true }

theorem beginSlew_apply (i : ι) (m : String) (t : Option ι) (pt : Spacecraft ι → World ι → Vec3) (w : World ι) :
    beginSlew i m t pt w =
      let w0 := Function.update w i (slewStart (w i) m t)
      match (w i).body_z.angle (pt (slewStart (w i) m t) w0) with
      | .error e => (.error e, w0)
      | .ok ang => (.ok (), Function.update w i
          { slewStart (w i) m t with slew_stop := some ((w i).currentEpoch.plusDays (ang * (w i).slew_scalar)) }) := by
  have h0 : (Function.update w i (slewStart (w i) m t)) i = slewStart (w i) m t := Function.update_self ..
  show (PyM.lift (((Function.update w i (slewStart (w i) m t)) i).body_z.angle
    (pt ((Function.update w i (slewStart (w i) m t)) i) (Function.update w i (slewStart (w i) m t)))) >>= fun ang =>
      assign i fun s => { s with slew_stop := some (s.currentEpoch.plusDays (ang * s.slew_scalar)) })
        (Function.update w i (slewStart (w i) m t)) = _
  rw [h0]
  show (PyM.lift ((w i).body_z.angle _) >>= _) _ = _
  simp only
  rcases (w i).body_z.angle (pt (slewStart (w i) m t) (Function.update w i (slewStart (w i) m t))) with e | ang
  · rfl
  · show (Except.ok (), Function.update (Function.update w i (slewStart (w i) m t)) i _) = _
    rw [Function.update_idem, h0]
    rfl

/-- the common body of the `track_*` methods -/
noncomputable def track (d : ℕ) (i : ι) (m : String) (t : Option ι) (pt : Spacecraft ι → World ι → Vec3) :
    PyM (World ι) Unit := do
  let s ← read i
  if s.steering ≠ m then beginSlew i m t pt else pure ()
  updateAttitude d i

theorem track_apply (d : ℕ) (i : ι) (m : String) (t : Option ι) (pt : Spacecraft ι → World ι → Vec3) (w : World ι) :
    track d i m t pt w = if (w i).steering ≠ m then (beginSlew i m t pt >>= fun _ => updateAttitude d i) w
      else updateAttitude d i w := by
  show ((if (w i).steering ≠ m then _ else _ : PyM (World ι) Unit)) w = _
  split <;> rfl

theorem track_ok {d : ℕ} {i : ι} {m : String} {t : Option ι} {pt : Spacecraft ι → World ι → Vec3} {w w' : World ι}
    (h : track d i m t pt w = (.ok (), w')) :
    ∃ w1, updateAttitude d i w1 = (.ok (), w') ∧
      (((w i).steering = m ∧ w1 = w) ∨ ((w i).steering ≠ m ∧ ∃ ang,
        (w i).body_z.angle (pt (slewStart (w i) m t) (Function.update w i (slewStart (w i) m t))) = .ok ang ∧
        w1 = Function.update w i
          { slewStart (w i) m t with slew_stop := some ((w i).currentEpoch.plusDays (ang * (w i).slew_scalar)) })) := by
  rw [track_apply] at h
  by_cases hm : (w i).steering = m
  · rw [if_neg (not_not.mpr hm)] at h
    exact ⟨w, h, Or.inl ⟨hm, rfl⟩⟩
  · rw [if_pos hm, PyM.bind_apply, beginSlew_apply] at h
    simp only at h
    rcases ha : (w i).body_z.angle (pt (slewStart (w i) m t) (Function.update w i (slewStart (w i) m t))) with e | ang
    · rw [ha] at h; cases h
    · rw [ha] at h
      exact ⟨_, h, Or.inr ⟨hm, ang, rfl, rfl⟩⟩

/-- every attitude-updating call ends in `update_attitude` -/
theorem Call.updates_ok {c : Call ι} {i : ι} (hc : c.updates = some i) {d : ℕ} {w w' : World ι}
    (h : c.run d w = (.ok (), w')) : ∃ w1, Spacecraft.updateAttitude d i w1 = (.ok (), w') := by
  have ht : ∀ {m t pt} {w : World ι}, track d i m t pt w = (.ok (), w') → ∃ w1, Spacecraft.updateAttitude d i w1 = (.ok (), w') :=
    fun h => by obtain ⟨w1, h1, -⟩ := track_ok h; exact ⟨w1, h1⟩
  cases c <;> simp only [Call.updates, Option.some.injEq, reduceCtorEq] at hc <;> subst hc
  · obtain ⟨a, w1, -, h2⟩ := PyM.bind_eq_ok.mp h; exact ⟨w1, h2⟩
  · obtain ⟨a, w1, -, h2⟩ := PyM.bind_eq_ok.mp h; exact ⟨w1, h2⟩
  · exact ⟨w, h⟩
  · exact ht h
  · exact ht h
  · exact ht h
  · obtain ⟨_, w1, -, h⟩ := PyM.bind_eq_ok.mp h
    obtain ⟨_, w2, -, h⟩ := PyM.bind_eq_ok.mp h
    obtain ⟨_, w3, -, h⟩ := PyM.bind_eq_ok.mp h
    obtain ⟨_, w4, -, h⟩ := PyM.bind_eq_ok.mp h
    obtain ⟨_, w5, -, h⟩ := PyM.bind_eq_ok.mp h
    obtain ⟨_, w6, -, h⟩ := PyM.bind_eq_ok.mp h
    obtain ⟨_, w7, -, h⟩ := PyM.bind_eq_ok.mp h
    exact ht h

end Spacecraft

open Spacecraft

/-! ## C60 -/

/-- orthogonal axes; the triple product is not negative, so the triad is right-handed unless it is degenerate -/
structure Spec.Triad (x y z : Vec3) : Prop where
  xy : x.dot y = 0
  yz : y.dot z = 0
  zx : z.dot x = 0
  right : 0 ≤ x.dot (y.cross z)

theorem triad_of_yz (y z : Vec3) (h : y.dot z = 0) : Spec.Triad (y.cross z) y z := by
  refine ⟨?_, h, ?_, ?_⟩
  · simp only [Vec3.dot, Vec3.cross]; ring
  · simp only [Vec3.dot, Vec3.cross]; ring
  · simp only [Vec3.dot]; nlinarith [sq_nonneg (y.cross z).x, sq_nonneg (y.cross z).y, sq_nonneg (y.cross z).z]

theorem triad_of_xz (x z : Vec3) (h : x.dot z = 0) : Spec.Triad x (z.cross x) z := by
  refine ⟨?_, ?_, ?_, ?_⟩
  · simp only [Vec3.dot, Vec3.cross]; ring
  · simp only [Vec3.dot, Vec3.cross]; ring
  · rw [← h]; simp only [Vec3.dot]; ring
  · have e : x.dot ((z.cross x).cross z) = (x.dot x) * (z.dot z) - (x.dot z) ^ 2 := by
      simp only [Vec3.dot, Vec3.cross]; ring
    rw [e, h]
    have h1 : 0 ≤ x.dot x := by rw [Vec3.dot]; nlinarith [sq_nonneg x.x, sq_nonneg x.y, sq_nonneg x.z]
    have h2 : 0 ≤ z.dot z := by rw [Vec3.dot]; nlinarith [sq_nonneg z.x, sq_nonneg z.y, sq_nonneg z.z]
    nlinarith [mul_nonneg h1 h2]

theorem triple_pos {x y z : Vec3} (h : Spec.Triad x y z) (h0 : x.dot (y.cross z) ≠ 0) :
    0 < x.dot (y.cross z) := lt_of_le_of_ne h.right (Ne.symm h0)

theorem dot_self_ne {v : Vec3} (h : v ≠ ⟨0, 0, 0⟩) : v.dot v ≠ 0 := by
  intro h0
  apply h
  have h0' : v.x ^ 2 + v.y ^ 2 + v.z ^ 2 = 0 := by rw [← h0, Vec3.dot]; ring
  have hx : v.x ^ 2 = 0 := by nlinarith [sq_nonneg v.x, sq_nonneg v.y, sq_nonneg v.z]
  have hy : v.y ^ 2 = 0 := by nlinarith [sq_nonneg v.x, sq_nonneg v.y, sq_nonneg v.z]
  have hz : v.z ^ 2 = 0 := by nlinarith [sq_nonneg v.x, sq_nonneg v.y, sq_nonneg v.z]
  ext
  · simpa using hx
  · simpa using hy
  · simpa using hz

/-- `|y × z|² = |y|² |z|²` for orthogonal vectors -/
theorem cross_ne {y z : Vec3} (h : y.dot z = 0) (hy : y ≠ ⟨0, 0, 0⟩) (hz : z ≠ ⟨0, 0, 0⟩) :
    (y.cross z).dot (y.cross z) ≠ 0 := by
  have e : (y.cross z).dot (y.cross z) = y.dot y * z.dot z - (y.dot z) ^ 2 := by
    simp only [Vec3.dot, Vec3.cross]; ring
  rw [e, h]
  have := mul_ne_zero (dot_self_ne hy) (dot_self_ne hz)
  simpa using this

theorem cross_zero_left (v : Vec3) : (⟨0, 0, 0⟩ : Vec3).cross v = ⟨0, 0, 0⟩ := by
  ext <;> simp [Vec3.cross]

theorem cross_zero_right (v : Vec3) : v.cross (⟨0, 0, 0⟩ : Vec3) = ⟨0, 0, 0⟩ := by
  ext <;> simp [Vec3.cross]

theorem scaled_neg_ne {v : Vec3} (h : v ≠ ⟨0, 0, 0⟩) : v.scaled (-1) ≠ ⟨0, 0, 0⟩ := by
  intro h0
  apply h
  have hx := congrArg Vec3.x h0
  have hy := congrArg Vec3.y h0
  have hz := congrArg Vec3.z h0
  simp only [Vec3.scaled, mul_neg, mul_one, neg_eq_zero] at hx hy hz
  ext
  · exact hx
  · exact hy
  · exact hz

/-- what `update_attitude` leaves behind, in terms of the state of the spacecraft after the call -/
theorem pointed_spec {w : World ι} {i : ι} (h : Pointed w i) :
    ((w i).steering = "lvlh" → Spec.Triad (w i).body_x (w i).body_y (w i).body_z ∧
      (w i).body_z = (w i).position.scaled (-1) ∧
      ((w i).position.cross (w i).velocity ≠ ⟨0, 0, 0⟩ → 0 < (w i).body_x.dot ((w i).body_y.cross (w i).body_z))) ∧
    ((w i).steering = "solar" → Spec.Triad (w i).body_x (w i).body_y (w i).body_z ∧
      (w i).body_z = (w i).sunVector.scaled (-1) ∧
      ((w i).sunVector.cross ⟨0, 0, 1⟩ ≠ ⟨0, 0, 0⟩ → 0 < (w i).body_x.dot ((w i).body_y.cross (w i).body_z))) ∧
    ((w i).steering = "target" → ∃ t, (w i).tracked_target = some t ∧
      Spec.Triad (w i).body_x (w i).body_y (w i).body_z ∧
      (w i).body_z = (w t).position.minus (w i).position ∧ (w t).currentEpoch = (w i).currentEpoch ∧
      (((w t).position.minus (w i).position).cross (w i).sunVector ≠ ⟨0, 0, 0⟩ →
        0 < (w i).body_x.dot ((w i).body_y.cross (w i).body_z))) := by
  obtain ⟨h1, h2, h3⟩ := h
  refine ⟨fun hm => ?_, fun hm => ?_, fun hm => ?_⟩
  · obtain ⟨hz, hy, hx⟩ := h1 hm
    have hyz : (w i).body_y.dot (w i).body_z = 0 := by
      rw [hy, hz]; simp only [earthVector, Vec3.scaled, Vec3.dot, Vec3.cross]; ring
    have ht := triad_of_yz _ _ hyz
    rw [← hx] at ht
    refine ⟨ht, hz, fun hne => triple_pos ht ?_⟩
    rw [hx]
    refine cross_ne hyz (by rw [hy]; exact hne) ?_
    rw [hz]
    refine scaled_neg_ne fun h0 => hne ?_
    rw [h0, cross_zero_left]
  · obtain ⟨hz, hx, hy⟩ := h2 hm
    have hxz : (w i).body_x.dot (w i).body_z = 0 := by
      rw [hx]; simp only [Vec3.dot, Vec3.cross]; ring
    have ht := triad_of_xz _ _ hxz
    rw [← hy] at ht
    refine ⟨ht, hz, fun hne => triple_pos ht ?_⟩
    have hzne : (w i).body_z ≠ ⟨0, 0, 0⟩ := by
      rw [hz]; refine scaled_neg_ne fun h0 => hne ?_
      rw [h0, cross_zero_left]
    have hxne : (w i).body_x ≠ ⟨0, 0, 0⟩ := by
      rw [hx, hz]
      have e : ((w i).sunVector.scaled (-1)).cross ⟨0, 0, 1⟩ = ((w i).sunVector.cross ⟨0, 0, 1⟩).scaled (-1) := by
        ext <;> simp only [Vec3.cross, Vec3.scaled] <;> ring
      rw [e]; exact scaled_neg_ne hne
    have e : (w i).body_x.dot ((w i).body_y.cross (w i).body_z) =
        (w i).body_x.dot (w i).body_x * (w i).body_z.dot (w i).body_z - ((w i).body_x.dot (w i).body_z) ^ 2 := by
      rw [hy]; simp only [Vec3.dot, Vec3.cross]; ring
    rw [e, hxz]
    have := mul_ne_zero (dot_self_ne hxne) (dot_self_ne hzne)
    simpa using this
  · obtain ⟨t, htt, hz, hy, hx, hE⟩ := h3 hm
    have hyz : (w i).body_y.dot (w i).body_z = 0 := by
      rw [hy]; simp only [Vec3.dot, Vec3.cross]; ring
    have ht := triad_of_yz _ _ hyz
    rw [← hx] at ht
    refine ⟨t, htt, ht, hz, hE, fun hne => triple_pos ht ?_⟩
    rw [hx]
    have hz' : (w i).body_z = (w t).position.minus (w i).position := hz
    refine cross_ne hyz (by rw [hy, hz']; exact hne) ?_
    rw [hz']
    intro h0; apply hne; rw [h0, cross_zero_left]

/-- after every successful step, mode change or attitude update, whatever happened before, the axes of that
spacecraft are an orthogonal right-handed triad that points as the mode says -/
theorem C60_attitude (d : ℕ) (w w' : World ι) (c : Call ι) (i : ι) (hc : c.updates = some i)
    (h : c.run d w = (.ok (), w')) :
    let s := w' i
    (s.steering = "lvlh" → Spec.Triad s.body_x s.body_y s.body_z ∧ s.body_z = s.position.scaled (-1) ∧
      (s.position.cross s.velocity ≠ ⟨0, 0, 0⟩ → 0 < s.body_x.dot (s.body_y.cross s.body_z))) ∧
    (s.steering = "solar" → Spec.Triad s.body_x s.body_y s.body_z ∧ s.body_z = s.sunVector.scaled (-1) ∧
      (s.sunVector.cross ⟨0, 0, 1⟩ ≠ ⟨0, 0, 0⟩ → 0 < s.body_x.dot (s.body_y.cross s.body_z))) ∧
    (s.steering = "target" → ∃ t, s.tracked_target = some t ∧ Spec.Triad s.body_x s.body_y s.body_z ∧
      s.body_z = (w' t).position.minus s.position ∧ (w' t).currentEpoch = s.currentEpoch ∧
      (((w' t).position.minus s.position).cross s.sunVector ≠ ⟨0, 0, 0⟩ →
        0 < s.body_x.dot (s.body_y.cross s.body_z))) := by
  obtain ⟨w1, h1⟩ := Call.updates_ok hc h
  exact pointed_spec ((updateAttitude_effect d i w1).2 w' h1).pointed

/-- the steering mode is one of the three -/
def Moded (s : Spacecraft ι) : Prop := s.steering = LVLH ∨ s.steering = SOLAR ∨ s.steering = TARGET

theorem moded_stable : ApiStable (Moded (ι := ι)) where
  attitude := fun _ _ _ _ h => h
  slew := fun _ h => h
  stepTo := fun _ _ h => h
  step := fun _ h => h
  filter := fun _ _ h => h
  impulse := fun _ _ h => h
  maneuver := fun _ _ h => h
  mass := fun _ _ h => h
  mode := fun _ _ _ hm _ _ => hm
  stop := fun _ _ h => h

theorem fresh_fields {w : World ι} (hw : Fresh w) (i : ι) :
    (w i).steering = LVLH ∧ (w i).tracked_target = none ∧ (w i).slewing = false ∧ (w i).slew_stop = none ∧
    (w i).slew_scalar = DEFAULT_SLEW_SCALE ∧ (w i).filter = none := by
  obtain ⟨g, hg⟩ := hw i
  obtain ⟨s, h1, -, -, -, h2, h3, h4, h5, h6, h7, -⟩ := new_ok (ι := ι) g
  rw [hg] at h1
  cases h1
  exact ⟨h2, h3, h4, h5, h6, h7⟩

/-- the mode is always one of the three, for every spacecraft and every history, so one of the cases of
`C60_attitude` applies; and a new spacecraft starts out with the axes of mode `lvlh` -/
theorem C60_modes (w : World ι) (hw : Fresh w) (d : ℕ) (cs : List (Call ι)) (i : ι) :
    ((after d cs w i).steering = "lvlh" ∨ (after d cs w i).steering = "solar" ∨ (after d cs w i).steering = "target") ∧
    (w i).steering = "lvlh" ∧ (w i).body_z = (w i).position.scaled (-1) ∧
    Spec.Triad (w i).body_x (w i).body_y (w i).body_z := by
  refine ⟨after_all moded_stable d cs (fun k => Or.inl (fresh_fields hw k).1) i, (fresh_fields hw i).1, ?_⟩
  obtain ⟨g, hg⟩ := hw i
  simp only [Spacecraft.new, bind_eq_ok, pure_eq_ok, Except.ok.injEq] at hg
  obtain ⟨c1, -, c2, -, k, -, e⟩ := hg
  rw [← e]
  refine ⟨rfl, triad_of_yz _ _ ?_⟩
  simp only [earthVector, Vec3.scaled, Vec3.dot, Vec3.cross]; ring

end Openspace
