import Verif.Props.States
import Verif.Props.Propagation
import Verif.Lemmas.Spacecraft

/-!
# Properties C34, C39, C40, C45, C46, C72: manoeuvres and the propagated state
-/

namespace Openspace

open Real

set_option linter.unusedSectionVars false

variable {ι : Type} [DecidableEq ι]

/-! ## Construction -/

theorem camera_new_ok {px fov : ℝ} (hp : 0 < px) (h0 : 0 < fov) (h1 : fov < π / 2) :
    ∃ c, Camera.new px fov = .ok c ∧ c.fov = fov ∧ c.pixels = px := by
  have ht := (tan_pos_of_pos_of_lt_pi_div_two h0 h1).ne'
  refine ⟨⟨px, fov, ⟨pyRadians 60, pyRadians 90, pyRadians 10, pyRadians 20, 15, DEFAULT_FRAME_DAMP * fov,
    DEFAULT_RESOLUTION_LIMIT * 2 * px / Real.tan fov⟩, 1 / px * 0.5⟩, ?_, rfl, rfl⟩
  simp only [Camera.new, OpticalConstraints.new, pyTan, pyDiv_ok ht, ok_bind, pure_eq_ok, pyDiv_ok hp.ne']

theorem wfov_ok : ∃ c, Camera.wfov = .ok c := by
  have hp := pi_pos
  obtain ⟨c, hc, -⟩ := camera_new_ok (px := 3072) (fov := pyRadians 5) (by norm_num)
    (by simp only [pyRadians, pyPi]; positivity) (by simp only [pyRadians, pyPi]; linarith)
  exact ⟨c, hc⟩

theorem nfov_ok : ∃ c, Camera.nfov = .ok c := by
  have hp := pi_pos
  obtain ⟨c, hc, -⟩ := camera_new_ok (px := 3072) (fov := pyRadians 0.125) (by norm_num)
    (by simp only [pyRadians, pyPi]; positivity) (by simp only [pyRadians, pyPi]; linarith)
  exact ⟨c, hc⟩

/-- the solar radiation pressure scalar of a spacecraft with the default albedo, size and mass -/
noncomputable def defaultSrp : ℝ :=
  (0.3 + 1) * (π * 0.005 * 0.005) * 1000 * 1000 / (600 + 200)

theorem defaultSrp_pos : 0 < defaultSrp := by
  have := pi_pos
  unfold defaultSrp
  positivity

/-- the constructor always succeeds; here are the attributes that matter for propagation -/
theorem new_ok (g : GCRF) : ∃ s : Spacecraft ι, Spacecraft.new g = .ok s ∧
    s.srpScalar = .ok defaultSrp ∧ s.initial_state = { GCRF.new g.epoch g.position g.velocity with srp_scalar := defaultSrp } ∧
    s.propagator = RK4.new g ∧ s.steering = Spacecraft.LVLH ∧ s.tracked_target = none ∧
    s.slewing = false ∧ s.slew_stop = none ∧ s.slew_scalar = Spacecraft.DEFAULT_SLEW_SCALE ∧ s.filter = none ∧
    s.m_dot = 0.003 ∧ s.isp = 350 ∧ s.dry_mass = 600 ∧ s.propellant_mass = 200 := by
  obtain ⟨c1, h1⟩ := wfov_ok
  obtain ⟨c2, h2⟩ := nfov_ok
  have hs : ((600 : ℝ) + 200) ≠ 0 := by norm_num
  have hd : pyDiv ((0.3 + 1) * (π * 0.005 * 0.005) * 1000 * 1000) (600 + 200) = .ok defaultSrp := pyDiv_ok hs
  rcases hn : Spacecraft.new (ι := ι) g with e | s
  all_goals
    simp only [Spacecraft.new, h1, h2, ok_bind, Spacecraft.srpScalar, Spacecraft.totalMass, Spacecraft.area,
      Spacecraft.DEFAULT_MASS, Spacecraft.DEFAULT_PROP_MASS, Spacecraft.DEFAULT_ALBEDO,
      Spacecraft.DEFAULT_RADIUS, BASE_IN_KILO, pyPi, hd, pure_eq_ok, Except.ok.injEq, reduceCtorEq] at hn
  subst hn
  exact ⟨_, rfl, hd, rfl, rfl, rfl, rfl, rfl, rfl, rfl, rfl, rfl, rfl, rfl, rfl⟩

/-! ## C34 -/

theorem hcwToGcrf_at_origin {o : GCRF} {M : Mat3} (hc : o.position.cross o.velocity ≠ ⟨0, 0, 0⟩)
    (hM : frameMatrix o = .ok M) (ep : Epoch) (dv : Vec3) :
    hcwToGcrf (State.new ep ⟨0, 0, 0⟩ dv) o =
      .ok (GCRF.new o.epoch o.position (o.velocity.plus (M.transpose.mulVec dv))) := by
  have hp := position_ne_of_cross hc
  have hR := Vec3.magnitude_pos.mpr hp
  have hrot := frameMatrix_isRotation hM
  simp only [frameMatrix, Vec3.normalized_ok hp, Vec3.normalized_ok hc, ok_bind, pure_eq_ok,
    Except.ok.injEq] at hM
  have hvz : (M.mulVec o.velocity).z = 0 := by
    rw [← hM]
    simp only [Mat3.mulVec, Vec3.dot_scaled_left, Vec3.cross_dot_right, mul_zero]
  have hpos : M.mulVec o.position = ⟨o.position.magnitude, 0, 0⟩ := by
    have h1 : o.position.dot o.position = o.position.magnitude ^ 2 := (Vec3.magnitude_sq_dot _).symm
    rw [← hM]
    ext
    · simp only [Mat3.mulVec, Vec3.dot_scaled_left, h1]; field_simp
    · simp only [Mat3.mulVec]
      have e : ∀ (c p : Vec3) (k : ℝ), (c.cross (p.scaled k)).dot p = 0 := by
        intro c p k; simp only [Vec3.cross, Vec3.scaled, Vec3.dot]; ring
      exact e _ _ _
    · simp only [Mat3.mulVec, Vec3.dot_scaled_left, Vec3.cross_dot_left, mul_zero]
  have hM' : frameMatrix o = .ok M := by
    simp only [frameMatrix, Vec3.normalized_ok hp, Vec3.normalized_ok hc, ok_bind, pure_eq_ok, hM]
  simp only [hcwToGcrf, State.new, Vec3.copy_eq, hM', ok_bind, pyDiv_ok hR.ne', zero_div, pySin, pyCos,
    sin_zero, cos_zero, pure_eq_ok, Except.ok.injEq]
  congr 1
  · conv_rhs => rw [← hrot.orth.transpose_mulVec o.position, hpos]
    congr 1
    ext <;> simp
  · conv_rhs => rw [← hrot.orth.transpose_mulVec o.velocity]
    rw [← Mat3.mulVec_plus]
    congr 1
    generalize M.mulVec o.velocity = u at hvz
    have hR' := hR.ne'
    ext <;> simp only [rswSez, Mat3.transpose, Mat3.mulVec, Vec3.dot, Vec3.plus]
    · field_simp; ring
    · field_simp; ring
    · rw [hvz]; field_simp; ring

/-- only the velocity of the manoeuvring spacecraft changes, by the commanded vector expressed in
the radial, in-track and cross-track directions of its orbit -/
theorem C34_impulse (w : World ι) (i : ι) (dv : Vec3) (h : (w i).propagator.state.NonDegenerate) :
    ∃ w' M, Spacecraft.impulsiveManeuver i dv w = (.ok (), w') ∧
      -- the rows of M are the radial, in-track and cross-track unit vectors (C33)
      frameMatrix (w i).propagator.state = .ok M ∧
      (w' i).propagator.state.position = (w i).propagator.state.position ∧
      (w' i).propagator.state.epoch = (w i).propagator.state.epoch ∧
      (w' i).propagator.state.velocity = (w i).propagator.state.velocity.plus
        (((M.row1.scaled dv.x).plus (M.row2.scaled dv.y)).plus (M.row3.scaled dv.z)) ∧
      ((w' i).propagator.state.velocity.minus (w i).propagator.state.velocity).magnitude = dv.magnitude ∧
      -- nothing else changes
      { w' i with propagator := (w i).propagator } = w i ∧ ∀ j ≠ i, w' j = w j := by
  have hc := nonDegenerate_iff.mp h
  obtain ⟨M, hM, hrot, -⟩ := C33_frame _ h
  have hcopy : frameMatrix (w i).currentState = .ok M := hM
  have hg := hcwToGcrf_at_origin (o := (w i).currentState) hc hcopy (w i).currentEpoch dv
  have hrows : M.transpose.mulVec dv =
      ((M.row1.scaled dv.x).plus (M.row2.scaled dv.y)).plus (M.row3.scaled dv.z) := by
    ext <;> simp only [Mat3.transpose, Mat3.mulVec, Vec3.dot, Vec3.plus, Vec3.scaled]
  refine ⟨Function.update w i { w i with propagator := RK4.new (GCRF.new (w i).currentState.epoch
        (w i).currentState.position ((w i).currentState.velocity.plus (M.transpose.mulVec dv))) }, M, ?_, hM, ?_, ?_, ?_, ?_, ?_, ?_⟩
  · show (PyM.lift (hcwToGcrf (State.new (w i).currentEpoch ⟨0, 0, 0⟩ dv) (w i).currentState) >>= _) w = _
    rw [hg]; rfl
  · rw [Function.update_self]; rfl
  · rw [Function.update_self]; rfl
  · rw [Function.update_self, ← hrows]; rfl
  · rw [Function.update_self]
    show (((w i).propagator.state.velocity.plus (M.transpose.mulVec dv)).minus
      (w i).propagator.state.velocity).magnitude = _
    have : ∀ a b : Vec3, (a.plus b).minus a = b := by
      intro a b; ext <;> simp [Vec3.plus, Vec3.minus]
    rw [this, hrot.orth.transpose.magnitude_mulVec]
  · rw [Function.update_self]
  · intro j hj; rw [Function.update_of_ne hj]

/-! ## C39, C40, C72 -/

/-- what every propagator state looks like -/
structure Plain (s : GCRF) : Prop where
  srp : s.srp_scalar = 0
  pert : s.use_perturbations = true
  vector : s.vector = Vec6.fromPosVel s.position s.velocity

theorem plain_stable : RK4.Stable Plain where
  thrust := fun _ _ h => ⟨h.srp, h.pert, h.vector⟩
  new := fun _ _ _ => ⟨rfl, rfl, rfl⟩

theorem plain_apiStable : Spacecraft.ApiStable (ι := ι) (fun s => Plain s.propagator.state) where
  attitude := fun _ _ _ _ h => h
  slew := fun _ h => h
  stepTo := fun _ t h => plain_stable.stepToEpoch t h
  step := fun _ h => plain_stable.step h
  mode := fun _ _ _ _ _ h => h
  stop := fun _ _ h => h
  filter := fun _ _ h => h
  impulse := fun _ _ _ => ⟨rfl, rfl, rfl⟩
  maneuver := fun _ _ h => plain_stable.maneuver _ _ _ _ h
  mass := fun _ _ h => h

theorem fresh_plain {w : World ι} (h : Spacecraft.Fresh w) :
    Spacecraft.All (fun s => Plain s.propagator.state) w := by
  intro i
  obtain ⟨g, hg⟩ := h i
  simp only [Spacecraft.new, bind_eq_ok, pure_eq_ok, Except.ok.injEq] at hg
  obtain ⟨c1, -, c2, -, k, -, e⟩ := hg
  rw [← e]
  exact ⟨rfl, rfl, rfl⟩

/-- what does hold: the stored initial state carries the scalar of the spacecraft -/
theorem C39_initial_partial (g : GCRF) : ∃ (s : Spacecraft ι) (k : ℝ), Spacecraft.new g = .ok s ∧
    s.srpScalar = .ok k ∧ s.initial_state.srp_scalar = k ∧ 0 < k := by
  obtain ⟨s, h1, h2, h3, -⟩ := new_ok (ι := ι) g
  exact ⟨s, _, h1, h2, by rw [h3], defaultSrp_pos⟩

/-- the property is false, for every spacecraft and every history: the propagated state always has
scalar zero, although the scalar of the spacecraft is positive -/
theorem C39_violated (w : World ι) (hw : Spacecraft.Fresh w) (depth : ℕ) (cs : List (Spacecraft.Call ι)) (i : ι) :
    (Spacecraft.after depth cs w i).propagator.state.srp_scalar = 0 ∧
    ∃ k, 0 < k ∧ (w i).srpScalar = .ok k := by
  refine ⟨(Spacecraft.after_all plain_apiStable depth cs (fresh_plain hw) i).srp, defaultSrp, defaultSrp_pos, ?_⟩
  obtain ⟨g, hg⟩ := hw i
  obtain ⟨s, h1, h2, -⟩ := new_ok (ι := ι) g
  rw [hg] at h1; cases h1
  exact h2

/-- so the radiation-pressure acceleration used by the propagator is zero whenever it is defined -/
theorem C76_no_srp (w : World ι) (hw : Spacecraft.Fresh w) (depth : ℕ) (cs : List (Spacecraft.Call ι)) (i : ι)
    (a : Vec3) (ha : (Spacecraft.after depth cs w i).propagator.state.accelerationFromSrp = .ok a) :
    a = ⟨0, 0, 0⟩ := by
  have h0 := (Spacecraft.after_all plain_apiStable depth cs (fresh_plain hw) i).srp
  simp only [GCRF.accelerationFromSrp, h0, mul_zero, bind_eq_ok, pure_eq_ok, Except.ok.injEq] at ha
  obtain ⟨u, -, k, hk, rfl⟩ := ha
  rw [pyDiv_eq_ok] at hk
  rw [← hk.2]
  ext <;> simp [Vec3.scaled]

/-- fresh worlds exist -/
theorem exists_fresh (g : ι → GCRF) : ∃ w : World ι, Spacecraft.Fresh w ∧
    ∀ i, Spacecraft.new (g i) = .ok (w i) := by
  choose s hs using fun i => (⟨_, (new_ok (ι := ι) (g i)).choose_spec.1⟩ : ∃ s : Spacecraft ι, Spacecraft.new (g i) = .ok s)
  exact ⟨s, fun i => ⟨g i, hs i⟩, hs⟩

/-! ### C40 -/

/-- the property is false, for every propagator: any successful step turns the perturbations on -/
theorem C40_violated (p p' : RK4) (h : RK4.step p = (.ok (), p')) : p'.state.use_perturbations = true :=
  (RK4.step_frame h).2.2.2.2.2.2.1

/-- constructing a propagator from a state without perturbations turns them on, too -/
theorem C40_constructor_violated (s : GCRF) : (RK4.new s).state.use_perturbations = true := rfl

/-- what does hold: requests that take no step leave the switch alone -/
theorem C40_zero_span_partial (p : RK4) :
    (RK4.stepToEpoch p.state.epoch p).2.state.use_perturbations = p.state.use_perturbations := by
  rw [C41_zero_span]

/-! ### C72 -/

/-- constructors -/
theorem C72_constructors (e : Epoch) (r v : Vec3) (x : Vec6) :
    (State.new e r v).vector = ⟨r.x, r.y, r.z, v.x, v.y, v.z⟩ ∧
    (GCRF.new e r v).vector = ⟨r.x, r.y, r.z, v.x, v.y, v.z⟩ ∧
    (State.fromFixed e r).vector = ⟨r.x, r.y, r.z, 0, 0, 0⟩ ∧
    (State.fromStateVector x).vector = x :=
  ⟨rfl, rfl, rfl, rfl⟩

/-- conversions -/
theorem C72_conversions (o s : GCRF) (h g : State) (k : GCRF) (h1 : gcrfToHcw o s = .ok h)
    (h2 : hcwToGcrf g o = .ok k) :
    h.vector = ⟨h.position.x, h.position.y, h.position.z, h.velocity.x, h.velocity.y, h.velocity.z⟩ ∧
    k.vector = ⟨k.position.x, k.position.y, k.position.z, k.velocity.x, k.velocity.y, k.velocity.z⟩ := by
  constructor
  · simp only [gcrfToHcw, bind_eq_ok, pure_eq_ok, Except.ok.injEq] at h1
    obtain ⟨_, -, _, -, _, -, _, -, _, -, _, -, rfl⟩ := h1
    rfl
  · simp only [hcwToGcrf, bind_eq_ok, pure_eq_ok, Except.ok.injEq] at h2
    obtain ⟨_, -, _, -, _, -, _, -, _, -, _, -, rfl⟩ := h2
    rfl

/-- propagators, after any history of calls -/
theorem C72_spacecraft (w : World ι) (hw : Spacecraft.Fresh w) (depth : ℕ) (cs : List (Spacecraft.Call ι)) (i : ι) :
    let s := (Spacecraft.after depth cs w i).propagator.state
    s.vector = ⟨s.position.x, s.position.y, s.position.z, s.velocity.x, s.velocity.y, s.velocity.z⟩ :=
  (Spacecraft.after_all plain_apiStable depth cs (fresh_plain hw) i).vector

/-- the relative propagator -/
theorem C72_hill (p p' : Hill) (t : ℝ) (h : Hill.stepBySeconds t p = (.ok (), p')) :
    p'.state.vector = ⟨p'.state.position.x, p'.state.position.y, p'.state.position.z,
      p'.state.velocity.x, p'.state.velocity.y, p'.state.velocity.z⟩ := by
  simp only [Hill.stepBySeconds, PyM.get_bind_apply, PyM.bind_eq_ok, PyM.lift_eq_ok, PyM.modify_apply,
    Prod.mk.injEq, true_and] at h
  obtain ⟨m, s', ⟨-, rfl⟩, rfl⟩ := h
  rfl

/-! ## C45, C46 -/

/-- everything a successful finite manoeuvre does -/
theorem finiteManeuver_ok {w w' : World ι} {i : ι} {dv : Vec3}
    (h : Spacecraft.finiteManeuver i dv w = (.ok (), w')) :
    ∃ M q, frameMatrix (w i).propagator.state = .ok M ∧
      RK4.maneuver (M.mulVec dv) (w i).m_dot (w i).totalMass (w i).isp (w i).propagator = (.ok (), q) ∧
      (w i).m_dot ≠ 0 ∧ (w i).totalMass ≠ 0 ∧ (w i).isp ≠ 0 ∧
      w' = Function.update w i { w i with
        propagator := q
        propellant_mass := (w i).propellant_mass +
          (w i).totalMass * (1 - exp (-dv.magnitude / ((w i).isp * SEA_LEVEL_G))) } := by
  unfold Spacecraft.finiteManeuver at h
  rw [PyM.bind_eq_ok] at h
  obtain ⟨s, w0, h1, h⟩ := h
  simp only [Spacecraft.read, Prod.mk.injEq, Except.ok.injEq] at h1
  obtain ⟨rfl, hw0⟩ := h1
  subst hw0
  rw [PyM.bind_eq_ok] at h
  obtain ⟨M, w0, h1, h⟩ := h
  rw [PyM.lift_eq_ok] at h1
  obtain ⟨hM, hw0⟩ := h1
  rw [hw0] at h
  clear hw0
  have hM' : frameMatrix (w i).propagator.state = .ok M := hM
  have hrot := frameMatrix_isRotation hM
  simp only at h
  rw [PyM.bind_eq_ok] at h
  obtain ⟨u, w1, h1, h⟩ := h
  unfold Spacecraft.onPropagator PyM.zoom at h1
  rcases hq : RK4.maneuver (M.mulVec dv) (w i).m_dot (w i).totalMass (w i).isp (w i).propagator with ⟨r, q⟩
  rw [hq] at h1
  simp only [Prod.mk.injEq] at h1
  obtain ⟨rfl, rfl⟩ := h1
  rw [PyM.bind_eq_ok] at h
  obtain ⟨s, w0, h1, h⟩ := h
  simp only [Spacecraft.read, Prod.mk.injEq, Except.ok.injEq] at h1
  obtain ⟨rfl, hw0⟩ := h1
  subst hw0
  simp only [PyM.bind_eq_ok, PyM.lift_eq_ok, Function.update_self] at h
  obtain ⟨ms, _, ⟨h1, rfl⟩, rc, _, ⟨h2, rfl⟩, x, _, ⟨h3, rfl⟩, h⟩ := h
  have e0 : ∀ t : RK4, ({ w i with propagator := t } : Spacecraft ι).totalMass = (w i).totalMass := fun _ => rfl
  rw [e0, pyDiv_eq_ok] at h1
  rw [pyDiv_eq_ok] at h2 h3
  have hm : (w i).m_dot ≠ 0 := by
    intro hc; apply h2.1; rw [← h1.2, hc, zero_div]
  have hi : (w i).isp ≠ 0 := by
    intro hc; apply h3.1; rw [hc]; simp
  refine ⟨M, q, hM', hq, hm, h1.1, hi, ?_⟩
  simp only [Spacecraft.assign, PyM.modify_apply, Prod.mk.injEq, true_and, Function.update_self,
    Function.update_idem] at h
  rw [← h]
  congr 2
  have hg := g_pos.ne'
  have hmt := h1.1
  rw [hrot.orth.magnitude_mulVec] at h3
  have e3 : x = -dv.magnitude / ((w i).isp * SEA_LEVEL_G) := by
    rw [← h3.2, ← h1.2]; field_simp
  rw [e3, ← h2.2, ← h1.2, pyExp]
  field_simp
  ring

/-- the property is false, for every spacecraft and burn: the propellant grows by what should have
been consumed -/
theorem C45_violated (w w' : World ι) (i : ι) (dv : Vec3)
    (h : Spacecraft.finiteManeuver i dv w = (.ok (), w')) :
    (w' i).propellant_mass = (w i).propellant_mass +
      (w i).totalMass * (1 - exp (-dv.magnitude / ((w i).isp * SEA_LEVEL_G))) ∧
    (0 < (w i).totalMass → 0 < (w i).isp → dv ≠ ⟨0, 0, 0⟩ →
      (w i).propellant_mass < (w' i).propellant_mass) := by
  obtain ⟨M, q, -, -, -, -, -, rfl⟩ := finiteManeuver_ok h
  rw [Function.update_self]
  refine ⟨rfl, fun hM hi hdv => ?_⟩
  simp only
  have hg := g_pos
  have hd := Vec3.magnitude_pos.mpr hdv
  have : exp (-dv.magnitude / ((w i).isp * SEA_LEVEL_G)) < 1 := by
    rw [exp_lt_one_iff, div_lt_iff₀ (by positivity)]; linarith
  have : 0 < (w i).totalMass * (1 - exp (-dv.magnitude / ((w i).isp * SEA_LEVEL_G))) :=
    mul_pos hM (by linarith)
  linarith

/-- what does hold: the amount is right, with the wrong sign -/
theorem C45_amount_partial (w w' : World ι) (i : ι) (dv : Vec3)
    (h : Spacecraft.finiteManeuver i dv w = (.ok (), w')) :
    |(w' i).propellant_mass - (w i).propellant_mass| =
      |(w i).totalMass * (1 - exp (-dv.magnitude / ((w i).isp * SEA_LEVEL_G)))| := by
  rw [(C45_violated w w' i dv h).1]; congr 1; ring

/-- what the finite manoeuvre does with the commanded direction: it multiplies by the frame matrix,
where the components in the frame must be multiplied by its transpose, so that the components of the
thrust in the frame are `M (M dv)` instead of `dv` -/
theorem C46_direction_partial (w w' : World ι) (i : ι) (dv : Vec3)
    (h : Spacecraft.finiteManeuver i dv w = (.ok (), w')) :
    ∃ M, frameMatrix (w i).propagator.state = .ok M ∧ (w' i).propagator.thrust_direction = M.mulVec dv ∧
      M.mulVec (w' i).propagator.thrust_direction = M.mulVec (M.mulVec dv) ∧
      (w' i).propagator.thrust_direction.magnitude = dv.magnitude := by
  obtain ⟨M, q, hM, hq, -, -, -, rfl⟩ := finiteManeuver_ok h
  have ht : q.thrust_direction = M.mulVec dv := by
    rw [maneuver_ok_iff] at hq
    obtain ⟨T, q', -, h1, rfl⟩ := hq
    rw [RK4.stepToEpoch_ok_iff] at h1
    obtain ⟨r, hs, rfl⟩ := h1
    have := hs.frame.2.2.2.2.1
    show r.thrust_direction = _
    rw [this]
    split <;> rfl
  refine ⟨M, hM, ?_, ?_, ?_⟩ <;> rw [Function.update_self]
  · exact ht
  · simp only [ht]
  · simp only [ht]; exact (frameMatrix_isRotation hM).orth.magnitude_mulVec dv

/-- the property is false: for a spacecraft crossing the inertial y axis on an equatorial orbit, a burn
commanded radially outward is flown straight towards the Earth -/
theorem C46_violated (w w' : World ι) (i : ι) (r v d : ℝ) (hr : 0 < r) (hv : 0 < v)
    (hp : (w i).propagator.state.position = ⟨0, r, 0⟩) (hvel : (w i).propagator.state.velocity = ⟨-v, 0, 0⟩)
    (h : Spacecraft.finiteManeuver i ⟨d, 0, 0⟩ w = (.ok (), w')) :
    (w' i).propagator.thrust_direction = (w i).propagator.state.position.scaled (-d / r) := by
  obtain ⟨M, hM, h1, -⟩ := C46_direction_partial w w' i _ h
  have n1 : (⟨0, r, 0⟩ : Vec3).normalized = .ok ⟨0, 1, 0⟩ := by
    have hm : (⟨0, r, 0⟩ : Vec3).magnitude = r := Vec3.magnitude_of_dot hr.le (by simp only [Vec3.dot]; ring)
    rw [Vec3.normalized_eq_ok]
    refine ⟨fun hc => hr.ne' (congrArg Vec3.y hc), ?_⟩
    rw [hm]; ext <;> simp [Vec3.scaled, hr.ne']
  have n2 : ((⟨0, r, 0⟩ : Vec3).cross ⟨-v, 0, 0⟩).normalized = .ok ⟨0, 0, 1⟩ := by
    have e : (⟨0, r, 0⟩ : Vec3).cross ⟨-v, 0, 0⟩ = ⟨0, 0, r * v⟩ := by ext <;> simp [Vec3.cross]
    have hrv := mul_pos hr hv
    have hm : (⟨0, 0, r * v⟩ : Vec3).magnitude = r * v := Vec3.magnitude_of_dot hrv.le (by simp only [Vec3.dot]; ring)
    rw [e, Vec3.normalized_eq_ok]
    refine ⟨fun hc => hrv.ne' (congrArg Vec3.z hc), ?_⟩
    rw [hm]
    ext
    · simp [Vec3.scaled]
    · simp [Vec3.scaled]
    · simp only [Vec3.scaled]; field_simp
  simp only [frameMatrix, hp, hvel, n1, n2, ok_bind, pure_eq_ok, Except.ok.injEq] at hM
  rw [h1, hp, ← hM]
  ext
  · simp [Mat3.mulVec, Vec3.dot, Vec3.scaled]
  · simp only [Mat3.mulVec, Vec3.dot, Vec3.scaled, Vec3.cross]; field_simp; ring
  · simp [Mat3.mulVec, Vec3.dot, Vec3.scaled]

end Openspace
