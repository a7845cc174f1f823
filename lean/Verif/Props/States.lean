import Verif.Lemmas.Rotation
import Verif.Lemmas.Angles
import Verif.Model.States
import Mathlib.LinearAlgebra.CrossProduct
import Mathlib.Analysis.Calculus.Gradient.Basic
import Mathlib.Analysis.InnerProductSpace.Calculus
import Mathlib.Analysis.Calculus.Deriv.Inv
import Mathlib.Analysis.Real.Pi.Bounds

/-!
# Properties C31–C33, C36–C38: relative frames, central gravity, state derivative, copies
-/

namespace Openspace

open Real

/-! ## C33 -/

/-- position and velocity span a plane, i.e. neither is zero and they are not parallel -/
def GCRF.NonDegenerate (s : GCRF) : Prop :=
  LinearIndependent ℝ ![s.position.toFun, s.velocity.toFun]

theorem cross_toFun (a b : Vec3) : (a.cross b).toFun = crossProduct a.toFun b.toFun := by
  simp [Vec3.cross, Vec3.toFun, cross_apply]

theorem toFun_eq_zero {a : Vec3} : a.toFun = 0 ↔ a = ⟨0, 0, 0⟩ := by
  have : (0 : Fin 3 → ℝ) = (⟨0, 0, 0⟩ : Vec3).toFun := by
    ext i; fin_cases i <;> rfl
  rw [this, Mat3.toFun_injective.eq_iff]

theorem nonDegenerate_iff {s : GCRF} :
    s.NonDegenerate ↔ s.position.cross s.velocity ≠ ⟨0, 0, 0⟩ := by
  unfold GCRF.NonDegenerate
  rw [← crossProduct_ne_zero_iff_linearIndependent, ← cross_toFun, Ne, toFun_eq_zero]

theorem position_ne_of_cross {p v : Vec3} (h : p.cross v ≠ ⟨0, 0, 0⟩) : p ≠ ⟨0, 0, 0⟩ := by
  rintro rfl
  apply h
  simp [Vec3.cross]

theorem frameMatrix_ok {o : GCRF} (h : o.position.cross o.velocity ≠ ⟨0, 0, 0⟩) :
    ∃ r c : Vec3, o.position.normalized = .ok r ∧ (o.position.cross o.velocity).normalized = .ok c ∧
      frameMatrix o = .ok ⟨r, c.cross r, c⟩ := by
  have hp := position_ne_of_cross h
  refine ⟨_, _, Vec3.normalized_ok hp, Vec3.normalized_ok h, ?_⟩
  simp only [frameMatrix, Vec3.normalized_ok hp, Vec3.normalized_ok h, ok_bind, pure_eq_ok]

theorem triad_orth {r c : Vec3} (hr : r.dot r = 1) (hc : c.dot c = 1) (hrc : r.dot c = 0) :
    (⟨r, c.cross r, c⟩ : Mat3).Orth := by
  have hl := Vec3.lagrange c r
  constructor
  · exact hr
  · rw [hl, hr, hc, Vec3.dot_comm c r, hrc]; norm_num
  · exact hc
  · exact Vec3.dot_cross_right c r
  · exact hrc
  · exact Vec3.cross_dot_left c r

theorem triad_det {r c : Vec3} (hr : r.dot r = 1) (hc : c.dot c = 1) (hrc : r.dot c = 0) :
    (⟨r, c.cross r, c⟩ : Mat3).determinant = 1 := by
  simp only [Mat3.determinant, Vec3.cross]
  simp only [Vec3.dot] at hr hc hrc
  linear_combination (c.x * c.x + c.y * c.y + c.z * c.z) * hr + hc
    - (r.x * c.x + r.y * c.y + r.z * c.z) * hrc

theorem unit_orbit_dot {p v r c : Vec3} (hr : p.normalized = .ok r) (hc : (p.cross v).normalized = .ok c) :
    r.dot c = 0 := by
  rw [Vec3.normalized_eq_ok] at hr hc
  rw [hr.2, hc.2, Vec3.dot_scaled_left, Vec3.dot_scaled_right, Vec3.dot_cross_left]
  ring

theorem frameMatrix_isRotation {o : GCRF} {m : Mat3} (h : frameMatrix o = .ok m) : m.IsRotation := by
  simp only [frameMatrix, bind_eq_ok, pure_eq_ok, Except.ok.injEq] at h
  obtain ⟨r, hr, c, hc, rfl⟩ := h
  have h1 := Vec3.normalized_dot_self hr
  have h2 := Vec3.normalized_dot_self hc
  have h3 := unit_orbit_dot hr hc
  exact (triad_orth h1 h2 h3).isRotation (triad_det h1 h2 h3)

/-- the rows are the radial, in-track and orbit-normal unit vectors -/
theorem C33_frame (o : GCRF) (h : o.NonDegenerate) :
    ∃ m, frameMatrix o = .ok m ∧ m.IsRotation ∧
      -- row 1 is the position divided by its length
      m.row1.scaled o.position.magnitude = o.position ∧
      -- row 3 is the angular momentum divided by its length
      m.row3.scaled (o.position.cross o.velocity).magnitude = o.position.cross o.velocity ∧
      -- row 2 completes the right-handed triad and points along the motion
      m.row2 = m.row3.cross m.row1 ∧ 0 < m.row2.dot o.velocity := by
  rw [nonDegenerate_iff] at h
  obtain ⟨r, c, hr, hc, hm⟩ := frameMatrix_ok h
  refine ⟨_, hm, frameMatrix_isRotation hm, ?_, ?_, rfl, ?_⟩
  · rw [Vec3.normalized_eq_ok] at hr
    have := hr.1
    have h0 := Vec3.magnitude_ne_zero.mpr this
    rw [hr.2]
    ext <;> simp only [Vec3.scaled] <;> field_simp
  · rw [Vec3.normalized_eq_ok] at hc
    have h0 := Vec3.magnitude_ne_zero.mpr hc.1
    rw [hc.2]
    ext <;> simp only [Vec3.scaled] <;> field_simp
  · rw [Vec3.normalized_eq_ok] at hc hr
    have h0 := Vec3.magnitude_pos.mpr hc.1
    have h1 := Vec3.magnitude_pos.mpr hr.1
    have e : ((c.cross r)).dot o.velocity = c.dot (r.cross o.velocity) := by
      simp only [Vec3.dot, Vec3.cross]; ring
    rw [e, hc.2, hr.2]
    have e2 : (o.position.scaled (1 / o.position.magnitude)).cross o.velocity
        = (o.position.cross o.velocity).scaled (1 / o.position.magnitude) := by
      ext <;> simp only [Vec3.scaled, Vec3.cross] <;> ring
    rw [e2, Vec3.dot_scaled_left, Vec3.dot_scaled_right, ← Vec3.magnitude_sq_dot]
    positivity

/-- the frame raises `ZeroDivisionError` exactly for parallel or zero position and velocity -/
theorem C33_raises (o : GCRF) (e : PyErr) :
    frameMatrix o = .error e ↔ ¬ o.NonDegenerate ∧ e = .zeroDivision := by
  constructor
  · intro h
    refine ⟨fun hn => ?_, ?_⟩
    · obtain ⟨m, hm, _⟩ := C33_frame o hn
      rw [h] at hm; cases hm
    · simp only [frameMatrix, bind_eq_error, Vec3.normalized_eq_error, pure_eq_ok] at h
      rcases h with h | ⟨_, _, h | ⟨_, _, h⟩⟩
      · exact h.2
      · exact h.2
      · cases h
  · rintro ⟨hn, rfl⟩
    rw [nonDegenerate_iff, not_not] at hn
    by_cases hp : o.position = ⟨0, 0, 0⟩
    · simp [frameMatrix, hp, Vec3.normalized_zero]
    · simp [frameMatrix, Vec3.normalized_ok hp, hn, Vec3.normalized_zero]

/-- the circular geosynchronous state used in the non-vacuity examples -/
noncomputable def geoState : GCRF := GCRF.new ⟨59932⟩ ⟨42164, 0, 0⟩ ⟨0, 3.0747, 0⟩

theorem geoState_nonDegenerate : geoState.NonDegenerate := by
  rw [nonDegenerate_iff]
  simp only [geoState, GCRF.new, State.new, Vec3.cross, Vec3.copy]
  intro h
  have := congrArg Vec3.z h
  norm_num at this

example : ∃ m, frameMatrix geoState = .ok m := by
  obtain ⟨m, h, _⟩ := C33_frame geoState geoState_nonDegenerate
  exact ⟨m, h⟩

/-! ## C31, C32 -/

theorem rswSez_orth (φ l : ℝ) : (rswSez (sin φ) (cos φ) (sin l) (cos l)).Orth := by
  have h1 := sin_sq_add_cos_sq φ
  have h2 := sin_sq_add_cos_sq l
  constructor <;> simp only [rswSez, Vec3.dot]
  · linear_combination sin φ ^ 2 * h2 + h1
  · linear_combination h2
  · linear_combination cos φ ^ 2 * h2 + h1
  · ring
  · linear_combination sin φ * cos φ * h2
  · ring

/-- curvilinear coordinates to Cartesian in the rotating frame -/
theorem sphere_magnitude {m : ℝ} (hm : 0 ≤ m) (φ l : ℝ) :
    Vec3.magnitude ⟨cos φ * m * cos l, cos φ * m * sin l, sin φ * m⟩ = m := by
  apply Vec3.magnitude_of_dot hm
  simp only [Vec3.dot]
  linear_combination cos φ ^ 2 * m ^ 2 * sin_sq_add_cos_sq l + m ^ 2 * sin_sq_add_cos_sq φ

theorem C31_round_trip (origin : GCRF) (ho : origin.NonDegenerate) (s : State)
    (hx : 0 < origin.position.magnitude + s.position.x)
    (hy : |s.position.y| < π * origin.position.magnitude)
    (hz : |s.position.z| < π / 2 * origin.position.magnitude) :
    ∃ g h, hcwToGcrf s origin = .ok g ∧ gcrfToHcw origin g = .ok h ∧
      h.position = s.position ∧ h.velocity = s.velocity ∧ g.epoch = origin.epoch ∧ h.epoch = origin.epoch := by
  have hc := nonDegenerate_iff.mp ho
  have hp := position_ne_of_cross hc
  obtain ⟨M, hM, hrot, -⟩ := C33_frame origin ho
  have hR : 0 < origin.position.magnitude := Vec3.magnitude_pos.mpr hp
  obtain ⟨R, hRe⟩ : ∃ R, R = origin.position.magnitude := ⟨_, rfl⟩
  rw [← hRe] at hR hx hy hz
  have hRn := hR.ne'
  obtain ⟨m, hme⟩ : ∃ m, m = R + s.position.x := ⟨_, rfl⟩
  rw [← hme] at hx
  obtain ⟨φ, hφ⟩ : ∃ φ, φ = s.position.z / R := ⟨_, rfl⟩
  obtain ⟨l, hl⟩ : ∃ l, l = s.position.y / R := ⟨_, rfl⟩
  have hφR : φ * R = s.position.z := by rw [hφ]; field_simp
  have hlR : l * R = s.position.y := by rw [hl]; field_simp
  have hφ1 : -(π / 2) < φ := by
    rw [abs_lt] at hz; by_contra hh; push Not at hh
    nlinarith [hz.1]
  have hφ2 : φ < π / 2 := by
    rw [abs_lt] at hz; by_contra hh; push Not at hh
    nlinarith [hz.2]
  have hl1 : -π < l := by
    rw [abs_lt] at hy; by_contra hh; push Not at hh
    nlinarith [hy.1]
  have hl2 : l < π := by
    rw [abs_lt] at hy; by_contra hh; push Not at hh
    nlinarith [hy.2]
  have hcos : 0 < cos φ := cos_pos_of_mem_Ioo ⟨hφ1, hφ2⟩
  refine ⟨?_, ?_, ?_, ?_, ?_⟩
  rotate_left
  rotate_left
  · simp only [hcwToGcrf, ← hRe, hM, ok_bind, pyDiv_ok hRn, ← hφ, ← hl, ← hme, pure_eq_ok, pySin, pyCos]
    rfl
  · simp only [gcrfToHcw, GCRF.new, State.new, Vec3.copy_eq, ← hRe, hM, ok_bind, pyDiv_ok hRn, pySin, pyCos,
      hrot.transpose.orth.magnitude_mulVec, hrot.orth.mulVec_transpose, sphere_magnitude hx.le, pyDiv_ok hx.ne',
      pure_eq_ok]
    have e1 : sin φ * m / m = sin φ := by field_simp
    have e2 : pyAtan2 (cos φ * m * sin l) (cos φ * m * cos l) = l :=
      pyAtan2_polar (mul_pos hcos hx) hl1 hl2.le
    simp only [e1, e2, pyAsin_ok (neg_one_le_sin φ) (sin_le_one φ), arcsin_sin hφ1.le hφ2.le, ok_bind,
      (rswSez_orth φ l).mulVec_transpose, pyDiv_ok (mul_pos hx hcos).ne']
    rfl
  · refine ⟨?_, ?_, rfl, rfl⟩
    · ext
      · show m - R = _
        rw [hme]; ring
      · exact hlR
      · exact hφR
    · ext <;> simp only
      · ring
      · field_simp
        ring
      · field_simp

example : ∃ g h, hcwToGcrf (State.new ⟨0⟩ ⟨1, 2, 3⟩ ⟨0.1, 0.2, 0.3⟩) geoState = .ok g ∧
    gcrfToHcw geoState g = .ok h := by
  have hR : geoState.position.magnitude = 42164 :=
    Vec3.magnitude_of_dot (by norm_num) (by simp [geoState, GCRF.new, State.new, Vec3.dot, Vec3.copy]; norm_num)
  have hp := pi_gt_three
  obtain ⟨g, h, h1, h2, _⟩ := C31_round_trip geoState geoState_nonDegenerate
    (State.new ⟨0⟩ ⟨1, 2, 3⟩ ⟨0.1, 0.2, 0.3⟩)
    (by rw [hR]; simp [State.new, Vec3.copy]; norm_num)
    (by rw [hR]; simp [State.new, Vec3.copy]; nlinarith)
    (by rw [hR]; simp [State.new, Vec3.copy]; nlinarith)
  exact ⟨g, h, h1, h2⟩

theorem C32_round_trip (origin : GCRF) (ho : origin.NonDegenerate) (s : GCRF)
    -- the state is not on the orbit-normal axis of the origin
    (hs : (origin.position.cross origin.velocity).cross s.position ≠ ⟨0, 0, 0⟩) :
    ∃ h g, gcrfToHcw origin s = .ok h ∧ hcwToGcrf h origin = .ok g ∧
      g.position = s.position ∧ g.velocity = s.velocity ∧ h.epoch = origin.epoch ∧ g.epoch = origin.epoch := by
  have hc := nonDegenerate_iff.mp ho
  have hp := position_ne_of_cross hc
  obtain ⟨M, hM, hrot, -, hrow3, -⟩ := C33_frame origin ho
  have hR : 0 < origin.position.magnitude := Vec3.magnitude_pos.mpr hp
  have hsp : s.position ≠ ⟨0, 0, 0⟩ := by
    intro h; apply hs; rw [h]; simp [Vec3.cross]
  have hm : 0 < s.position.magnitude := Vec3.magnitude_pos.mpr hsp
  obtain ⟨R, hRe⟩ : ∃ R, R = origin.position.magnitude := ⟨_, rfl⟩
  obtain ⟨m, hme⟩ : ∃ m, m = s.position.magnitude := ⟨_, rfl⟩
  rw [← hRe] at hR
  rw [← hme] at hm
  obtain ⟨w, hw⟩ : ∃ w, w = M.mulVec s.position := ⟨_, rfl⟩
  have hwm : w.magnitude = m := by rw [hw, hrot.orth.magnitude_mulVec, hme]
  have hwsq : w.x * w.x + w.y * w.y + w.z * w.z = m ^ 2 := by rw [← hwm, Vec3.magnitude_sq]
  have hxy : 0 < w.x * w.x + w.y * w.y := by
    rcases (add_nonneg (mul_self_nonneg w.x) (mul_self_nonneg w.y)).lt_or_eq with h | h
    · exact h
    · exfalso
      apply hs
      have hx0 : w.x = 0 := by nlinarith [mul_self_nonneg w.x, mul_self_nonneg w.y]
      have hy0 : w.y = 0 := by nlinarith [mul_self_nonneg w.x, mul_self_nonneg w.y]
      have e1 : s.position = M.transpose.mulVec w := by rw [hw, hrot.orth.transpose_mulVec]
      have e2 : s.position = M.row3.scaled w.z := by
        rw [e1]; ext <;> simp [Mat3.mulVec, Mat3.transpose, Vec3.dot, Vec3.scaled, hx0, hy0, mul_comm]
      rw [← hrow3, e2]
      ext <;> simp only [Vec3.cross, Vec3.scaled] <;> ring
  have hz1 : |w.z / m| < 1 := by
    rw [abs_div, abs_of_pos hm, div_lt_one hm]
    exact abs_lt_of_sq_lt_sq (by nlinarith) hm.le
  rw [abs_lt] at hz1
  obtain ⟨φ, hφ⟩ : ∃ φ, φ = arcsin (w.z / m) := ⟨_, rfl⟩
  have hsin : sin φ = w.z / m := by rw [hφ, sin_arcsin hz1.1.le hz1.2.le]
  have hsinm : sin φ * m = w.z := by rw [hsin]; field_simp
  have hcos : 0 < cos φ := by
    have h0 : 0 ≤ cos φ := by rw [hφ]; exact cos_arcsin_nonneg _
    have h1 := sin_sq_add_cos_sq φ
    have : sin φ ^ 2 < 1 := by rw [hsin]; nlinarith [hz1.1, hz1.2]
    rcases h0.lt_or_eq with h | h
    · exact h
    · rw [← h] at h1; nlinarith
  have hcosm : cos φ * m = √(w.x * w.x + w.y * w.y) := by
    symm
    rw [Real.sqrt_eq_iff_mul_self_eq (by positivity) (by positivity)]
    have h1 := sin_sq_add_cos_sq φ
    have : (sin φ * m) ^ 2 = w.z ^ 2 := by rw [hsinm]
    nlinarith
  obtain ⟨l, hl⟩ : ∃ l, l = pyAtan2 w.y w.x := ⟨_, rfl⟩
  have hwx : cos φ * m * cos l = w.x := by rw [hcosm, hl, mul_cos_atan2]
  have hwy : cos φ * m * sin l = w.y := by rw [hcosm, hl, mul_sin_atan2]
  obtain ⟨u, hu⟩ : ∃ u, u = (rswSez (sin φ) (cos φ) (sin l) (cos l)).mulVec (M.mulVec s.velocity) := ⟨_, rfl⟩
  have e1 : gcrfToHcw origin s = .ok (State.new origin.epoch ⟨m - R, l * R, φ * R⟩
      ⟨u.z - (M.mulVec origin.velocity).x,
        R * (u.y / (m * cos φ) - (M.mulVec origin.velocity).y / R), R * (-u.x / m)⟩) := by
    simp only [gcrfToHcw, ← hRe, ← hme, hM, ok_bind, ← hw, pyDiv_ok hm.ne', pyDiv_ok hR.ne', pySin, pyCos,
      pyAsin_ok hz1.1.le hz1.2.le, ← hφ, ← hl, pure_eq_ok]
    simp only [← hsin, ← hu, pyDiv_ok (mul_pos hm hcos).ne', ok_bind]
  refine ⟨_, ?_, e1, ?_, ?_⟩
  rotate_left
  · simp only [hcwToGcrf, State.new, Vec3.copy_eq, ← hRe, hM, ok_bind, pyDiv_ok hR.ne', pure_eq_ok, pySin, pyCos]
    rfl
  · have r1 : R + (m - R) = m := by ring
    have r2 : l * R / R = l := by field_simp
    have r3 : φ * R / R = φ := by field_simp
    simp only [GCRF.new, State.new, Vec3.copy_eq, r1, r2, r3, hwx, hwy, hsinm]
    refine ⟨?_, ?_, rfl, rfl⟩
    · show M.transpose.mulVec w = s.position
      rw [hw, hrot.orth.transpose_mulVec]
    · have e : (⟨-m * (R * (-u.x / m) / R),
          m * (R * (u.y / (m * cos φ) - (M.mulVec origin.velocity).y / R) / R + (M.mulVec origin.velocity).y / R) *
            cos φ, u.z - (M.mulVec origin.velocity).x + (M.mulVec origin.velocity).x⟩ : Vec3) = u := by
        ext <;> simp only
        · field_simp
        · field_simp
          ring
        · ring
      rw [e, hu, (rswSez_orth φ l).transpose_mulVec, hrot.orth.transpose_mulVec]

example : ∃ h, gcrfToHcw geoState (GCRF.new ⟨59932⟩ ⟨42160, 10, 5⟩ ⟨0, 3.07, 0.1⟩) = .ok h := by
  obtain ⟨h, g, h1, _⟩ := C32_round_trip geoState geoState_nonDegenerate
    (GCRF.new ⟨59932⟩ ⟨42160, 10, 5⟩ ⟨0, 3.07, 0.1⟩) (by
      simp only [geoState, GCRF.new, State.new, Vec3.cross, Vec3.copy]
      intro h
      have := congrArg Vec3.x h
      norm_num at this)
  exact ⟨h, h1⟩

/-! ## C36 -/

/-- the point-mass potential -/
noncomputable def Spec.pointMass (mu : ℝ) (x : EuclideanSpace ℝ (Fin 3)) : ℝ := mu / ‖x‖

theorem hasGradientAt_pointMass (mu : ℝ) {x : EuclideanSpace ℝ (Fin 3)} (hx : x ≠ 0) :
    HasGradientAt (Spec.pointMass mu) ((-mu / ‖x‖ ^ 3) • x) x := by
  have hn : ‖x‖ ≠ 0 := norm_ne_zero_iff.mpr hx
  have h1 : HasFDerivAt (fun y : EuclideanSpace ℝ (Fin 3) => ‖y‖ ^ 2) (2 • innerSL ℝ x) x :=
    (hasStrictFDerivAt_norm_sq x).hasFDerivAt
  have h2 : HasFDerivAt (fun y : EuclideanSpace ℝ (Fin 3) => √(‖y‖ ^ 2))
      ((1 / (2 * √(‖x‖ ^ 2))) • (2 • innerSL ℝ x)) x := h1.sqrt (by positivity)
  have h3 : (fun y : EuclideanSpace ℝ (Fin 3) => √(‖y‖ ^ 2)) = fun y => ‖y‖ := by
    funext y; exact Real.sqrt_sq (norm_nonneg y)
  rw [h3, Real.sqrt_sq (norm_nonneg x)] at h2
  have h4 := ((hasDerivAt_inv hn).comp_hasFDerivAt x h2).const_mul mu
  rw [hasGradientAt_iff_hasFDerivAt]
  refine (h4.congr_fderiv ?_)
  ext y
  simp
  field_simp

theorem accelerationFromEarth_ok {s : GCRF} (h : s.position ≠ ⟨0, 0, 0⟩) :
    s.accelerationFromEarth = .ok (s.position.scaled (-Earth.MU / s.position.magnitude ^ 3)) := by
  have h0 := Vec3.magnitude_pos.mpr h
  have : s.position.magnitude * s.position.magnitude * s.position.magnitude ≠ 0 := by positivity
  simp only [GCRF.accelerationFromEarth, pyDiv_ok this, ok_bind, pure_eq_ok]
  congr 2; ring

theorem earth_mu_pos : 0 < Earth.MU := by norm_num [Earth.MU]

theorem toE_scaled (v : Vec3) (k : ℝ) : (v.scaled k).toE = k • v.toE := by
  ext i; fin_cases i <;> simp [Vec3.toE, Vec3.toFun, Vec3.scaled, mul_comm]

theorem toE_ne_zero {v : Vec3} (h : v ≠ ⟨0, 0, 0⟩) : v.toE ≠ 0 := by
  rw [← norm_ne_zero_iff, Vec3.norm_toE]
  exact Vec3.magnitude_ne_zero.mpr h

/-- inverse square, attractive, and the gradient of `mu / r` -/
theorem C36_inverse_square (s : GCRF) (h : s.position ≠ ⟨0, 0, 0⟩) :
    ∃ a, s.accelerationFromEarth = .ok a ∧
      a.magnitude = Earth.MU / s.position.magnitude ^ 2 ∧
      a.dot s.position = -(a.magnitude * s.position.magnitude) ∧
      HasGradientAt (Spec.pointMass Earth.MU) a.toE s.position.toE := by
  have h0 := Vec3.magnitude_pos.mpr h
  have hmu := earth_mu_pos
  have hmag : (s.position.scaled (-Earth.MU / s.position.magnitude ^ 3)).magnitude
      = Earth.MU / s.position.magnitude ^ 2 := by
    rw [Vec3.magnitude_scaled, abs_div, abs_neg, abs_of_pos hmu, abs_of_pos (by positivity)]
    field_simp
  refine ⟨_, accelerationFromEarth_ok h, hmag, ?_, ?_⟩
  · rw [hmag, Vec3.dot_scaled_left, ← Vec3.magnitude_sq_dot]
    field_simp
  · rw [toE_scaled]
    have := hasGradientAt_pointMass Earth.MU (toE_ne_zero h)
    rwa [Vec3.norm_toE] at this

/-- it raises `ZeroDivisionError` exactly at the centre of the Earth -/
theorem C36_raises (s : GCRF) (e : PyErr) :
    s.accelerationFromEarth = .error e ↔ s.position = ⟨0, 0, 0⟩ ∧ e = .zeroDivision := by
  by_cases h : s.position = ⟨0, 0, 0⟩
  · have h0 : (⟨0, 0, 0⟩ : Vec3).magnitude = 0 := Vec3.magnitude_eq_zero.mpr rfl
    simp only [GCRF.accelerationFromEarth, h, h0, mul_zero, pyDiv_zero, error_bind, true_and,
      Except.error.injEq]
    exact eq_comm
  · simp [accelerationFromEarth_ok h, h]

example : geoState.position ≠ ⟨0, 0, 0⟩ :=
  position_ne_of_cross (nonDegenerate_iff.mp geoState_nonDegenerate)

/-! ## C37 -/

/-- sum of vectors -/
def Vec3.sum (l : List Vec3) : Vec3 := l.foldr Vec3.plus ⟨0, 0, 0⟩

theorem C37_unperturbed (s : GCRF) (h : s.use_perturbations = false) (d : Vec3 × Vec3) :
    s.derivative = .ok d ↔
      ∃ ae, s.accelerationFromEarth = .ok ae ∧ d = (s.velocity, Vec3.sum [s.thrust, ae]) := by
  have e : ∀ a b : Vec3, Vec3.sum [a, b] = a.plus b := by
    intro a b; ext <;> simp [Vec3.sum, Vec3.plus]
  simp only [GCRF.derivative, h, bind_eq_ok, GCRF.accelerationFromThrust, e, pure_eq_ok, Except.ok.injEq,
    Vec3.copy_eq, reduceIte, Bool.false_eq_true]
  constructor
  · rintro ⟨ae, h1, h2⟩; exact ⟨ae, h1, h2.symm⟩
  · rintro ⟨ae, h1, h2⟩; exact ⟨ae, h1, h2.symm⟩

theorem C37_perturbed (s : GCRF) (h : s.use_perturbations = true) (d : Vec3 × Vec3) :
    s.derivative = .ok d ↔
      ∃ ae am as ap ag, s.accelerationFromEarth = .ok ae ∧ s.accelerationFromMoon = .ok am ∧
        s.accelerationFromSun = .ok as ∧ s.accelerationFromSrp = .ok ap ∧
        s.accelerationFromGravity = .ok ag ∧
        d = (s.velocity, Vec3.sum [s.thrust, ae, am, as, ap, ag]) := by
  have e : ∀ a b c d e f : Vec3, Vec3.sum [a, b, c, d, e, f] =
      ((((a.plus b).plus c).plus d).plus e).plus f := by
    intro a b c d e f; ext <;> simp [Vec3.sum, Vec3.plus] <;> ring
  simp only [GCRF.derivative, h, bind_eq_ok, GCRF.accelerationFromThrust, e, pure_eq_ok, Except.ok.injEq,
    Vec3.copy_eq, reduceIte]
  constructor
  · rintro ⟨ae, h1, am, h2, as, h3, ap, h4, ag, h5, h6⟩
    exact ⟨ae, am, as, ap, ag, h1, h2, h3, h4, h5, h6.symm⟩
  · rintro ⟨ae, am, as, ap, ag, h1, h2, h3, h4, h5, h6⟩
    exact ⟨ae, h1, am, h2, as, h3, ap, h4, ag, h5, h6.symm⟩

/-! ## C38 -/

/-- what `copy` does preserve: epoch, position and velocity, and the vector built from them -/
theorem C38_kinematic_partial (s : GCRF) :
    s.copy.epoch = s.epoch ∧ s.copy.position = s.position ∧ s.copy.velocity = s.velocity ∧
    s.copy.vector = Vec6.fromPosVel s.position s.velocity := ⟨rfl, rfl, rfl, rfl⟩

/-- the property is false: thrust, radiation-pressure scalar and perturbation switch are reset,
so a copy equals its original only if the original had them at their defaults -/
theorem C38_violated :
    (∀ s : GCRF, s.copy.thrust = ⟨0, 0, 0⟩ ∧ s.copy.srp_scalar = 0 ∧ s.copy.use_perturbations = true) ∧
    ∃ s : GCRF, s.copy ≠ s := by
  refine ⟨fun s => ⟨rfl, rfl, rfl⟩, { geoState with srp_scalar := 1 }, ?_⟩
  intro h
  have : (0 : ℝ) = 1 := congrArg GCRF.srp_scalar h
  norm_num at this

end Openspace
