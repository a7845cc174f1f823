import Verif.Props.Maneuvers
import Verif.Props.Linalg
import Verif.Props.Celestial
import Mathlib.Analysis.Calculus.Deriv.MeanValue
import Mathlib.Analysis.SpecialFunctions.Trigonometric.Deriv
import Mathlib.Analysis.SpecialFunctions.Trigonometric.Arctan

/-!
# C66 to C68: sensors
-/

set_option linter.unusedSectionVars false

namespace Openspace

open Real

/-! ## C68 -/

/-- the resolution meets the limit exactly up to the range stored as `limits.characterization` -/
theorem C68_characterization (px fov : ℝ) (hp : 0 < px) (h0 : 0 < fov) (h1 : fov < π / 2) :
    ∃ c, Camera.new px fov = .ok c ∧
      ∀ r, c.resolution r ≤ DEFAULT_RESOLUTION_LIMIT ↔ r ≤ c.limits.characterization := by
  have ht := tan_pos_of_pos_of_lt_pi_div_two h0 h1
  rcases hc : Camera.new px fov with e | c
  · simp [Camera.new, OpticalConstraints.new, pyTan, pyDiv_ok ht.ne', pyDiv_ok hp.ne'] at hc
  refine ⟨c, rfl, fun r => ?_⟩
  simp only [Camera.new, OpticalConstraints.new, pyTan, pyDiv_ok ht.ne', ok_bind, pure_eq_ok, pyDiv_ok hp.ne',
    Except.ok.injEq] at hc
  subst hc
  simp only [Camera.resolution, pyTan]
  rw [le_div_iff₀ ht]
  have e : tan fov * r * (1 / px * 0.5) = r * tan fov / (2 * px) := by field_simp; ring
  rw [e, div_le_iff₀ (by positivity)]
  constructor <;> intro h <;> nlinarith

/-- resolution is linear in range: half the size of one pixel projected to that range -/
theorem C68_resolution (px fov : ℝ) (hp : 0 < px) (h0 : 0 < fov) (h1 : fov < π / 2) :
    ∃ c, Camera.new px fov = .ok c ∧ (∀ r, c.resolution r = tan fov * r / px / 2) ∧
      (∀ r s, c.resolution (r + s) = c.resolution r + c.resolution s) ∧
      (∀ k r, c.resolution (k * r) = k * c.resolution r) ∧
      (∀ r s, r < s ↔ c.resolution r < c.resolution s) := by
  obtain ⟨c, hc, hf, hpx⟩ := camera_new_ok hp h0 h1
  have ht := tan_pos_of_pos_of_lt_pi_div_two h0 h1
  have hr : c.resolution_factor = 1 / px * 0.5 := by
    simp only [Camera.new, OpticalConstraints.new, pyTan, pyDiv_ok ht.ne', ok_bind, pure_eq_ok, pyDiv_ok hp.ne',
      Except.ok.injEq] at hc
    subst hc; rfl
  have key : ∀ r, c.resolution r = tan fov * r / px / 2 := fun r => by
    simp only [Camera.resolution, pyTan, hf, hr]; ring
  refine ⟨c, hc, key, fun r s => by rw [key, key, key]; ring, fun k r => by rw [key, key]; ring, fun r s => ?_⟩
  rw [key, key]
  have hk : 0 < tan fov / px / 2 := by positivity
  rw [show tan fov * r / px / 2 = tan fov / px / 2 * r by ring,
    show tan fov * s / px / 2 = tan fov / px / 2 * s by ring, mul_lt_mul_iff_right₀ hk]

/-- the range error grows with the square of the range, and is defined for every non-zero size -/
theorem C68_range_error (px fov : ℝ) (hp : 0 < px) (h0 : 0 < fov) (h1 : fov < π / 2) (d : ℝ) (hd : d ≠ 0) :
    ∃ c, Camera.new px fov = .ok c ∧
      (∀ r, c.rangeError r d = .ok (tan fov / (2 * px * d) * r ^ 2)) ∧
      ∀ r, c.rangeError r 0 = .error .zeroDivision := by
  obtain ⟨c, hc, key, -⟩ := C68_resolution px fov hp h0 h1
  refine ⟨c, hc, fun r => ?_, fun r => ?_⟩
  · simp only [Camera.rangeError, pyDiv_ok hd, ok_bind, pure_eq_ok, key]
    congr 1; field_simp
  · simp only [Camera.rangeError, pyDiv_zero, error_bind]

/-- an object of radius `R` at the minimum tracking range fills the field of view: `arctan (R / range)` is
the angle `fov` -/
theorem C68_tracking_minimum (px fov : ℝ) (hp : 0 < px) (h0 : 0 < fov) (h1 : fov < π / 2) (R : ℝ) (hR : 0 < R) :
    ∃ c d, Camera.new px fov = .ok c ∧ c.trackingMinimum R = .ok d ∧ 0 < d ∧ arctan (R / d) = fov ∧
      ∀ r, d < r → arctan (R / r) < fov := by
  obtain ⟨c, hc, hf, hpx⟩ := camera_new_ok hp h0 h1
  have ht := tan_pos_of_pos_of_lt_pi_div_two h0 h1
  have hd : 0 < R / tan fov := by positivity
  have hat : arctan (tan fov) = fov := arctan_tan (by linarith) h1
  refine ⟨c, R / tan fov, hc, by simp only [Camera.trackingMinimum, pyTan, hf, pyDiv_ok ht.ne'], hd, ?_, ?_⟩
  · rw [div_div_cancel₀ hR.ne', hat]
  · intro r hr
    conv_rhs => rw [← hat]
    apply arctan_strictMono
    have hr0 : 0 < r := by linarith
    rw [div_lt_iff₀ hr0]
    rw [div_lt_iff₀ ht] at hr
    linarith

/-- the two default cameras qualify -/
example : ∃ c, Camera.wfov = .ok c ∧
    ∀ r, c.resolution r ≤ DEFAULT_RESOLUTION_LIMIT ↔ r ≤ c.limits.characterization := by
  have hp := pi_pos
  exact C68_characterization 3072 (pyRadians 5) (by norm_num)
    (by simp only [pyRadians, pyPi]; positivity) (by simp only [pyRadians, pyPi]; linarith)

/-! ## C66 -/

section Detect

variable {ι : Type} [DecidableEq ι]

open Spacecraft

/-- `detect` answers True exactly when all five quantities are within their limits -/
theorem C66_true (s t : Spacecraft ι) : s.detect t = .ok true ↔
    ∃ sun earth moon vm bore, s.sunAngle t = .ok sun ∧ s.earthAngle t = .ok earth ∧ s.moonAngle t = .ok moon ∧
      s.visualMagnitude t = .ok vm ∧ s.body_z.angle (s.targetVector t) = .ok bore ∧
      s.wfov.limits.sun_soft ≤ sun ∧ s.wfov.limits.earth ≤ earth ∧ s.wfov.limits.moon ≤ moon ∧
      vm ≤ s.wfov.limits.vismag ∧ bore ≤ s.wfov.limits.bore := by
  unfold detect
  rcases s.sunAngle t with e | sun
  · simp
  simp only [ok_bind]
  by_cases h1 : sun < s.wfov.limits.sun_soft
  · simp [h1]
  rw [if_neg h1]
  rcases s.earthAngle t with e | earth
  · simp
  simp only [ok_bind]
  by_cases h2 : earth < s.wfov.limits.earth
  · simp [h2]
  rw [if_neg h2]
  rcases s.moonAngle t with e | moon
  · simp
  simp only [ok_bind]
  by_cases h3 : moon < s.wfov.limits.moon
  · simp [h3]
  rw [if_neg h3]
  rcases s.visualMagnitude t with e | vm
  · simp
  simp only [ok_bind]
  by_cases h4 : vm > s.wfov.limits.vismag
  · simp [not_le.mpr h4, h4]
  rw [if_neg h4]
  rcases s.body_z.angle (s.targetVector t) with e | bore
  · simp
  simp only [ok_bind]
  by_cases h5 : bore > s.wfov.limits.bore
  · simp [not_le.mpr h5, h5]
  rw [if_neg h5]
  simp [not_lt.mp h1, not_lt.mp h2, not_lt.mp h3, not_lt.mp h4, not_lt.mp h5]

/-- the phase function of a diffusely reflecting sphere -/
noncomputable def Spec.lambert (sun : ℝ) : ℝ := sin (π - sun) + sun * cos (π - sun)

theorem phase_hasDerivAt (a : ℝ) : HasDerivAt Spec.lambert (a * sin (π - a)) a := by
  have hp : HasDerivAt (fun x : ℝ => π - x) (-1) a := by simpa using (hasDerivAt_id a).const_sub π
  have h1 := hp.sin
  have h2 := (hasDerivAt_id a).mul hp.cos
  refine ((h1.add h2).congr_of_eventuallyEq (.of_forall fun x => ?_)).congr_deriv ?_
  · simp [Spec.lambert]
  · simp only [id]; ring

theorem phase_strictMono : StrictMonoOn Spec.lambert (Set.Icc 0 π) := by
  refine strictMonoOn_of_deriv_pos (convex_Icc 0 π) (fun a _ => (phase_hasDerivAt a).continuousAt.continuousWithinAt) ?_
  intro a ha
  rw [interior_Icc] at ha
  rw [(phase_hasDerivAt a).deriv]
  exact mul_pos ha.1 (sin_pos_of_pos_of_lt_pi (by linarith [ha.2]) (by linarith [ha.1]))

theorem phase_zero : Spec.lambert 0 = 0 := by simp [Spec.lambert]

theorem phase_pos {a : ℝ} (h0 : 0 < a) (h1 : a ≤ π) : 0 < Spec.lambert a := by
  have := phase_strictMono (Set.left_mem_Icc.mpr pi_pos.le) ⟨h0.le, h1⟩ h0
  rwa [phase_zero] at this

/-- the brightness model in closed form -/
theorem visualMagnitude_eq {s t : Spacecraft ι} {sun : ℝ} (hs : s.sunAngle t = .ok sun) (h0 : 0 < sun)
    (ha : 0 < s.albedo) (hr : s.body_radius ≠ 0) (hd : s.targetVector t ≠ ⟨0, 0, 0⟩) :
    0 < 2 / 3 * s.albedo * s.body_radius ^ 2 / (π * (s.range t) ^ 2) * Spec.lambert sun ∧
    s.visualMagnitude t = .ok (-26.74 - 2.5 * logb 10
      (2 / 3 * s.albedo * s.body_radius ^ 2 / (π * (s.range t) ^ 2) * Spec.lambert sun)) := by
  have hle := (C04_angle_laws _ _ _ hs).2.1
  have hp := phase_pos h0 hle
  have hdist : 0 < s.range t := Vec3.magnitude_pos.mpr hd
  have hpi := pi_pos
  have hk : 0 < 2 / 3 * s.albedo * s.body_radius ^ 2 / (π * (s.range t) ^ 2) * Spec.lambert sun := by positivity
  refine ⟨hk, ?_⟩
  have e : 2 / 3 * s.albedo * s.body_radius * s.body_radius / (pyPi * s.range t * s.range t) *
      (pySin (pyPi - sun) + (pyPi - (pyPi - sun)) * pyCos (pyPi - sun)) =
      2 / 3 * s.albedo * s.body_radius ^ 2 / (π * (s.range t) ^ 2) * Spec.lambert sun := by
    simp only [Spec.lambert, pySin, pyCos, pyPi]
    rw [show 2 / 3 * s.albedo * s.body_radius * s.body_radius = 2 / 3 * s.albedo * s.body_radius ^ 2 by ring,
      show π * s.range t * s.range t = π * (s.range t) ^ 2 by ring]
    ring
  have hne : pyPi * s.range t * s.range t ≠ 0 := by simp only [pyPi]; positivity
  simp only [visualMagnitude, hs, ok_bind, pyDiv_ok hne, e, pyLog10_ok hk, pure_eq_ok]

/-- the attributes that `detect` relies on are those of the constructor after every history -/
def SensorDefaults (s : Spacecraft ι) : Prop :=
  s.wfov.limits.sun_soft = π / 2 ∧ s.albedo = 0.3 ∧ s.body_radius = 0.005

theorem sensorDefaults_stable : ApiStable (SensorDefaults (ι := ι)) where
  attitude := fun _ _ _ _ h => h
  slew := fun _ h => h
  stepTo := fun _ _ h => h
  step := fun _ h => h
  filter := fun _ _ h => h
  impulse := fun _ _ h => h
  maneuver := fun _ _ h => h
  mass := fun _ _ h => h
  mode := fun _ _ _ _ _ h => h
  stop := fun _ _ h => h

theorem fresh_sensorDefaults {w : World ι} (hw : Fresh w) : All SensorDefaults w := by
  intro i
  obtain ⟨g, hg⟩ := hw i
  simp only [Spacecraft.new, bind_eq_ok, pure_eq_ok, Except.ok.injEq] at hg
  obtain ⟨c1, hc1, c2, -, k, -, e⟩ := hg
  rw [← e]
  refine ⟨?_, rfl, rfl⟩
  show c1.limits.sun_soft = _
  simp only [Camera.wfov, Camera.new, OpticalConstraints.new, bind_eq_ok, pure_eq_ok, Except.ok.injEq] at hc1
  obtain ⟨l, ⟨_, -, rfl⟩, _, -, rfl⟩ := hc1
  simp only [pyRadians, pyPi]
  ring

/-- after every history, for every pair of spacecraft in different places, `detect` raises nothing but
`ZeroDivisionError`, and that only where one of the directions is undefined: the spacecraft at the centre of the
Earth, at the Sun or at the Moon, or with a degenerate payload axis -/
theorem C66_no_domain_error (w : World ι) (hw : Fresh w) (d : ℕ) (cs : List (Call ι)) (i j : ι)
    (hne : (after d cs w j).position ≠ (after d cs w i).position) (e : PyErr)
    (h : (after d cs w i).detect (after d cs w j) = .error e) :
    e = .zeroDivision ∧ ((after d cs w i).position = ⟨0, 0, 0⟩ ∨ (after d cs w i).sunVector = ⟨0, 0, 0⟩ ∨
      (after d cs w i).moonVector = .ok ⟨0, 0, 0⟩ ∨ (after d cs w i).body_z = ⟨0, 0, 0⟩) := by
  obtain ⟨hsoft, hal, hrad⟩ := after_all sensorDefaults_stable d cs (fresh_sensorDefaults hw) i
  generalize after d cs w i = s at *
  generalize after d cs w j = t at *
  have hd : s.targetVector t ≠ ⟨0, 0, 0⟩ := by
    intro h0
    apply hne
    have hx := congrArg Vec3.x h0
    have hy := congrArg Vec3.y h0
    have hz := congrArg Vec3.z h0
    simp only [targetVector, Vec3.minus] at hx hy hz
    ext <;> linarith
  have hang : ∀ {v : Vec3} {e : PyErr}, v.angle (s.targetVector t) = .error e → e = .zeroDivision ∧ v = ⟨0, 0, 0⟩ := by
    intro v e h
    obtain ⟨h1, h2⟩ := Vec3.angle_eq_error.mp h
    exact ⟨h2, h1.resolve_right hd⟩
  obtain ⟨m, hm, -⟩ := C30_moon s.currentState.epoch
  have hmv : s.moonVector = .ok (m.minus s.currentState.position) := by
    simp [moonVector, GCRF.moonVector, hm]
  unfold detect at h
  rcases hsa : s.sunAngle t with e' | sun
  · rw [hsa] at h; cases h
    exact ⟨(hang hsa).1, Or.inr (Or.inl (hang hsa).2)⟩
  rw [hsa] at h
  simp only [ok_bind] at h
  by_cases h1 : sun < s.wfov.limits.sun_soft
  · simp [h1] at h
  rw [if_neg h1] at h
  rcases hea : s.earthAngle t with e' | earth
  · rw [hea] at h; cases h
    refine ⟨(hang hea).1, Or.inl ?_⟩
    have hz := (hang hea).2
    have hx := congrArg Vec3.x hz
    have hy := congrArg Vec3.y hz
    have hz := congrArg Vec3.z hz
    simp only [earthVector, Vec3.scaled] at hx hy hz
    ext <;> simp only <;> linarith
  rw [hea] at h
  simp only [ok_bind] at h
  by_cases h2 : earth < s.wfov.limits.earth
  · simp [h2] at h
  rw [if_neg h2] at h
  rcases hma : s.moonAngle t with e' | moon
  · rw [hma] at h; cases h
    simp only [moonAngle, hmv, ok_bind] at hma
    refine ⟨(hang hma).1, Or.inr (Or.inr (Or.inl ?_))⟩
    rw [hmv, (hang hma).2]
  rw [hma] at h
  simp only [ok_bind] at h
  by_cases h3 : moon < s.wfov.limits.moon
  · simp [h3] at h
  rw [if_neg h3] at h
  have hsun : 0 < sun := by
    rw [hsoft] at h1
    have := pi_pos
    linarith
  rw [(visualMagnitude_eq hsa hsun (by rw [hal]; norm_num) (by rw [hrad]; norm_num) hd).2] at h
  simp only [ok_bind] at h
  split at h
  · cases h
  rcases hba : s.body_z.angle (s.targetVector t) with e' | bore
  · rw [hba] at h; cases h
    exact ⟨(hang hba).1, Or.inr (Or.inr (Or.inr (hang hba).2))⟩
  rw [hba] at h
  simp only [ok_bind] at h
  split at h <;> cases h

/-! ## C67 -/

/-- the property is false: the size and the albedo of the target do not enter -/
theorem C67_violated (s t : Spacecraft ι) (radius albedo : ℝ) :
    s.visualMagnitude { t with body_radius := radius, albedo := albedo } = s.visualMagnitude t := rfl

/-- it is the observer's own size that counts: a bigger observer sees everything brighter -/
theorem C67_observer_violated (s t : Spacecraft ι) (sun r : ℝ) (hs : s.sunAngle t = .ok sun) (h0 : 0 < sun)
    (ha : 0 < s.albedo) (hr : 0 < s.body_radius) (hd : s.targetVector t ≠ ⟨0, 0, 0⟩) (hrr : s.body_radius < r) :
    ∃ m m', s.visualMagnitude t = .ok m ∧ ({ s with body_radius := r } : Spacecraft ι).visualMagnitude t = .ok m' ∧
      m' < m := by
  obtain ⟨k1, h1⟩ := visualMagnitude_eq hs h0 ha hr.ne' hd
  obtain ⟨k2, h2⟩ := visualMagnitude_eq (s := { s with body_radius := r }) (t := t) hs h0 ha (by simp only; linarith) hd
  refine ⟨_, _, h1, h2, ?_⟩
  have hdist : 0 < s.range t := Vec3.magnitude_pos.mpr hd
  have hp := phase_pos h0 (C04_angle_laws _ _ _ hs).2.1
  have hpi := pi_pos
  have : logb 10 (2 / 3 * s.albedo * s.body_radius ^ 2 / (π * (s.range t) ^ 2) * Spec.lambert sun) <
      logb 10 (2 / 3 * s.albedo * r ^ 2 / (π * (s.range t) ^ 2) * Spec.lambert sun) := by
    apply Real.logb_lt_logb (by norm_num) k1
    gcongr
  have h' : ({ s with body_radius := r } : Spacecraft ι).range t = s.range t := rfl
  simp only [h']
  linarith

/-- what does hold: at equal illumination a more distant target is strictly fainter -/
theorem C67_distance_partial (s t t' : Spacecraft ι) (sun : ℝ) (hs : s.sunAngle t = .ok sun)
    (hs' : s.sunAngle t' = .ok sun) (h0 : 0 < sun) (ha : 0 < s.albedo) (hr : s.body_radius ≠ 0)
    (hd : s.targetVector t ≠ ⟨0, 0, 0⟩) (hlt : s.range t < s.range t') :
    ∃ m m', s.visualMagnitude t = .ok m ∧ s.visualMagnitude t' = .ok m' ∧ m < m' := by
  have hdist : 0 < s.range t := Vec3.magnitude_pos.mpr hd
  have hd' : s.targetVector t' ≠ ⟨0, 0, 0⟩ := Vec3.magnitude_pos.mp (lt_trans hdist hlt)
  obtain ⟨k1, h1⟩ := visualMagnitude_eq hs h0 ha hr hd
  obtain ⟨k2, h2⟩ := visualMagnitude_eq hs' h0 ha hr hd'
  refine ⟨_, _, h1, h2, ?_⟩
  have hp := phase_pos h0 (C04_angle_laws _ _ _ hs).2.1
  have hpi := pi_pos
  have : logb 10 (2 / 3 * s.albedo * s.body_radius ^ 2 / (π * (s.range t') ^ 2) * Spec.lambert sun) <
      logb 10 (2 / 3 * s.albedo * s.body_radius ^ 2 / (π * (s.range t) ^ 2) * Spec.lambert sun) := by
    apply Real.logb_lt_logb (by norm_num) k2
    gcongr
  linarith

/-- and at equal distance a target that shows more of its lit side (a larger angle from the Sun) is strictly
brighter -/
theorem C67_phase_partial (s t t' : Spacecraft ι) (sun sun' : ℝ) (hs : s.sunAngle t = .ok sun)
    (hs' : s.sunAngle t' = .ok sun') (h0 : 0 < sun) (hlt : sun < sun') (ha : 0 < s.albedo) (hr : s.body_radius ≠ 0)
    (hd : s.targetVector t ≠ ⟨0, 0, 0⟩) (heq : s.range t' = s.range t) :
    ∃ m m', s.visualMagnitude t = .ok m ∧ s.visualMagnitude t' = .ok m' ∧ m' < m := by
  have hdist : 0 < s.range t := Vec3.magnitude_pos.mpr hd
  have hd' : s.targetVector t' ≠ ⟨0, 0, 0⟩ := Vec3.magnitude_pos.mp (by rw [← heq] at hdist; exact hdist)
  obtain ⟨k1, h1⟩ := visualMagnitude_eq hs h0 ha hr hd
  obtain ⟨k2, h2⟩ := visualMagnitude_eq hs' (lt_trans h0 hlt) ha hr hd'
  refine ⟨_, _, h1, h2, ?_⟩
  have hp := phase_strictMono ⟨h0.le, (C04_angle_laws _ _ _ hs).2.1⟩
    ⟨(lt_trans h0 hlt).le, (C04_angle_laws _ _ _ hs').2.1⟩ hlt
  have hpi := pi_pos
  have : logb 10 (2 / 3 * s.albedo * s.body_radius ^ 2 / (π * (s.range t) ^ 2) * Spec.lambert sun) <
      logb 10 (2 / 3 * s.albedo * s.body_radius ^ 2 / (π * (s.range t') ^ 2) * Spec.lambert sun') := by
    apply Real.logb_lt_logb (by norm_num) k1
    rw [heq]
    gcongr
  linarith

/-- two targets on the line from the Sun through the observer: the hypotheses above are met -/
example : ∃ s t t' : Spacecraft (Fin 3), s.sunAngle t = .ok π ∧ s.sunAngle t' = .ok π ∧ 0 < s.albedo ∧
    s.body_radius ≠ 0 ∧ s.targetVector t ≠ ⟨0, 0, 0⟩ ∧ s.range t < s.range t' := by
  have hS : Sun.getPosition ⟨0⟩ ≠ ⟨0, 0, 0⟩ := Vec3.magnitude_pos.mp (by
    have := (C30_sun ⟨0⟩).1
    norm_num at this
    linarith)
  obtain ⟨S, hSe⟩ : ∃ S, S = Sun.getPosition ⟨0⟩ := ⟨_, rfl⟩
  rw [← hSe] at hS
  obtain ⟨w, hw, hg⟩ := exists_fresh (ι := Fin 3) fun k => GCRF.new ⟨0⟩ (S.scaled (-(k.val : ℝ))) ⟨0, 1, 0⟩
  have hpos : ∀ k, (w k).position = S.scaled (-(k.val : ℝ)) ∧ (w k).currentState.epoch = ⟨0⟩ := by
    intro k
    obtain ⟨s, h1, -, -, h2, -⟩ := new_ok (ι := Fin 3) (GCRF.new ⟨0⟩ (S.scaled (-(k.val : ℝ))) ⟨0, 1, 0⟩)
    rw [hg k] at h1
    cases h1
    unfold position currentState
    rw [h2]
    exact ⟨rfl, rfl⟩
  have hsun : (w 0).sunVector = S := by
    show Vec3.minus (Sun.getPosition (w 0).currentState.epoch) (w 0).position = S
    rw [(hpos 0).1, (hpos 0).2, ← hSe]
    ext <;> simp [Vec3.minus, Vec3.scaled]
  have htv : ∀ k, (w 0).targetVector (w k) = S.scaled (-(k.val : ℝ)) := by
    intro k
    unfold targetVector
    rw [(hpos 0).1, (hpos k).1]
    ext <;> simp [Vec3.minus, Vec3.scaled]
  have hmag := Vec3.magnitude_pos.mpr hS
  have hang : ∀ k : Fin 3, 0 < k.val → (w 0).sunAngle (w k) = .ok π := by
    intro k hk
    have hk' : (0 : ℝ) < k.val := by exact_mod_cast hk
    have hne : S.scaled (-(k.val : ℝ)) ≠ ⟨0, 0, 0⟩ := by
      rw [← Vec3.magnitude_pos, Vec3.magnitude_scaled]
      have : 0 < |(-(k.val : ℝ))| := abs_pos.mpr (by linarith)
      positivity
    rw [sunAngle, hsun, htv k, Vec3.angle_ok hS hne, Vec3.magnitude_scaled, abs_neg, abs_of_pos hk']
    have e : S.dot (S.scaled (-(k.val : ℝ))) / (S.magnitude * (k.val * S.magnitude)) = -1 := by
      have hd : S.dot (S.scaled (-(k.val : ℝ))) = -(k.val * S.magnitude ^ 2) := by
        rw [Vec3.magnitude_sq]; simp only [Vec3.dot, Vec3.scaled]; ring
      rw [hd]
      field_simp
    rw [e, arccos_neg_one]
  obtain ⟨-, h2, h3⟩ := fresh_sensorDefaults hw 0
  refine ⟨w 0, w 1, w 2, hang 1 (by decide), hang 2 (by decide), by rw [h2]; norm_num, by rw [h3]; norm_num, ?_, ?_⟩
  · rw [htv 1, ← Vec3.magnitude_pos, Vec3.magnitude_scaled]
    simpa using hmag
  · unfold range
    rw [htv 1, htv 2, Vec3.magnitude_scaled, Vec3.magnitude_scaled]
    norm_num
    linarith

end Detect

end Openspace
