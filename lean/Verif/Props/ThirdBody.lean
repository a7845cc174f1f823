import Verif.Spec.ThirdBody
import Verif.Props.Celestial
import Verif.Props.States

/-!
# Perturbations by Moon and Sun (C80) and solar radiation pressure (C81)
-/

namespace Openspace

open Spec

/-! ## C80 -/

theorem toE_minus (a b : Vec3) : (a.minus b).toE = a.toE - b.toE := by
  ext i; fin_cases i <;> rfl

theorem thirdBody_eq {s pos : Vec3} (mu : ℝ) (hs : s ≠ ⟨0, 0, 0⟩) (hp : pos ≠ s) :
    ∃ a, GCRF.thirdBody s pos mu = .ok a ∧
      a.toE = attraction mu s.toE pos.toE - attraction mu s.toE 0 := by
  have h1 : 0 < (s.minus pos).magnitude := by
    rw [Vec3.magnitude_pos]
    intro h
    apply hp
    simp only [Vec3.minus, Vec3.mk.injEq] at h
    exact Vec3.ext (by linarith [h.1]) (by linarith [h.2.1]) (by linarith [h.2.2])
  have h2 := Vec3.magnitude_pos.mpr hs
  refine ⟨_, by
    simp only [GCRF.thirdBody]
    rw [pyDiv_ok (by positivity), ok_bind, pyDiv_ok (by positivity), ok_bind, pure_eq_ok], ?_⟩
  rw [toE_scaled, toE_minus, toE_scaled, toE_scaled]
  simp only [attraction, sub_zero, ← toE_minus, Vec3.norm_toE]
  rw [smul_sub, smul_smul, smul_smul]
  congr 2
  · field_simp
  · field_simp

theorem hasGradientAt_disturbing (mu : ℝ) {s x : EuclideanSpace ℝ (Fin 3)} (hx : x ≠ s) :
    HasGradientAt (disturbing mu s) (attraction mu s x - attraction mu s 0) x := by
  have hd : s - x ≠ 0 := sub_ne_zero.mpr hx.symm
  have h1 := (hasGradientAt_pointMass mu hd).hasFDerivAt
  have h2 : HasFDerivAt (fun y : EuclideanSpace ℝ (Fin 3) => s - y)
      (-ContinuousLinearMap.id ℝ (EuclideanSpace ℝ (Fin 3))) x := (hasFDerivAt_id x).const_sub s
  have h3 := h1.comp x h2
  have h4 : HasFDerivAt (fun y : EuclideanSpace ℝ (Fin 3) => inner ℝ s y) (innerSL ℝ s) x :=
    (innerSL ℝ s).hasFDerivAt
  have h5 := h3.sub (h4.const_mul (mu / ‖s‖ ^ 3))
  rw [hasGradientAt_iff_hasFDerivAt]
  refine (h5.congr_fderiv ?_).congr_of_eventuallyEq (Filter.Eventually.of_forall fun y => ?_)
  · ext v
    simp [attraction]
    ring
  · simp only [disturbing, pointMass, Function.comp, Pi.sub_apply]
    ring

/-- the Moon's perturbation is its attraction of the satellite less its attraction of the Earth, the
gradient of the disturbing function, for every position other than that of the Moon -/
theorem C80_moon (s : GCRF) {m : Vec3} (hm : Moon.getPosition s.epoch = .ok m) (hp : s.position ≠ m) :
    ∃ a, s.accelerationFromMoon = .ok a ∧
      a.toE = attraction Moon.MU m.toE s.position.toE - attraction Moon.MU m.toE 0 ∧
      HasGradientAt (disturbing Moon.MU m.toE) a.toE s.position.toE := by
  obtain ⟨m', hm', h1, -⟩ := C30_moon s.epoch
  cases hm.symm.trans hm'
  have hne : m ≠ ⟨0, 0, 0⟩ := Vec3.magnitude_pos.mp (by linarith)
  obtain ⟨a, ha, he⟩ := thirdBody_eq Moon.MU hne hp
  refine ⟨a, by simp only [GCRF.accelerationFromMoon, hm, ok_bind, ha], he, ?_⟩
  rw [he]
  exact hasGradientAt_disturbing _ fun h => hp (Vec3.toE_injective h)

/-- the same for the Sun -/
theorem C80_sun (s : GCRF) (hp : s.position ≠ Sun.getPosition s.epoch) :
    ∃ a, s.accelerationFromSun = .ok a ∧
      a.toE = attraction Sun.MU (Sun.getPosition s.epoch).toE s.position.toE -
        attraction Sun.MU (Sun.getPosition s.epoch).toE 0 ∧
      HasGradientAt (disturbing Sun.MU (Sun.getPosition s.epoch).toE) a.toE s.position.toE := by
  have h1 := (C30_sun s.epoch).1
  have hne : Sun.getPosition s.epoch ≠ ⟨0, 0, 0⟩ := Vec3.magnitude_pos.mp (by norm_num at h1; linarith)
  obtain ⟨a, ha, he⟩ := thirdBody_eq Sun.MU hne hp
  refine ⟨a, ha, he, ?_⟩
  rw [he]
  exact hasGradientAt_disturbing _ fun h => hp (Vec3.toE_injective h)

/-- neither moves the centre of the Earth: there the perturbation is the zero vector -/
theorem C80_centre (s : GCRF) (h : s.position = ⟨0, 0, 0⟩) :
    s.accelerationFromMoon = .ok ⟨0, 0, 0⟩ ∧ s.accelerationFromSun = .ok ⟨0, 0, 0⟩ := by
  have h0 : (⟨0, 0, 0⟩ : Vec3).toE = 0 := by ext i; fin_cases i <;> rfl
  have hz : ∀ a : Vec3, a.toE = 0 → a = ⟨0, 0, 0⟩ := fun a ha => Vec3.toE_injective (by rw [ha, h0])
  obtain ⟨m, hm, h1, -⟩ := C30_moon s.epoch
  have h2 := (C30_sun s.epoch).1
  constructor
  · obtain ⟨a, ha, he, -⟩ := C80_moon s hm (by rw [h]; exact (Vec3.magnitude_pos.mp (by linarith)).symm)
    rw [h, h0, sub_self] at he
    rw [ha, hz a he]
  · obtain ⟨a, ha, he, -⟩ := C80_sun s (by rw [h]; exact (Vec3.magnitude_pos.mp (by norm_num at h2; linarith)).symm)
    rw [h, h0, sub_self] at he
    rw [ha, hz a he]

theorem thirdBody_at (s : Vec3) (mu : ℝ) : GCRF.thirdBody s s mu = .error .zeroDivision := by
  have : (s.minus s).magnitude = 0 := Vec3.magnitude_eq_zero.mpr (by ext <;> simp [Vec3.minus])
  simp only [GCRF.thirdBody, this, mul_zero, pyDiv_zero, error_bind]

/-- it raises exactly at the centre of the perturbing body, and then `ZeroDivisionError` -/
theorem C80_raises (s : GCRF) (e : PyErr) :
    (s.accelerationFromMoon = .error e ↔ e = .zeroDivision ∧ Moon.getPosition s.epoch = .ok s.position) ∧
    (s.accelerationFromSun = .error e ↔ e = .zeroDivision ∧ Sun.getPosition s.epoch = s.position) := by
  constructor
  · obtain ⟨m, hm, -⟩ := C30_moon s.epoch
    by_cases hp : s.position = m
    · rw [hm, hp]
      simp only [GCRF.accelerationFromMoon, hm, ok_bind, hp, thirdBody_at, Except.error.injEq, and_true]
      exact eq_comm
    · obtain ⟨a, ha, -⟩ := C80_moon s hm hp
      rw [ha, hm]
      simp only [reduceCtorEq, Except.ok.injEq, false_iff, not_and]
      exact fun _ h => hp h.symm
  · by_cases hp : s.position = Sun.getPosition s.epoch
    · simp only [GCRF.accelerationFromSun, hp, thirdBody_at, Except.error.injEq, and_true]
      exact eq_comm
    · obtain ⟨a, ha, -⟩ := C80_sun s hp
      rw [ha]
      simp only [reduceCtorEq, false_iff, not_and]
      exact fun _ h => hp h.symm

/-- a geosynchronous satellite is neither at the Moon nor at the Sun -/
example (t : Epoch) : ∃ m, Moon.getPosition t = .ok m ∧
    (GCRF.new t ⟨42164, 0, 0⟩ ⟨0, 3, 0⟩).position ≠ m ∧
    (GCRF.new t ⟨42164, 0, 0⟩ ⟨0, 3, 0⟩).position ≠ Sun.getPosition t := by
  have hp : (GCRF.new t ⟨42164, 0, 0⟩ ⟨0, 3, 0⟩).position.magnitude = 42164 :=
    Vec3.magnitude_of_dot (by norm_num) (by simp [GCRF.new, State.new, Vec3.dot, Vec3.copy]; norm_num)
  obtain ⟨m, hm, h1, -⟩ := C30_moon t
  have h2 := (C30_sun t).1
  refine ⟨m, hm, fun h => ?_, fun h => ?_⟩
  · rw [h] at hp; linarith
  · rw [h] at hp; norm_num at h2; linarith

/-! ## C81 -/

theorem srp_eq (s : GCRF) (h : s.position ≠ Sun.getPosition s.epoch) :
    0 < s.sunVector.magnitude ∧ s.accelerationFromSrp =
      .ok ((s.sunVector.scaled (1 / s.sunVector.magnitude)).scaled (-Sun.P * s.srp_scalar / 1000)) := by
  have hne : s.sunVector ≠ ⟨0, 0, 0⟩ := by
    intro h0
    apply h
    simp only [GCRF.sunVector, Vec3.minus, Vec3.mk.injEq] at h0
    exact Vec3.ext (by linarith [h0.1]) (by linarith [h0.2.1]) (by linarith [h0.2.2])
  refine ⟨Vec3.magnitude_pos.mpr hne, ?_⟩
  simp only [GCRF.accelerationFromSrp, Vec3.normalized_ok hne, ok_bind, Vec3.magnitude_unit (Vec3.unit_dot hne)]
  rw [pyDiv_ok (by norm_num [BASE_IN_KILO])]
  simp only [ok_bind, pure_eq_ok, BASE_IN_KILO]
  norm_num

/-- a state at rest at `k` times the position `m`, with unit scalar -/
noncomputable def srpTest (m : Vec3) (k : ℝ) : GCRF :=
  { GCRF.new ⟨0⟩ (m.scaled k) ⟨0, 0, 0⟩ with srp_scalar := 1 }

/-- the pressure of the code does not depend on the distance from the Sun: two satellites with the same
scalar feel the same acceleration although one is twice as far from the Sun as the other -/
theorem C81_violated : ∃ (s1 s2 : GCRF) (a1 a2 : Vec3), s1.epoch = s2.epoch ∧
    s1.srp_scalar = s2.srp_scalar ∧ s2.sunVector.magnitude = 2 * s1.sunVector.magnitude ∧
    s1.accelerationFromSrp = .ok a1 ∧ s2.accelerationFromSrp = .ok a2 ∧
    a1.magnitude = a2.magnitude ∧ 0 < a1.magnitude := by
  obtain ⟨m, hmdef⟩ : ∃ m, m = Sun.getPosition ⟨0⟩ := ⟨_, rfl⟩
  have h1 := (C30_sun ⟨0⟩).1
  rw [← hmdef] at h1
  have hm : 0 < m.magnitude := by norm_num at h1; linarith
  have hsv : ∀ k, (srpTest m k).sunVector =
      m.scaled (1 - k) := by
    intro k
    simp only [srpTest, GCRF.sunVector, GCRF.new, State.new, Vec3.copy_eq, Epoch.copy, ← hmdef]
    ext <;> simp only [Vec3.minus, Vec3.scaled] <;> ring
  have hmag : ∀ k, k ≤ 1 → (srpTest m k).sunVector.magnitude
      = (1 - k) * m.magnitude := by
    intro k hk
    rw [hsv, Vec3.magnitude_scaled, abs_of_nonneg (by linarith)]
  have hne : ∀ k, k < 1 → (srpTest m k).position ≠
      Sun.getPosition (srpTest m k).epoch := by
    intro k hk h
    simp only [srpTest, GCRF.new, State.new, Vec3.copy_eq, Epoch.copy, ← hmdef] at h
    have h2 := hmag k hk.le
    rw [hsv] at h2
    have h3 : m.scaled (1 - k) = ⟨0, 0, 0⟩ := by
      have e1 := congrArg Vec3.x h; have e2 := congrArg Vec3.y h; have e3 := congrArg Vec3.z h
      simp only [Vec3.scaled] at e1 e2 e3
      ext <;> simp only [Vec3.scaled] <;> linarith
    rw [h3, Vec3.magnitude_eq_zero.mpr rfl] at h2
    nlinarith
  obtain ⟨p1, e1⟩ := srp_eq _ (hne (1 / 2) (by norm_num))
  obtain ⟨p2, e2⟩ := srp_eq _ (hne 0 (by norm_num))
  have hP : Sun.P = 4.56e-6 := rfl
  refine ⟨srpTest m (1 / 2), srpTest m 0, _, _, rfl, rfl, ?_, e1, e2, ?_, ?_⟩
  · rw [hmag 0 (by norm_num), hmag (1 / 2) (by norm_num)]; ring
  · rw [Vec3.magnitude_scaled _ (-Sun.P * (srpTest m (1 / 2)).srp_scalar / 1000),
      Vec3.magnitude_scaled _ (-Sun.P * (srpTest m 0).srp_scalar / 1000), Vec3.magnitude_unit (Vec3.unit_dot (Vec3.magnitude_pos.mp p1)),
      Vec3.magnitude_unit (Vec3.unit_dot (Vec3.magnitude_pos.mp p2))]
    rfl
  · rw [Vec3.magnitude_scaled _ (-Sun.P * (srpTest m (1 / 2)).srp_scalar / 1000), Vec3.magnitude_unit (Vec3.unit_dot (Vec3.magnitude_pos.mp p1)), hP]
    change 0 < |-(4.56e-6 : ℝ) * 1 / 1000| * 1
    norm_num

/-- what does hold: wherever the satellite is, the acceleration points straight away from the Sun (toward it
for a negative scalar) with magnitude `P |srp_scalar| / 1000`; it raises exactly at the Sun -/
theorem C81_direction_partial (s : GCRF) :
    (s.position ≠ Sun.getPosition s.epoch → ∃ a, s.accelerationFromSrp = .ok a ∧
      a.magnitude = Sun.P * |s.srp_scalar| / 1000 ∧
      a.dot (s.position.minus (Sun.getPosition s.epoch)) =
        Sun.P * s.srp_scalar / 1000 * (s.position.minus (Sun.getPosition s.epoch)).magnitude) ∧
    (s.position = Sun.getPosition s.epoch → s.accelerationFromSrp = .error .zeroDivision) := by
  have hP : 0 < Sun.P := by norm_num [Sun.P]
  constructor
  · intro h
    obtain ⟨p1, e1⟩ := srp_eq s h
    have hm : (s.position.minus (Sun.getPosition s.epoch)) = s.sunVector.scaled (-1) := by
      ext <;> simp only [GCRF.sunVector, Vec3.minus, Vec3.scaled] <;> ring
    refine ⟨_, e1, ?_, ?_⟩
    · rw [Vec3.magnitude_scaled, Vec3.magnitude_unit (Vec3.unit_dot (Vec3.magnitude_pos.mp p1)), mul_one,
        abs_div, abs_mul, abs_neg, abs_of_pos hP]
      norm_num
    · have hsq := s.sunVector.magnitude_sq_dot
      rw [hm, Vec3.magnitude_scaled]
      simp only [Vec3.scaled, Vec3.dot] at hsq ⊢
      have : |(-1 : ℝ)| = 1 := by norm_num
      rw [this]
      generalize s.sunVector.magnitude = r at *
      field_simp
      linear_combination (-s.srp_scalar) * hsq
  · intro h
    have : s.sunVector = ⟨0, 0, 0⟩ := by
      ext <;> simp [GCRF.sunVector, Vec3.minus, h]
    simp only [GCRF.accelerationFromSrp, this, Vec3.normalized_zero, error_bind]

end Openspace
