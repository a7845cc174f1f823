import Verif.Model.Elements
import Verif.Lemmas.Linalg
import Verif.Props.Functions
import Verif.Props.Kepler

/-!
# Properties C21, C22: classical elements
-/

namespace Openspace

open Real

namespace ClassicalElements

/-- direction of perigee (closed form) -/
noncomputable def dirP (el : ClassicalElements) : Vec3 :=
  ⟨cos el.argument_of_perigee * cos el.raan - sin el.argument_of_perigee * cos el.inclination * sin el.raan,
   cos el.argument_of_perigee * sin el.raan + sin el.argument_of_perigee * cos el.inclination * cos el.raan,
   sin el.argument_of_perigee * sin el.inclination⟩

/-- orbit normal from node and inclination -/
noncomputable def dirW (el : ClassicalElements) : Vec3 :=
  ⟨sin el.inclination * sin el.raan, -(sin el.inclination * cos el.raan), cos el.inclination⟩

variable (el : ClassicalElements)

theorem dirP_unit : el.dirP.dot el.dirP = 1 := by
  simp only [dirP, Vec3.dot]
  linear_combination (cos el.argument_of_perigee ^ 2
      + sin el.argument_of_perigee ^ 2 * cos el.inclination ^ 2) * sin_sq_add_cos_sq el.raan
    + sin el.argument_of_perigee ^ 2 * sin_sq_add_cos_sq el.inclination
    + sin_sq_add_cos_sq el.argument_of_perigee

theorem dirQ_unit : el.semilatusRectumVector.dot el.semilatusRectumVector = 1 := by
  simp only [semilatusRectumVector, Vec3.dot, pySin, pyCos]
  linear_combination (sin el.argument_of_perigee ^ 2
      + cos el.argument_of_perigee ^ 2 * cos el.inclination ^ 2) * sin_sq_add_cos_sq el.raan
    + cos el.argument_of_perigee ^ 2 * sin_sq_add_cos_sq el.inclination
    + sin_sq_add_cos_sq el.argument_of_perigee

theorem dirP_dirQ : el.dirP.dot el.semilatusRectumVector = 0 := by
  simp only [semilatusRectumVector, dirP, Vec3.dot, pySin, pyCos]
  linear_combination (sin el.argument_of_perigee * cos el.argument_of_perigee
      * (cos el.inclination ^ 2 - 1)) * sin_sq_add_cos_sq el.raan
    + sin el.argument_of_perigee * cos el.argument_of_perigee * sin_sq_add_cos_sq el.inclination

theorem dirP_cross_dirQ : el.dirP.cross el.semilatusRectumVector = el.dirW := by
  have hw := sin_sq_add_cos_sq el.argument_of_perigee
  have ho := sin_sq_add_cos_sq el.raan
  ext
  · simp only [semilatusRectumVector, dirP, dirW, Vec3.cross, pySin, pyCos]
    linear_combination (sin el.inclination * sin el.raan) * hw
  · simp only [semilatusRectumVector, dirP, dirW, Vec3.cross, pySin, pyCos]
    linear_combination -(sin el.inclination * cos el.raan) * hw
  · simp only [semilatusRectumVector, dirP, dirW, Vec3.cross, pySin, pyCos]
    linear_combination cos el.inclination * hw
      + cos el.inclination * (cos el.argument_of_perigee ^ 2 + sin el.argument_of_perigee ^ 2) * ho

theorem perigeeVector_eq : el.perigeeVector = .ok el.dirP :=
  Vec3.normalized_of_unit el.dirP_unit

theorem dirW_unit : el.dirW.dot el.dirW = 1 := by
  simp only [dirW, Vec3.dot]
  linear_combination sin el.inclination ^ 2 * sin_sq_add_cos_sq el.raan + sin_sq_add_cos_sq el.inclination

end ClassicalElements

theorem comb_dot {P Q : Vec3} (hP : P.dot P = 1) (hQ : Q.dot Q = 1) (hPQ : P.dot Q = 0) (a b c d : ℝ) :
    ((P.scaled a).plus (Q.scaled b)).dot ((P.scaled c).plus (Q.scaled d)) = a * c + b * d := by
  simp only [Vec3.dot, Vec3.plus, Vec3.scaled] at *
  linear_combination a * c * hP + b * d * hQ + (a * d + b * c) * hPQ

theorem comb_cross (P Q : Vec3) (a b c d : ℝ) :
    ((P.scaled a).plus (Q.scaled b)).cross ((P.scaled c).plus (Q.scaled d))
      = (P.cross Q).scaled (a * d - b * c) := by
  ext <;> simp only [Vec3.cross, Vec3.plus, Vec3.scaled] <;> ring

/-- the state `to_ijk` builds from an eccentric anomaly -/
theorem toIjk_eq (fuel : ℕ) (el : ClassicalElements) (ha : 0 < el.semimajor_axis)
    (he : 0 ≤ el.eccentricity) (he' : el.eccentricity < 1) {E : ℝ}
    (hE : eaFromMaE fuel el.mean_anomaly el.eccentricity = .ok E) :
    el.toIjk fuel = .ok (State.new el.epoch
      ((el.dirP.scaled (el.semimajor_axis * (cos E - el.eccentricity))).plus
        (el.semilatusRectumVector.scaled
          (el.semimajor_axis * √(1 - el.eccentricity * el.eccentricity) * sin E)))
      ((el.dirP.scaled (-el.semimajor_axis * (1 / (el.semimajor_axis * (1 - el.eccentricity * cos E))
          * √(Earth.MU / el.semimajor_axis)) * sin E)).plus
        (el.semilatusRectumVector.scaled (el.semimajor_axis * √(1 - el.eccentricity * el.eccentricity)
          * (1 / (el.semimajor_axis * (1 - el.eccentricity * cos E))
          * √(Earth.MU / el.semimajor_axis)) * cos E)))) := by
  have h1 := one_sub_e_cos_pos he he' E
  have h2 : (0 : ℝ) ≤ 1 - el.eccentricity * el.eccentricity := by nlinarith
  have h3 : el.semimajor_axis * (1 - el.eccentricity * cos E) ≠ 0 := by positivity
  have h4 : (0 : ℝ) ≤ Earth.MU / el.semimajor_axis := by
    have : (0 : ℝ) < Earth.MU := by norm_num [Earth.MU]
    positivity
  simp only [ClassicalElements.toIjk, el.perigeeVector_eq, ClassicalElements.eccentricAnomaly, hE, ok_bind,
    pyDiv_ok ha.ne', pyCos, pySin, pyDiv_ok h3, pySqrt_ok h2, pySqrt_ok h4, pure_eq_ok]

theorem mu_pos : (0 : ℝ) < Earth.MU := by norm_num [Earth.MU]

/-! ## C22 -/

/-- the perigee and semi-latus-rectum vectors are orthonormal, with the orbit normal of the
given node and inclination as cross product -/
theorem C22_frame (el : ClassicalElements) :
    ∃ P, el.perigeeVector = .ok P ∧ P.dot P = 1 ∧
      el.semilatusRectumVector.dot el.semilatusRectumVector = 1 ∧ P.dot el.semilatusRectumVector = 0 ∧
      P.cross el.semilatusRectumVector =
        ⟨sin el.inclination * sin el.raan, -(sin el.inclination * cos el.raan), cos el.inclination⟩ :=
  ⟨_, el.perigeeVector_eq, el.dirP_unit, el.dirQ_unit, el.dirP_dirQ, el.dirP_cross_dirQ⟩

/-- the returned state is on the orbit described by the elements -/
theorem C22_orbit (fuel : ℕ) (el : ClassicalElements) (s : State) (ha : 0 < el.semimajor_axis)
    (he : 0 ≤ el.eccentricity) (he' : el.eccentricity < 1) (h : el.toIjk fuel = .ok s) :
    ∃ E, eaFromMaE fuel el.mean_anomaly el.eccentricity = .ok E ∧
      s.epoch = el.epoch ∧
      s.position.magnitude = el.semimajor_axis * (1 - el.eccentricity * cos E) ∧
      s.velocity.magnitude ^ 2 / 2 - Earth.MU / s.position.magnitude
        = -Earth.MU / (2 * el.semimajor_axis) ∧
      s.position.cross s.velocity =
        (Vec3.mk (sin el.inclination * sin el.raan) (-(sin el.inclination * cos el.raan))
          (cos el.inclination)).scaled
          (√(Earth.MU * (el.semimajor_axis * (1 - el.eccentricity ^ 2)))) ∧
      s.position.dot s.velocity = √(Earth.MU * el.semimajor_axis) * el.eccentricity * sin E := by
  have hE : ∃ E, eaFromMaE fuel el.mean_anomaly el.eccentricity = .ok E := by
    simp only [ClassicalElements.toIjk, el.perigeeVector_eq, ClassicalElements.eccentricAnomaly, ok_bind,
      bind_eq_ok] at h
    obtain ⟨E, hE, _⟩ := h
    exact ⟨E, hE⟩
  obtain ⟨E, hE⟩ := hE
  rw [toIjk_eq fuel el ha he he' hE, Except.ok.injEq] at h
  have hmu := mu_pos
  have h1 := one_sub_e_cos_pos he he' E
  set a := el.semimajor_axis with hadef
  set e := el.eccentricity with hedef
  have h2 : (0 : ℝ) < 1 - e * e := by nlinarith
  have hss := Real.mul_self_sqrt h2.le
  have hma : (0 : ℝ) ≤ Earth.MU / a := by positivity
  have hsm := Real.mul_self_sqrt hma
  set b := √(1 - e * e) with hb
  set k := √(Earth.MU / a) with hk
  have hcs := sin_sq_add_cos_sq E
  have hpos : s.position = (el.dirP.scaled (a * (cos E - e))).plus
      (el.semilatusRectumVector.scaled (a * b * sin E)) := by rw [← h]; rfl
  have hvel : s.velocity = (el.dirP.scaled (-a * (1 / (a * (1 - e * cos E)) * k) * sin E)).plus
      (el.semilatusRectumVector.scaled (a * b * (1 / (a * (1 - e * cos E)) * k) * cos E)) := by
    rw [← h]; rfl
  have hr : s.position.magnitude = a * (1 - e * cos E) := by
    apply Vec3.magnitude_of_dot (by positivity)
    rw [hpos, comb_dot el.dirP_unit el.dirQ_unit el.dirP_dirQ]
    linear_combination a ^ 2 * (sin E) ^ 2 * hss + a ^ 2 * (1 - e ^ 2) * hcs
  have hmua : Earth.MU = k * k * a := by rw [hsm]; field_simp
  have hsq : √(Earth.MU * a) = k * a := by
    rw [hmua, show k * k * a * a = (k * a) * (k * a) by ring]
    exact Real.sqrt_mul_self (by positivity)
  have hsq2 : √(Earth.MU * (a * (1 - e ^ 2))) = k * a * b := by
    rw [hmua, show k * k * a * (a * (1 - e ^ 2)) = (k * a * b) * (k * a * b) by
      linear_combination -(k * a) ^ 2 * hss]
    exact Real.sqrt_mul_self (by positivity)
  refine ⟨E, hE, by rw [← h]; rfl, hr, ?_, ?_, ?_⟩
  · rw [Vec3.magnitude_sq_dot, hr, hvel, comb_dot el.dirP_unit el.dirQ_unit el.dirP_dirQ, hmua]
    field_simp
    have hs2 : sin E ^ 2 = 1 - cos E ^ 2 := by linarith
    have hb2 : b ^ 2 = 1 - e ^ 2 := by rw [sq, hss]; ring
    rw [hs2, hb2]
    ring
  · rw [hpos, hvel, comb_cross, el.dirP_cross_dirQ, hsq2]
    have : a * (cos E - e) * (a * b * (1 / (a * (1 - e * cos E)) * k) * cos E)
        - a * b * sin E * (-a * (1 / (a * (1 - e * cos E)) * k) * sin E) = k * a * b := by
      obtain ⟨D, hD⟩ : ∃ D, D = 1 - e * cos E := ⟨_, rfl⟩
      rw [← hD] at h1 ⊢
      field_simp
      linear_combination b * k * (hcs - hD)
    rw [this]; rfl
  · rw [hpos, hvel, comb_dot el.dirP_unit el.dirQ_unit el.dirP_dirQ, hsq]
    obtain ⟨D, hD⟩ : ∃ D, D = 1 - e * cos E := ⟨_, rfl⟩
    rw [← hD] at h1 ⊢
    field_simp
    linear_combination k * (sin E * cos E * hss - e * sin E * hD)

/-- `to_ijk` returns for every elliptic element set with mean anomaly within a turn of zero -/
theorem C22_returns (el : ClassicalElements) (ha : 0 < el.semimajor_axis) (he : 0 ≤ el.eccentricity)
    (he' : el.eccentricity < 1) (h1 : -(2 * π) ≤ el.mean_anomaly) (h2 : el.mean_anomaly ≤ 2 * π) :
    ∃ s n, ∀ fuel, n ≤ fuel → el.toIjk fuel = .ok s := by
  obtain ⟨E, n, hE⟩ := C17_terminates _ _ he he' h1 h2
  exact ⟨_, n, fun fuel hf => toIjk_eq fuel el ha he he' (hE fuel hf)⟩

/-! ## C21 -/

theorem C21_round_trip (el : ClassicalElements) (ha : 0 < el.semimajor_axis)
    (he : 0 < el.eccentricity) (he' : el.eccentricity < 1)
    (hi : 0 < el.inclination) (hi' : el.inclination < π)
    (hO : 0 ≤ el.raan) (hO' : el.raan < 2 * π)
    (hw : 0 ≤ el.argument_of_perigee) (hw' : el.argument_of_perigee < 2 * π)
    (hM : 0 ≤ el.mean_anomaly) (hM' : el.mean_anomaly < 2 * π) :
    ∃ s el' n, (∀ fuel, n ≤ fuel → el.toIjk fuel = .ok s) ∧ ClassicalElements.fromIjk s = .ok el' ∧
      el'.epoch = el.epoch ∧ el'.semimajor_axis = el.semimajor_axis ∧
      el'.eccentricity = el.eccentricity ∧ el'.inclination = el.inclination ∧ el'.raan = el.raan ∧
      el'.argument_of_perigee = el.argument_of_perigee ∧
      0 ≤ el'.mean_anomaly ∧ el'.mean_anomaly < 2 * π ∧
      ∃ k : ℤ, |el'.mean_anomaly - (el.mean_anomaly + 2 * π * k)| ≤ 5e-25 := by
  obtain ⟨E, n, hE⟩ := C17_terminates _ _ he.le he' (by linarith) hM'.le
  have hEr := C18_range n _ _ E he.le he' (by linarith [pi_pos]) hM' (hE n le_rfl)
  obtain ⟨kM, hkM, _⟩ := C16_solution n _ _ E he.le he' (hE n le_rfl)
  obtain ⟨s, n2, hs⟩ := C22_returns el ha he.le he' (by linarith) hM'.le
  have hsE := toIjk_eq (max n n2) el ha he.le he' (hE _ (le_max_left _ _))
  obtain ⟨E', hE', hep, hr, hen, hh, hrv⟩ := C22_orbit (max n n2) el s ha he.le he' (hs _ (le_max_right _ _))
  have : E' = E := by
    have := hE _ (le_max_left n n2); rw [hE', Except.ok.injEq] at this; exact this
  subst this
  have hmu := mu_pos
  have h1 := one_sub_e_cos_pos he.le he' E'
  have hspos : s.position = (el.dirP.scaled (el.semimajor_axis * (cos E' - el.eccentricity))).plus
      (el.semilatusRectumVector.scaled
        (el.semimajor_axis * √(1 - el.eccentricity * el.eccentricity) * sin E')) := by
    rw [hs _ (le_max_right _ _), Except.ok.injEq] at hsE
    rw [hsE]; rfl
  set a := el.semimajor_axis with hadef
  set e := el.eccentricity with hedef
  have h2 : (0 : ℝ) < 1 - e ^ 2 := by nlinarith
  have hp : 0 < Earth.MU * (a * (1 - e ^ 2)) := by positivity
  have hrpos : 0 < s.position.magnitude := by rw [hr]; positivity
  replace hh : s.position.cross s.velocity = el.dirW.scaled (√(Earth.MU * (a * (1 - e ^ 2)))) := hh
  -- the normal
  have hW : (s.position.cross s.velocity).normalized = .ok el.dirW := by
    have hne : s.position.cross s.velocity ≠ ⟨0, 0, 0⟩ := by
      rw [← Vec3.magnitude_ne_zero, hh, Vec3.magnitude_scaled, Vec3.magnitude_unit el.dirW_unit,
        abs_of_pos (Real.sqrt_pos.mpr hp)]
      simpa using (Real.sqrt_pos.mpr hp).ne'
    rw [Vec3.normalized_ok hne, hh, Vec3.magnitude_scaled, Vec3.magnitude_unit el.dirW_unit,
      abs_of_pos (Real.sqrt_pos.mpr hp)]
    have := (Real.sqrt_pos.mpr hp).ne'
    congr 1
    ext <;> simp only [Vec3.scaled, ClassicalElements.dirW] <;> field_simp
  have hhm : (s.position.cross s.velocity).magnitude = √(Earth.MU * (a * (1 - e ^ 2))) := by
    rw [hh, Vec3.magnitude_scaled, Vec3.magnitude_unit el.dirW_unit, abs_of_pos (Real.sqrt_pos.mpr hp),
      mul_one]
  -- semi-major axis
  have hA : aFromMuRV Earth.MU s.position.magnitude s.velocity.magnitude = .ok a := by
    have : 2 / s.position.magnitude - s.velocity.magnitude * s.velocity.magnitude / Earth.MU = 1 / a := by
      have hv : s.velocity.magnitude * s.velocity.magnitude
          = 2 * (Earth.MU / s.position.magnitude - Earth.MU / (2 * a)) := by
        have : -Earth.MU / (2 * a) = -(Earth.MU / (2 * a)) := by ring
        rw [this] at hen
        linarith
      rw [hv]; field_simp; ring
    simp only [aFromMuRV, pyDiv_ok hrpos.ne', pyDiv_ok hmu.ne', ok_bind, this]
    rw [pyDiv_ok (by positivity), one_div_one_div]
  have hP : pFromMuH Earth.MU (s.position.cross s.velocity).magnitude = .ok (a * (1 - e * e)) := by
    rw [hhm, pFromMuH, Real.mul_self_sqrt hp.le, pyDiv_ok hmu.ne', mul_div_cancel_left₀ _ hmu.ne', sq]
  have hEc : eFromAP a (a * (1 - e * e)) = .ok e := C14_semi_parameter a e ha he.le
  obtain ⟨nn, hN, hn0, hn2, _⟩ := C13_mean_motion a Earth.MU ha hmu
  -- eccentric anomaly
  have hsq : √(Earth.MU * a) = a * a * nn := by
    rw [show Earth.MU * a = (a * a * nn) * (a * a * nn) by rw [← hn2]; ring]
    exact Real.sqrt_mul_self (by positivity)
  have hEA : eaFromRdvRAN (s.position.dot s.velocity) s.position.magnitude a nn = .ok E' := by
    have hd : a * a * nn ≠ 0 := by positivity
    simp only [eaFromRdvRAN, pyDiv_ok hd, pyDiv_ok ha.ne', ok_bind, pure_eq_ok, Except.ok.injEq]
    refine wrapNeg_atan2_eq he hEr.1 hEr.2 ?_ ?_
    · rw [hr]; field_simp; ring
    · rw [hrv, hsq]; field_simp
  obtain ⟨nu, hnu, hnu0, hnu1, _, hc, hsn⟩ := C19_true_anomaly a e E' he.le he'
  -- argument of latitude
  have hU : ∃ k : ℤ, uFromRW s.position el.dirW = el.argument_of_perigee + nu + 2 * π * k := by
    obtain ⟨k, hk⟩ : ∃ k : ℤ, wrapNeg (pyAtan2 (sin (el.argument_of_perigee + nu))
        (cos (el.argument_of_perigee + nu))) = el.argument_of_perigee + nu + 2 * π * k := by
      apply exists_turn
      · rw [wrapNeg_cos]
        have := mul_cos_atan2 (sin (el.argument_of_perigee + nu)) (cos (el.argument_of_perigee + nu))
        rwa [← sq, ← sq, cos_sq_add_sin_sq, Real.sqrt_one, one_mul] at this
      · rw [wrapNeg_sin]
        have := mul_sin_atan2 (sin (el.argument_of_perigee + nu)) (cos (el.argument_of_perigee + nu))
        rwa [← sq, ← sq, cos_sq_add_sin_sq, Real.sqrt_one, one_mul] at this
    have hu := wrapNeg_atan2_range (sin (el.argument_of_perigee + nu)) (cos (el.argument_of_perigee + nu))
    rw [hk] at hu
    refine ⟨k, ?_⟩
    have hrec := (C20_recover el.raan el.inclination (el.argument_of_perigee + nu + 2 * π * k) 1 one_pos
      hO hO' hi hi' hu.1 hu.2 (a * (1 - e * cos E')) (by positivity)).2.2
    rw [cos_turn, sin_turn] at hrec
    rw [← hrec]
    congr 1
    rw [hspos]
    rw [sq] at hsn
    ext <;> simp only [Vec3.plus, Vec3.scaled, ClassicalElements.dirP,
      ClassicalElements.semilatusRectumVector, pySin, pyCos, cos_add, sin_add, ← hc, ← hsn] <;> ring
  obtain ⟨kU, hkU⟩ := hU
  have hUr := C20_ranges.2.1 s.position el.dirW
  have hAop : wFromUNu (uFromRW s.position el.dirW) nu = el.argument_of_perigee := by
    have hr := C20_ranges.2.2.2.2.2.1 _ nu hUr.1 hUr.2 hnu0 hnu1
    refine angle_eq_of_cos_sin hr.1 hr.2 hw hw' ?_ ?_
    · rw [wFromUNu, wrapNeg_cos, hkU,
        show el.argument_of_perigee + nu + 2 * π * kU - nu = el.argument_of_perigee + 2 * π * kU by ring,
        cos_turn]
    · rw [wFromUNu, wrapNeg_sin, hkU,
        show el.argument_of_perigee + nu + 2 * π * kU - nu = el.argument_of_perigee + 2 * π * kU by ring,
        sin_turn]
  have hIR := C20_recover el.raan el.inclination 0 1 one_pos hO hO' hi hi' le_rfl (by linarith [pi_pos]) 1 one_pos
  simp only [one_mul] at hIR
  have hMr := C20_ranges.2.2.2.2.2.2 E' e he.le he' hEr.1 hEr.2
  refine ⟨s, ⟨s.epoch, a, e, el.inclination, el.raan, el.argument_of_perigee, maFromEaE E' e⟩, n2, hs, ?_,
    hep, rfl, rfl, rfl, rfl, rfl, hMr.1, hMr.2, ?_⟩
  · simp only [ClassicalElements.fromIjk, hFromRV, hW, ok_bind, hA, hP, hEc, hN, hEA, hnu, hAop, pure_eq_ok,
      Except.ok.injEq]
    ext <;> simp [Epoch.copy]
    · exact hIR.2.1
    · exact hIR.1
  · obtain ⟨k, hk⟩ := exists_wrapNeg (E' - e * sin E')
    refine ⟨kM + k, ?_⟩
    have : maFromEaE E' e - (el.mean_anomaly + 2 * π * ((kM + k : ℤ) : ℝ))
        = E' - e * sin E' - (el.mean_anomaly + 2 * π * kM) := by
      unfold maFromEaE pySin; rw [hk]; push_cast; ring
    rw [this]; exact hkM

/-- a Molniya orbit meets the hypotheses -/
example : ∃ s el' n, (∀ fuel, n ≤ fuel →
      (ClassicalElements.mk ⟨0⟩ 26600 0.74 1.1 2 3 4).toIjk fuel = .ok s) ∧
      ClassicalElements.fromIjk s = .ok el' ∧ el'.raan = 2 := by
  have := pi_gt_three
  obtain ⟨s, el', n, h1, h2, _, _, _, _, h3, _⟩ := C21_round_trip (ClassicalElements.mk ⟨0⟩ 26600 0.74 1.1 2 3 4)
    (by norm_num) (by norm_num) (by norm_num) (by norm_num) (by simp; linarith) (by norm_num)
    (by simp; linarith) (by norm_num) (by simp; linarith) (by norm_num) (by simp; linarith)
  exact ⟨s, el', n, h1, h2, h3⟩

end Openspace
