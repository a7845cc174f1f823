import Verif.Props.Cases
import Verif.Props.ThirdBody
import Mathlib.Geometry.Euclidean.Angle.Unoriented.TriangleInequality
import Mathlib.Analysis.SpecialFunctions.Trigonometric.Bounds

/-!
# C177: detection with an uncertain target

`Spacecraft.detect` compares four angles and a brightness with limits.  Who calls it for a predicted target wants to
know whether the true target, somewhere within a distance `d` of the predicted one, is detected.  Seen from the
observer at distance `ρ > d`, the two are at most `arcsin (d / ρ)` apart.
-/

set_option linter.unusedSectionVars false

namespace Openspace

open Real

/-- visual magnitude of a diffusely reflecting sphere of radius `r` at distance `ρ`, with the Sun at `sun` radians
from it as seen from the observer -/
noncomputable def Spec.magnitude (albedo r ρ sun : ℝ) : ℝ :=
  -26.74 - 2.5 * logb 10 (2 / 3 * albedo * r ^ 2 / (π * ρ ^ 2) * Spec.lambert sun)

namespace DetectMargin

/-- the sphere around `a` is seen under the angle `arcsin (d / ‖a‖)` -/
theorem angle_le_arcsin {V : Type*} [NormedAddCommGroup V] [InnerProductSpace ℝ V] {a b : V} {d : ℝ}
    (h : ‖b - a‖ ≤ d) (hd : d < ‖a‖) : InnerProductGeometry.angle a b ≤ arcsin (d / ‖a‖) := by
  have hd0 : 0 ≤ d := (norm_nonneg _).trans h
  have ha : 0 < ‖a‖ := hd0.trans_lt hd
  have hb : 0 < ‖b‖ := by
    have : ‖a‖ ≤ ‖b‖ + ‖b - a‖ := by
      have := norm_sub_le b (b - a)
      rwa [sub_sub_cancel] at this
    linarith
  have hn : ‖b - a‖ ^ 2 = ‖b‖ ^ 2 - 2 * inner ℝ a b + ‖a‖ ^ 2 := by
    rw [norm_sub_sq_real, real_inner_comm]
  have hcs := real_inner_le_norm a b
  have hsq : ‖b - a‖ ^ 2 ≤ d ^ 2 := by gcongr
  have hpos : 0 < inner ℝ a b := by nlinarith
  have hcos : 0 < cos (InnerProductGeometry.angle a b) := by
    rw [InnerProductGeometry.cos_angle]; positivity
  have h0 := InnerProductGeometry.angle_nonneg a b
  have h1 := InnerProductGeometry.angle_le_pi a b
  have h2 : InnerProductGeometry.angle a b ≤ π / 2 := by
    by_contra hc
    push Not at hc
    have := cos_nonpos_of_pi_div_two_le_of_le hc.le (by linarith)
    linarith
  rw [le_arcsin_iff_sin_le' ⟨by linarith [pi_pos], h2⟩, le_div_iff₀ ha]
  have hs0 := sin_nonneg_of_nonneg_of_le_pi h0 h1
  refine abs_le_of_sq_le_sq' ?_ hd0 |>.2
  have hc : inner ℝ a b = ‖a‖ * ‖b‖ * cos (InnerProductGeometry.angle a b) := by
    rw [InnerProductGeometry.cos_angle]; field_simp
  have hcs1 := sin_sq_add_cos_sq (InnerProductGeometry.angle a b)
  set c := cos (InnerProductGeometry.angle a b)
  set σ := sin (InnerProductGeometry.angle a b)
  have : (σ * ‖a‖) ^ 2 = ‖a‖ ^ 2 * (1 - c ^ 2) := by rw [← hcs1]; ring
  nlinarith [sq_nonneg (‖b‖ - ‖a‖ * c)]

theorem magnitude_mono {k r ρ ρ' x y : ℝ} (hk : 0 < k) (hr : r ≠ 0) (hρ : 0 < ρ) (h : ρ ≤ ρ') (hx : 0 < x) (hxy : x ≤ y)
    (hy : y ≤ π) : Spec.magnitude k r ρ y ≤ Spec.magnitude k r ρ' x := by
  have hl : Spec.lambert x ≤ Spec.lambert y :=
    phase_strictMono.monotoneOn ⟨hx.le, hxy.trans hy⟩ ⟨hx.le.trans hxy, hy⟩ hxy
  have hlx := phase_pos hx (hxy.trans hy)
  have hpi := pi_pos
  have hρ' := hρ.trans_le h
  unfold Spec.magnitude
  have : logb 10 (2 / 3 * k * r ^ 2 / (π * ρ' ^ 2) * Spec.lambert x) ≤
      logb 10 (2 / 3 * k * r ^ 2 / (π * ρ ^ 2) * Spec.lambert y) := by
    apply logb_le_logb_of_le (by norm_num) (by positivity)
    gcongr
  linarith

end DetectMargin

open DetectMargin Spacecraft

/-- a vector known to within `d` less than its length gives angles known to within `arcsin (d / length)` -/
theorem C177_angle (v a b : Vec3) (d : ℝ) (hv : v ≠ ⟨0, 0, 0⟩) (hab : (b.minus a).magnitude ≤ d) (hd : d < a.magnitude) :
    ∃ x y, v.angle a = .ok x ∧ v.angle b = .ok y ∧ |y - x| ≤ arcsin (d / a.magnitude) := by
  have hab' : ‖b.toE - a.toE‖ ≤ d := by rw [← toE_minus, Vec3.norm_toE]; exact hab
  have hd' : d < ‖a.toE‖ := by rw [Vec3.norm_toE]; exact hd
  have hd0 : 0 ≤ d := (Vec3.magnitude_nonneg _).trans hab
  have ha : a ≠ ⟨0, 0, 0⟩ := Vec3.magnitude_pos.mp (by linarith)
  have hb : b ≠ ⟨0, 0, 0⟩ := by
    have : ‖a.toE‖ ≤ ‖b.toE‖ + ‖b.toE - a.toE‖ := by
      have := norm_sub_le b.toE (b.toE - a.toE)
      rwa [sub_sub_cancel] at this
    refine Vec3.magnitude_pos.mp ?_
    rw [← Vec3.norm_toE]; linarith
  refine ⟨_, _, (C04_angle v a).1 hv ha, (C04_angle v b).1 hv hb, ?_⟩
  have h := angle_le_arcsin hab' hd'
  rw [Vec3.norm_toE] at h
  have h1 := InnerProductGeometry.angle_le_angle_add_angle v.toE a.toE b.toE
  have h2 := InnerProductGeometry.angle_le_angle_add_angle v.toE b.toE a.toE
  rw [InnerProductGeometry.angle_comm b.toE a.toE] at h2
  rw [abs_le]
  constructor <;> linarith

section

variable {ι : Type} [DecidableEq ι]

open Spacecraft

/-- the two directions, and the two distances, of a target known to within `d` -/
theorem DetectMargin.target {s t t' : Spacecraft ι} {d : ℝ} (h : (t'.position.minus t.position).magnitude ≤ d) :
    ((s.targetVector t').minus (s.targetVector t)).magnitude ≤ d ∧ s.range t' ≤ s.range t + d ∧ s.range t - d ≤ s.range t' := by
  have e : (s.targetVector t').minus (s.targetVector t) = t'.position.minus t.position := by
    unfold targetVector; ext <;> simp [Vec3.minus]
  have h1 : ((s.targetVector t').minus (s.targetVector t)).magnitude ≤ d := by rw [e]; exact h
  refine ⟨h1, ?_, ?_⟩
  all_goals
    unfold Spacecraft.range
    rw [← Vec3.norm_toE, toE_minus] at h1
    rw [← Vec3.norm_toE, ← Vec3.norm_toE]
  · have := norm_sub_norm_le (s.targetVector t').toE (s.targetVector t).toE; linarith
  · have := norm_sub_norm_le (s.targetVector t).toE (s.targetVector t').toE
    rw [norm_sub_rev] at this; linarith

/-- **Detection with a margin is detection of the true target**: the predicted target clears every limit by the angle
`α` under which its uncertainty is seen, and is bright enough at the far side of it -/
theorem C177_detected (s t t' : Spacecraft ι) (d sun earth moon bore : ℝ) (hsoft : 0 < s.wfov.limits.sun_soft)
    (hal : 0 < s.albedo) (hrad : s.body_radius ≠ 0)
    (hd : (t'.position.minus t.position).magnitude ≤ d) (hr : d < s.range t)
    (h1 : s.sunAngle t = .ok sun) (h2 : s.earthAngle t = .ok earth) (h3 : s.moonAngle t = .ok moon)
    (h4 : s.body_z.angle (s.targetVector t) = .ok bore)
    (k1 : s.wfov.limits.sun_soft + arcsin (d / s.range t) ≤ sun)
    (k2 : s.wfov.limits.earth + arcsin (d / s.range t) ≤ earth)
    (k3 : s.wfov.limits.moon + arcsin (d / s.range t) ≤ moon)
    (k4 : bore + arcsin (d / s.range t) ≤ s.wfov.limits.bore)
    (k5 : Spec.magnitude s.albedo s.body_radius (s.range t + d) (sun - arcsin (d / s.range t)) ≤ s.wfov.limits.vismag) :
    s.detect t' = .ok true := by
  obtain ⟨hv, hf, hn⟩ := DetectMargin.target (s := s) hd
  have key : ∀ (v : Vec3) (x : ℝ), v.angle (s.targetVector t) = .ok x →
      ∃ y, v.angle (s.targetVector t') = .ok y ∧ |y - x| ≤ arcsin (d / s.range t) := by
    intro v x hx
    obtain ⟨⟨hv0, -⟩, -⟩ := Vec3.angle_eq_ok.mp hx
    obtain ⟨x', y, e1, e2, e3⟩ := C177_angle v _ _ d hv0 hv hr
    rw [hx] at e1; cases e1
    exact ⟨y, e2, e3⟩
  obtain ⟨sun', a1, b1⟩ := key _ _ h1
  obtain ⟨earth', a2, b2⟩ := key _ _ h2
  obtain ⟨m, hm, h3'⟩ : ∃ m, s.moonVector = .ok m ∧ m.angle (s.targetVector t) = .ok moon := by
    unfold moonAngle at h3; simpa only [bind_eq_ok] using h3
  obtain ⟨moon', a3, b3⟩ := key _ _ h3'
  obtain ⟨bore', a4, b4⟩ := key _ _ h4
  rw [abs_le] at b1 b2 b3 b4
  have hle := (C04_angle_laws _ _ _ a1).2.1
  have hρ' : 0 < s.range t' := by linarith
  obtain ⟨-, hvm⟩ := visualMagnitude_eq (t := t') (sun := sun') a1 (by linarith) hal hrad (Vec3.magnitude_pos.mp hρ')
  refine (C66_true _ _).mpr ⟨sun', earth', moon', _, bore', a1, a2, by unfold moonAngle; rw [hm, ok_bind]; exact a3,
    hvm, a4, by linarith, by linarith, by linarith, ?_, by linarith⟩
  exact (magnitude_mono hal hrad hρ' hf (by linarith) (by linarith) hle).trans k5

/-- **A detected target was predictable**: if the true target is detected, the predicted one is within `α` of every
limit, and bright enough at the near side of its uncertainty -/
theorem C177_missed (s t t' : Spacecraft ι) (d : ℝ) (hsoft : 0 < s.wfov.limits.sun_soft)
    (hal : 0 < s.albedo) (hrad : s.body_radius ≠ 0)
    (hd : (t'.position.minus t.position).magnitude ≤ d) (hr : d < s.range t) (h : s.detect t' = .ok true) :
    ∃ sun earth moon bore, s.sunAngle t = .ok sun ∧ s.earthAngle t = .ok earth ∧ s.moonAngle t = .ok moon ∧
      s.body_z.angle (s.targetVector t) = .ok bore ∧
      s.wfov.limits.sun_soft - arcsin (d / s.range t) ≤ sun ∧ s.wfov.limits.earth - arcsin (d / s.range t) ≤ earth ∧
      s.wfov.limits.moon - arcsin (d / s.range t) ≤ moon ∧ bore ≤ s.wfov.limits.bore + arcsin (d / s.range t) ∧
      Spec.magnitude s.albedo s.body_radius (s.range t - d) (min (sun + arcsin (d / s.range t)) π) ≤
        s.wfov.limits.vismag := by
  obtain ⟨hv, hf, hn⟩ := DetectMargin.target (s := s) hd
  obtain ⟨sun', earth', moon', vm, bore', a1, a2, a3, a5, a4, k1, k2, k3, k5, k4⟩ := (C66_true _ _).mp h
  have key : ∀ (v : Vec3) (y : ℝ), v.angle (s.targetVector t') = .ok y →
      ∃ x, v.angle (s.targetVector t) = .ok x ∧ |y - x| ≤ arcsin (d / s.range t) := by
    intro v y hy
    obtain ⟨⟨hv0, -⟩, -⟩ := Vec3.angle_eq_ok.mp hy
    obtain ⟨x, y', e1, e2, e3⟩ := C177_angle v _ _ d hv0 hv hr
    rw [hy] at e2; cases e2
    exact ⟨x, e1, e3⟩
  obtain ⟨sun, h1, b1⟩ := key _ _ a1
  obtain ⟨earth, h2, b2⟩ := key _ _ a2
  obtain ⟨m, hm, a3'⟩ : ∃ m, s.moonVector = .ok m ∧ m.angle (s.targetVector t') = .ok moon' := by
    unfold moonAngle at a3; simpa only [bind_eq_ok] using a3
  obtain ⟨moon, h3, b3⟩ := key _ _ a3'
  obtain ⟨bore, h4, b4⟩ := key _ _ a4
  rw [abs_le] at b1 b2 b3 b4
  have hle := (C04_angle_laws _ _ _ a1).2.1
  have hρ' : 0 < s.range t' := by linarith
  obtain ⟨-, hvm⟩ := visualMagnitude_eq (t := t') (sun := sun') a1 (by linarith) hal hrad (Vec3.magnitude_pos.mp hρ')
  rw [a5] at hvm
  cases hvm
  refine ⟨sun, earth, moon, bore, h1, h2, by unfold moonAngle; rw [hm, ok_bind]; exact h3, h4, by linarith, by linarith,
    by linarith, by linarith, ?_⟩
  exact (magnitude_mono hal hrad (by linarith) hn (by linarith) (le_min (by linarith) hle) (min_le_right _ _)).trans k5

end

/-- a history after which the first spacecraft looks past the second one at a target that clears every limit -/
theorem DetectMargin.pair : ∃ w : World (Fin 2), Fresh w ∧ ∃ s t : Spacecraft (Fin 2), ∃ g : GCRF, ∃ e m o : ℝ,
    s = after 2 [.trackState 0 1] w 0 ∧ Spacecraft.new g = .ok t ∧ DefaultCamera s ∧ SensorDefaults s ∧
    1000 ≤ s.sunVector.magnitude ∧ 1000 ≤ s.position.magnitude ∧ (∃ v, s.moonVector = .ok v ∧ 1000 ≤ v.magnitude) ∧
    1 ≤ s.range t ∧ s.range t ≤ 1.01 ∧ s.sunAngle t = .ok (π / 2 + arcsin (1 / 100 / s.range t)) ∧
    s.earthAngle t = .ok e ∧ s.moonAngle t = .ok m ∧ s.body_z.angle (s.targetVector t) = .ok o ∧
    π / 3 ≤ e ∧ π / 3 ≤ m ∧ o ≤ π / 200 ∧ (∀ x : ℝ, 0 ≤ x → x ≤ 1 / 100 → arcsin x ≤ π / 200) ∧
    Spec.magnitude 0.3 0.005 (s.range t + 1 / 100) (π / 2) ≤ 15 := by
  obtain ⟨w, hw, s, q, hs, -, hcam, hsen, hr, hS1, hP1, hM1, hSu, hsa, hma, ⟨e, hea, he⟩, hb⟩ := tracking_pair
  obtain ⟨S, hSe⟩ : ∃ S, S = s.sunVector := ⟨_, rfl⟩
  obtain ⟨u, hu⟩ : ∃ u, u = s.targetVector q := ⟨_, rfl⟩
  have hu1 : u.magnitude = 1 := by rw [hu]; exact hr
  rw [← hSe, ← hu] at hSu
  have hSm : 0 < S.magnitude := by rw [hSe]; linarith
  have hS : S ≠ ⟨0, 0, 0⟩ := Vec3.magnitude_pos.mp hSm
  obtain ⟨b, hbe⟩ : ∃ b, b = u.minus (S.scaled (1 / 100 / S.magnitude)) := ⟨_, rfl⟩
  obtain ⟨t, ht, -, -, hp, -⟩ := new_ok (ι := Fin 2) (GCRF.new ⟨0⟩ (s.position.plus b) ⟨0, 0, 0⟩)
  have htp : t.position = s.position.plus b := by rw [position_eq, hp]; rfl
  have htv : s.targetVector t = b := by
    unfold Spacecraft.targetVector; rw [htp]; ext <;> simp [Vec3.plus, Vec3.minus]
  have hSS : S.dot S = S.magnitude ^ 2 := (Vec3.magnitude_sq_dot S).symm
  have hSb : S.dot b = -(1 / 100 * S.magnitude) := by
    have : S.dot b = S.dot u - 1 / 100 / S.magnitude * S.dot S := by
      rw [hbe]; simp only [Vec3.dot, Vec3.minus, Vec3.scaled]; ring
    rw [this, hSu, hSS]; field_simp; ring
  have hbb : b.magnitude ^ 2 = 1 + 1 / 100 ^ 2 := by
    have : b.dot b = u.dot u - 2 * (1 / 100 / S.magnitude) * S.dot u + (1 / 100 / S.magnitude) ^ 2 * S.dot S := by
      rw [hbe]; simp only [Vec3.dot, Vec3.minus, Vec3.scaled]; ring
    rw [Vec3.magnitude_sq_dot, this, hSu, hSS, ← Vec3.magnitude_sq_dot, hu1]; field_simp; ring
  have hb0 := Vec3.magnitude_nonneg b
  have hb1 : 1 ≤ b.magnitude := by nlinarith
  have hb2 : b.magnitude ≤ 1.01 := by nlinarith
  have hbn : b ≠ ⟨0, 0, 0⟩ := Vec3.magnitude_pos.mp (by linarith)
  have hrt : s.range t = b.magnitude := by unfold Spacecraft.range; rw [htv]
  -- small angles
  have hsmall : ∀ x : ℝ, 0 ≤ x → x ≤ 1 / 100 → arcsin x ≤ π / 200 := by
    intro x h0 h1
    rw [arcsin_le_iff_le_sin' ⟨by linarith [pi_pos], by linarith [pi_pos]⟩]
    have := mul_le_sin (x := π / 200) (by positivity) (by linarith [pi_pos])
    have e : 2 / π * (π / 200) = 1 / 100 := by field_simp; norm_num
    linarith
  have hα : arcsin (1 / 100 / b.magnitude) ≤ π / 200 :=
    hsmall _ (by positivity) (by rw [div_le_iff₀ (by linarith)]; linarith)
  have hβ : arcsin (1 / 100 / u.magnitude) ≤ π / 200 := hsmall _ (by positivity) (by rw [hu1]; norm_num)
  have hbu : (b.minus u).magnitude ≤ 1 / 100 := by
    have : b.minus u = S.scaled (-(1 / 100 / S.magnitude)) := by
      rw [hbe]; ext <;> simp [Vec3.minus, Vec3.scaled]
    rw [this, Vec3.magnitude_scaled, abs_neg, abs_of_nonneg (by positivity : 0 ≤ 1 / 100 / S.magnitude)]
    rw [div_mul_cancel₀ _ hSm.ne']
  have key : ∀ (v : Vec3) (x : ℝ), v.angle (s.targetVector q) = .ok x → ∃ y, v.angle (s.targetVector t) = .ok y ∧
      |y - x| ≤ π / 200 := by
    intro v x hx
    obtain ⟨⟨hv0, -⟩, -⟩ := Vec3.angle_eq_ok.mp hx
    obtain ⟨x', y, e1, e2, e3⟩ := C177_angle v u b (1 / 100) hv0 hbu (by rw [hu1]; norm_num)
    rw [hu, hx] at e1; cases e1
    exact ⟨y, by rw [htv]; exact e2, e3.trans hβ⟩
  have h1 : s.sunAngle t = .ok (π / 2 + arcsin (1 / 100 / b.magnitude)) := by
    unfold Spacecraft.sunAngle
    rw [htv, ← hSe, Vec3.angle_ok hS hbn, hSb,
      show -(1 / 100 * S.magnitude) / (S.magnitude * b.magnitude) = -(1 / 100 / b.magnitude) by field_simp,
      arccos_neg, arccos]
    congr 1
    ring
  obtain ⟨e', h2, b2⟩ := key _ _ hea
  obtain ⟨m, hm, hma'⟩ : ∃ m, s.moonVector = .ok m ∧ m.angle (s.targetVector q) = .ok (π / 2) := by
    unfold Spacecraft.moonAngle at hma; simpa only [bind_eq_ok] using hma
  obtain ⟨m', h3, b3⟩ := key _ _ hma'
  obtain ⟨o', h4, b4⟩ := key _ _ hb
  rw [abs_le] at b2 b3 b4
  have hpi := pi_pos
  refine ⟨w, hw, s, t, _, e', m', o', hs, ht, hcam, hsen, hS1, hP1, hM1, by rw [hrt]; exact hb1, by rw [hrt]; exact hb2,
    by rw [hrt]; exact h1, h2, by unfold Spacecraft.moonAngle; rw [hm, ok_bind]; exact h3, h4, by linarith, by linarith,
    by linarith, hsmall, ?_⟩
  rw [hrt]
  have hl : Spec.lambert (π / 2) = 1 := by
    rw [Spec.lambert, show π - π / 2 = π / 2 by ring, sin_pi_div_two, cos_pi_div_two]; ring
  have hlog : (-16 : ℝ) ≤ logb 10 (2 / 3 * 0.3 * 0.005 ^ 2 / (π * (b.magnitude + 1 / 100) ^ 2) * Spec.lambert (π / 2)) := by
    rw [hl, mul_one, le_logb_iff_rpow_le (by norm_num) (by positivity), le_div_iff₀ (by positivity),
      show ((10 : ℝ) ^ (-16 : ℝ)) = 10 ^ (-16 : ℤ) by rw [← Real.rpow_intCast]; norm_num]
    have h4 := pi_lt_four
    have hq : (b.magnitude + 1 / 100) ^ 2 ≤ 2 := by nlinarith
    have : π * (b.magnitude + 1 / 100) ^ 2 ≤ 4 * 2 := by gcongr
    norm_num at this ⊢
    linarith
  unfold Spec.magnitude
  linarith

/-- a history after which the target may be anywhere within ten metres of a predicted place and is detected -/
theorem C177_reachable : ∃ w : World (Fin 2), Fresh w ∧ ∃ g : GCRF, ∃ t : Spacecraft (Fin 2), Spacecraft.new g = .ok t ∧
    ∀ t' : Spacecraft (Fin 2), (t'.position.minus t.position).magnitude ≤ 1 / 100 →
      (after 2 [.trackState 0 1] w 0).detect t' = .ok true := by
  obtain ⟨w, hw, s, t, g, e, m, o, hs, ht, hcam, ⟨-, hal, hrad⟩, -, -, -, hb1, hb2, h1, h2, h3, h4, he, hm, ho, hsmall, hv⟩ :=
    DetectMargin.pair
  obtain ⟨l1, l2, l3, l4, l5⟩ := wfov_limits hcam
  have hα : arcsin (1 / 100 / s.range t) ≤ π / 200 :=
    hsmall _ (by positivity) (by rw [div_le_iff₀ (by linarith)]; linarith)
  have hpi := pi_pos
  refine ⟨w, hw, g, t, ht, fun t' hd => hs ▸ C177_detected s t t' (1 / 100) _ e m o (by rw [l1]; positivity)
    (by rw [hal]; norm_num) (by rw [hrad]; norm_num) hd (by linarith) h1 h2 h3 h4 ?_ ?_ ?_ ?_ ?_⟩
  · rw [l1]
  · rw [l2]; linarith
  · rw [l3]; linarith
  · rw [l5]; linarith
  · rw [l4, hal, hrad, add_sub_cancel_right]
    exact hv

end Openspace
