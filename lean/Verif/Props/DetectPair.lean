import Verif.Props.DetectMargin

/-!
# C179: detection when both spacecraft are uncertain

In C177 the observer is where it was predicted to be.  Here it is up to `d₀` away from there, so that the directions of
the Sun, the Earth and the Moon change as well, and the relative position of the target is known to within `d`.
-/

set_option linter.unusedSectionVars false

namespace Openspace

open Real DetectMargin Spacecraft

/-- angles between two directions that are both known to within a distance -/
theorem C179_angle (v v' a a' : Vec3) (d e : ℝ) (hv : (v'.minus v).magnitude ≤ e) (he : e < v.magnitude)
    (ha : (a'.minus a).magnitude ≤ d) (hd : d < a.magnitude) :
    ∃ x y, v.angle a = .ok x ∧ v'.angle a' = .ok y ∧ |y - x| ≤ arcsin (d / a.magnitude) + arcsin (e / v.magnitude) := by
  have ha0 : a ≠ ⟨0, 0, 0⟩ := Vec3.magnitude_pos.mp (((Vec3.magnitude_nonneg _).trans ha).trans_lt hd)
  have hv0 : v ≠ ⟨0, 0, 0⟩ := Vec3.magnitude_pos.mp (((Vec3.magnitude_nonneg _).trans hv).trans_lt he)
  obtain ⟨x, y, h1, h2, h3⟩ := C177_angle a v v' e ha0 hv he
  obtain ⟨⟨-, hv'⟩, -⟩ := Vec3.angle_eq_ok.mp h2
  obtain ⟨y', z, h4, h5, h6⟩ := C177_angle v' a a' d hv' ha hd
  rw [(C04_angle_laws _ _ _ h2).2.2.1] at h4
  cases h4
  refine ⟨x, z, (C04_angle_laws _ _ _ h1).2.2.1, h5, ?_⟩
  rw [abs_le] at *
  constructor <;> linarith

section

variable {ι : Type} [DecidableEq ι]

/-- `s'` is an observer like `s`, at the same epoch and with the same attitude, at most `d₀` from it -/
structure NearObserver (s s' : Spacecraft ι) (d₀ : ℝ) : Prop where
  epoch : s'.currentEpoch = s.currentEpoch
  boresight : s'.body_z = s.body_z
  camera : s'.wfov = s.wfov
  albedo : s'.albedo = s.albedo
  radius : s'.body_radius = s.body_radius
  near : (s'.position.minus s.position).magnitude ≤ d₀

namespace NearObserver

variable {s s' t t' : Spacecraft ι} {d₀ d : ℝ}

theorem flip (u v w : Vec3) : ((u.minus v).minus (u.minus w)).magnitude = (v.minus w).magnitude := by
  have : (u.minus v).minus (u.minus w) = (v.minus w).scaled (-1) := by
    ext <;> simp [Vec3.minus, Vec3.scaled]
  rw [this, Vec3.magnitude_scaled]; simp

theorem sun (h : NearObserver s s' d₀) : (s'.sunVector.minus s.sunVector).magnitude ≤ d₀ := by
  have he : s'.currentState.epoch = s.currentState.epoch := h.epoch
  have hp : (s'.currentState.position.minus s.currentState.position).magnitude ≤ d₀ := h.near
  unfold Spacecraft.sunVector GCRF.sunVector
  rw [he, flip]
  exact hp

theorem earth (h : NearObserver s s' d₀) : (s'.earthVector.minus s.earthVector).magnitude ≤ d₀ := by
  have : s'.earthVector.minus s.earthVector = (s'.position.minus s.position).scaled (-1) := by
    unfold Spacecraft.earthVector; ext <;> simp [Vec3.minus, Vec3.scaled] <;> ring
  rw [this, Vec3.magnitude_scaled]
  simpa using h.near

theorem moon (h : NearObserver s s' d₀) :
    ∃ m m', s.moonVector = .ok m ∧ s'.moonVector = .ok m' ∧ (m'.minus m).magnitude ≤ d₀ := by
  have he : s'.currentState.epoch = s.currentState.epoch := h.epoch
  have hp : (s'.currentState.position.minus s.currentState.position).magnitude ≤ d₀ := h.near
  obtain ⟨M, hM, -⟩ := C30_moon s.currentState.epoch
  refine ⟨_, _, by unfold Spacecraft.moonVector GCRF.moonVector; rw [hM, ok_bind]; rfl,
    by unfold Spacecraft.moonVector GCRF.moonVector; rw [he, hM, ok_bind]; rfl, ?_⟩
  rw [flip]
  exact hp

theorem ranges (hd : ((s'.targetVector t').minus (s.targetVector t)).magnitude ≤ d) :
    s'.range t' ≤ s.range t + d ∧ s.range t - d ≤ s'.range t' := by
  unfold Spacecraft.range
  rw [← Vec3.norm_toE, toE_minus] at hd
  rw [← Vec3.norm_toE, ← Vec3.norm_toE]
  have h1 := norm_sub_norm_le (s'.targetVector t').toE (s.targetVector t).toE
  have h2 := norm_sub_norm_le (s.targetVector t).toE (s'.targetVector t').toE
  rw [norm_sub_rev] at h2
  exact ⟨by linarith, by linarith⟩

end NearObserver

/-- **Detection with a margin is detection**, for an observer at most `d₀` from its predicted place and a relative
position within `d` of the predicted one -/
theorem C179_detected (s s' t t' : Spacecraft ι) (d₀ d α sun earth moon bore : ℝ) (m : Vec3) (hs : NearObserver s s' d₀)
    (hsoft : 0 < s.wfov.limits.sun_soft) (hal : 0 < s.albedo) (hrad : s.body_radius ≠ 0)
    (hd : ((s'.targetVector t').minus (s.targetVector t)).magnitude ≤ d) (hr : d < s.range t)
    (hα : α = arcsin (d / s.range t)) (hm : s.moonVector = .ok m)
    (n1 : d₀ < s.sunVector.magnitude) (n2 : d₀ < s.position.magnitude) (n3 : d₀ < m.magnitude)
    (h1 : s.sunAngle t = .ok sun) (h2 : s.earthAngle t = .ok earth) (h3 : s.moonAngle t = .ok moon)
    (h4 : s.body_z.angle (s.targetVector t) = .ok bore)
    (k1 : s.wfov.limits.sun_soft + α + arcsin (d₀ / s.sunVector.magnitude) ≤ sun)
    (k2 : s.wfov.limits.earth + α + arcsin (d₀ / s.position.magnitude) ≤ earth)
    (k3 : s.wfov.limits.moon + α + arcsin (d₀ / m.magnitude) ≤ moon)
    (k4 : bore + α ≤ s.wfov.limits.bore)
    (k5 : Spec.magnitude s.albedo s.body_radius (s.range t + d) (sun - α - arcsin (d₀ / s.sunVector.magnitude)) ≤
      s.wfov.limits.vismag) :
    s'.detect t' = .ok true := by
  obtain ⟨hf, hn⟩ := NearObserver.ranges hd
  obtain ⟨m0, m', hm0, hm', hmm⟩ := hs.moon
  rw [hm] at hm0; cases hm0
  have hev : s.earthVector.magnitude = s.position.magnitude := by
    unfold Spacecraft.earthVector; rw [Vec3.magnitude_scaled]; simp
  obtain ⟨x1, sun', e1, a1, b1⟩ := C179_angle _ _ _ _ d d₀ hs.sun n1 hd hr
  obtain ⟨x2, earth', e2, a2, b2⟩ := C179_angle _ _ _ _ d d₀ hs.earth (by rw [hev]; exact n2) hd hr
  obtain ⟨x3, moon', e3, a3, b3⟩ := C179_angle _ _ _ _ d d₀ hmm n3 hd hr
  rw [show s.sunVector.angle (s.targetVector t) = .ok sun from h1] at e1; cases e1
  rw [show s.earthVector.angle (s.targetVector t) = .ok earth from h2] at e2; cases e2
  unfold moonAngle at h3
  rw [hm, ok_bind] at h3
  rw [h3] at e3; cases e3
  obtain ⟨⟨hz0, -⟩, -⟩ := Vec3.angle_eq_ok.mp h4
  obtain ⟨x4, bore', e4, a4, b4⟩ := C177_angle _ _ _ d hz0 hd hr
  rw [h4] at e4; cases e4
  have hα' : arcsin (d / (s.targetVector t).magnitude) = α := hα.symm
  rw [hev] at b2
  rw [hα', abs_le] at b1 b2 b3 b4
  have hle := (C04_angle_laws _ _ _ a1).2.1
  have hρ' : 0 < s'.range t' := by linarith
  have hsun' : s'.sunAngle t' = .ok sun' := a1
  obtain ⟨-, hvm⟩ := visualMagnitude_eq hsun' (by linarith) (by rw [hs.albedo]; exact hal)
    (by rw [hs.radius]; exact hrad) (Vec3.magnitude_pos.mp hρ')
  rw [hs.albedo, hs.radius] at hvm
  refine (C66_true _ _).mpr ⟨sun', earth', moon', _, bore', hsun', a2, by unfold moonAngle; rw [hm', ok_bind]; exact a3,
    hvm, by rw [hs.boresight]; exact a4, ?_, ?_, ?_, ?_, ?_⟩
  all_goals rw [hs.camera]
  · linarith
  · linarith
  · linarith
  · exact (magnitude_mono hal hrad hρ' hf (by linarith) (by linarith) hle).trans k5
  · linarith

/-- **A detected target was predictable**: if the true observer detects the true target, the predicted pair is within
the margins of every limit -/
theorem C179_missed (s s' t t' : Spacecraft ι) (d₀ d α : ℝ) (m : Vec3) (hs : NearObserver s s' d₀)
    (hsoft : 0 < s.wfov.limits.sun_soft) (hal : 0 < s.albedo) (hrad : s.body_radius ≠ 0)
    (hd : ((s'.targetVector t').minus (s.targetVector t)).magnitude ≤ d) (hr : d < s.range t)
    (hα : α = arcsin (d / s.range t)) (hm : s.moonVector = .ok m)
    (n1 : d₀ < s.sunVector.magnitude) (n2 : d₀ < s.position.magnitude) (n3 : d₀ < m.magnitude)
    (h : s'.detect t' = .ok true) :
    ∃ sun earth moon bore, s.sunAngle t = .ok sun ∧ s.earthAngle t = .ok earth ∧ s.moonAngle t = .ok moon ∧
      s.body_z.angle (s.targetVector t) = .ok bore ∧
      s.wfov.limits.sun_soft ≤ sun + α + arcsin (d₀ / s.sunVector.magnitude) ∧
      s.wfov.limits.earth ≤ earth + α + arcsin (d₀ / s.position.magnitude) ∧
      s.wfov.limits.moon ≤ moon + α + arcsin (d₀ / m.magnitude) ∧ bore ≤ s.wfov.limits.bore + α ∧
      Spec.magnitude s.albedo s.body_radius (s.range t - d) (min (sun + α + arcsin (d₀ / s.sunVector.magnitude)) π) ≤
        s.wfov.limits.vismag := by
  obtain ⟨hf, hn⟩ := NearObserver.ranges hd
  obtain ⟨m0, m', hm0, hm', hmm⟩ := hs.moon
  rw [hm] at hm0; cases hm0
  have hev : s.earthVector.magnitude = s.position.magnitude := by
    unfold Spacecraft.earthVector; rw [Vec3.magnitude_scaled]; simp
  obtain ⟨sun', earth', moon', vm, bore', a1, a2, a3, a5, a4, k1, k2, k3, k5, k4⟩ := (C66_true _ _).mp h
  obtain ⟨sun, y1, h1, e1, b1⟩ := C179_angle _ _ _ _ d d₀ hs.sun n1 hd hr
  obtain ⟨earth, y2, h2, e2, b2⟩ := C179_angle _ _ _ _ d d₀ hs.earth (by rw [hev]; exact n2) hd hr
  obtain ⟨moon, y3, h3, e3, b3⟩ := C179_angle _ _ _ _ d d₀ hmm n3 hd hr
  rw [show s'.sunVector.angle (s'.targetVector t') = .ok sun' from a1] at e1; cases e1
  rw [show s'.earthVector.angle (s'.targetVector t') = .ok earth' from a2] at e2; cases e2
  unfold moonAngle at a3
  rw [hm', ok_bind] at a3
  rw [a3] at e3; cases e3
  rw [hs.boresight] at a4
  obtain ⟨⟨hz0, -⟩, -⟩ := Vec3.angle_eq_ok.mp a4
  obtain ⟨bore, y4, h4, e4, b4⟩ := C177_angle _ _ _ d hz0 hd hr
  rw [a4] at e4; cases e4
  have hα' : arcsin (d / (s.targetVector t).magnitude) = α := hα.symm
  rw [hev] at b2
  rw [hα', abs_le] at b1 b2 b3 b4
  rw [hs.camera] at k1 k2 k3 k4 k5
  have hle := (C04_angle_laws _ _ _ a1).2.1
  have hρ' : 0 < s'.range t' := by linarith
  obtain ⟨-, hvm⟩ := visualMagnitude_eq a1 (by linarith) (by rw [hs.albedo]; exact hal)
    (by rw [hs.radius]; exact hrad) (Vec3.magnitude_pos.mp hρ')
  rw [hs.albedo, hs.radius, a5] at hvm
  cases hvm
  refine ⟨sun, earth, moon, bore, h1, h2, by unfold moonAngle; rw [hm, ok_bind]; exact h3, h4, by linarith, by linarith,
    by linarith, by linarith, ?_⟩
  exact (magnitude_mono hal hrad (by linarith) hn (by linarith) (le_min (by linarith) hle) (min_le_right _ _)).trans k5

end

/-- a history after which the observer may be anywhere within a hundred metres of its predicted place, the target within
five metres of its predicted relative position, and the target is detected -/
theorem C179_reachable : ∃ w : World (Fin 2), Fresh w ∧ ∃ g : GCRF, ∃ s t : Spacecraft (Fin 2),
    s = after 2 [.trackState 0 1] w 0 ∧ Spacecraft.new g = .ok t ∧
    ∀ s' t' : Spacecraft (Fin 2), NearObserver s s' (1 / 10) →
      ((s'.targetVector t').minus (s.targetVector t)).magnitude ≤ 1 / 200 → s'.detect t' = .ok true := by
  obtain ⟨w, hw, s, t, g, e, m, o, hs, ht, hcam, ⟨-, hal, hrad⟩, n1, n2, ⟨v, hvm, n3⟩, hb1, hb2, h1, h2, h3, h4, he, hm, ho,
    hsmall, hv⟩ := DetectMargin.pair
  obtain ⟨l1, l2, l3, l4, l5⟩ := wfov_limits hcam
  have hpi := pi_pos
  have hα : arcsin (1 / 200 / s.range t) ≤ π / 200 :=
    hsmall _ (by positivity) (by rw [div_le_iff₀ (by linarith)]; linarith)
  have hβ : ∀ x : ℝ, 1000 ≤ x → arcsin (1 / 10 / x) ≤ π / 200 := fun x hx =>
    hsmall _ (by positivity) (by rw [div_le_iff₀ (by linarith)]; linarith)
  have hsum : arcsin (1 / 200 / s.range t) + arcsin (1 / 10 / s.sunVector.magnitude) ≤ arcsin (1 / 100 / s.range t) := by
    have hβ1 := hβ _ n1
    have p1 : (0 : ℝ) ≤ 1 / 200 / s.range t := by positivity
    have p2 : (0 : ℝ) ≤ 1 / 10 / s.sunVector.magnitude := by
      have := Vec3.magnitude_nonneg s.sunVector; positivity
    have q1 := arcsin_nonneg.mpr p1
    have q2 := arcsin_nonneg.mpr p2
    rw [le_arcsin_iff_sin_le' ⟨by linarith, by linarith⟩, sin_add]
    have u1 : sin (arcsin (1 / 200 / s.range t)) = 1 / 200 / s.range t :=
      sin_arcsin (by linarith) (by rw [div_le_iff₀ (by linarith)]; linarith)
    have u2 : sin (arcsin (1 / 10 / s.sunVector.magnitude)) = 1 / 10 / s.sunVector.magnitude :=
      sin_arcsin (by linarith) (by rw [div_le_iff₀ (by linarith)]; linarith)
    rw [u1, u2]
    have c1 := mul_le_mul_of_nonneg_left (cos_le_one (arcsin (1 / 10 / s.sunVector.magnitude))) p1
    have c2 := mul_le_mul_of_nonneg_right (cos_le_one (arcsin (1 / 200 / s.range t))) p2
    have c3 : 1 / 10 / s.sunVector.magnitude ≤ 1 / 10000 := by rw [div_le_iff₀ (by linarith)]; linarith
    have c4 : (1 / 10000 : ℝ) ≤ 1 / 200 / s.range t := by rw [le_div_iff₀ (by linarith)]; linarith
    have c5 : 1 / 100 / s.range t = 1 / 200 / s.range t + 1 / 200 / s.range t := by ring
    linarith
  have g2 := hβ _ n2
  have g3 := hβ _ n3
  refine ⟨w, hw, g, s, t, hs, ht, fun s' t' hn hd => C179_detected s s' t t' (1 / 10) (1 / 200) _ _ e m o v hn
    (by rw [l1]; positivity) (by rw [hal]; norm_num) (by rw [hrad]; norm_num) hd (by linarith) rfl hvm (by linarith)
    (by linarith) (by linarith) h1 h2 h3 h4 ?_ ?_ ?_ ?_ ?_⟩
  · rw [l1]; linarith
  · rw [l2]; linarith
  · rw [l3]; linarith
  · rw [l5]; linarith
  · rw [l4, hal, hrad]
    have hle := (C04_angle_laws _ _ _ h1).2.1
    have q1 : 0 ≤ arcsin (1 / 200 / s.range t) := arcsin_nonneg.mpr (by positivity)
    have q2 : 0 ≤ arcsin (1 / 10 / s.sunVector.magnitude) :=
      arcsin_nonneg.mpr (by have := Vec3.magnitude_nonneg s.sunVector; positivity)
    exact (magnitude_mono (by norm_num) (by norm_num) (by linarith) (by linarith) (by positivity) (by linarith)
      (by linarith)).trans hv

end Openspace
