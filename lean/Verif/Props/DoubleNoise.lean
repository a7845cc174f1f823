import Verif.Lemmas.DoubleNoise
import Verif.Props.SimulatedObs
import Verif.Props.DoubleGravity

/-!
# C161: rotations, noise and simulated observations in double precision

A rotation about any axis is as accurate as the axis allows, because the axis is normalized first.  The axis of the first
rotation of the angular noise is the cross product with the z axis, which loses no digits, so that the noise is accurate also for
vectors close to the z axis.
-/

namespace Openspace

open Real Spec

/-- `rotation_about_axis`: the result in double precision is within 4.1e-14 of the length of the vector of the exact one -/
theorem C161_rotation {lib : F64.Libm} (hlib : Accurate lib) (v : Vec3) {axis : Vec3} (h : axis ≠ ⟨0, 0, 0⟩) (θ : ℝ) :
    ∃ r' r, F64.rotationAboutAxis lib v axis θ = .ok r' ∧ v.rotationAboutAxis axis θ = .ok r ∧
      (r'.minus r).magnitude ≤ 4.1e-14 * v.magnitude := by
  have hu' : F64.u ≤ 1112 / 10 ^ 19 := by unfold F64.u; norm_num
  obtain ⟨r', e1, e2⟩ := F64.rotationAboutAxis_near hlib (v' := v) (v := v) (a' := axis) (a := axis) (θ' := θ) (θ := θ) (k := 0) (f := 0) h
    ⟨F64.Near.refl _, F64.Near.refl _, F64.Near.refl _⟩ le_rfl (by norm_num) (by simp) (by norm_num)
  refine ⟨r', _, e1, Vec3.rotationAboutAxis_ok v h θ, e2.trans ?_⟩
  have e0 : (v.minus v).magnitude = 0 := by rw [Vec3.magnitude_eq_zero]; ext <;> simp [Vec3.minus]
  rw [e0]
  have := v.magnitude_nonneg
  have : (72 * 0 + 18 * 0 + 360) * F64.u * v.magnitude ≤ (72 * 0 + 18 * 0 + 360) * (1112 / 10 ^ 19) * v.magnitude := by gcongr
  linarith

/-- noise of an inexact vector with an inexact range error -/
theorem F64.withNoise_near {lib : F64.Libm} (hlib : Accurate lib) {v' v : Vec3} {k l ρ' ρ a z1 z2 x : ℝ} (hv : ¬(v.x = 0 ∧ v.y = 0))
    (h : F64.Cw v' v k) (hk : 0 ≤ k) (hk' : k ≤ 30) (hρ : F64.Near ρ' ρ l) (hl : 0 ≤ l) (hl' : l ≤ 30)
    (ha : |a * z2| ≤ π) (h0 : 0 ≤ x) (h1 : x ≤ 1) (hg : 1e-14 * (v.magnitude + |ρ * z1|) ≤ |v.magnitude + ρ * z1|) :
    ∃ n' n, F64.withNoise lib v' ρ' a z1 z2 x = .ok n' ∧ v.withNoise ρ a z1 z2 x = .ok n ∧
      (n'.minus n).magnitude ≤ (147 * k + l + 1650) * F64.u * (v.magnitude + |ρ * z1|) := by
  have hu := F64.u_pos
  have hu' := F64.u_tiny
  have hv0 : v ≠ ⟨0, 0, 0⟩ := by rintro rfl; simp at hv
  have pm := Vec3.magnitude_pos.mpr hv0
  obtain ⟨w', t, e1, hcw, hsg, ht⟩ := F64.withMagnitudeNoise_near hv0 h hk hk' hρ hl hl' hg
  obtain ⟨m, hm⟩ : ∃ m, m = v.magnitude := ⟨_, rfl⟩
  obtain ⟨g, hgv⟩ : ∃ g, g = v.magnitude + ρ * z1 := ⟨_, rfl⟩
  obtain ⟨S, hS⟩ : ∃ S, S = v.magnitude + |ρ * z1| := ⟨_, rfl⟩
  have hgS : |g| ≤ S := by
    have := abs_add_le v.magnitude (ρ * z1)
    rw [abs_of_pos pm, ← hgv, ← hS] at this; exact this
  have pS : 0 < S := by have := abs_nonneg (ρ * z1); linarith
  rw [← hgv, ← hS, ← hm] at ht
  rw [← hS]
  rw [← hgv] at hsg
  have t0 : t ≠ 0 := by rintro rfl; simp at hsg
  have hwxy : ¬((v.scaled t).x = 0 ∧ (v.scaled t).y = 0) := by simpa [Vec3.scaled, t0] using hv
  have pm' : 0 < m := by rw [hm]; exact pm
  have hc : 0 < g / (m * t) := by
    have : g / (m * t) = t * g / (m * t ^ 2) := by field_simp
    rw [this]; positivity
  have e2 : (v.scaled t).scaled (g / (m * t)) = v.scaled (g / m) := by
    ext <;> simp only [Vec3.scaled] <;> field_simp
  have s1 : (v.scaled (g / m)).magnitude = |g| := by
    rw [Vec3.magnitude_scaled, ← hm, abs_div, abs_of_pos pm']; field_simp
  have uS : 0 ≤ F64.u * S := by positivity
  have tiny : F64.u * S ≤ 12 / 10 ^ 17 * S := by gcongr
  have s2 : |t| * m ≤ 1.001 * S := by
    have e := abs_sub_abs_le_abs_sub (t * m) g
    rw [abs_mul, abs_of_pos pm'] at e
    have : (2 * k + l + 12) * (F64.u * S) ≤ 102 * (12 / 10 ^ 17 * S) := by gcongr; linarith
    linarith
  have hδ : (w'.minus ((v.scaled t).scaled (g / (m * t)))).magnitude ≤ (3 * k + l + 15) * F64.u * S := by
    rw [e2]
    have d1 := hcw.norm (by linarith)
    rw [Vec3.magnitude_scaled, ← hm] at d1
    have d2 : ((v.scaled t).minus (v.scaled (g / m))).magnitude = |t * m - g| := by
      have : (v.scaled t).minus (v.scaled (g / m)) = v.scaled (t - g / m) := by
        ext <;> simp only [Vec3.scaled, Vec3.minus] <;> ring
      rw [this, Vec3.magnitude_scaled, ← hm, ← abs_of_pos pm', ← abs_mul, abs_of_pos pm']
      congr 1; field_simp
    have d3 := F64.minus_triangle w' (v.scaled t) (v.scaled (g / m))
    have d4 : (k + 2.1) * F64.u * (|t| * m) ≤ (k + 2.1) * F64.u * (1.001 * S) := by gcongr
    have d5 : k * (F64.u * S) ≤ 30 * (F64.u * S) := by gcongr
    rw [d2] at d3
    nlinarith
  have hδ' : (3 * k + l + 15) * F64.u * S ≤ 1e-3 * S := by
    have : (3 * k + l + 15) * (F64.u * S) ≤ 135 * (12 / 10 ^ 17 * S) := by gcongr; linarith
    linarith
  obtain ⟨n', n, e3, e4, e5⟩ := F64.withAngularNoise_near hlib hwxy hcw (by linarith) (by linarith) hc ha h0 h1
    (S := S) (by rw [e2, s1]; exact hgS) hδ hδ'
  obtain ⟨q, hq, -⟩ := (C06_magnitude_noise v ρ z1).1 hv0
  have hq' := C06_magnitude_direction v q ρ z1 hq
  rw [← hgv, ← hm] at hq'
  rw [e2, ← hq'] at e4
  refine ⟨n', n, by simp only [F64.withNoise, e1, ok_bind, e3], by simp only [Vec3.withNoise, hq, ok_bind, e4], e5.trans ?_⟩
  have : 0 ≤ (147 * k + l + 1650 - (144 * (k + 2.1) + 1330) - (3 * k + l + 15)) * (F64.u * S) := mul_nonneg (by linarith) uS
  linarith

/-- `with_noise`: for all draws, the noisy vector in double precision is within 1.9e-13 of the length (with that of the noise) of
the exact one, unless the noise cancels the length -/
theorem C161_noise {lib : F64.Libm} (hlib : Accurate lib) (v : Vec3) (hv : ¬(v.x = 0 ∧ v.y = 0)) (r a z1 z2 w : ℝ)
    (ha : |a * z2| ≤ π) (h0 : 0 ≤ w) (h1 : w ≤ 1) (hg : 1e-14 * (v.magnitude + |r * z1|) ≤ |v.magnitude + r * z1|) :
    ∃ n' n, F64.withNoise lib v r a z1 z2 w = .ok n' ∧ v.withNoise r a z1 z2 w = .ok n ∧
      (n'.minus n).magnitude ≤ 1.9e-13 * (v.magnitude + |r * z1|) := by
  have hu' : F64.u ≤ 1112 / 10 ^ 19 := by unfold F64.u; norm_num
  obtain ⟨n', n, e1, e2, e3⟩ := F64.withNoise_near hlib (v' := v) (v := v) (k := 0) (l := 0) (ρ' := r) (ρ := r) hv
    ⟨F64.Near.refl _, F64.Near.refl _, F64.Near.refl _⟩ le_rfl (by norm_num) (F64.Near.refl _) le_rfl (by norm_num) ha h0 h1 hg
  refine ⟨n', n, e1, e2, e3.trans ?_⟩
  have := v.magnitude_nonneg
  have : (147 * 0 + 0 + 1650) * F64.u * (v.magnitude + |r * z1|) ≤ (147 * 0 + 0 + 1650) * (1112 / 10 ^ 19) * (v.magnitude + |r * z1|) := by
    gcongr
  have : 0 ≤ v.magnitude + |r * z1| := by positivity
  linarith

/-- the range error of a camera -/
theorem F64.rangeError_near {tan : ℝ → ℝ} (htan : TanAccurate tan) (c : Camera) {r' r ρ : ℝ} (hr : F64.Near r' r 5.3)
    (hρ : ρ ≠ 0) : ∃ e' e, F64.rangeError tan c r' (F64.rnd (ρ * 2)) = .ok e' ∧ c.rangeError r (ρ * 2) = .ok e ∧ F64.Near e' e 19 := by
  have h2 : ρ * 2 ≠ 0 := mul_ne_zero hρ two_ne_zero
  have t1 : F64.Near (tan c.fov) (Real.tan c.fov) 2 := by
    have := htan c.fov
    rw [show (1 : ℝ) / 2 ^ 52 = 2 * F64.u by norm_num [F64.u]] at this
    exact this
  have t2 := (t1.mul' hr (by norm_num) (by norm_num) (by norm_num) (by norm_num)).round' (by norm_num) (by norm_num)
  have t3 := (t2.mul' (F64.Near.refl c.resolution_factor) le_rfl (by norm_num) (by norm_num) (by norm_num)).round' (by norm_num) (by norm_num)
  obtain ⟨n0, t4⟩ := t3.div' (F64.near_rnd (ρ * 2)) h2 (by norm_num) (by norm_num) (by norm_num) (by norm_num)
  have t5 := ((t4.round' (by norm_num) (by norm_num)).mul' hr (by norm_num) (by norm_num) (by norm_num) (by norm_num)).round'
    (by norm_num) (by norm_num)
  refine ⟨_, _, by simp only [F64.rangeError, F64.div_ok n0, ok_bind, pure_eq_ok],
    by simp only [Camera.rangeError, pyDiv_ok h2, ok_bind, pure_eq_ok, Camera.resolution, pyTan], t5.mono (by norm_num)⟩

/-- `observe_wfov` and `observe_nfov`: for all draws, the observed vector in double precision is within 2.1e-13 of the range (with
that of the noise) of the exact one and the range error has a relative error of at most 2.2e-15 -/
theorem C161_observe {ι : Type} {lib : F64.Libm} {tan : ℝ → ℝ} (hlib : Accurate lib) (htan : TanAccurate tan) (cam : Camera)
    (s t : Spacecraft ι) (ht : t.body_radius ≠ 0)
    (hxy : ¬(t.currentState.position.x = s.currentState.position.x ∧ t.currentState.position.y = s.currentState.position.y))
    (z1 z2 w : ℝ) (ha : |s.pointing_accuracy * z2| ≤ π) (h0 : 0 ≤ w) (h1 : w ≤ 1)
    (hg : let e := Real.tan cam.fov * cam.resolution_factor * s.range t ^ 2 / (2 * t.body_radius)
      1e-14 * (s.range t + |e * z1|) ≤ |s.range t + e * z1|) :
    ∃ ob d e, Spacecraft.observe cam s t z1 z2 w = .ok ob ∧
      F64.observe lib tan cam s.currentState.position t.currentState.position t.body_radius s.pointing_accuracy z1 z2 w = .ok (d, e) ∧
      (d.minus ob.observed_direction).magnitude ≤ 2.1e-13 * (s.range t + |ob.range_error * z1|) ∧
      |e - ob.range_error| ≤ 2.2e-15 * |ob.range_error| := by
  have hu' : F64.u ≤ 1112 / 10 ^ 19 := by unfold F64.u; norm_num
  obtain ⟨v, hv⟩ : ∃ v, v = s.targetVector t := ⟨_, rfl⟩
  have hrange : s.range t = v.magnitude := by rw [hv]; rfl
  have hcw : F64.Cw (F64.minus t.currentState.position s.currentState.position) v 1 := by
    rw [hv]; exact ⟨F64.near_rnd _, F64.near_rnd _, F64.near_rnd _⟩
  have hvxy : ¬(v.x = 0 ∧ v.y = 0) := by
    rw [hv]
    simpa only [Spacecraft.targetVector, Spacecraft.position, Vec3.minus, Vec3.copy_eq, sub_eq_zero] using hxy
  have hr : F64.Near (F64.magnitude (F64.minus t.currentState.position s.currentState.position)) v.magnitude 5.3 :=
    ((F64.magnitude_near _).comp (hcw.size (by norm_num)) (by norm_num) (by norm_num) (by norm_num) (by norm_num)).mono (by norm_num)
  obtain ⟨e', e, e1, e2, e3⟩ := F64.rangeError_near htan cam hr ht
  have he : e = Real.tan cam.fov * cam.resolution_factor * s.range t ^ 2 / (2 * t.body_radius) := by
    have h2 : t.body_radius * 2 ≠ 0 := mul_ne_zero ht two_ne_zero
    simp only [Camera.rangeError, pyDiv_ok h2, ok_bind, pure_eq_ok, Camera.resolution, pyTan, Except.ok.injEq] at e2
    rw [← e2, hrange]; field_simp
  rw [← he, hrange] at hg
  obtain ⟨n', n, f1, f2, f3⟩ := F64.withNoise_near hlib (a := s.pointing_accuracy) hvxy hcw (by norm_num) (by norm_num) e3 (by norm_num)
    (by norm_num) ha h0 h1 hg
  refine ⟨SpaceObservation.new s.currentState n e s.pointing_accuracy, n', e', ?_, ?_, ?_, ?_⟩
  · simp only [Spacecraft.observe, ← hv, e2, ok_bind, f2, pure_eq_ok]
  · simp only [F64.observe, e1, ok_bind, f1, pure_eq_ok]
  · show (n'.minus n).magnitude ≤ 2.1e-13 * (s.range t + |e * z1|)
    refine f3.trans ?_
    rw [hrange]
    have := v.magnitude_nonneg
    have : (147 * 1 + 19 + 1650) * F64.u * (v.magnitude + |e * z1|) ≤ (147 * 1 + 19 + 1650) * (1112 / 10 ^ 19) * (v.magnitude + |e * z1|) := by
      gcongr
    have : 0 ≤ v.magnitude + |e * z1| := by positivity
    linarith
  · show |e' - e| ≤ 2.2e-15 * |e|
    refine e3.trans ?_
    gcongr
    linarith

/-- a correctly rounded library and an ordinary vector: the draws one and minus two of noise of 100 m and a milliradian -/
example : ∃ n' n, F64.withNoise F64.rounded ⟨30, 40, 0⟩ 0.1 0.001 1 (-2) 0.25 = .ok n' ∧
    (⟨30, 40, 0⟩ : Vec3).withNoise 0.1 0.001 1 (-2) 0.25 = .ok n ∧ (n'.minus n).magnitude ≤ 1.9e-13 * 50.1 := by
  have hm : (⟨30, 40, 0⟩ : Vec3).magnitude = 50 := Vec3.magnitude_of_dot (by norm_num) (by norm_num [Vec3.dot])
  have hp := Real.pi_gt_three
  have := C161_noise F64.rounded_accurate.1 ⟨30, 40, 0⟩ (by norm_num) 0.1 0.001 1 (-2) 0.25 (by norm_num [abs_le]; linarith) (by norm_num)
    (by norm_num) (by rw [hm]; norm_num)
  rw [hm] at this
  norm_num at this ⊢
  exact this

end Openspace
