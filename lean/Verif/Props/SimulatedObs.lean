import Verif.Props.Sensors
import Verif.Props.Observations
import Verif.Model.Artificial

/-!
# C87: simulated spacecraft observations
-/

namespace Openspace

open Real

/-- what an observation of `t` made by `s` with the camera `cam` and the draws `z1 z2 u` has to be: `err` is the range
error of the camera (half a pixel seen over the diameter of the target, times the range) -/
structure Observed {ι : Type} (cam : Camera) (s t : Spacecraft ι) (z1 z2 : ℝ) (ob : SpaceObservation) : Prop where
  /-- made at the observer, at the observer's time -/
  site : ob.observer_state.position = s.currentState.position
  epoch : ob.epoch = s.currentState.epoch
  /-- advertised errors -/
  range_error : ob.range_error =
    tan cam.fov * cam.resolution_factor * s.range t ^ 2 / (2 * t.body_radius)
  angular_error : ob.angular_error = s.pointing_accuracy
  /-- range is off by the range error times the first normal draw -/
  range : ob.range = |s.range t + ob.range_error * z1|
  /-- direction is off by the pointing accuracy times the second normal draw -/
  direction : 0 < s.range t + ob.range_error * z1 → |s.pointing_accuracy * z2| ≤ π →
    (t.currentState.position.minus s.currentState.position).angle ob.observed_direction
      = .ok |s.pointing_accuracy * z2|
  /-- with no noise, the observation is of the target's position -/
  exact : z1 = 0 → z2 = 0 → s.currentState.position.plus ob.observed_direction = t.currentState.position

theorem Vec3.withNoise_angle (v : Vec3) (r a z1 z2 u : ℝ) (n : Vec3) (h : v.withNoise r a z1 z2 u = .ok n)
    (hp : 0 < v.magnitude + r * z1) (ha : |a * z2| ≤ π) : v.angle n = .ok |a * z2| := by
  simp only [Vec3.withNoise, bind_eq_ok] at h
  obtain ⟨w, hw, hn⟩ := h
  have hv : v ≠ ⟨0, 0, 0⟩ := by
    rintro rfl
    have := ((C06_magnitude_noise ⟨0, 0, 0⟩ r z1).2 .zeroDivision).mpr ⟨rfl, rfl⟩
    rw [this] at hw; cases hw
  have hm := Vec3.magnitude_pos.mpr hv
  have e : w = v.scaled ((v.magnitude + r * z1) / v.magnitude) := by
    simp only [Vec3.withMagnitudeNoise, Vec3.normalized_ok hv, ok_bind, pure_eq_ok, Except.ok.injEq] at hw
    rw [← hw]; ext <;> simp only [Vec3.scaled, Vec3.gauss] <;> ring
  have hk : 0 < (v.magnitude + r * z1) / v.magnitude := by positivity
  have hxy : ¬(w.x = 0 ∧ w.y = 0) := by
    intro hc
    have := ((C06_angular_noise w a z2 u).2 .zeroDivision).mpr ⟨hc, rfl⟩
    rw [this] at hn; cases hn
  obtain ⟨n', hn', -, hang⟩ := (C06_angular_noise w a z2 u).1 hxy
  rw [hn', Except.ok.injEq] at hn
  subst hn
  have h1 := hang ha
  have h2 := (C04_angle_laws _ _ _ h1).2.2.2 ((v.magnitude + r * z1) / v.magnitude)⁻¹ 1 (by positivity) one_pos
  have e1 : w.scaled ((v.magnitude + r * z1) / v.magnitude)⁻¹ = v := by
    rw [e]; ext <;> simp only [Vec3.scaled] <;> field_simp
  have e2 : n'.scaled 1 = n' := by ext <;> simp [Vec3.scaled]
  rwa [e1, e2] at h2

theorem Vec3.withNoise_exact (v : Vec3) (r a u : ℝ) (n : Vec3) (h : v.withNoise r a 0 0 u = .ok n) : n = v := by
  have hv : v ≠ ⟨0, 0, 0⟩ := by
    rintro rfl
    have := ((C06_magnitude_noise ⟨0, 0, 0⟩ r 0).2 .zeroDivision).mpr ⟨rfl, rfl⟩
    simp only [Vec3.withNoise, this, error_bind] at h; cases h
  have hm := Vec3.magnitude_pos.mpr hv
  have ha := Vec3.withNoise_angle v r a 0 0 u n h (by rw [mul_zero, add_zero]; exact hm)
    (by rw [mul_zero, abs_zero]; exact pi_pos.le)
  rw [mul_zero, abs_zero] at ha
  have hxy : ¬(v.x = 0 ∧ v.y = 0) := by
    intro hc
    simp only [Vec3.withNoise, bind_eq_ok] at h
    obtain ⟨w, hw, hn⟩ := h
    obtain ⟨w', hw', ⟨k, rfl⟩, -⟩ := (C06_magnitude_noise v r 0).1 hv
    rw [hw', Except.ok.injEq] at hw
    subst hw
    have := ((C06_angular_noise (v.scaled k) a 0 u).2 .zeroDivision).mpr ⟨by simp [Vec3.scaled, hc], rfl⟩
    rw [this] at hn; cases hn
  obtain ⟨n', hn', hmag⟩ := (C06_noise v r a 0 0 u hxy).1 (by rw [mul_zero, add_zero]; exact hm.ne')
  rw [hn', Except.ok.injEq] at h
  subst h
  rw [mul_zero, add_zero, abs_of_pos hm] at hmag
  obtain ⟨⟨-, hn0⟩, -⟩ := Vec3.angle_eq_ok.mp ha
  have hE := (C04_angle v n').1 hv hn0
  rw [ha, Except.ok.injEq] at hE
  have hsr := (InnerProductGeometry.angle_eq_zero_iff).mp hE.symm
  obtain ⟨-, k, hk, hkv⟩ := hsr
  have hnorm : ‖n'.toE‖ = ‖v.toE‖ := by rw [Vec3.norm_toE, Vec3.norm_toE, hmag]
  have hk1 : k = 1 := by
    rw [hkv, norm_smul, Real.norm_eq_abs, abs_of_pos hk, Vec3.norm_toE] at hnorm
    have : k * v.magnitude = 1 * v.magnitude := by rw [hnorm, one_mul]
    exact mul_right_cancel₀ hm.ne' this
  rw [hk1, one_smul] at hkv
  have f0 := congrFun (congrArg (WithLp.ofLp) hkv) 0
  have f1 := congrFun (congrArg (WithLp.ofLp) hkv) 1
  have f2 := congrFun (congrArg (WithLp.ofLp) hkv) 2
  ext
  · exact f0
  · exact f1
  · exact f2

theorem observe_spec {ι : Type} (cam : Camera) (s t : Spacecraft ι) (z1 z2 u : ℝ) :
    (∀ ob, Spacecraft.observe cam s t z1 z2 u = .ok ob → Observed cam s t z1 z2 ob) ∧
    (∀ e, Spacecraft.observe cam s t z1 z2 u = .error e → e = .zeroDivision) ∧
    ((∃ ob, Spacecraft.observe cam s t z1 z2 u = .ok ob) ↔
      t.body_radius ≠ 0 ∧
      ¬(t.currentState.position.x = s.currentState.position.x ∧ t.currentState.position.y = s.currentState.position.y) ∧
      s.range t + tan cam.fov * cam.resolution_factor * s.range t ^ 2 / (2 * t.body_radius) * z1 ≠ 0) := by
  obtain ⟨v, hv⟩ : ∃ v, v = s.targetVector t := ⟨_, rfl⟩
  obtain ⟨err, herr⟩ : ∃ err, err = tan cam.fov * cam.resolution_factor * s.range t ^ 2 / (2 * t.body_radius) :=
    ⟨_, rfl⟩
  have hrange : s.range t = v.magnitude := by rw [hv]; rfl
  have hobs : Spacecraft.observe cam s t z1 z2 u = (do
      let range_error ← cam.rangeError v.magnitude (t.body_radius * 2)
      let noisy ← v.withNoise range_error s.pointing_accuracy z1 z2 u
      pure (SpaceObservation.new s.currentState noisy range_error s.pointing_accuracy)) := by rw [hv]; rfl
  have hxy : (v.x = 0 ∧ v.y = 0) ↔ (t.currentState.position.x = s.currentState.position.x ∧
      t.currentState.position.y = s.currentState.position.y) := by
    rw [hv]
    simp only [Spacecraft.targetVector, Spacecraft.position, Vec3.minus, Vec3.copy_eq, sub_eq_zero]
  rw [hobs]
  by_cases hr : t.body_radius = 0
  · have e0 : cam.rangeError v.magnitude (t.body_radius * 2) = .error .zeroDivision := by
      simp [Camera.rangeError, hr, pyDiv_zero, error_bind]
    simp only [e0, error_bind]
    refine ⟨fun ob h => (by cases h), fun e h => (by cases h; rfl), ⟨fun ⟨_, h⟩ => (by cases h), fun h => absurd hr h.1⟩⟩
  have hr2 : t.body_radius * 2 ≠ 0 := mul_ne_zero hr two_ne_zero
  have e1 : cam.rangeError v.magnitude (t.body_radius * 2) = .ok err := by
    simp only [Camera.rangeError, pyDiv_ok hr2, ok_bind, pure_eq_ok, Camera.resolution, pyTan, herr, hrange,
      Except.ok.injEq]
    field_simp
  simp only [e1, ok_bind]
  by_cases hax : v.x = 0 ∧ v.y = 0
  · have e0 : v.withNoise err s.pointing_accuracy z1 z2 u = .error .zeroDivision := by
      by_cases hv0 : v = ⟨0, 0, 0⟩
      · have := ((C06_magnitude_noise v err z1).2 .zeroDivision).mpr ⟨hv0, rfl⟩
        simp only [Vec3.withNoise, this, error_bind]
      · obtain ⟨w, hw, ⟨k, rfl⟩, -⟩ := (C06_magnitude_noise v err z1).1 hv0
        have := ((C06_angular_noise (v.scaled k) s.pointing_accuracy z2 u).2 .zeroDivision).mpr
          ⟨by simp [Vec3.scaled, hax], rfl⟩
        simp only [Vec3.withNoise, hw, ok_bind, this]
    simp only [e0, error_bind]
    refine ⟨fun ob h => (by cases h), fun e h => (by cases h; rfl),
      ⟨fun ⟨_, h⟩ => (by cases h), fun h => absurd (hxy.mp hax) h.2.1⟩⟩
  by_cases hz : v.magnitude + err * z1 = 0
  · have e0 := (C06_noise v err s.pointing_accuracy z1 z2 u hax).2 hz
    simp only [e0, error_bind]
    refine ⟨fun ob h => (by cases h), fun e h => (by cases h; rfl),
      ⟨fun ⟨_, h⟩ => (by cases h), fun h => absurd (by rw [← herr, hrange]; exact hz) h.2.2⟩⟩
  obtain ⟨n, hn, hnm⟩ := (C06_noise v err s.pointing_accuracy z1 z2 u hax).1 hz
  simp only [hn, ok_bind, pure_eq_ok]
  refine ⟨fun ob h => ?_, fun e h => (by cases h), ⟨fun _ => ⟨hr, fun h => hax (hxy.mpr h), ?_⟩, fun _ => ⟨_, rfl⟩⟩⟩
  · rw [Except.ok.injEq] at h
    subst h
    refine ⟨rfl, rfl, herr, rfl, ?_, ?_, ?_⟩
    · rw [hrange]; exact hnm
    · intro hp ha
      rw [hrange] at hp
      have := Vec3.withNoise_angle v err s.pointing_accuracy z1 z2 u n hn hp ha
      rw [hv] at this
      exact this
    · rintro rfl rfl
      have := Vec3.withNoise_exact v err s.pointing_accuracy u n hn
      subst this
      show s.currentState.position.plus n = _
      rw [hv]
      ext <;> simp [Vec3.plus, Spacecraft.targetVector, Spacecraft.position, Vec3.minus, Vec3.copy]
  · rw [← herr, hrange]; exact hz

/-- `observe_wfov` and `observe_nfov` make the observation they should, each with its own camera, and raise only
(with a division error) for a target without size, a target exactly north or south of the observer, or a draw that
makes the measured range zero -/
theorem C87_observe {ι : Type} (s t : Spacecraft ι) (z1 z2 u : ℝ) :
    (∀ ob, s.observeWfov t z1 z2 u = .ok ob → Observed s.wfov s t z1 z2 ob) ∧
    (∀ ob, s.observeNfov t z1 z2 u = .ok ob → Observed s.nfov s t z1 z2 ob) ∧
    (∀ e, s.observeWfov t z1 z2 u = .error e ∨ s.observeNfov t z1 z2 u = .error e → e = .zeroDivision) ∧
    ((∃ ob, s.observeWfov t z1 z2 u = .ok ob) ↔ t.body_radius ≠ 0 ∧
      ¬(t.currentState.position.x = s.currentState.position.x ∧ t.currentState.position.y = s.currentState.position.y) ∧
      s.range t + tan s.wfov.fov * s.wfov.resolution_factor * s.range t ^ 2 / (2 * t.body_radius) * z1 ≠ 0) ∧
    ((∃ ob, s.observeNfov t z1 z2 u = .ok ob) ↔ t.body_radius ≠ 0 ∧
      ¬(t.currentState.position.x = s.currentState.position.x ∧ t.currentState.position.y = s.currentState.position.y) ∧
      s.range t + tan s.nfov.fov * s.nfov.resolution_factor * s.range t ^ 2 / (2 * t.body_radius) * z1 ≠ 0) := by
  obtain ⟨a1, a2, a3⟩ := observe_spec s.wfov s t z1 z2 u
  obtain ⟨b1, b2, b3⟩ := observe_spec s.nfov s t z1 z2 u
  exact ⟨a1, b1, fun e h => h.elim (a2 e) (b2 e), a3, b3⟩

/-- a noiseless observation of a target gives the filter the target's true position -/
theorem C87_noiseless {ι : Type} (s t : Spacecraft ι) (u : ℝ) (ob : SpaceObservation)
    (h : s.observeWfov t 0 0 u = .ok ob ∨ s.observeNfov t 0 0 u = .ok ob) :
    ob.range = s.range t ∧
    ob.ijkPosition = PositionConvert.gcrfToIjk t.currentState.position s.currentState.epoch := by
  have key : ∃ cam, Observed cam s t 0 0 ob := by
    rcases h with h | h
    · exact ⟨_, (C87_observe s t 0 0 u).1 ob h⟩
    · exact ⟨_, (C87_observe s t 0 0 u).2.1 ob h⟩
  obtain ⟨cam, ho⟩ := key
  refine ⟨?_, ?_⟩
  · rw [ho.range, mul_zero, add_zero, abs_of_nonneg (show 0 ≤ s.range t from Vec3.magnitude_nonneg _)]
  · rw [SpaceObservation.ijkPosition, ho.site, ho.epoch, ho.exact rfl rfl]

/-- two freshly built spacecraft 10 km apart can observe each other with every draw of direction -/
example (z2 u : ℝ) : ∃ s t : Spacecraft (Fin 2), ∃ ob, s.observeWfov t 0 z2 u = .ok ob := by
  obtain ⟨w, hw, hg⟩ := exists_fresh (ι := Fin 2) fun k => GCRF.new ⟨0⟩ ⟨7000 + 10 * (k.val : ℝ), 0, 0⟩ ⟨0, 1, 0⟩
  have hpos : ∀ k, (w k).position = ⟨7000 + 10 * (k.val : ℝ), 0, 0⟩ := by
    intro k
    obtain ⟨s, h1, -, -, h2, -⟩ := new_ok (ι := Fin 2) (GCRF.new ⟨0⟩ ⟨7000 + 10 * (k.val : ℝ), 0, 0⟩ ⟨0, 1, 0⟩)
    rw [hg k] at h1
    cases h1
    unfold Spacecraft.position Spacecraft.currentState
    rw [h2]
    rfl
  obtain ⟨-, -, h3⟩ := fresh_sensorDefaults hw 1
  refine ⟨w 0, w 1, (C87_observe (w 0) (w 1) 0 z2 u).2.2.2.1.mpr ⟨by rw [h3]; norm_num, ?_, ?_⟩⟩
  · rintro ⟨h, -⟩
    have h' : (w 1).position.x = (w 0).position.x := h
    rw [hpos, hpos] at h'
    norm_num at h'
  · rw [mul_zero, add_zero]
    have : (w 0).targetVector (w 1) ≠ ⟨0, 0, 0⟩ := by
      rw [Spacecraft.targetVector, hpos, hpos]
      intro h
      have := congrArg Vec3.x h
      norm_num [Vec3.minus] at this
    exact (Vec3.magnitude_pos.mpr this).ne'

end Openspace
