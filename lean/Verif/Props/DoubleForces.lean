import Verif.Lemmas.DoubleForces
import Verif.Props.DoubleSunMoon

/-! # C141: the accelerations of the force model in double precision -/

namespace Openspace

open Real

/-- The rounded attraction of the Earth has a relative error below 20 units of rounding in every position but the centre. -/
theorem C141_earth (s : GCRF) (h : s.position ≠ ⟨0, 0, 0⟩) :
    ∃ a' a, F64.accelerationFromEarth s.position = .ok a' ∧ s.accelerationFromEarth = .ok a ∧
      (a'.minus a).magnitude ≤ 2.2e-15 * a.magnitude := by
  obtain ⟨a, ha, hm⟩ := earth_magnitude s h
  have h0 := Vec3.magnitude_pos.mpr h
  have hu := F64.u_pos
  have hu' := F64.u_tiny
  obtain ⟨h1, h2⟩ := (F64.near_minus F64.mu_near).div' (F64.cube_near (F64.magnitude_near s.position)) (by positivity)
    (by norm_num) (by norm_num) (by norm_num) (by norm_num)
  refine ⟨_, a, by simp only [F64.accelerationFromEarth, F64.div_ok h1, ok_bind, pure_eq_ok]; rfl, ha, ?_⟩
  have h3 := F64.scaled_round (a := s.position) (h2.round' (by norm_num) (by norm_num)) (by norm_num) (by norm_num)
  rw [accelerationFromEarth_ok h, Except.ok.injEq] at ha
  rw [← ha, show s.position.magnitude ^ 3 = s.position.magnitude * s.position.magnitude * s.position.magnitude by ring,
    Vec3.magnitude_scaled_abs]
  refine h3.trans ?_
  have hp : 0 ≤ |(-Earth.MU) / (s.position.magnitude * s.position.magnitude * s.position.magnitude)| * s.position.magnitude :=
    mul_nonneg (abs_nonneg _) h0.le
  gcongr
  norm_num at hu' ⊢
  linarith

/-- Within 125000 km of the Earth the rounded disturbing acceleration by the Moon is correct to 2e-15 km/s², -/
theorem C141_moon {lib : F64.Libm} (hlib : Spec.Accurate lib) (s : GCRF) (h0 : 1 ≤ s.epoch.value)
    (h1 : s.epoch.value ≤ 131072) (h : s.position.magnitude ≤ 125000) :
    ∃ a' a, F64.accelerationFromMoon lib s.position s.epoch.value = .ok a' ∧ s.accelerationFromMoon = .ok a ∧
      (a'.minus a).magnitude ≤ 2e-15 := by
  have hu := F64.u_pos
  have hu' := F64.u_tiny
  obtain ⟨m', m, a1, a2, a3⟩ := C140_moon hlib h0 h1
  obtain ⟨m2, b1, b2, b3⟩ := C30_moon s.epoch
  rw [show (⟨s.epoch.value⟩ : Epoch) = s.epoch from rfl] at a2
  rw [a2, Except.ok.injEq] at b1
  subst b1
  have hS : F64.u * (2 * 413904 + 3e-4) ≤ 1e-5 := by norm_num at hu' ⊢; linarith
  norm_num at hS
  obtain ⟨a', a, c1, c2, c3⟩ := F64.thirdBody_error (s' := m') (s := m) (p := s.position) (mu := Moon.MU) (ρ := 231000)
    (ε := 3e-4) (S := 413904) (by norm_num [Moon.MU]) (by norm_num) a3 b3 (by norm_num; linarith) (by norm_num; linarith)
  refine ⟨a', a, by simp only [F64.accelerationFromMoon, a1, ok_bind, c1],
    by simp only [GCRF.accelerationFromMoon, a2, ok_bind, c2], c3.trans ?_⟩
  norm_num [Moon.MU] at hu' ⊢
  linarith

/-- by the Sun likewise, -/
theorem C141_sun {lib : F64.Libm} (hlib : Spec.Accurate lib) (s : GCRF) (h0 : 1 ≤ s.epoch.value)
    (h1 : s.epoch.value ≤ 131072) (h : s.position.magnitude ≤ 125000) :
    ∃ a' a, F64.accelerationFromSun lib s.position s.epoch.value = .ok a' ∧ s.accelerationFromSun = .ok a ∧
      (a'.minus a).magnitude ≤ 2e-15 := by
  have hu := F64.u_pos
  have hu' := F64.u_tiny
  have a3 := C140_sun hlib h0 h1
  obtain ⟨b2, b3, -⟩ := C30_sun s.epoch
  rw [show (⟨s.epoch.value⟩ : Epoch) = s.epoch from rfl] at a3
  have hS : F64.u * (2 * 1.522e8 + 4e-3) ≤ 1e-5 := by norm_num at hu' ⊢; linarith
  norm_num at hS b2
  obtain ⟨a', a, c1, c2, c3⟩ := F64.thirdBody_error (p := s.position) (mu := Sun.MU) (ρ := 146000000)
    (ε := 4e-3) (S := 1.522e8) (by norm_num [Sun.MU]) (by norm_num) a3 b3 (by norm_num; linarith) (by norm_num; linarith)
  refine ⟨a', a, by rw [F64.accelerationFromSun, c1], by rw [GCRF.accelerationFromSun, c2], c3.trans ?_⟩
  norm_num [Sun.MU] at hu' ⊢
  linarith

/-- and the radiation pressure to 2e-10 of its size. -/
theorem C141_srp {lib : F64.Libm} (hlib : Spec.Accurate lib) (s : GCRF) (h0 : 1 ≤ s.epoch.value)
    (h1 : s.epoch.value ≤ 131072) (h : s.position.magnitude ≤ 125000) :
    ∃ a' a, F64.accelerationFromSrp lib s.position s.epoch.value s.srp_scalar = .ok a' ∧ s.accelerationFromSrp = .ok a ∧
      (a'.minus a).magnitude ≤ 2e-10 * a.magnitude := by
  have hu := F64.u_pos
  have hu' := F64.u_tiny
  have a3 := C140_sun hlib h0 h1
  obtain ⟨b2, b3, -⟩ := C30_sun s.epoch
  rw [show (⟨s.epoch.value⟩ : Epoch) = s.epoch from rfl] at a3
  norm_num at b2 b3 a3
  have hp : s.position ≠ Sun.getPosition s.epoch := by intro e; rw [← e] at b2; linarith
  obtain ⟨g1, g2⟩ := srp_eq s hp
  -- the vector to the Sun
  have r1 := F64.minus_round (F64.sunPosition lib s.epoch.value) s.position
  have r2 := F64.minus_minus_le (Sun.getPosition s.epoch) s.position (F64.sunPosition lib s.epoch.value) s.position
  have r3 : (s.position.minus s.position).magnitude = 0 := by
    have : s.position.minus s.position = ⟨0, 0, 0⟩ := by ext <;> simp [Vec3.minus]
    rw [this]; simp [Vec3.magnitude, sqrtNN]
  have r4 := Vec3.magnitude_minus_le (F64.sunPosition lib s.epoch.value) s.position
  have r5 := F64.magnitude_le_of_minus (F64.sunPosition lib s.epoch.value) (Sun.getPosition s.epoch)
  have r6 : F64.u * ((F64.sunPosition lib s.epoch.value).minus s.position).magnitude ≤ 12 / 10 ^ 17 * 2e8 := by
    refine mul_le_mul hu' (by norm_num; linarith) (Vec3.magnitude_nonneg _) (by norm_num)
  have r7 := F64.minus_triangle (F64.minus (F64.sunPosition lib s.epoch.value) s.position)
    ((F64.sunPosition lib s.epoch.value).minus s.position) s.sunVector
  rw [← GCRF.sunVector] at r2
  obtain ⟨w, hw⟩ : ∃ w, w = F64.minus (F64.sunPosition lib s.epoch.value) s.position := ⟨_, rfl⟩
  rw [← hw] at r1 r7
  have r8 : (w.minus s.sunVector).magnitude ≤ 4.1e-3 := by norm_num at r6 ⊢; linarith
  have r9 := magnitude_minus_ge (Sun.getPosition s.epoch) s.position
  rw [← GCRF.sunVector] at r9
  have r10 := F64.magnitude_ge_of_minus w s.sunVector
  have r11 : 0 < w.magnitude := by norm_num at r8; linarith
  obtain ⟨n, n1, n2⟩ := F64.normalized_near (a := w) (Vec3.magnitude_pos.mp r11)
  have n3 := F64.unit_diff r11 g1
  norm_num only at r8
  have n4 : ((w.scaled (1 / w.magnitude)).minus (s.sunVector.scaled (1 / s.sunVector.magnitude))).magnitude ≤ 5.7e-11 := by
    have hm := ((w.scaled (1 / w.magnitude)).minus (s.sunVector.scaled (1 / s.sunVector.magnitude))).magnitude_nonneg
    norm_num only
    nlinarith
  have n5 := F64.minus_triangle n (w.scaled (1 / w.magnitude)) (s.sunVector.scaled (1 / s.sunVector.magnitude))
  have n6 : (n.minus (s.sunVector.scaled (1 / s.sunVector.magnitude))).magnitude ≤ 5.8e-11 := by
    norm_num only at n2 n4 hu' ⊢; linarith
  have n7 : (s.sunVector.scaled (1 / s.sunVector.magnitude)).magnitude = 1 := by
    rw [Vec3.magnitude_scaled_abs, abs_of_pos (by positivity), one_div, inv_mul_cancel₀ g1.ne']
  -- its length
  have l1 := F64.magnitude_sub_le n (s.sunVector.scaled (1 / s.sunVector.magnitude))
  have l2 := F64.magnitude_near n
  unfold F64.Near at l2
  rw [abs_of_nonneg n.magnitude_nonneg] at l2
  rw [n7] at l1
  have l3 : |n.magnitude - 1| ≤ 5.8e-11 := l1.trans n6
  have l4 : 4.2 * F64.u * n.magnitude ≤ 4.2 * (12 / 10 ^ 17) * 2 := by
    have := (abs_le.mp l3).2
    exact mul_le_mul (by gcongr) (by norm_num at this; linarith) n.magnitude_nonneg (by norm_num)
  have l5 := abs_sub_le (F64.magnitude n) n.magnitude 1
  have l6 : F64.Ab (F64.magnitude n) 1 5.9e-11 1 := ⟨by norm_num at l3 l4 ⊢; linarith, by norm_num⟩
  have l7 := (l6.mul l6 (E' := 1.19e-10) (s' := 1) (by norm_num) (by norm_num)).mul
    (F64.Ab.exact (x := (1000 : ℝ)) (s := 1000) (by norm_num)) (E' := 1.2e-7) (s' := 1000) (by norm_num) (by norm_num)
  have l8 := l7.1
  rw [one_mul, one_mul] at l8
  have q1 := ((F64.near_minus (F64.near_rnd Sun.P)).mul' (F64.Near.refl s.srp_scalar) le_rfl (by norm_num) (by norm_num)
    (by norm_num)).round' (by norm_num) (by norm_num)
  obtain ⟨q2, q3⟩ := F64.quotient_close (q1.mono (by norm_num)) l8
  refine ⟨_, _, by simp only [F64.accelerationFromSrp, ← hw, n1, ok_bind, F64.div_ok q2, pure_eq_ok]; rfl, g2, ?_⟩
  rw [Vec3.magnitude_scaled_abs, n7, mul_one]
  exact F64.scaled_close n7 n6 q3

/-- a geostationary satellite at noon on 1 January 2000 -/
example : ∃ a' a, F64.accelerationFromMoon F64.rounded ⟨42164, 0, 0⟩ 51544.5 = .ok a' ∧
    (GCRF.new ⟨51544.5⟩ ⟨42164, 0, 0⟩ ⟨0, 3, 0⟩).accelerationFromMoon = .ok a ∧ (a'.minus a).magnitude ≤ 2e-15 := by
  refine C141_moon F64.rounded_accurate.1 (GCRF.new ⟨51544.5⟩ ⟨42164, 0, 0⟩ ⟨0, 3, 0⟩) ?_ ?_ ?_
  · show (1 : ℝ) ≤ 51544.5; norm_num
  · show (51544.5 : ℝ) ≤ 131072; norm_num
  · have : (⟨42164, 0, 0⟩ : Vec3).magnitude = 42164 := Vec3.magnitude_of_dot (by norm_num) (by norm_num [Vec3.dot])
    show (⟨42164, 0, 0⟩ : Vec3).magnitude ≤ 125000
    rw [this]; norm_num

end Openspace
