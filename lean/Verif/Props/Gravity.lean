import Verif.Lemmas.GravitySum
import Verif.Props.Frames

/-!
# Non-spherical gravity (C35)
-/

namespace Openspace

open Spec

/-- the specification in spherical coordinates is the textbook series -/
theorem geopotential_spherical (mu R d phi lam : ℝ) (hd : 0 < d) :
    geopotential mu R (Vec3.toE ⟨d * Real.cos phi * Real.cos lam, d * Real.cos phi * Real.sin lam,
      d * Real.sin phi⟩) =
    ∑ n ∈ Finset.Icc 2 4, ∑ m ∈ Finset.range (n + 1), mu / d * (R / d) ^ n * assocLegendre n m phi *
      (Cbar n m * normFactor n m * Real.cos (m * lam) + Sbar n m * normFactor n m * Real.sin (m * lam)) := by
  have hn : ‖(polar d phi lam).toE‖ = d := by rw [Vec3.norm_toE, polar_magnitude hd.le]
  refine Finset.sum_congr rfl fun n _ => Finset.sum_congr rfl fun m _ => ?_
  have he : (⟨d * Real.cos phi * Real.cos lam, d * Real.cos phi * Real.sin lam, d * Real.sin phi⟩ : Vec3) =
    polar d phi lam := rfl
  rw [he]
  have hz : ((((polar d phi lam).toE 0 : ℝ) : ℂ) + (((polar d phi lam).toE 1 : ℝ) : ℂ) * Complex.I) / (d : ℂ) =
      ((Real.cos phi : ℝ) : ℂ) * (Complex.cos lam + Complex.sin lam * Complex.I) := by
    have hd' : (d : ℂ) ≠ 0 := by exact_mod_cast hd.ne'
    rw [toE_zero, toE_one]
    simp only [polar]
    push_cast
    field_simp
  have hp : horizontal m (polar d phi lam).toE =
      ((Real.cos phi ^ m * Real.cos (m * lam) : ℝ) : ℂ) + ((Real.cos phi ^ m * Real.sin (m * lam) : ℝ) : ℂ) *
        Complex.I := by
    rw [horizontal, hn, hz, mul_pow, Complex.cos_add_sin_mul_I_pow]
    push_cast
    ring
  have hu : (polar d phi lam).toE 2 / d = Real.sin phi := by
    rw [toE_two]; simp only [polar]; field_simp
  rw [harmonic, hp, hn, hu, assocLegendre]
  simp only [Complex.add_re, Complex.add_im, Complex.mul_re, Complex.mul_im, Complex.ofReal_re,
    Complex.ofReal_im, Complex.I_re, Complex.I_im]
  ring

/-- conversion to ITRF stretches by at most 5.5e-9 and never shrinks -/
theorem gcrfToItrf_magnitude (t : Epoch) {p q : Vec3} (h : PositionConvert.gcrfToItrf p t = .ok q) :
    p.magnitude ≤ q.magnitude ∧ q.magnitude ≤ (1 + 5.5e-9) * p.magnitude := by
  obtain ⟨m, hm, hr⟩ := rotation_isRotation t
  simp only [PositionConvert.gcrfToItrf, PositionConvert.gcrfToTod, PositionConvert.gcrfToMod, hm, ok_bind,
    pure_eq_ok, Except.ok.injEq] at h
  rw [← h, hr.orth.magnitude_mulVec, ← (precession_orth t).magnitude_mulVec p]
  exact nutation_magnitude t _

theorem itrfToGcrf_ok (p : Vec3) (t : Epoch) : ∃ q, PositionConvert.itrfToGcrf p t = .ok q := by
  obtain ⟨m, hm, -⟩ := rotation_isRotation t
  exact ⟨_, by simp only [PositionConvert.itrfToGcrf, PositionConvert.itrfToMod, PositionConvert.itrfToTod, hm,
    ok_bind, pure_eq_ok]; rfl⟩

/-- off the polar axis the acceleration is the GCRF image of the gradient of the geopotential, taken at the
point in the direction of the ITRF position at the distance of the GCRF position, up to the stretch
(at most 5.5e-9) of the library's own GCRF-to-ITRF conversion, and exactly it when that does not stretch -/
theorem C35_gravity (s : GCRF) {ecef : Vec3} (he : PositionConvert.gcrfToItrf s.position s.epoch = .ok ecef)
    (hxy : ¬(ecef.x = 0 ∧ ecef.y = 0)) :
    ∃ a g G : Vec3, s.accelerationFromGravity = .ok a ∧ PositionConvert.itrfToGcrf g s.epoch = .ok a ∧
      HasGradientAt (geopotential Earth.MU Earth.RADIUS) G.toE
        (ecef.scaled (s.position.magnitude / ecef.magnitude)).toE ∧
      (g.minus G).magnitude ≤ 5.5e-9 * G.magnitude ∧
      (ecef.magnitude = s.position.magnitude → g = G) := by
  have hpos : 0 < ecef.x * ecef.x + ecef.y * ecef.y := by
    rcases not_and_or.mp hxy with h | h
    · nlinarith [mul_self_pos.mpr h, mul_self_nonneg ecef.y]
    · nlinarith [mul_self_pos.mpr h, mul_self_nonneg ecef.x]
  have hne : ecef ≠ ⟨0, 0, 0⟩ := fun h => by rw [h] at hpos; simp at hpos
  have hmag := Vec3.magnitude_pos.mpr hne
  obtain ⟨hk1, hk2⟩ := gcrfToItrf_magnitude s.epoch he
  have hd : 0 < s.position.magnitude := by
    by_contra hc
    have : s.position.magnitude ≤ 0 := not_lt.mp hc
    nlinarith
  have hg := gravityItrf_eq ecef hd hpos
  have h1 := mag_mul_cos_dec ecef
  have h2 := mag_mul_sin_dec ecef
  have h3 := rho_mul_cos_ra ecef
  have h4 := rho_mul_sin_ra ecef
  obtain ⟨phi, hphi⟩ : ∃ x, x = (SphericalPosition.fromCartesian ecef).declination := ⟨_, rfl⟩
  obtain ⟨lam, hlam⟩ : ∃ x, x = (SphericalPosition.fromCartesian ecef).right_ascension := ⟨_, rfl⟩
  rw [← hphi, ← hlam] at hg
  rw [← hphi] at h1 h2
  rw [← hlam] at h3 h4
  have hC : Real.cos phi ≠ 0 := fun h => by
    rw [h, mul_zero] at h1; exact (Real.sqrt_pos.mpr hpos).ne h1
  have hgrad := hasGradientAt_geopotential Earth.MU Earth.RADIUS (lam := lam) hd hC
  have hpt : polar s.position.magnitude phi lam = ecef.scaled (s.position.magnitude / ecef.magnitude) := by
    have hm := hmag.ne'
    rw [← h1] at h3 h4
    refine Vec3.ext ?_ ?_ ?_
    · simp only [polar, Vec3.scaled]; rw [← h3]; field_simp
    · simp only [polar, Vec3.scaled]; rw [← h4]; field_simp
    · simp only [polar, Vec3.scaled]; rw [← h2]; field_simp
  rw [hpt] at hgrad
  generalize -(Earth.MU / s.position.magnitude ^ 2) *
    (gsum fun n m => (gterm lam phi (Earth.RADIUS / s.position.magnitude) n m).r) = A at hg hgrad
  generalize Earth.MU / s.position.magnitude ^ 2 *
    (gsum fun n m => (gterm lam phi (Earth.RADIUS / s.position.magnitude) n m).phi) = B at hg hgrad
  generalize Earth.MU / s.position.magnitude ^ 2 / Real.cos phi *
    (gsum fun n m => (gterm lam phi (Earth.RADIUS / s.position.magnitude) n m).lamb) = E at hg hgrad
  obtain ⟨a, ha⟩ := itrfToGcrf_ok (fieldVec (ecef.magnitude / s.position.magnitude) phi lam A B E) s.epoch
  refine ⟨a, _, _, ?_, ha, hgrad, fieldVec_sub _ _ _ _ _ _ ?_ _ ?_, ?_⟩
  · simp only [GCRF.accelerationFromGravity, he, ok_bind]
    rw [hg, ok_bind]
    exact ha
  · rw [le_div_iff₀ hd, one_mul]; exact hk1
  · rw [div_le_iff₀ hd]; exact hk2
  · intro h
    rw [h, div_self hd.ne']

/-- it raises exactly when the ITRF position is on the polar axis, and then `ZeroDivisionError` -/
theorem C35_raises (s : GCRF) (e : PyErr) :
    s.accelerationFromGravity = .error e ↔
      e = .zeroDivision ∧ ∃ z, PositionConvert.gcrfToItrf s.position s.epoch = .ok ⟨0, 0, z⟩ := by
  obtain ⟨ecef, he⟩ := gcrfToItrf_ok s.position s.epoch
  by_cases hxy : ecef.x = 0 ∧ ecef.y = 0
  · have hz : ecef = ⟨0, 0, ecef.z⟩ := Vec3.ext hxy.1 hxy.2 rfl
    have herr : s.accelerationFromGravity = .error .zeroDivision := by
      simp only [GCRF.accelerationFromGravity, he, ok_bind, gravityItrf, sqrtNN]
      rw [hxy.1, hxy.2, mul_zero, add_zero, Real.sqrt_zero, pyDiv_zero]
      by_cases hd : s.position.magnitude = 0
      · rw [hd, pyDiv_zero]; rfl
      · rw [pyDiv_ok hd]; rfl
    rw [herr, he, hz]
    constructor
    · intro h; cases h; exact ⟨rfl, _, rfl⟩
    · rintro ⟨rfl, -⟩; rfl
  · obtain ⟨a, -, -, ha, -⟩ := C35_gravity s he hxy
    rw [ha, he]
    constructor
    · intro h; cases h
    · rintro ⟨-, z, h⟩
      cases h
      exact absurd ⟨rfl, rfl⟩ hxy

/-- both cases occur at every epoch: 7000 km above the equator and above the pole -/
example (t : Epoch) : ∃ p : Vec3, ∃ ecef, PositionConvert.gcrfToItrf p t = .ok ecef ∧ ecef.magnitude = 7000 ∧
    ¬(ecef.x = 0 ∧ ecef.y = 0) := by
  obtain ⟨p, hp⟩ := gcrfToItrf_surj t ⟨7000, 0, 0⟩
  exact ⟨p, _, hp, Vec3.magnitude_of_dot (by norm_num) (by norm_num [Vec3.dot]), by norm_num⟩

example (t : Epoch) : ∃ p v : Vec3, (GCRF.new t p v).accelerationFromGravity = .error .zeroDivision := by
  obtain ⟨p, hp⟩ := gcrfToItrf_surj t ⟨0, 0, 7000⟩
  exact ⟨p, ⟨0, 0, 0⟩, (C35_raises _ _).mpr ⟨rfl, 7000, hp⟩⟩

end Openspace
