import Verif.Lemmas.SmoothForces

/-!
# The force model of one UTC day, continued past its ends

The hour angle of the library is a formula of the number of the day and the time of the day.  With the number of the
day held fixed everything is smooth, also at midnight.
-/

namespace Openspace

open Real Filter Topology

variable {W : Type} [NormedAddCommGroup W] [NormedSpace ℝ W] {n : WithTop ℕ∞} {w : W}

section

variable {t : W → Epoch} (ht : ContDiffAt ℝ n (fun u => (t u).value) w)
include ht

/-- the sidereal time of the day with number `N` -/
theorem smooth_gast_day (N : ℤ) : ∃ c s : W → ℝ, ContDiffAt ℝ n c w ∧ ContDiffAt ℝ n s w ∧
    (∀ u, c u ^ 2 + s u ^ 2 = 1) ∧ ∀ u, ⌊(t u).value - 69.184 / 86400⌋ = N →
      cos (gastOf (t u)) = c u ∧ sin (gastOf (t u)) = s u := by
  have h1 := smooth_obliquity ht
  have h2 := smooth_dpsi ht
  have hsec : SECONDS_IN_DAY = 86400 := by norm_num [SECONDS_IN_DAY]
  -- the angle without reduction to one turn
  obtain ⟨g, hg⟩ : ∃ g : W → ℝ, g = fun u => Earth.dpsiAt (t u) * cos (Earth.obliquityAt (t u)) +
      (100.4606184 + 36000.77004 * ((N + 2400000.5 - 2451545) / 36525) +
        0.000387933 * ((N + 2400000.5 - 2451545) / 36525) * ((N + 2400000.5 - 2451545) / 36525) +
        360.98564724 * ((t u).value - 69.184 / 86400 - N)) * π / 180 := ⟨_, rfl⟩
  have hgs : ContDiffAt ℝ n g w := by rw [hg]; fun_prop
  have hturn : ∀ u, ⌊(t u).value - 69.184 / 86400⌋ = N → ∃ k : ℤ, gastOf (t u) = g u - k * (2 * π) := by
    intro u hu
    refine ⟨⌊(100.4606184 + 36000.77004 * ((N + 2400000.5 - 2451545) / 36525) +
        0.000387933 * ((N + 2400000.5 - 2451545) / 36525) * ((N + 2400000.5 - 2451545) / 36525) +
        360.98564724 * ((t u).value - 69.184 / 86400 - N)) / 360⌋, ?_⟩
    have e1 : pyMod ((t u).value - 69.184 / 86400) 1 = (t u).value - 69.184 / 86400 - N := by
      simp only [pyMod, ofInt, pyFloor, div_one, hu, one_mul]
    have e2 : (t u).value - 69.184 / 86400 + 2400000.5 - ((t u).value - 69.184 / 86400 - N) = N + 2400000.5 := by ring
    simp only [gastOf, Spec.apparentSidereal, Epoch.gha, Epoch.UTC_TDT_OFFSET, hsec, e1, Epoch.julianValue,
      Epoch.MJD_ZERO, Epoch.J2000_JULIAN_DATE, Epoch.JULIAN_CENTURY, e2, hg]
    generalize 100.4606184 + 36000.77004 * (((N : ℝ) + 2400000.5 - 2451545) / 36525) +
        0.000387933 * ((N + 2400000.5 - 2451545) / 36525) * ((N + 2400000.5 - 2451545) / 36525) +
        360.98564724 * ((t u).value - 69.184 / 86400 - N) = D
    simp only [pyMod, pyRadians, ofInt, pyFloor, pyPi]
    ring
  refine ⟨fun u => cos (g u), fun u => sin (g u), hgs.cos, hgs.sin, fun u => cos_sq_add_sin_sq _, fun u hu => ?_⟩
  obtain ⟨k, hk⟩ := hturn u hu
  simp only [hk, cos_sub_int_mul_two_pi, sin_sub_int_mul_two_pi, and_self]

/-- the two conversions between GCRF and ITRF, with the sidereal time of the day with number `N` -/
theorem smooth_itrf_day (N : ℤ) {X : W → Vec3} (hX : Smooth n X w) :
    (∃ Y : W → Vec3, Smooth n Y w ∧ (∀ u, ⌊(t u).value - 69.184 / 86400⌋ = N →
        PositionConvert.gcrfToItrf (X u) (t u) = .ok (Y u)) ∧
      ∀ u Z, PositionConvert.gcrfToItrf (X u) (t u) = .ok Z → (Y u).x ^ 2 + (Y u).y ^ 2 = Z.x ^ 2 + Z.y ^ 2) ∧
    (∃ Y : W → Vec3, Smooth n Y w ∧ ∀ u, ⌊(t u).value - 69.184 / 86400⌋ = N →
      PositionConvert.itrfToGcrf (X u) (t u) = .ok (Y u)) := by
  obtain ⟨c, s, hc, hs, hcs, hd⟩ := smooth_gast_day ht N
  have hR : SmoothM n (fun u => (⟨⟨c u, s u, 0⟩, ⟨-s u, c u, 0⟩, ⟨0, 0, 1⟩⟩ : Mat3)) w :=
    ⟨⟨hc, hs, contDiffAt_const⟩, ⟨hs.neg, hc, contDiffAt_const⟩, ⟨contDiffAt_const, contDiffAt_const, contDiffAt_const⟩⟩
  have hN := smooth_nutation ht
  have hP := smooth_precession ht
  refine ⟨⟨_, ((hX.mulVec hP).mulVec hN).mulVec hR, fun u hu => ?_, fun u Z hZ => ?_⟩,
    ⟨_, ((hX.mulVec hR.transpose).mulVec hN.transpose).mulVec hP.transpose, fun u hu => ?_⟩⟩
  · obtain ⟨e1, e2⟩ := hd u hu
    simp only [PositionConvert.gcrfToItrf, PositionConvert.gcrfToTod, PositionConvert.gcrfToMod, rotation_eq,
        ok_bind, pure_eq_ok, e1, e2]
  · simp only [PositionConvert.gcrfToItrf, PositionConvert.gcrfToTod, PositionConvert.gcrfToMod, rotation_eq,
        ok_bind, pure_eq_ok, Except.ok.injEq] at hZ
    rw [← hZ]
    obtain ⟨V, hV⟩ : ∃ V, V = (Earth.nutation (t u)).mulVec ((Earth.precession (t u)).mulVec (X u)) := ⟨_, rfl⟩
    rw [← hV]
    simp only [Mat3.mulVec, Vec3.dot]
    have h1 := hcs u
    have h2 := cos_sq_add_sin_sq (gastOf (t u))
    linear_combination (V.x ^ 2 + V.y ^ 2) * h1 - (V.x ^ 2 + V.y ^ 2) * h2
  · obtain ⟨e1, e2⟩ := hd u hu
    simp only [PositionConvert.itrfToGcrf, PositionConvert.itrfToMod, PositionConvert.itrfToTod, rotation_eq,
        ok_bind, pure_eq_ok, e1, e2]

end

theorem gcrfToItrf_total (r : Vec3) (t : Epoch) : ∃ Z, PositionConvert.gcrfToItrf r t = .ok Z := by
  simp only [PositionConvert.gcrfToItrf, PositionConvert.gcrfToTod, PositionConvert.gcrfToMod, rotation_eq,
    ok_bind, pure_eq_ok]
  exact ⟨_, rfl⟩

/-- velocity and acceleration at a state that varies smoothly, off the polar axis and at most 350 000 km from the
Earth, with the sidereal time of the day with number `N` -/
theorem smooth_derivative_day {t : W → Epoch} {R V T : W → Vec3} (ht : ContDiffAt ℝ n (fun u => (t u).value) w)
    (hR : Smooth n R w) (hV : Smooth n V w) (hT : Smooth n T w)
    (N : ℤ) (hhi : (R w).magnitude ≤ 350000)
    (hax : ∀ z, PositionConvert.gcrfToItrf (R w) (t w) ≠ .ok ⟨0, 0, z⟩) :
    ∃ A : W → Vec3, Smooth n A w ∧ ∀ᶠ u in 𝓝 w, ⌊(t u).value - 69.184 / 86400⌋ = N →
      ({ GCRF.new (t u) (R u) (V u) with thrust := T u } : GCRF).derivative = .ok (V u, A u) := by
  obtain ⟨⟨Y, hY, eY, hYx⟩, -⟩ := smooth_itrf_day ht N hR
  obtain ⟨Z, hZ⟩ := gcrfToItrf_total (R w) (t w)
  have h0 : R w ≠ ⟨0, 0, 0⟩ := by
    intro h
    refine hax Z.z ?_
    have h1 := (gcrfToItrf_magnitude (t w) hZ).2
    rw [h, Vec3.magnitude_eq_zero.mpr rfl, mul_zero] at h1
    have h2 := Vec3.magnitude_eq_zero.mp (le_antisymm h1 Z.magnitude_nonneg)
    rw [hZ, h2]
  have m0 := (Vec3.magnitude_pos.mpr h0).ne'
  have hmag := hR.magnitude h0
  have ne0 := hR.eventually_ne h0
  -- central attraction
  have aE : Smooth n (fun u => (R u).scaled (-Earth.MU / (R u).magnitude ^ 3)) w :=
    hR.scaled (contDiffAt_const.div (hmag.pow 3) (pow_ne_zero 3 m0))
  -- Moon
  obtain ⟨M, hM, eM⟩ := smooth_moon ht
  have hMw : 350000 < (M w).magnitude := by
    obtain ⟨m, h1, h2, -⟩ := C30_moon (t w)
    rw [eM w] at h1; cases h1; linarith
  obtain ⟨aM, hM', eM'⟩ := smooth_thirdBody hM hR Moon.MU (Vec3.magnitude_pos.mp (by linarith))
    (Vec3.magnitude_pos.mp (by linarith [magnitude_minus_ge (M w) (R w)]))
  -- Sun
  have hS := smooth_sun ht
  have hSw : 350000 < (Sun.getPosition (t w)).magnitude := by
    have := (C30_sun (t w)).1; norm_num at this ⊢; linarith
  have hSR : (Sun.getPosition (t w)).minus (R w) ≠ ⟨0, 0, 0⟩ :=
    Vec3.magnitude_pos.mp (by linarith [magnitude_minus_ge (Sun.getPosition (t w)) (R w)])
  obtain ⟨aS, hS', eS'⟩ := smooth_thirdBody hS hR Sun.MU (Vec3.magnitude_pos.mp (by linarith)) hSR
  have nS := (hS.minus hR).eventually_ne hSR
  -- gravity
  obtain ⟨G, hG, eG⟩ := smooth_gravityItrf hY hmag (Vec3.magnitude_pos.mpr h0) (fun h => hax Z.z (by
    have h1 := hYx w Z hZ
    rw [h.1, h.2] at h1
    have hx : Z.x = 0 := by nlinarith [sq_nonneg Z.x, sq_nonneg Z.y]
    have hy : Z.y = 0 := by nlinarith [sq_nonneg Z.x, sq_nonneg Z.y]
    rw [hZ]; exact congrArg _ (Vec3.ext hx hy rfl)))
  obtain ⟨-, ⟨aG, hG', eG'⟩⟩ := smooth_itrf_day ht N hG
  refine ⟨_, ((((hT.plus aE).plus hM').plus hS').plus (Smooth.const ⟨0, 0, 0⟩)).plus hG', ?_⟩
  filter_upwards [ne0, eM', eS', nS, eG] with u q1 q2 q3 q4 q5 hday
  obtain ⟨s, hs⟩ : ∃ s : GCRF, s = { GCRF.new (t u) (R u) (V u) with thrust := T u } := ⟨_, rfl⟩
  have ep : s.position = R u := by rw [hs]; rfl
  have ee : s.epoch = t u := by rw [hs]; rfl
  have f1 : s.accelerationFromEarth = .ok ((R u).scaled (-Earth.MU / (R u).magnitude ^ 3)) := by
    rw [← ep]; exact accelerationFromEarth_ok (by rw [ep]; exact q1)
  have f2 : s.accelerationFromMoon = .ok (aM u) := by
    simp only [GCRF.accelerationFromMoon, ee, ep, eM u, ok_bind, q2]
  have f3 : s.accelerationFromSun = .ok (aS u) := by
    simp only [GCRF.accelerationFromSun, ee, ep, q3]
  have f4 : s.accelerationFromSrp = .ok ⟨0, 0, 0⟩ := by
    obtain ⟨-, h⟩ := srp_eq s (by
      rw [ep, ee]; intro h; apply q4; rw [h]; ext <;> simp [Vec3.minus])
    have hz : s.srp_scalar = 0 := by rw [hs]; rfl
    rw [h, hz]
    simp [Vec3.scaled]
  have f5 : s.accelerationFromGravity = .ok (aG u) := by
    simp only [GCRF.accelerationFromGravity, ee, ep, eY u hday, ok_bind, q5, eG' u hday]
  have f6 : s.accelerationFromThrust = T u := by rw [hs]; rfl
  have f7 : s.use_perturbations = true := by rw [hs]; rfl
  have f8 : s.velocity.copy = V u := by rw [hs]; rfl
  rw [← hs]
  simp only [GCRF.derivative, f1, f2, f3, f4, f5, f6, f7, f8, ok_bind, if_true, pure_eq_ok]

end Openspace
