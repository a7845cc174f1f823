import Verif.Lemmas.DoubleLatitude
import Verif.Props.DoubleSpherical

/-!
# The errors of the geodetic coordinates in double precision: latitude and height
-/

namespace Openspace.F64

open Real

theorem cos_sq_89 {lat : ℝ} (h : |lat| ≤ 89 * (π / 180)) : 304 / 10 ^ 6 ≤ cos lat ^ 2 ∧ 0.0174 ≤ cos lat := by
  have hpi := Real.pi_gt_d4
  have hpi2 := Real.pi_lt_d4
  have h1 : cos (π / 2 - π / 180) ≤ cos lat := by
    rw [← cos_abs lat]
    apply cos_le_cos_of_nonneg_of_le_pi (abs_nonneg _) (by linarith)
    linarith
  rw [cos_pi_div_two_sub] at h1
  have h2 := sin_gt_sub_cube (x := π / 180) (by positivity)
  have h3 : (17445 / 10 ^ 6 : ℝ) ≤ π / 180 - (π / 180) ^ 3 / 6 := by
    have a1 : (174527 / 10 ^ 7 : ℝ) ≤ π / 180 := by norm_num at hpi ⊢; linarith
    have a2 : (π / 180) ^ 3 ≤ (18 / 10 ^ 3) ^ 3 := by
      apply pow_le_pow_left₀ (by positivity); norm_num at hpi2 ⊢; linarith
    norm_num at *; linarith
  have h4 : (17445 / 10 ^ 6 : ℝ) ≤ cos lat := by linarith
  have := pow_le_pow_left₀ (by norm_num) h4 2
  norm_num at *; constructor <;> linarith

/-- the error of the foot, for every position -/
theorem foot_error_all {lib : Libm} (hlib : PowAccurate lib) {v : Vec3} (h1 : 6000 ≤ v.magnitude) {δ D : ℝ}
    (hδ0 : 0 ≤ δ) (hδ : Foot v δ) (huniq : ∀ y, 0 < y → Foot v y → y = δ) (h2 : v.magnitude ≤ 50000)
    (hD : D = pySign v.z * δ) :
    ∃ d E, footHeight lib (rnd √(rnd (rnd (v.x * v.x) + rnd (v.y * v.y)))) v.z = .ok d ∧ |d - D| ≤ E ∧
      E ≤ 7.6e-5 * v.magnitude ∧ (|D| ≤ 0.52 * gb ∨ E ≤ 6e-8 * v.magnitude) ∧ |v.z| * E ≤ 2967 * u * v.magnitude ^ 3 ∧
      (v.z = 0 → E = 0) := by
  have hu := u_pos
  have hg := gb_pos
  by_cases hz : v.z = 0
  · obtain ⟨σ, σ', x, a, e, U, β, S, t, c, w, base, hval, -⟩ := foot_pair hlib h1
    have s0 : pySign v.z = 0 := by rw [hz, pySign, if_neg (lt_irrefl _), if_neg (lt_irrefl _)]
    rw [s0, zero_mul, rnd_zero, zero_mul, rnd_zero] at hval
    refine ⟨0, 0, hval, ?_, by positivity, Or.inl ?_, ?_, fun _ => rfl⟩
    · rw [hD, s0]; simp
    · rw [hD, s0]; simp; positivity
    · rw [hz]; simp; positivity
  · obtain ⟨d, E, k1, k2, k3, k4, k5⟩ := foot_error hlib h1 hz hδ0 hδ huniq h2
    refine ⟨d, E, k1, by rw [hD]; exact k2, k3, ?_, k5, fun h => absurd h hz⟩
    rcases k4 with k4 | k4
    · left
      have hsg : |pySign v.z| ≤ 1 := by unfold pySign; split_ifs <;> norm_num
      rw [hD, abs_mul, abs_of_nonneg hδ0]
      have := mul_le_mul_of_nonneg_right hsg hδ0
      linarith
    · right; exact k4

/-- what the exact conversion returns, in terms of its foot -/
theorem exact_lla {v : Vec3} (h1 : 6000 ≤ v.magnitude) {l : LLA} (hl : PositionConvert.itrfToLla v = .ok l) :
    ∃ δ D, 0 ≤ δ ∧ Foot v δ ∧ (∀ y, 0 < y → Foot v y → y = δ) ∧ D = pySign v.z * δ ∧ D ^ 2 ≤ gb ^ 2 ∧
      sin l.latitude = footSine D ∧ |l.latitude| ≤ π / 2 ∧ l.longitude = Openspace.wrapNeg (pyAtan2 v.y v.x) ∧
      l.altitude = rho v * cos l.latitude + v.z * sin l.latitude -
        Earth.RADIUS * Earth.RADIUS / (Earth.RADIUS * √(1 + gEps * D * D / (gb * gb))) ∧
      PositionConvert.llaToItrf l = .ok v := by
  obtain ⟨hq, -⟩ := small_beta h1
  obtain ⟨l2, m1, m2, -⟩ := lla_of_itrf v hq
  rw [hl] at m1
  injection m1 with m1
  rw [← m1] at m2
  obtain ⟨δ, hδ0, -, hδ, huniq, hok⟩ := itrfToLla_ok v hq
  rw [hok] at hl
  have hl' : l = geoFinish v (pySign v.z * δ) := by injection hl with hl; exact hl.symm
  obtain ⟨D, hD⟩ : ∃ D, D = pySign v.z * δ := ⟨_, rfl⟩
  have hd2 : D ^ 2 ≤ gb ^ 2 := by
    rw [hD, mul_pow]
    have i1 : pySign v.z ^ 2 ≤ 1 := by unfold pySign; split_ifs <;> norm_num
    have i2 : δ ^ 2 ≤ gb ^ 2 := pow_le_pow_left₀ hδ0 (foot_le hδ0 hδ) 2
    nlinarith [sq_nonneg δ]
  have hs1 := _root_.abs_le.mp ((sq_le_one_iff_abs_le_one _).mp (geo_sin_sq hd2))
  rw [← hD] at hl'
  have hla : l.latitude = arcsin (footSine D) := by rw [hl', geoFinish, footSine]
  refine ⟨δ, D, hδ0, hδ, huniq, hD, hd2, ?_, ?_, by rw [hl', geoFinish], ?_, m2⟩
  · rw [hla]; exact sin_arcsin hs1.1 hs1.2
  · rw [hla]; exact _root_.abs_le.mpr ⟨neg_pi_div_two_le_arcsin _, arcsin_le_pi_div_two _⟩
  · rw [hl', geoFinish]

/-- the sine of the latitude stays below one when the foot does -/
theorem footSine_abs (d : ℝ) : |footSine d| ≤ 1.579e-4 * |d| := by
  have := footSine_diff d 0
  have e : footSine 0 = 0 := by simp [footSine]
  rwa [e, sub_zero, sub_zero] at this

theorem pair_numbers {D E r lat : ℝ} (r1 : 6000 ≤ r) (r2 : r ≤ 50000) (hE0 : 0 ≤ E) (hE1 : E ≤ 7.6e-5 * r)
    (hE2 : |D| ≤ 0.52 * gb ∨ E ≤ 6e-8 * r) (hD : D ^ 2 ≤ gb ^ 2) (hs : sin lat = footSine D)
    (hlat : |lat| ≤ 89 * (π / 180)) :
    |D| + E ≤ gb * (1 - 1 / 10 ^ 6) ∧ 315 * (1.579e-4 * E + 129 * u) ≤ cos lat ^ 2 := by
  have hut := u_tiny
  have hb : 6356 ≤ gb := by norm_num [gb, Earth.RADIUS, Earth.FLATTENING]
  have hb2 : gb ≤ 6357 := by norm_num [gb, Earth.RADIUS, Earth.FLATTENING]
  have hcs := sin_sq_add_cos_sq lat
  rcases hE2 with h | h
  · constructor
    · norm_num at *; linarith
    · have s1 := footSine_abs D
      rw [← hs] at s1
      have s2 : |sin lat| ≤ 0.53 := by norm_num at *; linarith
      have s3 : sin lat ^ 2 ≤ 0.53 ^ 2 := by
        rw [← sq_abs]; exact pow_le_pow_left₀ (abs_nonneg _) s2 2
      have s4 : cos lat ^ 2 = 1 - sin lat ^ 2 := by linarith
      rw [s4]
      norm_num at hE1 hut s3 ⊢; linarith
  · have hc := (cos_sq_89 hlat).1
    have hD2 := foot_of_sin (geo_n_pos D).ne' (geo_n_sq D) hD (κ := 304 / 10 ^ 6) (by
      change footSine D ^ 2 ≤ _
      rw [← hs]; linarith)
    have hD3 : |D| ≤ gb * (1 - 15 / 10 ^ 5) := by
      apply abs_le_of_sq_le_sq' _ (mul_nonneg (by linarith) (by norm_num)) |> fun h => _root_.abs_le.mpr h
      rw [mul_pow]
      refine hD2.trans (mul_le_mul_of_nonneg_left (by norm_num) (sq_nonneg _))
    constructor
    · norm_num at *; linarith
    · norm_num at *; linarith

/-- the two conversions side by side -/
theorem lla_pair {lib : Libm} (hlib : PowAccurate lib) {v : Vec3} (h1 : 6000 ≤ v.magnitude) (h2 : v.magnitude ≤ 50000)
    {D δ lat : ℝ} (hδ0 : 0 ≤ δ) (hδ : Foot v δ) (huniq : ∀ y, 0 < y → Foot v y → y = δ) (hD : D = pySign v.z * δ)
    (hD2 : D ^ 2 ≤ gb ^ 2) (hs : sin lat = footSine D) (hlat : |lat| ≤ 89 * (π / 180)) :
    ∃ d E n a θ, footHeight lib (rnd √(rnd (rnd (v.x * v.x) + rnd (v.y * v.y)))) v.z = .ok d ∧
      n = rnd (geoA * rnd √(rnd (1 + rnd (rnd (rnd (geoEps2 * d) * d) / geoB2)))) ∧
      a = rnd (rnd (geoEps2 + 1) * rnd (d / n)) ∧ |a| ≤ 1 ∧ 0 ≤ E ∧ E ≤ 7.6e-5 * v.magnitude ∧
      |v.z| * E ≤ 2967 * u * v.magnitude ^ 3 ∧ (v.z = 0 → E = 0) ∧ sin θ = footSine d ∧ |θ| ≤ π / 2 ∧
      |θ - lat| * cos lat ≤ 1.5885e-4 * E ∧ |arcsin a - lat| * cos lat ≤ 1.5885e-4 * E + 130 * u ∧
      |arcsin a - θ| * cos lat ≤ 132 * u := by
  have hu := u_pos
  have hut := u_tiny
  have hpi := Real.pi_pos
  obtain ⟨d, E, k1, k2, k3, k4, k5, k6⟩ := foot_error_all hlib h1 hδ0 hδ huniq h2 hD
  have hE0 : 0 ≤ E := (abs_nonneg _).trans k2
  obtain ⟨n1, n2⟩ := pair_numbers h1 h2 hE0 k3 k4 hD2 hs hlat
  have hd : |d| ≤ gb * (1 - 1 / 10 ^ 6) := by
    refine le_trans ?_ n1
    have := abs_sub_abs_le_abs_sub d D
    linarith
  have hok := arc_ok hd
  have hnear := (arc_near d).2
  have hd2 : d ^ 2 ≤ gb ^ 2 := by
    rw [← sq_abs d]
    refine pow_le_pow_left₀ (abs_nonneg _) (hd.trans ?_) 2
    have := gb_pos
    linarith
  have hsq := _root_.abs_le.mp ((sq_le_one_iff_abs_le_one _).mp (geo_sin_sq hd2))
  obtain ⟨n, hn⟩ : ∃ n, n = rnd (geoA * rnd √(rnd (1 + rnd (rnd (rnd (geoEps2 * d) * d) / geoB2)))) := ⟨_, rfl⟩
  rw [← hn] at hok hnear
  obtain ⟨a, ha⟩ : ∃ a, a = rnd (rnd (geoEps2 + 1) * rnd (d / n)) := ⟨_, rfl⟩
  rw [← ha] at hok hnear
  change Near a (footSine d) 128 at hnear
  change -1 ≤ footSine d ∧ footSine d ≤ 1 at hsq
  obtain ⟨θ, hθ⟩ : ∃ θ, θ = arcsin (footSine d) := ⟨_, rfl⟩
  have sθ : sin θ = footSine d := by rw [hθ, sin_arcsin hsq.1 hsq.2]
  have bθ : |θ| ≤ π / 2 := by
    rw [hθ]; exact _root_.abs_le.mpr ⟨neg_pi_div_two_le_arcsin _, arcsin_le_pi_div_two _⟩
  have sa : sin (arcsin a) = a := sin_arcsin (_root_.abs_le.mp hok).1 (_root_.abs_le.mp hok).2
  have ba : |arcsin a| ≤ π / 2 := _root_.abs_le.mpr ⟨neg_pi_div_two_le_arcsin _, arcsin_le_pi_div_two _⟩
  have bl : |lat| ≤ π / 2 := by linarith
  have c0 : 0 < cos lat := by have := (cos_sq_89 hlat).2; norm_num at this; linarith
  have c1 := cos_le_one lat
  have d1 : |sin θ - sin lat| ≤ 1.579e-4 * E := by
    rw [sθ, hs]
    exact (footSine_diff d D).trans (by gcongr)
  have d2 : |sin (arcsin a) - sin θ| ≤ 128 * u := by
    rw [sa, sθ]
    have := hnear.le (E := 128) (by have := _root_.abs_le.mpr hsq; linarith)
    exact this
  have d3 : |sin (arcsin a) - sin lat| ≤ 1.579e-4 * E + 129 * u := by
    refine (abs_sub_le _ (sin θ) _).trans ?_
    linarith
  have E1 := angle_of_sine bθ bl d1 c0 (by norm_num at *; linarith)
  have E2 := angle_of_sine ba bl d3 c0 n2
  have cθ : 0.99 * cos lat ≤ cos θ := by
    have t1 : |θ - lat| * cos lat ≤ 1 / 100 * cos lat * cos lat := by
      norm_num at *
      nlinarith
    have t2 := le_of_mul_le_mul_right t1 c0
    have t3 := cos_lipschitz θ lat
    have := (_root_.abs_le.mp t3).1
    norm_num
    linarith
  have c2 : (0.99 * cos lat) ^ 2 ≤ cos θ ^ 2 := pow_le_pow_left₀ (by positivity) cθ 2
  have E3 := angle_of_sine ba bθ d2 (by norm_num at cθ; linarith) (by
    have := (cos_sq_89 hlat).1
    norm_num at *
    linarith)
  refine ⟨d, E, n, a, θ, k1, hn, ha, hok, hE0, k3, k5, k6, sθ, bθ, ?_, ?_, ?_⟩
  · norm_num at *; linarith
  · norm_num at *; linarith
  · have := mul_le_mul_of_nonneg_left cθ (abs_nonneg (arcsin a - θ))
    norm_num at *; linarith

/-! ## the height -/

/-- the radius of curvature at the foot -/
theorem foot_radius {d θ : ℝ} (h : sin θ = footSine d) :
    Earth.RADIUS * √(1 + gEps * d * d / (gb * gb)) = geoN θ := by
  have h1 := one_sub_geoE2_pos
  have hn := geo_n_pos d
  have hn2 := geo_n_sq d
  rw [footSine] at h
  obtain ⟨n, hne⟩ : ∃ n, n = Earth.RADIUS * √(1 + gEps * d * d / (gb * gb)) := ⟨_, rfl⟩
  rw [← hne] at hn hn2 h ⊢
  have heps : gEps + 1 = 1 / (1 - Openspace.geoE2) := by rw [gEps_eq]; field_simp; ring
  have hds : d = n * (1 - Openspace.geoE2) * sin θ := by rw [h, heps]; field_simp
  have hnn : n ^ 2 * (1 - Openspace.geoE2 * sin θ ^ 2) = Earth.RADIUS ^ 2 := by
    have : n ^ 2 = Earth.RADIUS ^ 2 + Openspace.geoE2 * (n * (1 - Openspace.geoE2) * sin θ) ^ 2 / (1 - Openspace.geoE2) ^ 2 := by
      rw [← hds]; exact hn2
    have e : Openspace.geoE2 * (n * (1 - Openspace.geoE2) * sin θ) ^ 2 / (1 - Openspace.geoE2) ^ 2 =
        Openspace.geoE2 * n ^ 2 * sin θ ^ 2 := by
      field_simp
    rw [e] at this; linear_combination this
  refine (sq_eq_sq₀ hn.le (geoN_pos θ).le).mp ?_
  exact mul_right_cancel₀ (geo_den_pos θ).ne' (hnn.trans (geoN_sq θ).symm)

theorem geoN_le (lat : ℝ) : geoN lat ≤ 6450 := by
  by_contra hn
  push Not at hn
  have n2 := geoN_sq lat
  have a1 : Openspace.geoE2 ≤ 67 / 10000 := by norm_num [Openspace.geoE2, Earth.FLATTENING]
  have b1 : (6450 : ℝ) ^ 2 < geoN lat ^ 2 := pow_lt_pow_left₀ hn (by norm_num) (by norm_num)
  have b2 : 1 - 67 / 10000 ≤ 1 - Openspace.geoE2 * sin lat ^ 2 := by
    have := mul_le_mul a1 (sin_sq_le_one lat) (sq_nonneg _) (by norm_num)
    linarith
  have b3 : (6450 : ℝ) ^ 2 * (1 - 67 / 10000) ≤ geoN lat ^ 2 * (1 - Openspace.geoE2 * sin lat ^ 2) :=
    mul_le_mul b1.le b2 (by norm_num) (sq_nonneg _)
  have a4 : Earth.RADIUS ^ 2 ≤ 40700000 := by norm_num [Earth.RADIUS]
  norm_num at b3
  linarith

/-- the support function of the ellipse is flat at the normal -/
theorem support_flat (lat θ : ℝ) :
    0 ≤ geoN lat * (1 - Openspace.geoE2 * sin lat * sin θ) - Earth.RADIUS * Earth.RADIUS / geoN θ ∧
    geoN lat * (1 - Openspace.geoE2 * sin lat * sin θ) - Earth.RADIUS * Earth.RADIUS / geoN θ ≤ 22 * (θ - lat) ^ 2 := by
  have hp := geo_den_pos lat
  have hq := geo_den_pos θ
  have hR := gR_pos
  have hE := geoE2_pos
  have hE1 : Openspace.geoE2 ≤ 67 / 10000 := by norm_num [Openspace.geoE2, Earth.FLATTENING]
  have hN := geoN_le lat
  have hN0 := geoN_pos lat
  obtain ⟨p, hpd⟩ : ∃ p, p = √(1 - Openspace.geoE2 * sin lat ^ 2) := ⟨_, rfl⟩
  obtain ⟨q, hqd⟩ : ∃ q, q = √(1 - Openspace.geoE2 * sin θ ^ 2) := ⟨_, rfl⟩
  have p0 : 0 < p := hpd ▸ Real.sqrt_pos.mpr hp
  have q0 : 0 < q := hqd ▸ Real.sqrt_pos.mpr hq
  have p2 : p ^ 2 = 1 - Openspace.geoE2 * sin lat ^ 2 := by rw [hpd, Real.sq_sqrt hp.le]
  have q2 : q ^ 2 = 1 - Openspace.geoE2 * sin θ ^ 2 := by rw [hqd, Real.sq_sqrt hq.le]
  have eN : geoN lat = Earth.RADIUS / p := by rw [geoN, hpd]
  have eM : Earth.RADIUS * Earth.RADIUS / geoN θ = geoN lat * (p * q) := by
    rw [eN, geoN, ← hqd]; field_simp
  have ss : sin lat * sin θ ≤ 1 := by
    have a := abs_mul (sin lat) (sin θ)
    have b := mul_le_mul (abs_sin_le_one lat) (abs_sin_le_one θ) (abs_nonneg _) (by norm_num)
    have c := le_abs_self (sin lat * sin θ)
    linarith
  have x1 : 1 - 67 / 10000 ≤ 1 - Openspace.geoE2 * sin lat * sin θ := by
    have := mul_le_mul_of_nonneg_left ss hE.le
    linarith
  have id : (1 - Openspace.geoE2 * sin lat * sin θ - p * q) * (1 - Openspace.geoE2 * sin lat * sin θ + p * q) =
      Openspace.geoE2 * (sin θ - sin lat) ^ 2 := by
    have : (p * q) ^ 2 = (1 - Openspace.geoE2 * sin lat ^ 2) * (1 - Openspace.geoE2 * sin θ ^ 2) := by
      rw [mul_pow, p2, q2]
    linear_combination -this
  have pq : 1 - 67 / 10000 ≤ p * q := by
    have k1 : ∀ s : ℝ, s ^ 2 ≤ 1 → 1 - 67 / 10000 ≤ 1 - Openspace.geoE2 * s ^ 2 := fun s hs => by
      have := mul_le_mul hE1 hs (sq_nonneg _) (by norm_num)
      linarith
    have k2 : (1 - 67 / 10000 : ℝ) ^ 2 ≤ (p * q) ^ 2 := by
      rw [mul_pow, p2, q2, sq]
      exact mul_le_mul (k1 _ (sin_sq_le_one lat)) (k1 _ (sin_sq_le_one θ)) (by norm_num) hp.le
    exact (pow_le_pow_iff_left₀ (by norm_num) (by positivity) (by norm_num)).mp k2
  obtain ⟨X, hX⟩ : ∃ X, X = 1 - Openspace.geoE2 * sin lat * sin θ - p * q := ⟨_, rfl⟩
  rw [← hX] at id
  have y0 : 198 / 100 ≤ 1 - Openspace.geoE2 * sin lat * sin θ + p * q := by linarith
  have sd : (sin θ - sin lat) ^ 2 ≤ (θ - lat) ^ 2 := by
    rw [← sq_abs, ← sq_abs (θ - lat)]
    exact pow_le_pow_left₀ (abs_nonneg _) (sin_lipschitz θ lat) 2
  have X0 : 0 ≤ X := by
    by_contra hn
    push Not at hn
    have := mul_neg_of_neg_of_pos hn (show 0 < 1 - Openspace.geoE2 * sin lat * sin θ + p * q by linarith)
    rw [id] at this
    have := mul_nonneg hE.le (sq_nonneg (sin θ - sin lat))
    linarith
  have X1 : X * (198 / 100) ≤ 67 / 10000 * (θ - lat) ^ 2 := by
    refine (mul_le_mul_of_nonneg_left y0 X0).trans ?_
    rw [id]
    exact mul_le_mul hE1 sd (sq_nonneg _) (by norm_num)
  have e : geoN lat * (1 - Openspace.geoE2 * sin lat * sin θ) - Earth.RADIUS * Earth.RADIUS / geoN θ = geoN lat * X := by
    rw [eM, hX]; ring
  rw [e]
  refine ⟨mul_nonneg hN0.le X0, ?_⟩
  have := mul_le_mul_of_nonneg_right hN X0
  have := sq_nonneg (θ - lat)
  linarith

/-- the height found at a nearby latitude -/
theorem height_flat {v : Vec3} {l : LLA} (h1 : 6000 ≤ v.magnitude) (hl : PositionConvert.llaToItrf l = .ok v)
    (ha : l.altitude = rho v * cos l.latitude + v.z * sin l.latitude - Earth.RADIUS * Earth.RADIUS / geoN l.latitude)
    (hc : 0 < cos l.latitude) (θ : ℝ) :
    |rho v * cos θ + v.z * sin θ - Earth.RADIUS * Earth.RADIUS / geoN θ - l.altitude| ≤
      0.51 * v.magnitude * (θ - l.latitude) ^ 2 := by
  obtain ⟨lat, hlat⟩ : ∃ lat, lat = l.latitude := ⟨_, rfl⟩
  obtain ⟨h, hh⟩ : ∃ h, h = l.altitude := ⟨_, rfl⟩
  obtain ⟨lon, hlon⟩ : ∃ lon, lon = l.longitude := ⟨_, rfl⟩
  rw [llaToItrf_ok, Except.ok.injEq] at hl
  rw [← hlat, ← hh, ← hlon] at hl
  rw [← hlat, ← hh] at ha
  rw [← hlat] at hc
  rw [← hh, ← hlat]
  have hz : v.z = (geoN lat * (1 - Openspace.geoE2) + h) * sin lat := by rw [← hl]
  have hcs := sin_sq_add_cos_sq lat
  have hN0 := geoN_pos lat
  have hN := geoN_le lat
  have hRn : Earth.RADIUS * Earth.RADIUS / geoN lat = geoN lat * (1 - Openspace.geoE2 * sin lat ^ 2) := by
    have := geoN_sq lat
    rw [show Earth.RADIUS * Earth.RADIUS = Earth.RADIUS ^ 2 by ring, ← this]; field_simp
  have hr : rho v = (geoN lat + h) * cos lat := by
    rw [hRn, hz] at ha
    have : (rho v - (geoN lat + h) * cos lat) * cos lat = 0 := by
      linear_combination -ha - (geoN lat + h) * hcs
    rcases mul_eq_zero.mp this with e | e
    · linarith
    · exact absurd e hc.ne'
  obtain ⟨f1, f2⟩ := support_flat lat θ
  obtain ⟨r, hrm⟩ : ∃ r, r = v.magnitude := ⟨_, rfl⟩
  have hr2 : r ^ 2 = rho v ^ 2 + v.z ^ 2 := by
    rw [hrm, Vec3.magnitude_sq, sq (rho v), rho_mul_self]; ring
  rw [← hrm] at h1 ⊢
  have e : rho v * cos θ + v.z * sin θ - Earth.RADIUS * Earth.RADIUS / geoN θ - h =
      (geoN lat * (1 - Openspace.geoE2 * sin lat * sin θ) - Earth.RADIUS * Earth.RADIUS / geoN θ) -
        (geoN lat + h) * (1 - cos (θ - lat)) := by
    rw [hr, hz, cos_sub]; ring
  have hE := geoE2_pos
  have hE1 : Openspace.geoE2 ≤ 67 / 10000 := by norm_num [Openspace.geoE2, Earth.FLATTENING]
  have g1 : |geoN lat + h| ≤ r + 44 := by
    have k : (geoN lat + h) ^ 2 ≤ (r + 44) ^ 2 := by
      obtain ⟨w, hw⟩ : ∃ w, w = geoN lat * Openspace.geoE2 * sin lat := ⟨_, rfl⟩
      have e1 : (geoN lat + h) ^ 2 = r ^ 2 + 2 * v.z * w + w ^ 2 := by
        rw [hr2, hr, hz, hw]
        linear_combination -(geoN lat + h) ^ 2 * hcs
      have w1 : |w| ≤ 44 := by
        rw [hw, abs_mul, abs_of_pos (show 0 < geoN lat * Openspace.geoE2 by positivity)]
        have a := mul_le_mul hN hE1 hE.le (by norm_num)
        have b := mul_le_mul a (abs_sin_le_one lat) (abs_nonneg _) (by norm_num)
        norm_num at b
        linarith
      have z1 : |v.z| ≤ r := by
        apply abs_le_of_sq_le_sq' _ (by linarith) |> fun h => _root_.abs_le.mpr h
        rw [hr2]; have := sq_nonneg (rho v); linarith
      have p1 : v.z * w ≤ r * 44 := by
        have := le_abs_self (v.z * w)
        rw [abs_mul] at this
        exact this.trans (mul_le_mul z1 w1 (abs_nonneg _) (by linarith))
      have p2 : w ^ 2 ≤ 44 ^ 2 := by rw [← sq_abs]; exact pow_le_pow_left₀ (abs_nonneg _) w1 2
      rw [e1]
      linarith
    exact _root_.abs_le.mpr (abs_le_of_sq_le_sq' k (by linarith))
  have g2 : 1 - cos (θ - lat) ≤ (θ - lat) ^ 2 / 2 := by have := one_sub_sq_div_two_le_cos (x := θ - lat); linarith
  have g3 : 0 ≤ 1 - cos (θ - lat) := by have := cos_le_one (θ - lat); linarith
  have g4 : |(geoN lat + h) * (1 - cos (θ - lat))| ≤ (r + 44) * ((θ - lat) ^ 2 / 2) := by
    rw [abs_mul, abs_of_nonneg g3]
    exact mul_le_mul g1 g2 g3 (by linarith)
  rw [e]
  have d0 := sq_nonneg (θ - lat)
  have g5 : 44 * (θ - lat) ^ 2 ≤ 1 / 100 * r * (θ - lat) ^ 2 := by gcongr; linarith
  rw [_root_.abs_le] at g4 ⊢
  norm_num
  constructor <;> linarith

end Openspace.F64
