import Verif.Lemmas.Geodetic

/-!
# Properties C26, C27: ITRF to geodetic coordinates, ground site from an ITRF position
-/

namespace Openspace

open Real Spec

/-! ## The closed form is defined -/

theorem gQ_pos_of_mag {v : Vec3} (h : (0.02 * semiMajor) ^ 2 ≤ v.x ^ 2 + v.y ^ 2 + v.z ^ 2) : 0 < gQ v := by
  have he := gEps_pos
  have he2 := geoE2_pos
  have h1 := one_sub_geoE2_pos
  have hr : rho v * rho v = v.x ^ 2 + v.y ^ 2 := by
    unfold rho; rw [Real.mul_self_sqrt (add_nonneg (mul_self_nonneg _) (mul_self_nonneg _))]; ring
  have hp : gP v * gP v = v.z ^ 2 / gEps ^ 2 := by
    unfold gP; rw [div_mul_div_comm, abs_mul_abs_self]; ring
  have hle : geoE2 * gEps ≤ gEps ^ 2 := by
    rw [sq]; apply mul_le_mul_of_nonneg_right _ he.le
    rw [gEps_eq, le_div_iff₀ h1]; nlinarith
  have hs : (v.x ^ 2 + v.y ^ 2) / gEps ^ 2 ≤ gS v := by
    unfold gS; rw [hr]
    exact div_le_div_of_nonneg_left (by positivity) (mul_pos he2 he) hle
  have hb : gb * gb < (0.02 * semiMajor) ^ 2 / gEps ^ 2 := by
    rw [gEps_eq]
    norm_num [gb, semiMajor, geoE2, Earth.RADIUS, Earth.FLATTENING]
  have h3 : (0.02 * semiMajor) ^ 2 / gEps ^ 2 ≤ (v.x ^ 2 + v.y ^ 2) / gEps ^ 2 + v.z ^ 2 / gEps ^ 2 := by
    rw [← add_div]; exact div_le_div_of_nonneg_right h (by positivity)
  unfold gQ; rw [hp]; linarith

/-! ## Values at a foot -/

theorem geo_n_eq (lat : ℝ) :
    Earth.RADIUS * √(1 + gEps * (geoN lat * (1 - geoE2) * sin lat) * (geoN lat * (1 - geoE2) * sin lat)
      / (gb * gb)) = geoN lat := by
  have h1 := one_sub_geoE2_pos
  have hN := geoN_pos lat
  have hN2 := geoN_sq lat
  have h := geo_n_sq (geoN lat * (1 - geoE2) * sin lat)
  have hp := geo_n_pos (geoN lat * (1 - geoE2) * sin lat)
  refine (sq_eq_sq₀ hp.le hN.le).mp ?_
  rw [h, ← hN2]; field_simp; ring

theorem geo_sin_eq (lat : ℝ) :
    (gEps + 1) * (geoN lat * (1 - geoE2) * sin lat / geoN lat) = sin lat := by
  have h1 := one_sub_geoE2_pos
  have hN := geoN_pos lat
  rw [gEps_eq]; field_simp; ring

theorem geoFinish_eq {v : Vec3} {lat h : ℝ} (hlat1 : -(π / 2) ≤ lat) (hlat2 : lat ≤ π / 2)
    (hr : rho v = (geoN lat + h) * cos lat) (hz : v.z = (geoN lat * (1 - geoE2) + h) * sin lat) :
    geoFinish v (geoN lat * (1 - geoE2) * sin lat) = ⟨lat, wrapNeg (pyAtan2 v.y v.x), h⟩ := by
  have hN := geoN_pos lat
  have hN2 := geoN_sq lat
  have hcs := sin_sq_add_cos_sq lat
  simp only [geoFinish, geo_n_eq, geo_sin_eq, arcsin_sin hlat1 hlat2]
  congr 1
  rw [hr, hz, show Earth.RADIUS * Earth.RADIUS = geoN lat ^ 2 * (1 - geoE2 * sin lat ^ 2) by rw [hN2]; ring]
  field_simp
  linear_combination (geoN lat + h) * hcs

theorem foot_of_lla {v : Vec3} {lat h : ℝ} (hpos : 0 < geoN lat * (1 - geoE2) + h)
    (hr : rho v = (geoN lat + h) * cos lat) (hz : v.z = (geoN lat * (1 - geoE2) + h) * sin lat) :
    Foot v (geoN lat * (1 - geoE2) * |sin lat|) := by
  have h1 := one_sub_geoE2_pos
  have he := geoE2_pos
  have hN2 := geoN_sq lat
  have hcs := sin_sq_add_cos_sq lat
  have hb : gb ^ 2 - (geoN lat * (1 - geoE2) * |sin lat|) ^ 2 = geoN lat ^ 2 * (1 - geoE2) * cos lat ^ 2 := by
    rw [sq gb, gb_sq, mul_pow, sq_abs, ← hN2]
    linear_combination -(geoN lat ^ 2 * (1 - geoE2)) * hcs
  have hp : gP v = (geoN lat * (1 - geoE2) + h) * |sin lat| / gEps := by
    unfold gP; rw [hz, abs_mul, abs_of_pos hpos]
  unfold Foot
  rw [hb, hp]
  unfold gS
  rw [hr, gEps_eq]
  field_simp
  ring

/-! ## C26 -/

theorem itrf_of_lla (lat lon h : ℝ) (hlat1 : -(π / 2) ≤ lat) (hlat2 : lat ≤ π / 2)
    (hpos : 0 < geoN lat * (1 - geoE2) + h) {v : Vec3}
    (hv : PositionConvert.llaToItrf ⟨lat, lon, h⟩ = .ok v) (hq : 0 < gQ v) :
    PositionConvert.itrfToLla v = .ok ⟨lat, wrapNeg (pyAtan2 v.y v.x), h⟩ := by
  have h1 := one_sub_geoE2_pos
  have he := geoE2_pos
  have hN := geoN_pos lat
  have hc : 0 ≤ cos lat := cos_nonneg_of_neg_pi_div_two_le_of_le hlat1 hlat2
  have hNh : 0 < geoN lat + h := by nlinarith
  have hcl := sin_sq_add_cos_sq lon
  rw [llaToItrf_ok, Except.ok.injEq] at hv
  have hr : rho v = (geoN lat + h) * cos lat := by
    unfold rho; rw [← hv]
    rw [show (geoN lat + h) * cos lat * cos lon * ((geoN lat + h) * cos lat * cos lon)
      + (geoN lat + h) * cos lat * sin lon * ((geoN lat + h) * cos lat * sin lon)
      = ((geoN lat + h) * cos lat) ^ 2 by linear_combination ((geoN lat + h) * cos lat) ^ 2 * hcl]
    exact Real.sqrt_sq (mul_nonneg hNh.le hc)
  have hz : v.z = (geoN lat * (1 - geoE2) + h) * sin lat := by rw [← hv]
  obtain ⟨δ, hδ0, -, hδ, huniq, hok⟩ := itrfToLla_ok v hq
  have hfoot := foot_of_lla hpos hr hz
  have hd : pySign v.z * δ = geoN lat * (1 - geoE2) * sin lat := by
    rcases lt_trichotomy (sin lat) 0 with hs | hs | hs
    · have hz' : v.z < 0 := by rw [hz]; exact mul_neg_of_pos_of_neg hpos hs
      have := huniq _ (by rw [abs_of_neg hs]; exact mul_pos (mul_pos hN h1) (by linarith)) hfoot
      rw [← this, abs_of_neg hs, pySign, if_neg (not_lt.mpr hz'.le), if_pos hz']; ring
    · rw [hs] at hz ⊢
      rw [hz]; simp [pySign]
    · have hz' : 0 < v.z := by rw [hz]; exact mul_pos hpos hs
      have := huniq _ (by rw [abs_of_pos hs]; positivity) hfoot
      rw [← this, abs_of_pos hs, pySign, if_pos hz']; ring
  rw [hok, hd, geoFinish_eq hlat1 hlat2 hr hz]

theorem geoN_ge (lat : ℝ) : Earth.RADIUS ≤ geoN lat := by
  have hN := geoN_pos lat
  have hN2 := geoN_sq lat
  have := gR_pos
  refine (sq_le_sq₀ this.le hN.le).mp ?_
  nlinarith [mul_nonneg geoE2_pos.le (sq_nonneg (geoN lat * sin lat))]

theorem lla_domain {lat lon h : ℝ} (hh : -6200 ≤ h) {v : Vec3}
    (hv : PositionConvert.llaToItrf ⟨lat, lon, h⟩ = .ok v) :
    0 < geoN lat * (1 - geoE2) + h ∧ 0 < gQ v := by
  have h1 := one_sub_geoE2_pos
  have hN := geoN_ge lat
  have hA : 135 ≤ geoN lat * (1 - geoE2) + h := by
    have : 6335 ≤ Earth.RADIUS * (1 - geoE2) := by norm_num [geoE2, Earth.RADIUS, Earth.FLATTENING]
    nlinarith
  have hB : geoN lat * (1 - geoE2) + h ≤ geoN lat + h := by nlinarith [geoE2_pos, geoN_pos lat]
  refine ⟨by linarith, gQ_pos_of_mag ?_⟩
  rw [llaToItrf_ok, Except.ok.injEq] at hv
  rw [← hv]
  have hcl := sin_sq_add_cos_sq lon
  have hcp := sin_sq_add_cos_sq lat
  have e : ((geoN lat + h) * cos lat * cos lon) ^ 2 + ((geoN lat + h) * cos lat * sin lon) ^ 2
      + ((geoN lat * (1 - geoE2) + h) * sin lat) ^ 2
      = (geoN lat + h) ^ 2 * cos lat ^ 2 + (geoN lat * (1 - geoE2) + h) ^ 2 * sin lat ^ 2 := by
    linear_combination ((geoN lat + h) * cos lat) ^ 2 * hcl
  rw [e]
  have hs : (0.02 * semiMajor) ^ 2 ≤ 135 ^ 2 := by norm_num [semiMajor, Earth.RADIUS]
  have i1 : (135 : ℝ) ^ 2 ≤ (geoN lat * (1 - geoE2) + h) ^ 2 := by nlinarith
  have i2 : (135 : ℝ) ^ 2 ≤ (geoN lat + h) ^ 2 := by nlinarith
  nlinarith [mul_le_mul_of_nonneg_right i1 (sq_nonneg (sin lat)), mul_le_mul_of_nonneg_right i2 (sq_nonneg (cos lat))]

/-- geodetic coordinates off the poles survive the round trip exactly, at every height above −6200 km -/
theorem C26_round_trip (lat lon h : ℝ) (hlat : |lat| < π / 2) (hlon : 0 ≤ lon) (hlon' : lon < 2 * π)
    (hh : -6200 ≤ h) :
    ∃ p, PositionConvert.llaToItrf ⟨lat, lon, h⟩ = .ok p ∧
      PositionConvert.itrfToLla p = .ok ⟨lat, lon, h⟩ := by
  obtain ⟨hl1, hl2⟩ := abs_lt.mp hlat
  have hc : 0 < cos lat := cos_pos_of_mem_Ioo ⟨hl1, hl2⟩
  have hv := llaToItrf_ok ⟨lat, lon, h⟩
  obtain ⟨hpos, hq⟩ := lla_domain hh hv
  refine ⟨_, hv, ?_⟩
  rw [itrf_of_lla lat lon h hl1.le hl2.le hpos hv hq]
  have hr : 0 < (geoN lat + h) * cos lat := by
    apply mul_pos _ hc; nlinarith [geoE2_pos, geoN_pos lat]
  rw [wrapNeg_atan2_eq hr hlon hlon' rfl rfl]

/-- at the poles latitude and height survive, and the longitude comes back as 0 -/
theorem C26_poles (lat lon h : ℝ) (hlat : |lat| = π / 2) (hh : -6200 ≤ h) :
    ∃ p, PositionConvert.llaToItrf ⟨lat, lon, h⟩ = .ok p ∧
      PositionConvert.itrfToLla p = .ok ⟨lat, 0, h⟩ := by
  obtain ⟨hl1, hl2⟩ := abs_le.mp hlat.le
  have hc : cos lat = 0 := by rw [← cos_abs, hlat, cos_pi_div_two]
  have hv := llaToItrf_ok ⟨lat, lon, h⟩
  obtain ⟨hpos, hq⟩ := lla_domain hh hv
  refine ⟨_, hv, ?_⟩
  rw [itrf_of_lla lat lon h hl1 hl2 hpos hv hq]
  simp only [hc, mul_zero, zero_mul, pyAtan2_zero]
  rw [wrapNeg_of_nonneg le_rfl]

/-- a site in the southern hemisphere meets the hypotheses -/
example : ∃ p, PositionConvert.llaToItrf ⟨-1, 3, 12⟩ = .ok p ∧
    PositionConvert.itrfToLla p = .ok ⟨-1, 3, 12⟩ := by
  have h3 := pi_gt_three
  exact C26_round_trip _ _ _ (by rw [abs_neg, abs_one]; linarith) (by norm_num) (by linarith) (by norm_num)

/-! ## C27 -/

theorem foot_square {r E n S c Z : ℝ} (hE : 0 < E) (h1 : 0 < 1 - E) (hn : 0 < n)
    (h : r * r / (E * (E / (1 - E))) * (n * (1 - E) * S) ^ 2
      = n ^ 2 * (1 - E) * c ^ 2 * (n * (1 - E) * S + Z / (E / (1 - E))) ^ 2) :
    (r * S) ^ 2 = ((Z + E * n * S) * c) ^ 2 := by
  have hK : n ^ 2 * (1 - E) ^ 3 / E ^ 2 ≠ 0 := by positivity
  have e1 : r * r / (E * (E / (1 - E))) * (n * (1 - E) * S) ^ 2 = n ^ 2 * (1 - E) ^ 3 / E ^ 2 * (r * S) ^ 2 := by
    field_simp
  have e2 : n ^ 2 * (1 - E) * c ^ 2 * (n * (1 - E) * S + Z / (E / (1 - E))) ^ 2
      = n ^ 2 * (1 - E) ^ 3 / E ^ 2 * ((Z + E * n * S) * c) ^ 2 := by
    field_simp; ring
  rw [e1, e2] at h
  exact mul_left_cancel₀ hK h

theorem lla_of_itrf (v : Vec3) (hq : 0 < gQ v) :
    ∃ l : LLA, PositionConvert.itrfToLla v = .ok l ∧ PositionConvert.llaToItrf l = .ok v ∧
      |l.latitude| ≤ π / 2 ∧ 0 ≤ l.longitude ∧ l.longitude < 2 * π := by
  obtain ⟨δ, hδ0, hδz, hδ, -, hok⟩ := itrfToLla_ok v hq
  have h1 := one_sub_geoE2_pos
  have he := geoE2_pos
  have hδb := foot_le hδ0 hδ
  obtain ⟨d, hd⟩ : ∃ d, d = pySign v.z * δ := ⟨_, rfl⟩
  have hd2 : d ^ 2 ≤ gb ^ 2 := by
    rw [hd, mul_pow]
    have i1 : pySign v.z ^ 2 ≤ 1 := by unfold pySign; split_ifs <;> norm_num
    have i2 : δ ^ 2 ≤ gb ^ 2 := pow_le_pow_left₀ hδ0 hδb 2
    nlinarith [sq_nonneg δ]
  have hsin := geo_sin_sq hd2
  have hn := geo_n_pos d
  have hn2 := geo_n_sq d
  refine ⟨_, hok, ?_, ?_, ?_⟩
  rotate_left
  · simp only [geoFinish]; exact abs_le.mpr ⟨neg_pi_div_two_le_arcsin _, arcsin_le_pi_div_two _⟩
  · exact wrapNeg_atan2_range v.y v.x
  rw [← hd]
  unfold geoFinish
  obtain ⟨n, hne⟩ : ∃ n, n = Earth.RADIUS * √(1 + gEps * d * d / (gb * gb)) := ⟨_, rfl⟩
  simp only [← hne] at hn hn2 hsin ⊢
  obtain ⟨lat, hlat⟩ : ∃ lat, lat = arcsin ((gEps + 1) * (d / n)) := ⟨_, rfl⟩
  obtain ⟨i1, i2⟩ := abs_le.mp ((sq_le_one_iff_abs_le_one _).mp hsin)
  have hs : sin lat = (gEps + 1) * (d / n) := by rw [hlat, sin_arcsin i1 i2]
  have hc0 : 0 ≤ cos lat := by rw [hlat]; exact cos_arcsin_nonneg _
  rw [← hlat]
  have heps : gEps + 1 = 1 / (1 - geoE2) := by rw [gEps_eq]; field_simp; ring
  have hds : d = n * (1 - geoE2) * sin lat := by rw [hs, heps]; field_simp
  have hcs := sin_sq_add_cos_sq lat
  have hnn : n ^ 2 * (1 - geoE2 * sin lat ^ 2) = Earth.RADIUS ^ 2 := by
    have : n ^ 2 = Earth.RADIUS ^ 2 + geoE2 * (n * (1 - geoE2) * sin lat) ^ 2 / (1 - geoE2) ^ 2 := by
      rw [← hds]; exact hn2
    have e : geoE2 * (n * (1 - geoE2) * sin lat) ^ 2 / (1 - geoE2) ^ 2 = geoE2 * n ^ 2 * sin lat ^ 2 := by
      field_simp
    rw [e] at this; linear_combination this
  have hN : geoN lat = n := by
    refine (sq_eq_sq₀ (geoN_pos lat).le hn.le).mp ?_
    have := geoN_sq lat
    exact mul_right_cancel₀ (geo_den_pos lat).ne' (this.trans hnn.symm)
  have hrho : 0 ≤ rho v := Real.sqrt_nonneg _
  have key : rho v * sin lat = (v.z + geoE2 * n * sin lat) * cos lat := by
    rcases eq_or_ne v.z 0 with hz | hz
    · have h0 : d = 0 := by rw [hd, hz]; simp [pySign]
      have : sin lat = 0 := by rw [hs, h0]; simp
      rw [this, hz]; ring
    · have hδp := hδz hz
      obtain ⟨S, hS⟩ : ∃ S, S = δ / (n * (1 - geoE2)) := ⟨_, rfl⟩
      have hSδ : δ = n * (1 - geoE2) * S := by rw [hS]; field_simp
      have hS0 : 0 < S := by rw [hS]; positivity
      have hsS : sin lat = pySign v.z * S := by
        have : n * (1 - geoE2) * sin lat = n * (1 - geoE2) * (pySign v.z * S) := by
          rw [← hds, hd, hSδ]; ring
        exact mul_left_cancel₀ (mul_pos hn h1).ne' this
      have hε : pySign v.z ^ 2 = 1 ∧ v.z = pySign v.z * |v.z| := by
        unfold pySign
        rcases lt_or_gt_of_ne hz with h | h
        · rw [if_neg (not_lt.mpr h.le), if_pos h, abs_of_neg h]; constructor <;> ring
        · rw [if_pos h, abs_of_pos h]; constructor <;> ring
      have hss : sin lat ^ 2 = S ^ 2 := by rw [hsS, mul_pow, hε.1, one_mul]
      have hbd : gb ^ 2 - δ ^ 2 = n ^ 2 * (1 - geoE2) * cos lat ^ 2 := by
        rw [sq gb, gb_sq, hSδ, mul_pow, ← hnn, hss]
        linear_combination -(n ^ 2 * (1 - geoE2)) * hcs + n ^ 2 * (1 - geoE2) * hss
      have hf := hδ
      unfold Foot gS gP at hf
      rw [hbd, gEps_eq, hSδ] at hf
      have hsq : (rho v * S) ^ 2 = ((|v.z| + geoE2 * n * S) * cos lat) ^ 2 := by
        exact foot_square geoE2_pos h1 hn hf
      have hz0 := abs_nonneg v.z
      have := (sq_eq_sq₀ (by positivity) (by positivity)).mp hsq
      rw [hsS]
      linear_combination pySign v.z * this - cos lat * hε.2
  have hRn : Earth.RADIUS * Earth.RADIUS / n = n - geoE2 * n * sin lat ^ 2 := by
    rw [show Earth.RADIUS * Earth.RADIUS = Earth.RADIUS ^ 2 by ring, ← hnn]; field_simp
  rw [llaToItrf_ok, Except.ok.injEq]
  simp only [hN, hRn, wrapNeg_cos, wrapNeg_sin]
  have hx := mul_cos_atan2 v.y v.x
  have hy := mul_sin_atan2 v.y v.x
  have e1 : (n + (rho v * cos lat + v.z * sin lat - (n - geoE2 * n * sin lat ^ 2))) * cos lat = rho v := by
    linear_combination rho v * hcs - sin lat * key
  have e2 : (n * (1 - geoE2) + (rho v * cos lat + v.z * sin lat - (n - geoE2 * n * sin lat ^ 2))) * sin lat
      = v.z := by
    linear_combination (v.z + geoE2 * n * sin lat) * hcs + cos lat * key
  ext
  · simp only; rw [e1]; exact hx
  · simp only; rw [e1]; exact hy
  · simp only; rw [e2]

/-- a site built from a position at least 0.02 Earth radii from the centre stands at that position; its
latitude and longitude are the geodetic coordinates and are normalised -/
theorem C27_site (p : Vec3) (h : 0.02 * semiMajor ≤ p.magnitude) :
    ∃ g, GroundSite.fromItrfPosition p = .ok g ∧ g.itrf_position = p ∧ |g.latitude| ≤ π / 2 ∧
      0 ≤ g.longitude ∧ g.longitude < 2 * π ∧ g.enz_matrix = enzMatrix g.longitude g.latitude := by
  have hm : (0.02 * semiMajor) ^ 2 ≤ p.x ^ 2 + p.y ^ 2 + p.z ^ 2 := by
    have h1 : p.magnitude ^ 2 = p.x ^ 2 + p.y ^ 2 + p.z ^ 2 := by rw [Vec3.magnitude_sq]; ring
    rw [← h1]
    have : 0 ≤ 0.02 * semiMajor := by norm_num [semiMajor, Earth.RADIUS]
    exact pow_le_pow_left₀ this h 2
  obtain ⟨l, h1, h2, h3, h4, h5⟩ := lla_of_itrf p (gQ_pos_of_mag hm)
  refine ⟨⟨p, l.latitude, l.longitude, enzMatrix l.longitude l.latitude⟩, ?_, rfl, h3, h4, h5, rfl⟩
  simp only [GroundSite.fromItrfPosition, GroundSite.new, h1, h2, ok_bind, pure_eq_ok]

/-- where the closed form is undefined the constructor raises instead of returning a wrong site: every
position either gives a site which stands at that position or an exception -/
theorem C27_or_raises (p : Vec3) (g : GroundSite) (h : GroundSite.fromItrfPosition p = .ok g) :
    g.itrf_position = p := by
  have hq : 0 < gQ p := by
    by_contra hq
    push Not at hq
    have l1 : (1.0 : ℝ) = 1 := by norm_num
    have hpc : |p.z| / gEps = gP p := rfl
    have hrc : √(p.x * p.x + p.y * p.y) = rho p := rfl
    have hsc : rho p * rho p / (geoE2 * gEps) = gS p := rfl
    have hqc : gP p * gP p - gb * gb + gS p = gQ p := rfl
    have hE : Earth.RADIUS * Earth.RADIUS / (gb * gb) - 1 = gEps := rfl
    have hB : Earth.RADIUS - Earth.FLATTENING * Earth.RADIUS = gb := rfl
    simp only [GroundSite.fromItrfPosition, PositionConvert.itrfToLla, bind_eq_ok, pySqrt_eq_ok, pyDiv_eq_ok,
      l1, hB, hE, gE2_eq, pyAbs, sqrtNN, hrc, hpc, hsc, hqc] at h
    obtain ⟨_, ⟨_, ⟨h0, rfl⟩, _, ⟨h1, -⟩, -⟩, -⟩ := h
    exact h1 (by rw [le_antisymm hq h0, Real.sqrt_zero])
  obtain ⟨l, h1, h2, -⟩ := lla_of_itrf p hq
  simp only [GroundSite.fromItrfPosition, GroundSite.new, h1, h2, ok_bind, pure_eq_ok, Except.ok.injEq] at h
  rw [← h]

/-- a point above the north pole meets the hypothesis -/
example : ∃ g, GroundSite.fromItrfPosition ⟨0, 0, 6400⟩ = .ok g ∧ g.itrf_position = ⟨0, 0, 6400⟩ := by
  obtain ⟨g, h1, h2, -⟩ := C27_site ⟨0, 0, 6400⟩ (by
    rw [Vec3.magnitude_of_dot (r := 6400) (by norm_num) (by norm_num [Vec3.dot])]
    norm_num [semiMajor, Earth.RADIUS])
  exact ⟨g, h1, h2⟩

end Openspace
