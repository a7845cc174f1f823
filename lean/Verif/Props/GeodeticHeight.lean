import Verif.Props.Geodetic

/-!
# C165: the geodetic height is the distance to the nearest point of the ellipsoid
-/

namespace Openspace

open Real Spec

namespace Height

theorem semiMinor_sq : semiMinor ^ 2 = semiMajor ^ 2 * (1 - geoE2) := by unfold semiMinor semiMajor geoE2; ring

theorem semiMajor_pos : 0 < semiMajor := by norm_num [semiMajor, Earth.RADIUS]

theorem semiMinor_pos : 0 < semiMinor := by norm_num [semiMinor, Earth.RADIUS, Earth.FLATTENING]

/-- the equation of the ellipsoid, as a quadratic form -/
noncomputable def form (p : Vec3) : ℝ := (p.x ^ 2 + p.y ^ 2) / semiMajor ^ 2 + p.z ^ 2 / semiMinor ^ 2

theorem form_nonneg (p : Vec3) : 0 ≤ form p := by unfold form; positivity

theorem form_le (p : Vec3) : semiMinor ^ 2 * form p ≤ p.dot p := by
  have h1 := semiMajor_pos
  have h2 := semiMinor_pos
  have h3 : semiMinor ^ 2 * form p = (p.x ^ 2 + p.y ^ 2) * (1 - geoE2) + p.z ^ 2 := by
    unfold form
    have : semiMinor ^ 2 * (p.z ^ 2 / semiMinor ^ 2) = p.z ^ 2 := by field_simp
    rw [mul_add, this, semiMinor_sq]
    field_simp
  rw [h3]
  simp only [Vec3.dot]
  nlinarith [mul_nonneg geoE2_pos.le (add_nonneg (sq_nonneg p.x) (sq_nonneg p.y))]

theorem form_pos {p : Vec3} (h : p ≠ ⟨0, 0, 0⟩) : 0 < form p := by
  refine lt_of_le_of_ne (form_nonneg p) fun h0 => h ?_
  have h1 := semiMajor_pos
  have h2 := semiMinor_pos
  unfold form at h0
  have a : 0 ≤ (p.x ^ 2 + p.y ^ 2) / semiMajor ^ 2 := by positivity
  have b : 0 ≤ p.z ^ 2 / semiMinor ^ 2 := by positivity
  have ha : (p.x ^ 2 + p.y ^ 2) / semiMajor ^ 2 = 0 := by linarith
  have hb : p.z ^ 2 / semiMinor ^ 2 = 0 := by linarith
  rw [div_eq_zero_iff] at ha hb
  have ha' := ha.resolve_right (by positivity)
  have hb' := hb.resolve_right (by positivity)
  ext
  · nlinarith [sq_nonneg p.x, sq_nonneg p.y]
  · nlinarith [sq_nonneg p.x, sq_nonneg p.y]
  · exact pow_eq_zero_iff (two_ne_zero) |>.mp hb'

theorem form_plus (p d : Vec3) : form (p.plus d) = form p + 2 * (ellipsoidNormal p).dot d + form d := by
  simp only [form, Vec3.plus, ellipsoidNormal, Vec3.dot]
  ring

/-- a point `h` along the outward unit normal `u` at `p0`, with `h` above the centre of curvature, is nearer to `p0` than
to any other point of the ellipsoid, and on the side of the sign of `h` -/
theorem nearest {p0 u : Vec3} {h k : ℝ} (hk : 0 < k) (h0 : OnEllipsoid p0) (hu : u.dot u = 1)
    (hn : ellipsoidNormal p0 = u.scaled k) (hh : -(k * semiMinor ^ 2) < h) :
    (∀ q, OnEllipsoid q → q ≠ p0 → h ^ 2 < ((p0.plus (u.scaled h)).minus q).dot ((p0.plus (u.scaled h)).minus q)) ∧
    (0 < h ↔ 1 < form (p0.plus (u.scaled h))) ∧ (h = 0 ↔ form (p0.plus (u.scaled h)) = 1) := by
  have hb := semiMinor_pos
  have h0' : form p0 = 1 := h0
  constructor
  · intro q hq hne
    obtain ⟨d, hd⟩ : ∃ d, d = q.minus p0 := ⟨_, rfl⟩
    have hqd : q = p0.plus d := by rw [hd]; ext <;> simp [Vec3.plus, Vec3.minus]
    have hdn : d ≠ ⟨0, 0, 0⟩ := by
      intro h; apply hne; rw [hqd, h]; ext <;> simp [Vec3.plus]
    have hf := form_pos hdn
    have hq' : form q = 1 := hq
    rw [hqd, form_plus, h0', hn] at hq'
    have h1 : 2 * k * u.dot d = -form d := by
      have : (u.scaled k).dot d = k * u.dot d := by simp only [Vec3.scaled, Vec3.dot]; ring
      rw [this] at hq'; linarith
    have h2 := form_le d
    have e : ((p0.plus (u.scaled h)).minus q).dot ((p0.plus (u.scaled h)).minus q) =
        h ^ 2 * u.dot u - 2 * h * u.dot d + d.dot d := by
      rw [hqd]; simp only [Vec3.plus, Vec3.minus, Vec3.scaled, Vec3.dot]; ring
    rw [e, hu]
    have h3 : 0 < k * (d.dot d - 2 * h * u.dot d) := by
      have : k * (d.dot d - 2 * h * u.dot d) = k * d.dot d + h * form d := by linear_combination (-h) * h1
      rw [this]
      have i1 := mul_lt_mul_of_pos_right hh hf
      have i2 := mul_le_mul_of_nonneg_left h2 hk.le
      linarith
    have h4 := (mul_pos_iff_of_pos_left hk).mp h3
    linarith
  · have hfu := form_le u
    rw [hu] at hfu
    have hune : u ≠ ⟨0, 0, 0⟩ := by
      intro h; rw [h] at hu; simp [Vec3.dot] at hu
    have hfp := form_pos hune
    have e : form (p0.plus (u.scaled h)) = 1 + h * (2 * k + h * form u) := by
      rw [form_plus, h0', hn]
      have a : (u.scaled k).dot (u.scaled h) = k * h * u.dot u := by simp only [Vec3.scaled, Vec3.dot]; ring
      have b : form (u.scaled h) = h ^ 2 * form u := by simp only [form, Vec3.scaled]; ring
      rw [a, b, hu]; ring
    have hpos : 0 < 2 * k + h * form u := by
      have i1 := mul_lt_mul_of_pos_right hh hfp
      have i2 := mul_le_mul_of_nonneg_left hfu hk.le
      linarith
    rw [e]
    refine ⟨?_, ?_⟩
    · constructor
      · intro hp; nlinarith [mul_pos hp hpos]
      · intro hp
        have : 0 < h * (2 * k + h * form u) := by linarith
        exact (mul_pos_iff_of_pos_right hpos).mp this
    · constructor
      · intro hz; rw [hz]; ring
      · intro hz
        have : h * (2 * k + h * form u) = 0 := by linarith
        exact (mul_eq_zero.mp this).resolve_right hpos.ne'

/-- the closed form is defined wherever the conversion succeeds -/
theorem gQ_pos {p : Vec3} {l : LLA} (h : PositionConvert.itrfToLla p = .ok l) : 0 < gQ p := by
  by_contra hq
  push Not at hq
  have l1 : (1.0 : ℝ) = 1 := by norm_num
  have hpc : |p.z| / gEps = gP p := rfl
  have hrc : √(p.x * p.x + p.y * p.y) = rho p := rfl
  have hsc : rho p * rho p / (geoE2 * gEps) = gS p := rfl
  have hqc : gP p * gP p - gb * gb + gS p = gQ p := rfl
  have hE : Earth.RADIUS * Earth.RADIUS / (gb * gb) - 1 = gEps := rfl
  have hB : Earth.RADIUS - Earth.FLATTENING * Earth.RADIUS = gb := rfl
  simp only [PositionConvert.itrfToLla, bind_eq_ok, pySqrt_eq_ok, pyDiv_eq_ok,
    l1, hB, hE, gE2_eq, pyAbs, sqrtNN, hrc, hpc, hsc, hqc] at h
  obtain ⟨_, ⟨h0, rfl⟩, _, ⟨h1, -⟩, -⟩ := h
  exact h1 (by rw [le_antisymm hq h0, Real.sqrt_zero])

/-- the height found is above the centre of curvature -/
theorem above {p : Vec3} {l : LLA} (h : PositionConvert.itrfToLla p = .ok l) :
    PositionConvert.llaToItrf l = .ok p ∧ 0 < geoN l.latitude * (1 - geoE2) + l.altitude := by
  have hq := gQ_pos h
  obtain ⟨l', h1, h2, -⟩ := lla_of_itrf p hq
  rw [h, Except.ok.injEq] at h1
  subst h1
  refine ⟨h2, ?_⟩
  obtain ⟨δ, hδ0, hδz, hδ, -, hok⟩ := itrfToLla_ok p hq
  rw [h, Except.ok.injEq] at hok
  have e1 := one_sub_geoE2_pos
  rw [llaToItrf_ok, Except.ok.injEq] at h2
  have hz := congrArg Vec3.z h2
  simp only at hz
  have hδb := foot_le hδ0 hδ
  have hd2 : (pySign p.z * δ) ^ 2 ≤ gb ^ 2 := by
    rw [mul_pow]
    have i1 : pySign p.z ^ 2 ≤ 1 := by unfold pySign; split_ifs <;> norm_num
    have i2 : δ ^ 2 ≤ gb ^ 2 := pow_le_pow_left₀ hδ0 hδb 2
    nlinarith [sq_nonneg δ]
  have hsin := geo_sin_sq hd2
  have hn := geo_n_pos (pySign p.z * δ)
  obtain ⟨i1, i2⟩ := abs_le.mp ((sq_le_one_iff_abs_le_one _).mp hsin)
  have hs : sin l.latitude = (gEps + 1) * (pySign p.z * δ /
      (Earth.RADIUS * √(1 + gEps * (pySign p.z * δ) * (pySign p.z * δ) / (gb * gb)))) := by
    rw [hok]; simp only [geoFinish]; rw [sin_arcsin i1 i2]
  have heps := gEps_pos
  rcases eq_or_ne p.z 0 with h0 | h0
  · have hsg : pySign p.z = 0 := by rw [h0]; simp [pySign]
    rw [hsg] at hs hok
    simp only [zero_mul, zero_div, mul_zero] at hs
    have hN : geoN l.latitude = Earth.RADIUS := by rw [geoN, hs]; simp
    have halt : l.altitude = rho p - Earth.RADIUS := by
      have hc : rho p * cos l.latitude = rho p := by
        have hc2 : cos l.latitude = 1 := by
          rw [hok]; simp [geoFinish]
        rw [hc2, mul_one]
      have : l.altitude = rho p * cos l.latitude + p.z * sin l.latitude - Earth.RADIUS * Earth.RADIUS /
          (Earth.RADIUS * √(1 + gEps * (0 * δ) * (0 * δ) / (gb * gb))) := by
        rw [hok]; rfl
      rw [this, hc, hs]
      simp
    rw [hN, halt]
    have hq' : gb * gb < gS p := by
      have : gP p = 0 := by simp [gP, h0]
      unfold gQ at hq
      rw [this] at hq
      linarith
    unfold gS at hq'
    rw [lt_div_iff₀ (mul_pos geoE2_pos heps), gb_sq, gEps_eq] at hq'
    have hq2 : (Earth.RADIUS * geoE2) ^ 2 < rho p ^ 2 := by
      have : Earth.RADIUS ^ 2 * (1 - geoE2) * (geoE2 * (geoE2 / (1 - geoE2))) = (Earth.RADIUS * geoE2) ^ 2 := by
        field_simp
      rw [this] at hq'
      rw [sq (rho p)]
      exact hq'
    have hrho : 0 ≤ rho p := Real.sqrt_nonneg _
    have := lt_of_pow_lt_pow_left₀ 2 hrho hq2
    linarith
  · have hδp := hδz h0
    have hpos : 0 < p.z * sin l.latitude := by
      rw [hs]
      have : 0 < p.z * pySign p.z := by
        unfold pySign
        rcases lt_or_gt_of_ne h0 with h | h
        · rw [if_neg (not_lt.mpr h.le), if_pos h]; linarith
        · rw [if_pos h]; linarith
      have e : p.z * ((gEps + 1) * (pySign p.z * δ / (Earth.RADIUS * √(1 + gEps * (pySign p.z * δ) * (pySign p.z * δ) /
          (gb * gb))))) = (p.z * pySign p.z) * ((gEps + 1) * δ / (Earth.RADIUS * √(1 + gEps * (pySign p.z * δ) *
          (pySign p.z * δ) / (gb * gb)))) := by ring
      rw [e]
      positivity
    rw [← hz, mul_assoc] at hpos
    exact pos_of_mul_pos_left hpos (mul_self_nonneg _)

end Height

/-! ## C165 -/

/-- the point on the ellipsoid below a geodetic position, and that it is nearest -/
theorem height_nearest {lat lon h : ℝ} (hh : 0 < geoN lat * (1 - geoE2) + h) {p : Vec3}
    (hp : PositionConvert.llaToItrf ⟨lat, lon, h⟩ = .ok p) :
    ∃ p0, PositionConvert.llaToItrf ⟨lat, lon, 0⟩ = .ok p0 ∧ OnEllipsoid p0 ∧ (p.minus p0).magnitude = |h| ∧
      (∀ q, OnEllipsoid q → q ≠ p0 → |h| < (p.minus q).magnitude) ∧
      (0 < h ↔ 1 < (p.x ^ 2 + p.y ^ 2) / semiMajor ^ 2 + p.z ^ 2 / semiMinor ^ 2) ∧ (h = 0 ↔ OnEllipsoid p) := by
  obtain ⟨p0, p', h1, h2, h3, h4, h5, -⟩ := C25_lla_to_itrf lat lon h
  rw [hp, Except.ok.injEq] at h2
  subst h2
  have hR := gR_pos
  have hN := geoN_pos lat
  have hu : (geodeticDirection lat lon).dot (geodeticDirection lat lon) = 1 := by
    have := Vec3.magnitude_sq (geodeticDirection lat lon)
    rw [h5] at this; simp only [Vec3.dot]; linarith
  have hn : ellipsoidNormal p0 = (geodeticDirection lat lon).scaled (geoN lat / Earth.RADIUS ^ 2) := by
    rw [llaToItrf_ok, Except.ok.injEq] at h1
    rw [← h1]
    have hb : semiMinor ^ 2 = Earth.RADIUS ^ 2 * (1 - geoE2) := Height.semiMinor_sq
    have h1e := one_sub_geoE2_pos
    ext
    · simp only [ellipsoidNormal, Vec3.scaled, geodeticDirection, semiMajor]; field_simp; ring
    · simp only [ellipsoidNormal, Vec3.scaled, geodeticDirection, semiMajor]; field_simp; ring
    · simp only [ellipsoidNormal, Vec3.scaled, geodeticDirection, hb]; field_simp; ring
  have key := Height.nearest (h := h) (div_pos hN (pow_pos hR 2)) h3 hu hn (by
    have : geoN lat / Earth.RADIUS ^ 2 * semiMinor ^ 2 = geoN lat * (1 - geoE2) := by
      rw [Height.semiMinor_sq, semiMajor]; field_simp
    rw [this]; linarith)
  rw [← h4] at key
  refine ⟨p0, h1, h3, ?_, ?_, key.2.1, key.2.2⟩
  · have : p.minus p0 = (geodeticDirection lat lon).scaled h := by
      rw [h4]; ext <;> simp [Vec3.plus, Vec3.minus]
    rw [this, Vec3.magnitude_scaled, h5, mul_one]
  · intro q hq hne
    have h6 := key.1 q hq hne
    simp only [Vec3.dot] at h6
    rw [← Vec3.magnitude_sq] at h6
    refine lt_of_pow_lt_pow_left₀ 2 (Vec3.magnitude_nonneg _) ?_
    rw [sq_abs]
    exact h6

/-- wherever the conversion of an Earth-fixed position to geodetic coordinates succeeds, the latitude and longitude found
are those of the nearest point of the ellipsoid, and the height is the distance to it, negative inside -/
theorem C165_height (p : Vec3) (l : LLA) (h : PositionConvert.itrfToLla p = .ok l) :
    ∃ p0, PositionConvert.llaToItrf ⟨l.latitude, l.longitude, 0⟩ = .ok p0 ∧ OnEllipsoid p0 ∧
      (p.minus p0).magnitude = |l.altitude| ∧
      (∀ q, OnEllipsoid q → q ≠ p0 → |l.altitude| < (p.minus q).magnitude) ∧
      (0 < l.altitude ↔ 1 < (p.x ^ 2 + p.y ^ 2) / semiMajor ^ 2 + p.z ^ 2 / semiMinor ^ 2) ∧
      (l.altitude = 0 ↔ OnEllipsoid p) := by
  obtain ⟨h1, h2⟩ := Height.above h
  exact height_nearest h2 h1

/-- and it succeeds at least 0.02 Earth radii from the centre -/
theorem C165_defined (p : Vec3) (h : 0.02 * semiMajor ≤ p.magnitude) : ∃ l, PositionConvert.itrfToLla p = .ok l := by
  obtain ⟨g, hg, -⟩ := C27_site p h
  simp only [GroundSite.fromItrfPosition, bind_eq_ok] at hg
  obtain ⟨l, hl, -⟩ := hg
  exact ⟨l, hl⟩

/-- a position built from geodetic coordinates above -6200 km is `|h|` from the point of the ellipsoid at the same latitude
and longitude, and farther from every other -/
theorem C165_site (lat lon h : ℝ) (hh : -6200 ≤ h) (p : Vec3) (hp : PositionConvert.llaToItrf ⟨lat, lon, h⟩ = .ok p) :
    ∃ p0, PositionConvert.llaToItrf ⟨lat, lon, 0⟩ = .ok p0 ∧ OnEllipsoid p0 ∧ (p.minus p0).magnitude = |h| ∧
      (∀ q, OnEllipsoid q → q ≠ p0 → |h| < (p.minus q).magnitude) ∧
      (0 < h ↔ 1 < (p.x ^ 2 + p.y ^ 2) / semiMajor ^ 2 + p.z ^ 2 / semiMinor ^ 2) ∧ (h = 0 ↔ OnEllipsoid p) :=
  height_nearest (lla_domain hh hp).1 hp

/-- a satellite over 45 degrees of longitude, and a mine -/
example : (∃ l, PositionConvert.itrfToLla ⟨5000, 5000, 3000⟩ = .ok l ∧ 0 < l.altitude) ∧
    ∃ p, PositionConvert.llaToItrf ⟨0.5, 1, -3⟩ = .ok p ∧ ¬OnEllipsoid p := by
  constructor
  · have hm : (0.02 * semiMajor) ≤ (⟨5000, 5000, 3000⟩ : Vec3).magnitude := by
      have h1 := Vec3.magnitude_sq ⟨5000, 5000, 3000⟩
      have h2 := Vec3.magnitude_nonneg ⟨5000, 5000, 3000⟩
      simp only [Vec3.dot] at h1
      norm_num [semiMajor, Earth.RADIUS]
      nlinarith
    obtain ⟨l, hl⟩ := C165_defined _ hm
    obtain ⟨_, -, -, -, -, h, -⟩ := C165_height _ l hl
    refine ⟨l, hl, h.mpr ?_⟩
    norm_num [semiMajor, semiMinor, Earth.RADIUS, Earth.FLATTENING]
  · obtain ⟨_, -, -, -, -, -, h⟩ := C165_site 0.5 1 (-3) (by norm_num) _ (llaToItrf_ok _)
    exact ⟨_, llaToItrf_ok _, fun hq => by have := h.mpr hq; norm_num at this⟩

end Openspace
