import Verif.Props.Frames
import Verif.Props.GroundSites
import Verif.Props.Maneuvers
import Verif.Spec.Visibility

/-!
# Property C130: a target is in view of a ground site exactly when its elevation is not negative
-/

namespace Openspace

open Real Spec

theorem observation_elevation (site : State) (d : Vec3) (re ae : ℝ) :
    (0 ≤ (GroundObservation.new site d re ae).elevation ↔ 0 ≤ d.z) := by
  have h := C55_north_through_east site d re ae
  obtain ⟨-, -, -, -, h1, h2, h3⟩ := h
  obtain ⟨h4, h5⟩ := abs_le.mp h3
  have hp := pi_pos
  constructor
  · intro h0
    rw [← h2, h1]
    exact mul_nonneg (Vec3.magnitude_nonneg _) (sin_nonneg_of_nonneg_of_le_pi h0 (by linarith))
  · intro hz
    show 0 ≤ pyAtan2 d.z _
    exact Complex.arg_nonneg_iff.mpr hz

/-- the site, the observation and the Earth-fixed position of the target, with the site's zenith -/
theorem horizon_setup {ι : Type} (lat lon h : ℝ) (target : Spacecraft ι) :
    ∃ g o q p0 k, GroundSite.new ⟨lat, lon, h⟩ = .ok g ∧ g.anglesAndRange target = .ok o ∧
      PositionConvert.gcrfToItrf target.position target.currentEpoch = .ok q ∧
      OnEllipsoid p0 ∧ g.itrf_position = p0.plus ((geodeticDirection lat lon).scaled h) ∧ (0:ℝ) < k ∧
      ellipsoidNormal p0 = (geodeticDirection lat lon).scaled k ∧
      (geodeticDirection lat lon).dot (geodeticDirection lat lon) = 1 ∧
      (0 ≤ o.elevation ↔ 0 ≤ (geodeticDirection lat lon).dot (q.minus g.itrf_position)) := by
  obtain ⟨p0, p, h0, h1, h2, h3, h4, k, hk, h5⟩ := C25_lla_to_itrf lat lon h
  obtain ⟨q, gcrf, hq, -, -⟩ := C75_bound target.currentEpoch target.position
  refine ⟨⟨p, lat, lon, enzMatrix lon lat⟩,
    GroundObservation.new (State.fromFixed target.currentEpoch p) ((enzMatrix lon lat).mulVec (q.minus p)) 0 0,
    q, p0, k, by simp only [GroundSite.new, h1, ok_bind, pure_eq_ok], ?_, hq, h2, h3, hk, h5, ?_, ?_⟩
  · simp only [GroundSite.anglesAndRange, hq, ok_bind, pure_eq_ok]; rfl
  · rw [← Vec3.magnitude_sq_dot, h4]; norm_num
  · rw [observation_elevation, ← (C24_frame lon lat).2.1]
    rfl

theorem semiMinor_pos : 0 < semiMinor := by norm_num [semiMinor, Earth.RADIUS, Earth.FLATTENING]

theorem semiMajor_pos : 0 < semiMajor := by norm_num [semiMajor, Earth.RADIUS]

/-- A target with elevation zero or more is in view: from a site on or above the ellipsoid, the line of sight to it,
and beyond it, is nowhere inside the Earth -/
theorem C130_in_view {ι : Type} (lat lon h : ℝ) (hh : 0 ≤ h) (target : Spacecraft ι) :
    ∃ g o q, GroundSite.new ⟨lat, lon, h⟩ = .ok g ∧ g.anglesAndRange target = .ok o ∧
      PositionConvert.gcrfToItrf target.position target.currentEpoch = .ok q ∧
      (0 ≤ o.elevation → ∀ t, 0 ≤ t → ¬ InsideEllipsoid (sightPoint g.itrf_position q t)) := by
  obtain ⟨g, o, q, p0, k, h1, h2, h3, hp, hg, hk, hn, h11, hel⟩ := horizon_setup lat lon h target
  refine ⟨g, o, q, h1, h2, h3, fun h0 t ht hin => ?_⟩
  have ha := semiMajor_pos
  have hb := semiMinor_pos
  obtain ⟨n, hne⟩ : ∃ n, n = geodeticDirection lat lon := ⟨_, rfl⟩
  rw [← hne] at hn hg h11 hel
  have hd := hel.mp h0
  obtain ⟨x, hx⟩ : ∃ x, x = sightPoint g.itrf_position q t := ⟨_, rfl⟩
  rw [← hx] at hin
  have hxx : (ellipsoidNormal p0).dot (x.minus p0) = k * (h + t * n.dot (q.minus g.itrf_position)) := by
    rw [hn, hx, hg]
    simp only [Vec3.dot, Vec3.scaled, Vec3.minus, Vec3.plus, sightPoint] at h11 ⊢
    linear_combination k * h * (1 - t) * h11 + k * t * h * h11
  have hpos : 0 ≤ (ellipsoidNormal p0).dot (x.minus p0) := by rw [hxx]; positivity
  simp only [Vec3.dot, ellipsoidNormal, Vec3.minus] at hpos
  unfold OnEllipsoid at hp
  unfold InsideEllipsoid at hin
  have e1 : 0 ≤ ((x.x - p0.x) ^ 2 + (x.y - p0.y) ^ 2) / semiMajor ^ 2 + (x.z - p0.z) ^ 2 / semiMinor ^ 2 := by positivity
  have e2 : ((x.x - p0.x) ^ 2 + (x.y - p0.y) ^ 2) / semiMajor ^ 2 + (x.z - p0.z) ^ 2 / semiMinor ^ 2 =
      ((x.x ^ 2 + x.y ^ 2) / semiMajor ^ 2 + x.z ^ 2 / semiMinor ^ 2) -
      ((p0.x ^ 2 + p0.y ^ 2) / semiMajor ^ 2 + p0.z ^ 2 / semiMinor ^ 2) -
      2 * (p0.x / semiMajor ^ 2 * (x.x - p0.x) + p0.y / semiMajor ^ 2 * (x.y - p0.y) +
        p0.z / semiMinor ^ 2 * (x.z - p0.z)) := by ring
  linarith

/-- A target with negative elevation is out of view of a site on the ellipsoid: the line of sight goes through the
Earth before it reaches the target -/
theorem C130_out_of_view {ι : Type} (lat lon : ℝ) (target : Spacecraft ι) :
    ∃ g o q, GroundSite.new ⟨lat, lon, 0⟩ = .ok g ∧ g.anglesAndRange target = .ok o ∧
      PositionConvert.gcrfToItrf target.position target.currentEpoch = .ok q ∧
      (o.elevation < 0 → ∃ t, 0 < t ∧ t ≤ 1 ∧ InsideEllipsoid (sightPoint g.itrf_position q t)) := by
  obtain ⟨g, o, q, p0, k, h1, h2, h3, hp, hg, hk, hn, h11, hel⟩ := horizon_setup lat lon 0 target
  refine ⟨g, o, q, h1, h2, h3, fun h0 => ?_⟩
  have ha := semiMajor_pos
  have hb := semiMinor_pos
  obtain ⟨n, hne⟩ : ∃ n, n = geodeticDirection lat lon := ⟨_, rfl⟩
  rw [← hne] at hn hg h11 hel
  have hd : n.dot (q.minus g.itrf_position) < 0 := by
    by_contra hc
    exact absurd (hel.mpr (not_lt.mp hc)) (not_le.mpr h0)
  have hgp : g.itrf_position = p0 := by rw [hg]; ext <;> simp [Vec3.plus, Vec3.scaled]
  rw [hgp] at hd ⊢
  obtain ⟨b, hbe⟩ : ∃ b, b = (ellipsoidNormal p0).dot (q.minus p0) := ⟨_, rfl⟩
  have hbneg : b < 0 := by
    rw [hbe, hn, Vec3.dot_scaled_left]; exact mul_neg_of_pos_of_neg hk hd
  obtain ⟨c, hc⟩ : ∃ c, c = ((q.x - p0.x) ^ 2 + (q.y - p0.y) ^ 2) / semiMajor ^ 2 + (q.z - p0.z) ^ 2 / semiMinor ^ 2 :=
    ⟨_, rfl⟩
  have hc0 : 0 ≤ c := by rw [hc]; positivity
  unfold OnEllipsoid at hp
  have hval : ∀ t, ((sightPoint p0 q t).x ^ 2 + (sightPoint p0 q t).y ^ 2) / semiMajor ^ 2 +
      (sightPoint p0 q t).z ^ 2 / semiMinor ^ 2 = 1 + 2 * t * b + t ^ 2 * c := by
    intro t
    rw [hc, hbe, ← hp]
    simp only [sightPoint, Vec3.dot, ellipsoidNormal, Vec3.minus]
    ring
  by_cases hcb : c ≤ -b
  · refine ⟨1, one_pos, le_rfl, ?_⟩
    unfold InsideEllipsoid
    rw [hval]
    linarith
  · have hcp : 0 < c := by linarith
    refine ⟨-b / c, div_pos (by linarith) hcp, by rw [div_le_one hcp]; linarith, ?_⟩
    unfold InsideEllipsoid
    rw [hval]
    have : 1 + 2 * (-b / c) * b + (-b / c) ^ 2 * c = 1 - b ^ 2 / c := by field_simp; ring
    rw [this]
    have : 0 < b ^ 2 / c := div_pos (by nlinarith) hcp
    linarith

/-- for each Earth-fixed position there is a spacecraft there -/
theorem spacecraft_at (q : Vec3) : ∃ s : Spacecraft Unit, PositionConvert.gcrfToItrf s.position s.currentEpoch = .ok q := by
  obtain ⟨p, hp, -⟩ := C77_bijective ⟨0⟩ q
  obtain ⟨s, -, -, -, h, -⟩ := new_ok (ι := Unit) (GCRF.new ⟨0⟩ p ⟨0, 0, 0⟩)
  refine ⟨s, ?_⟩
  show PositionConvert.gcrfToItrf s.propagator.state.position s.propagator.state.epoch = _
  rw [h]
  exact hp

/-- a spacecraft 500 km above a site is in view -/
example : ∃ (s : Spacecraft Unit) (g : GroundSite) (o : GroundObservation), GroundSite.new ⟨0.5, 1, 0⟩ = .ok g ∧
    g.anglesAndRange s = .ok o ∧ 0 ≤ o.elevation := by
  obtain ⟨p0, p, h0, h1, -, h3, h4, -⟩ := C25_lla_to_itrf 0.5 1 500
  obtain ⟨s, hs⟩ := spacecraft_at p
  obtain ⟨g, o, q, p1, k, g1, g2, g3, -, g4, -, -, g5, g6⟩ := horizon_setup 0.5 1 0 s
  rw [hs] at g3
  cases g3
  refine ⟨s, g, o, g1, g2, g6.mpr ?_⟩
  simp only [GroundSite.new, h0, ok_bind, pure_eq_ok, Except.ok.injEq] at g1
  have e : p.minus g.itrf_position = (geodeticDirection 0.5 1).scaled 500 := by
    rw [← g1, h3]; ext <;> simp [Vec3.plus, Vec3.minus]
  rw [e, Vec3.dot_comm, Vec3.dot_scaled_left, g5]
  norm_num

/-- a spacecraft 20 000 km below a site, on the other side of the Earth, is not -/
example : ∃ (s : Spacecraft Unit) (g : GroundSite) (o : GroundObservation), GroundSite.new ⟨0.5, 1, 0⟩ = .ok g ∧
    g.anglesAndRange s = .ok o ∧ o.elevation < 0 := by
  obtain ⟨p0, p, h0, h1, -, h3, h4, -⟩ := C25_lla_to_itrf 0.5 1 (-20000)
  obtain ⟨s, hs⟩ := spacecraft_at p
  obtain ⟨g, o, q, p1, k, g1, g2, g3, -, g4, -, -, g5, g6⟩ := horizon_setup 0.5 1 0 s
  rw [hs] at g3
  cases g3
  refine ⟨s, g, o, g1, g2, not_le.mp fun h => ?_⟩
  have := g6.mp h
  simp only [GroundSite.new, h0, ok_bind, pure_eq_ok, Except.ok.injEq] at g1
  have e : p.minus g.itrf_position = (geodeticDirection 0.5 1).scaled (-20000) := by
    rw [← g1, h3]; ext <;> simp [Vec3.plus, Vec3.minus]
  rw [e, Vec3.dot_comm, Vec3.dot_scaled_left, g5] at this
  norm_num at this

end Openspace
