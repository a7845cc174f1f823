import Verif.Lemmas.DoubleGround
import Verif.Spec.Sight
import Verif.Props.Horizon

/-!
# C153: ground sites in double precision
-/

namespace Openspace

open Real Spec

/-- **C153**, first part.  The Earth-fixed position of a site, for every latitude, longitude and height, never raises in double
precision and is within 2.4e-15 of the distance scale of the exact position: 20 nanometres for a site on the ground. -/
theorem C153_site {lib : F64.Libm} (hlib : Accurate lib) (lat lon h : ℝ) :
    ∃ g g', GroundSite.new ⟨lat, lon, h⟩ = .ok g ∧ F64.groundSite lib ⟨lat, lon, h⟩ = .ok g' ∧
      (g'.itrf_position.minus g.itrf_position).magnitude ≤ 2.4e-15 * (6400 + |h|) ∧
      g'.latitude = lat ∧ g'.longitude = lon := by
  obtain ⟨p, p', h1, h2, h3⟩ := F64.llaToItrf_error hlib ⟨lat, lon, h⟩
  refine ⟨⟨p, lat, lon, enzMatrix lon lat⟩, ⟨p', lat, lon, F64.enzMatrix lib lon lat⟩,
    by simp only [GroundSite.new, h1, ok_bind, pure_eq_ok], by simp only [F64.groundSite, h2, ok_bind, pure_eq_ok],
    h3.trans ?_, rfl, rfl⟩
  have := F64.u_tiny
  gcongr
  norm_num at this ⊢
  linarith

namespace F64

theorem look_error {lib : Libm} (hlib : Accurate lib) (hatan : Atan2Accurate lib) {ι : Type} (target : Spacecraft ι) (lat lon h : ℝ)
    {k : ℝ} (hk : 0 ≤ k) {q q' : Vec3} (hq' : gcrfToItrf lib target.position target.currentEpoch.value = .ok q')
    (hq : PositionConvert.gcrfToItrf target.position target.currentEpoch = .ok q)
    (he : (q'.minus q).magnitude ≤ k * target.position.magnitude) :
    ∃ g o g' o', GroundSite.new ⟨lat, lon, h⟩ = .ok g ∧ g.anglesAndRange target = .ok o ∧
      groundSite lib ⟨lat, lon, h⟩ = .ok g' ∧ anglesAndRange lib g' target.position target.currentEpoch = .ok o' ∧
      |o'.range - o.range| ≤ sightError (1.01 * k) target.position.magnitude h o.range ∧
      (100 * sightError (1.01 * k) target.position.magnitude h o.range ≤ o.range →
        |o'.elevation - o.elevation| ≤ 1.02 * (sightError (1.01 * k) target.position.magnitude h o.range / o.range) + 1e-15) ∧
      (100 * sightError (1.01 * k) target.position.magnitude h o.range ≤ o.range * cos o.elevation →
        AngleNear o'.azimuth o.azimuth
          (1.02 * (sightError (1.01 * k) target.position.magnitude h o.range / (o.range * cos o.elevation)) + 2e-15)) := by
  obtain ⟨p, p', h1, h2, h3⟩ := llaToItrf_error hlib ⟨lat, lon, h⟩
  have e1 : GroundSite.new ⟨lat, lon, h⟩ = .ok ⟨p, lat, lon, Openspace.enzMatrix lon lat⟩ := by
    simp only [GroundSite.new, h1, ok_bind, pure_eq_ok]
  have e2 : groundSite lib ⟨lat, lon, h⟩ = .ok ⟨p', lat, lon, enzMatrix lib lon lat⟩ := by
    simp only [groundSite, h2, ok_bind, pure_eq_ok]
  obtain ⟨g, hg⟩ : ∃ g : GroundSite, g = ⟨p, lat, lon, Openspace.enzMatrix lon lat⟩ := ⟨_, rfl⟩
  obtain ⟨g', hg'⟩ : ∃ g : GroundSite, g = ⟨p', lat, lon, enzMatrix lib lon lat⟩ := ⟨_, rfl⟩
  rw [← hg] at e1
  rw [← hg'] at e2
  obtain ⟨d, hd⟩ : ∃ d, d = g.enzPosition q := ⟨_, rfl⟩
  obtain ⟨d', hd'⟩ : ∃ d, d = enzPosition g' q' := ⟨_, rfl⟩
  have e3 : g.anglesAndRange target = .ok (GroundObservation.new (State.fromFixed target.currentEpoch g.itrf_position) d 0 0) := by
    simp only [GroundSite.anglesAndRange, hq, ok_bind, pure_eq_ok, hd]
  have e4 : anglesAndRange lib g' target.position target.currentEpoch =
      .ok (groundObservation lib (State.fromFixed target.currentEpoch g'.itrf_position) d' 0 0) := by
    simp only [anglesAndRange, hq', ok_bind, pure_eq_ok, hd']
  refine ⟨g, _, g', _, e1, e3, e2, e4, ?_⟩
  have herr : (d'.minus d).magnitude ≤ 1.001 * (k * target.position.magnitude + 20 * u * (6400 + |h|)) + 168 * u * d.magnitude := by
    rw [hd, hd']
    exact enzPosition_error hlib (lamb := lon) (psi := lat) (by rw [hg]) (by rw [hg']) (by rw [hg, hg']; exact h3) he
  have hsw : ∀ v : Vec3, (⟨v.y, v.x, v.z⟩ : Vec3).magnitude = v.magnitude := fun v => by
    refine Vec3.magnitude_of_dot v.magnitude_nonneg ?_
    rw [Vec3.magnitude_sq]; simp only [Vec3.dot]; ring
  have herr' : ((⟨d'.y, d'.x, d'.z⟩ : Vec3).minus ⟨d.y, d.x, d.z⟩).magnitude ≤
      1.001 * (k * target.position.magnitude + 20 * u * (6400 + |h|)) + 168 * u * d.magnitude := by
    have : (⟨d'.y, d'.x, d'.z⟩ : Vec3).minus ⟨d.y, d.x, d.z⟩ = ⟨(d'.minus d).y, (d'.minus d).x, (d'.minus d).z⟩ := rfl
    rw [this, hsw]; exact herr
  obtain ⟨a1, a2, a3⟩ := spherical_error hatan herr'
  have c := mag_mul_cos_dec (⟨d.y, d.x, d.z⟩ : Vec3)
  simp only [hsw] at a1 a2 a3 c
  have er : (GroundObservation.new (State.fromFixed target.currentEpoch g.itrf_position) d 0 0).range = d.magnitude := hsw d
  have ec : (GroundObservation.new (State.fromFixed target.currentEpoch g.itrf_position) d 0 0).range *
      cos (GroundObservation.new (State.fromFixed target.currentEpoch g.itrf_position) d 0 0).elevation = √(d.y * d.y + d.x * d.x) := by
    rw [er]; exact c
  rw [ec, er]
  have hu := u_pos
  have hut := u_tiny
  have hP := target.position.magnitude_nonneg
  have hR := d.magnitude_nonneg
  have hh := abs_nonneg h
  obtain ⟨δ, hδ⟩ : ∃ x, x = 1.001 * (k * target.position.magnitude + 20 * u * (6400 + |h|)) + 168 * u * d.magnitude := ⟨_, rfl⟩
  obtain ⟨η, hη⟩ : ∃ x, x = sightError (1.01 * k) target.position.magnitude h d.magnitude := ⟨_, rfl⟩
  rw [← hδ] at a1 a2 a3
  rw [← hη]
  have hle : δ + 4.3 * u * (d.magnitude + δ) ≤ η ∧ 0 < δ := by
    rw [hη, sightError]
    rw [show 1.01 * k * target.position.magnitude = 1.01 * (k * target.position.magnitude) by ring]
    have kP : 0 ≤ k * target.position.magnitude := by positivity
    generalize k * target.position.magnitude = A at *
    have b1 : u * d.magnitude ≤ 12 / 10 ^ 17 * d.magnitude := by gcongr
    have b2 : u * (6400 + |h|) ≤ 12 / 10 ^ 17 * (6400 + |h|) := by gcongr
    have b0 : 0 < u * (6400 + |h|) := by positivity
    have b0' : 0 ≤ u * d.magnitude := by positivity
    have d0 : 0 < δ := by rw [hδ]; norm_num; linarith
    have b3 : u * δ ≤ 12 / 10 ^ 17 * δ := by gcongr
    refine ⟨?_, d0⟩
    have b4 : δ ≤ 1.001 * (A + 2.4e-15 * (6400 + |h|)) + 2.02e-14 * d.magnitude := by
      rw [hδ]; norm_num at b1 b2 ⊢; linarith
    norm_num at *
    linarith
  obtain ⟨hle, d0⟩ := hle
  have d1 : δ ≤ η := by
    have : 0 ≤ 4.3 * u * (d.magnitude + δ) := by positivity
    linarith
  refine ⟨?_, fun hs => ?_, fun hs => ?_⟩
  · have e : (SphericalPosition.fromCartesian ⟨d.y, d.x, d.z⟩).radius = d.magnitude := hsw d
    rw [e] at a1
    exact a1.trans hle
  · have r0 : 0 < d.magnitude := by linarith
    refine (a2 r0 (by linarith)).trans ?_
    have : δ / d.magnitude ≤ η / d.magnitude := by gcongr
    norm_num at *
    linarith
  · have r0 : 0 < √(d.y * d.y + d.x * d.x) := by linarith
    refine (a3 r0 (by linarith)).mono ?_
    have : δ / √(d.y * d.y + d.x * d.x) ≤ η / √(d.y * d.y + d.x * d.x) := by gcongr
    norm_num at *
    linarith

end F64

/-- **C153**, second part.  Range, elevation and azimuth of a target seen from a site, with every rounding in the position of the
site, its frame, the rotation of the Earth and the angles.  For a modified Julian date from 1 to 131072, `d` the bound
`3.5e-9 |p| + 3e-15 (6400 + |h|) + 2.1e-14 r`: the range is within `d`, the elevation within `1.02 d / r + 1e-15` and the azimuth, up to
whole turns, within `1.02 d / (r cos el) + 2e-15`. -/
theorem C153_look_angles {lib : F64.Libm} (hlib : Accurate lib) (hatan : Atan2Accurate lib) {ι : Type} (target : Spacecraft ι)
    (h0 : 1 ≤ target.currentEpoch.value) (h1 : target.currentEpoch.value ≤ 131072) (lat lon h : ℝ) :
    ∃ g o g' o', GroundSite.new ⟨lat, lon, h⟩ = .ok g ∧ g.anglesAndRange target = .ok o ∧
      F64.groundSite lib ⟨lat, lon, h⟩ = .ok g' ∧ F64.anglesAndRange lib g' target.position target.currentEpoch = .ok o' ∧
      let d := sightError (1.01 * 3.4e-9) target.position.magnitude h o.range
      |o'.range - o.range| ≤ d ∧
      (100 * d ≤ o.range → |o'.elevation - o.elevation| ≤ 1.02 * (d / o.range) + 1e-15) ∧
      (100 * d ≤ o.range * cos o.elevation →
        AngleNear o'.azimuth o.azimuth (1.02 * (d / (o.range * cos o.elevation)) + 2e-15)) := by
  obtain ⟨q', q, a1, a2, a3⟩ := C139_to_itrf hlib h0 h1 target.position
  exact F64.look_error hlib hatan target lat lon h (by norm_num) a1 a2 a3

/-- The same with `1.4e-10` in place of `3.4e-9`, unless it is within two microseconds of midnight UTC. -/
theorem C153_look_angles_daytime {lib : F64.Libm} (hlib : Accurate lib) (hatan : Atan2Accurate lib) {ι : Type} (target : Spacecraft ι)
    (h0 : 1 ≤ target.currentEpoch.value) (h1 : target.currentEpoch.value ≤ 131072) (n : ℤ)
    (h2 : n + 16 / 10 ^ 12 < target.currentEpoch.value - 69.184 / 86400)
    (h3 : target.currentEpoch.value - 69.184 / 86400 < n + 1 - 16 / 10 ^ 12) (lat lon h : ℝ) :
    ∃ g o g' o', GroundSite.new ⟨lat, lon, h⟩ = .ok g ∧ g.anglesAndRange target = .ok o ∧
      F64.groundSite lib ⟨lat, lon, h⟩ = .ok g' ∧ F64.anglesAndRange lib g' target.position target.currentEpoch = .ok o' ∧
      let d := sightError (1.01 * 1.4e-10) target.position.magnitude h o.range
      |o'.range - o.range| ≤ d ∧
      (100 * d ≤ o.range → |o'.elevation - o.elevation| ≤ 1.02 * (d / o.range) + 1e-15) ∧
      (100 * d ≤ o.range * cos o.elevation →
        AngleNear o'.azimuth o.azimuth (1.02 * (d / (o.range * cos o.elevation)) + 2e-15)) := by
  obtain ⟨q', q, a1, a2, a3⟩ := C139_to_itrf_daytime hlib h0 h1 n h2 h3 target.position
  exact F64.look_error hlib hatan target lat lon h (by norm_num) a1 a2 a3

/-- **C153**, third part.  A target that is computed to be above the horizon by more than the error of the elevation is in view:
from a site on or above the ellipsoid, the exact line of sight is nowhere inside the Earth. -/
theorem C153_in_view {lib : F64.Libm} (hlib : Accurate lib) (hatan : Atan2Accurate lib) {ι : Type} (target : Spacecraft ι)
    (h0 : 1 ≤ target.currentEpoch.value) (h1 : target.currentEpoch.value ≤ 131072) (lat lon : ℝ) {h : ℝ} (hh : 0 ≤ h) :
    ∃ g o q g' o', GroundSite.new ⟨lat, lon, h⟩ = .ok g ∧ g.anglesAndRange target = .ok o ∧
      PositionConvert.gcrfToItrf target.position target.currentEpoch = .ok q ∧
      F64.groundSite lib ⟨lat, lon, h⟩ = .ok g' ∧ F64.anglesAndRange lib g' target.position target.currentEpoch = .ok o' ∧
      let d := sightError (1.01 * 3.4e-9) target.position.magnitude h o.range
      (100 * d ≤ o.range → 1.02 * (d / o.range) + 1e-15 ≤ o'.elevation →
        ∀ t, 0 ≤ t → ¬ InsideEllipsoid (sightPoint g.itrf_position q t)) := by
  obtain ⟨g, o, g', o', a1, a2, a3, a4, -, a5, -⟩ := C153_look_angles hlib hatan target h0 h1 lat lon h
  obtain ⟨g1, o1, q, b1, b2, b3, b4⟩ := C130_in_view lat lon h hh target
  rw [a1, Except.ok.injEq] at b1
  subst b1
  rw [a2, Except.ok.injEq] at b2
  subst b2
  refine ⟨g, o, q, g', o', a1, a2, b3, a3, a4, fun hs he => b4 ?_⟩
  have := (_root_.abs_le.mp (a5 hs)).2
  linarith

/-- **C153**, fourth part.  An observation made from angles and a range keeps them in double precision: the range to 2e-15 of
itself, the elevation to 2.3e-15 and the azimuth, up to whole turns, to 3.1e-15 over the cosine of the elevation. -/
theorem C153_from_angles {lib : F64.Libm} (hlib : Accurate lib) (hatan : Atan2Accurate lib) (site : State) (az el r re ae : ℝ)
    (h1 : 0 ≤ az) (h2 : az < 2 * π) (h3 : |el| < π / 2) (h4 : 1e-12 ≤ cos el) (hr : 0 < r) :
    let o := F64.fromAnglesAndRange lib site az el r re ae
    |o.range - r| ≤ 2e-15 * r ∧ |o.elevation - el| ≤ 2.3e-15 ∧ AngleNear o.azimuth az (3.1e-15 / cos el) ∧
      o.range_error = re ∧ o.angular_error = ae ∧ o.epoch = site.epoch := by
  intro o
  have hu := F64.u_pos
  have hut := F64.u_tiny
  obtain ⟨c1, c2, c3, -⟩ := C55_round_trip site az el r re ae h1 h2 h3 hr
  obtain ⟨w, hw⟩ : ∃ w, w = SphericalPosition.toCartesian ⟨r, az, el⟩ := ⟨_, rfl⟩
  obtain ⟨w', hw'⟩ : ∃ w, w = F64.toCartesian lib ⟨r, az, el⟩ := ⟨_, rfl⟩
  have n1 : w.magnitude = r := by rw [← c3, hw]; rfl
  have hxy : w.x = r * (cos el * cos az) ∧ w.y = r * (cos el * sin az) := by
    rw [hw]; simp only [SphericalPosition.toCartesian, Vec3.scaled, pyCos, pySin]; constructor <;> ring
  have n2 : √(w.x * w.x + w.y * w.y) = r * cos el := by
    rw [hxy.1, hxy.2, show r * (cos el * cos az) * (r * (cos el * cos az)) + r * (cos el * sin az) * (r * (cos el * sin az)) =
      (r * cos el) ^ 2 by linear_combination r ^ 2 * cos el ^ 2 * sin_sq_add_cos_sq az]
    exact sqrt_sq (mul_nonneg hr.le (le_trans (by norm_num) h4))
  have herr : (w'.minus w).magnitude ≤ 2 * (6.1 * F64.u * r) := by
    have sr : F64.Sc r r 0 r := ⟨by simp, by rw [abs_of_pos hr]⟩
    have s1 := F64.sc_sin hlib az
    have s2 := F64.sc_cos hlib az
    have s3 := F64.sc_sin hlib el
    have s4 := F64.sc_cos hlib el
    have x := ((s4.mul s2 (by norm_num) (by norm_num) (by norm_num) (by norm_num)).mul sr (by norm_num) (by norm_num) le_rfl (by norm_num)).1
    have y := ((s4.mul s1 (by norm_num) (by norm_num) (by norm_num) (by norm_num)).mul sr (by norm_num) (by norm_num) le_rfl (by norm_num)).1
    have z := (s3.mul sr (by norm_num) (by norm_num) le_rfl (by norm_num)).1
    have ur : 0 < F64.u * r := by positivity
    apply F64.magnitude_le_two
    · refine le_trans (le_of_eq ?_) (x.trans ?_)
      · rw [hw, hw']; simp only [Vec3.minus, F64.toCartesian, F64.scaled, SphericalPosition.toCartesian, Vec3.scaled, pyCos, pySin]
      · norm_num; nlinarith
    · refine le_trans (le_of_eq ?_) (y.trans ?_)
      · rw [hw, hw']; simp only [Vec3.minus, F64.toCartesian, F64.scaled, SphericalPosition.toCartesian, Vec3.scaled, pyCos, pySin]
      · norm_num; nlinarith
    · refine le_trans (le_of_eq ?_) (z.trans ?_)
      · rw [hw, hw']; simp only [Vec3.minus, F64.toCartesian, F64.scaled, SphericalPosition.toCartesian, Vec3.scaled, pyCos, pySin]
      · norm_num; nlinarith
  obtain ⟨a1, a2, a3⟩ := F64.spherical_error hatan herr
  rw [n1] at a1 a2
  rw [n2] at a3
  have ur : 0 < F64.u * r := by positivity
  have ur' : F64.u * r ≤ 12 / 10 ^ 17 * r := by gcongr
  have q1 : 2 * (6.1 * F64.u * r) / r = 12.2 * F64.u := by field_simp; norm_num
  have q2 : 2 * (6.1 * F64.u * r) / (r * cos el) = 12.2 * F64.u / cos el := by
    have : cos el ≠ 0 := by intro h; rw [h] at h4; norm_num at h4
    field_simp; norm_num
  have hc : 0 < cos el := lt_of_lt_of_le (by norm_num) h4
  rw [q1] at a2
  rw [q2] at a3
  refine ⟨?_, ?_, ?_, rfl, rfl, rfl⟩
  · rw [← c3]
    have e : |o.range - (GroundObservation.fromAnglesAndRange site az el r re ae).range| ≤
        2 * (6.1 * F64.u * r) + 4.3 * F64.u * (r + 2 * (6.1 * F64.u * r)) := by
      refine le_trans (le_of_eq ?_) a1
      rw [hw, hw']; rfl
    rw [c3] at e ⊢
    refine e.trans ?_
    have : F64.u * (r + 2 * (6.1 * F64.u * r)) ≤ F64.u * (1.001 * r) := by
      gcongr
      norm_num at ur' ⊢
      linarith
    norm_num at *
    linarith
  · have e : |o.elevation - el| ≤ 1.02 * (12.2 * F64.u) + 6 * F64.u := by
      refine le_trans (le_of_eq ?_) (a2 hr ?_)
      · rw [hw, hw']; nth_rw 1 [← c2]; rfl
      · norm_num at ur' ⊢; linarith
    refine e.trans ?_
    norm_num at *
    linarith
  · have b : 0 < r * cos el := by positivity
    have e := a3 b (by
      have : r * 1e-12 ≤ r * cos el := by gcongr
      norm_num at ur' this ⊢; linarith)
    have e' : AngleNear o.azimuth az (1.02 * (12.2 * F64.u / cos el) + 13 * F64.u) := by
      rw [hw, hw'] at e
      have := c1
      rw [← this]
      exact e
    refine e'.mono ?_
    have h5 := cos_le_one el
    have : 13 * F64.u ≤ 13 * F64.u / cos el := by rw [le_div_iff₀ hc]; nlinarith
    calc 1.02 * (12.2 * F64.u / cos el) + 13 * F64.u ≤ 1.02 * (12.2 * F64.u / cos el) + 13 * F64.u / cos el := by linarith
      _ = (25.444 * F64.u) / cos el := by ring
      _ ≤ 3.1e-15 / cos el := by gcongr; norm_num at *; linarith

/-- a spacecraft 500 km above a site, at noon on the first of January 2000: the elevation computed in double precision is above the
margin, so that the line of sight is free -/
example : ∃ (s : Spacecraft Unit) (g : GroundSite) (q : Vec3) (g' : GroundSite) (o' : GroundObservation),
    GroundSite.new ⟨0.5, 1, 0⟩ = .ok g ∧ PositionConvert.gcrfToItrf s.position s.currentEpoch = .ok q ∧
    F64.groundSite F64.rounded ⟨0.5, 1, 0⟩ = .ok g' ∧ F64.anglesAndRange F64.rounded g' s.position s.currentEpoch = .ok o' ∧
    1.57 ≤ o'.elevation ∧ |o'.range - 500| ≤ 3e-5 ∧ ∀ t, 0 ≤ t → ¬ InsideEllipsoid (sightPoint g.itrf_position q t) := by
  obtain ⟨p0, p, h0, h1, h2, h3, h4, -⟩ := C25_lla_to_itrf 0.5 1 500
  obtain ⟨P, hP, -⟩ := C77_bijective ⟨51544.5⟩ p
  obtain ⟨s, -, -, -, hs, -⟩ := new_ok (ι := Unit) (GCRF.new ⟨51544.5⟩ P ⟨0, 0, 0⟩)
  have sp : s.position = P := by
    show s.propagator.state.position = _
    rw [hs]; rfl
  have se : s.currentEpoch = ⟨51544.5⟩ := by
    show s.propagator.state.epoch = _
    rw [hs]; rfl
  have hPm : P.magnitude ≤ 6900 := by
    have e1 : P.magnitude ≤ p.magnitude := by
      obtain ⟨m, hm, hr⟩ := rotation_isRotation ⟨51544.5⟩
      have hP' := hP
      simp only [PositionConvert.gcrfToItrf, PositionConvert.gcrfToTod, PositionConvert.gcrfToMod, hm, ok_bind, pure_eq_ok,
        Except.ok.injEq] at hP'
      rw [← hP', hr.orth.magnitude_mulVec]
      have := (nutation_magnitude ⟨51544.5⟩ ((Earth.precession ⟨51544.5⟩).mulVec P)).1
      rwa [(precession_orth _).magnitude_mulVec] at this
    have e2 : p.magnitude ≤ p0.magnitude + 500 := by
      have := F64.magnitude_le_of_minus p p0
      rw [show p.minus p0 = (geodeticDirection 0.5 1).scaled 500 by rw [h3]; ext <;> simp [Vec3.plus, Vec3.minus],
        Vec3.magnitude_scaled_abs, h4] at this
      norm_num at this
      exact this
    have e3 : p0.magnitude ≤ 6400 := by
      apply abs_le_of_sq_le_sq' _ (by norm_num) |>.2
      rw [Vec3.magnitude_sq]
      unfold OnEllipsoid at h2
      have x := sq_nonneg p0.x
      have y := sq_nonneg p0.y
      have z := sq_nonneg p0.z
      norm_num [semiMajor, semiMinor, Earth.RADIUS, Earth.FLATTENING] at h2 ⊢
      linarith
    linarith
  obtain ⟨g, o, q, g', o', a1, a2, a3, a4, a5, a6⟩ := C153_in_view F64.rounded_accurate.1 F64.rounded_accurate.2 s
    (by rw [se]; norm_num) (by rw [se]; norm_num) 0.5 1 (h := 0) le_rfl
  obtain ⟨g1, o1, g1', o1', b1, b2, b3, b4, b5, b6, -⟩ := C153_look_angles F64.rounded_accurate.1 F64.rounded_accurate.2 s
    (by rw [se]; norm_num) (by rw [se]; norm_num) 0.5 1 0
  rw [a1, Except.ok.injEq] at b1
  subst b1
  rw [a2, Except.ok.injEq] at b2
  subst b2
  rw [a4, Except.ok.injEq] at b3
  subst b3
  rw [a5, Except.ok.injEq] at b4
  subst b4
  rw [sp, se, hP, Except.ok.injEq] at a3
  subst a3
  have e : p.minus g.itrf_position = (geodeticDirection 0.5 1).scaled 500 := by
    have := a1
    simp only [GroundSite.new, h0, ok_bind, pure_eq_ok, Except.ok.injEq] at this
    rw [← this, h3]; ext <;> simp [Vec3.plus, Vec3.minus]
  have en : g.enz_matrix = enzMatrix 1 0.5 := by
    have := a1
    simp only [GroundSite.new, h0, ok_bind, pure_eq_ok, Except.ok.injEq] at this
    rw [← this]
  have oo : o = GroundObservation.new (State.fromFixed s.currentEpoch g.itrf_position) (g.enzPosition p) 0 0 := by
    have := a2
    simp only [GroundSite.anglesAndRange, sp, se, hP, ok_bind, pure_eq_ok, Except.ok.injEq] at this
    rw [← this, se]
  obtain ⟨-, -, -, -, c1, c2, c3⟩ := C55_north_through_east (State.fromFixed s.currentEpoch g.itrf_position) (g.enzPosition p) 0 0
  rw [← oo] at c1 c2 c3
  have d1 : o.range = 500 := by
    rw [c1, GroundSite.enzPosition, e, en, (C24_frame 1 0.5).1.orth.magnitude_mulVec, Vec3.magnitude_scaled_abs, h4]
    norm_num
  have d2 : (g.enzPosition p).z = 500 := by
    rw [GroundSite.enzPosition, e, en]
    show (enzMatrix 1 0.5).row3.dot _ = _
    rw [(C24_frame 1 0.5).2.1, Vec3.dot_comm, Vec3.dot_scaled_left, ← Vec3.magnitude_sq_dot, h4]
    norm_num
  have d3 : sin o.elevation = 1 := by rw [d1, d2] at c2; linarith
  have d4 : o.elevation = π / 2 := by
    have h := arcsin_sin (_root_.abs_le.mp c3).1 (_root_.abs_le.mp c3).2
    rw [d3, arcsin_one] at h
    exact h.symm
  have d5 : sightError (1.01 * 3.4e-9) s.position.magnitude 0 o.range ≤ 2.9e-5 := by
    rw [sightError, d1, sp]; norm_num; linarith
  have d6 : 0 ≤ sightError (1.01 * 3.4e-9) s.position.magnitude 0 o.range := by
    rw [sightError, d1, sp]
    have := P.magnitude_nonneg
    norm_num; linarith
  generalize sightError (1.01 * 3.4e-9) s.position.magnitude 0 o.range = D at *
  have hp := pi_gt_d6
  have d7 : 100 * D ≤ o.range := by rw [d1]; norm_num at d5 ⊢; linarith
  have d8 := (_root_.abs_le.mp (b6 d7)).1
  rw [d1, d4] at d8
  refine ⟨s, g, p, g', o', a1, by rw [sp, se]; exact hP, a4, a5, ?_, ?_, a6 d7 ?_⟩
  · norm_num at *; linarith
  · rw [d1] at b5; exact b5.trans (by norm_num at d5 ⊢; linarith)
  · rw [d1]; norm_num at *; linarith

example (site : State) : |(F64.fromAnglesAndRange F64.rounded site 3 (-1) 1000 0 0).elevation - (-1)| ≤ 2.3e-15 := by
  have hp := pi_gt_three
  refine (C153_from_angles F64.rounded_accurate.1 F64.rounded_accurate.2 site 3 (-1) 1000 0 0 (by norm_num) (by linarith)
    (by norm_num; linarith) ?_ (by norm_num)).2.1
  rw [cos_neg]
  have := one_sub_sq_div_two_le_cos (x := 1)
  norm_num at this ⊢
  linarith

end Openspace
