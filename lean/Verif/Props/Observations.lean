import Verif.Props.Celestial
import Verif.Props.Positions
import Verif.Model.Terrestrial

/-!
# C55, C56, C73: observations
-/

namespace Openspace

open Real

/-! ## C55 -/

/-- the angles and range given are the angles and range stored, and the stored direction points north for
azimuth zero and east for azimuth `π/2` -/
theorem C55_round_trip (site : State) (az el r re ae : ℝ) (h1 : 0 ≤ az) (h2 : az < 2 * π) (h3 : |el| < π / 2)
    (hr : 0 < r) :
    let o := GroundObservation.fromAnglesAndRange site az el r re ae
    o.azimuth = az ∧ o.elevation = el ∧ o.range = r ∧ o.range_error = re ∧ o.angular_error = ae ∧
    o.epoch = site.epoch ∧
    o.observed_direction = ⟨r * cos el * sin az, r * cos el * cos az, r * sin el⟩ := by
  intro o
  have key := C23_spherical r az el hr h1 h2 h3
  have e : o.range = r ∧ o.azimuth = az ∧ o.elevation = el := by
    have := congrArg SphericalPosition.radius key
    have := congrArg SphericalPosition.right_ascension key
    have := congrArg SphericalPosition.declination key
    exact ⟨by assumption, by assumption, by assumption⟩
  refine ⟨e.2.1, e.2.2, e.1, rfl, rfl, rfl, ?_⟩
  show (⟨_, _, _⟩ : Vec3) = _
  simp only [SphericalPosition.toCartesian, Vec3.scaled, pyCos, pySin]
  ext <;> simp only <;> ring

/-- azimuth is measured from north through east: the east component of the direction is positive for azimuths
between zero and half a turn, and the north component is positive within a quarter turn of zero -/
theorem C55_north_through_east (site : State) (d : Vec3) (re ae : ℝ) :
    let o := GroundObservation.new site d re ae
    let rho := √(d.x * d.x + d.y * d.y)
    0 ≤ o.azimuth ∧ o.azimuth < 2 * π ∧ rho * sin o.azimuth = d.x ∧ rho * cos o.azimuth = d.y ∧
    o.range = d.magnitude ∧ o.range * sin o.elevation = d.z ∧ |o.elevation| ≤ π / 2 := by
  intro o rho
  have hR := C23_ranges ⟨d.y, d.x, d.z⟩
  have h3 := rho_mul_cos_ra ⟨d.y, d.x, d.z⟩
  have h4 := rho_mul_sin_ra ⟨d.y, d.x, d.z⟩
  have h2 := mag_mul_sin_dec ⟨d.y, d.x, d.z⟩
  have hsw : (⟨d.y, d.x, d.z⟩ : Vec3).magnitude = d.magnitude := by
    refine Vec3.magnitude_of_dot d.magnitude_nonneg ?_
    rw [Vec3.magnitude_sq]; simp only [Vec3.dot]; ring
  have hrho : √(d.y * d.y + d.x * d.x) = rho := by rw [add_comm]
  refine ⟨hR.2.2.1, hR.2.2.2.1, ?_, ?_, hsw, ?_, abs_le.mpr ⟨hR.2.2.2.2.1, hR.2.2.2.2.2⟩⟩
  · rw [← hrho]; exact h4
  · rw [← hrho]; exact h3
  · rw [← h2]; rfl

/-! ## C73 -/

/-- a space observation stores the spherical coordinates of the direction, its epoch is that of the observer,
and its IJK position is the conversion of observer plus direction -/
theorem C73_space (s : GCRF) (d : Vec3) (re ae : ℝ) :
    let o := SpaceObservation.new s d re ae
    o.range = d.magnitude ∧ 0 ≤ o.right_ascension ∧ o.right_ascension < 2 * π ∧ |o.declination| ≤ π / 2 ∧
    d = ⟨o.range * cos o.declination * cos o.right_ascension, o.range * cos o.declination * sin o.right_ascension,
      o.range * sin o.declination⟩ ∧
    o.epoch = s.epoch ∧ o.ijkPosition = PositionConvert.gcrfToIjk (s.position.plus d) s.epoch ∧
    o.range_error = re ∧ o.angular_error = ae := by
  intro o
  have hR := C23_ranges d
  have hc := C23_cartesian d
  refine ⟨rfl, hR.2.2.1, hR.2.2.2.1, abs_le.mpr ⟨hR.2.2.2.2.1, hR.2.2.2.2.2⟩, ?_, rfl, rfl, rfl, rfl⟩
  conv_lhs => rw [← hc]
  simp only [SphericalPosition.toCartesian, Vec3.scaled, pyCos, pySin]
  ext <;> simp only [o, SpaceObservation.new] <;> ring

theorem gcrfToItrf_ok (p : Vec3) (t : Epoch) : ∃ q, PositionConvert.gcrfToItrf p t = .ok q := by
  obtain ⟨m, hm, -⟩ := rotation_isRotation t
  exact ⟨_, by simp only [PositionConvert.gcrfToItrf, hm, ok_bind, pure_eq_ok]; rfl⟩

/-- ITRF to IJK is a rotation about the polar axis: it is defined everywhere, keeps the height above the
equator and the distance from the centre -/
theorem itrfToIjk_ok (p : Vec3) (t : Epoch) :
    PositionConvert.itrfToIjk p t =
      .ok ⟨cos t.gha * p.x - sin t.gha * p.y, sin t.gha * p.x + cos t.gha * p.y, p.z⟩ := by
  have hz : (⟨0, 0, 1⟩ : Vec3).magnitude = 1 := Vec3.magnitude_of_dot zero_le_one (by simp [Vec3.dot])
  simp only [PositionConvert.itrfToIjk, Vec3.rotationAboutAxis, Vec3.rotationMatrix]
  rw [Vec3.normalized_eq_ok.mpr ⟨z_ne, rfl⟩]
  simp only [ok_bind, pure_eq_ok, Except.ok.injEq, hz, Vec3.scaled, Mat3.mulVec, Vec3.dot, Vec3.copy, pySin, pyCos]
  ext <;> simp only <;> ring

/-- computing the IJK position never fails, and rotates the ITRF position about the polar axis -/
theorem C73_ijk_defined (s : GCRF) (d : Vec3) (re ae : ℝ) :
    ∃ p q, (SpaceObservation.new s d re ae).ijkPosition = .ok p ∧
      PositionConvert.gcrfToItrf (s.position.plus d) s.epoch = .ok q ∧ p.z = q.z ∧ p.magnitude = q.magnitude := by
  obtain ⟨q, hq⟩ := gcrfToItrf_ok (s.position.plus d) s.epoch
  refine ⟨⟨cos s.epoch.gha * q.x - sin s.epoch.gha * q.y, sin s.epoch.gha * q.x + cos s.epoch.gha * q.y, q.z⟩,
    q, ?_, hq, rfl, ?_⟩
  · show PositionConvert.gcrfToIjk (s.position.plus d) s.epoch = _
    simp only [PositionConvert.gcrfToIjk, hq, ok_bind, itrfToIjk_ok]
  · refine Vec3.magnitude_of_dot q.magnitude_nonneg ?_
    rw [Vec3.magnitude_sq]
    have := sin_sq_add_cos_sq s.epoch.gha
    simp only [Vec3.dot]
    linear_combination (q.x ^ 2 + q.y ^ 2) * this

end Openspace
