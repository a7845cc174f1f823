import Verif.Spec.Geodesy
import Verif.Lemmas.Linalg
import Verif.Lemmas.Angles
import Verif.Model.Terrestrial
import Mathlib.Analysis.Real.Pi.Bounds

/-!
# Properties C23–C25: spherical coordinates, the topocentric frame, geodetic to ITRF
-/

namespace Openspace

open Real Spec

/-! ## C23 -/

theorem mag_eq (v : Vec3) :
    v.magnitude = √(√(v.x * v.x + v.y * v.y) * √(v.x * v.x + v.y * v.y) + v.z * v.z) := by
  rw [Real.mul_self_sqrt (by nlinarith [sq_nonneg v.x, sq_nonneg v.y])]; rfl

theorem mag_mul_cos_dec (v : Vec3) :
    v.magnitude * cos (SphericalPosition.fromCartesian v).declination = √(v.x * v.x + v.y * v.y) := by
  rw [mag_eq]; exact mul_cos_atan2 _ _

theorem mag_mul_sin_dec (v : Vec3) :
    v.magnitude * sin (SphericalPosition.fromCartesian v).declination = v.z := by
  rw [mag_eq]; exact mul_sin_atan2 _ _

theorem rho_mul_cos_ra (v : Vec3) :
    √(v.x * v.x + v.y * v.y) * cos (SphericalPosition.fromCartesian v).right_ascension = v.x := by
  simp only [SphericalPosition.fromCartesian, wrapNeg_cos]; exact mul_cos_atan2 _ _

theorem rho_mul_sin_ra (v : Vec3) :
    √(v.x * v.x + v.y * v.y) * sin (SphericalPosition.fromCartesian v).right_ascension = v.y := by
  simp only [SphericalPosition.fromCartesian, wrapNeg_sin]; exact mul_sin_atan2 _ _

theorem C23_cartesian (v : Vec3) : (SphericalPosition.fromCartesian v).toCartesian = v := by
  have h1 := mag_mul_cos_dec v
  have h2 := mag_mul_sin_dec v
  have h3 := rho_mul_cos_ra v
  have h4 := rho_mul_sin_ra v
  have hr : (SphericalPosition.fromCartesian v).radius = v.magnitude := rfl
  ext
  · simp only [SphericalPosition.toCartesian, Vec3.scaled, pyCos, pySin, hr]
    rw [← h1] at h3; linear_combination h3
  · simp only [SphericalPosition.toCartesian, Vec3.scaled, pyCos, pySin, hr]
    rw [← h1] at h4; linear_combination h4
  · simp only [SphericalPosition.toCartesian, Vec3.scaled, pyCos, pySin, hr]
    linear_combination h2

theorem C23_ranges (v : Vec3) :
    let s := SphericalPosition.fromCartesian v
    s.radius = v.magnitude ∧ 0 ≤ s.radius ∧ 0 ≤ s.right_ascension ∧ s.right_ascension < 2 * π ∧
      -(π / 2) ≤ s.declination ∧ s.declination ≤ π / 2 := by
  intro s
  have hra := wrapNeg_atan2_range v.y v.x
  have hd : |s.declination| ≤ π / 2 := by
    refine Complex.abs_arg_le_pi_div_two_iff.mpr ?_
    exact Real.sqrt_nonneg _
  have := abs_le.mp hd
  exact ⟨rfl, v.magnitude_nonneg, hra.1, hra.2, this.1, this.2⟩

theorem C23_spherical (r ra dec : ℝ) (hr : 0 < r) (h1 : 0 ≤ ra) (h2 : ra < 2 * π) (h3 : |dec| < π / 2) :
    SphericalPosition.fromCartesian (SphericalPosition.toCartesian ⟨r, ra, dec⟩) = ⟨r, ra, dec⟩ := by
  obtain ⟨h3a, h3b⟩ := abs_lt.mp h3
  have hc : 0 < cos dec := cos_pos_of_mem_Ioo ⟨h3a, h3b⟩
  have hrho : √(cos dec * cos ra * r * (cos dec * cos ra * r) + cos dec * sin ra * r * (cos dec * sin ra * r))
      = r * cos dec := by
    rw [show cos dec * cos ra * r * (cos dec * cos ra * r) + cos dec * sin ra * r * (cos dec * sin ra * r)
      = (r * cos dec) * (r * cos dec) by linear_combination (r * cos dec) ^ 2 * sin_sq_add_cos_sq ra]
    exact Real.sqrt_mul_self (by positivity)
  ext
  · simp only [SphericalPosition.toCartesian, SphericalPosition.fromCartesian]
    apply Vec3.magnitude_of_dot hr.le
    simp only [Vec3.dot, Vec3.scaled, pyCos, pySin]
    linear_combination (r * cos dec) ^ 2 * sin_sq_add_cos_sq ra + r ^ 2 * sin_sq_add_cos_sq dec
  · simp only [SphericalPosition.toCartesian, SphericalPosition.fromCartesian, Vec3.scaled, pyCos, pySin]
    exact wrapNeg_atan2_eq (r := r * cos dec) (by positivity) h1 h2 (by ring) (by ring)
  · simp only [SphericalPosition.toCartesian, SphericalPosition.fromCartesian, Vec3.scaled, pyCos, pySin,
      sqrtNN, hrho]
    exact pyAtan2_eq hr (by linarith [pi_pos]) (by linarith [pi_pos]) rfl (by ring)

example : |(-1.2 : ℝ)| < π / 2 := by
  rw [abs_lt]; constructor <;> linarith [pi_gt_three]

/-! ## C24 -/

theorem lit_zero : (0.0 : ℝ) = 0 := by norm_num
theorem lit_one : (1.0 : ℝ) = 1 := by norm_num

theorem enzMatrix_eq (lamb psi : ℝ) : enzMatrix lamb psi =
    ⟨⟨-sin lamb, cos lamb, 0⟩, ⟨-sin psi * cos lamb, -sin psi * sin lamb, cos psi⟩,
      ⟨cos psi * cos lamb, cos psi * sin lamb, sin psi⟩⟩ := by
  simp only [enzMatrix, lit_zero, pySin, pyCos]

theorem enz_orth (lamb psi : ℝ) : (enzMatrix lamb psi).Orth := by
  have h1 := sin_sq_add_cos_sq lamb
  have h2 := sin_sq_add_cos_sq psi
  rw [enzMatrix_eq]
  constructor <;> simp only [Vec3.dot]
  · linear_combination h1
  · linear_combination (sin psi) ^ 2 * h1 + h2
  · linear_combination (cos psi) ^ 2 * h1 + h2
  · ring
  · ring
  · linear_combination -(sin psi * cos psi) * h1

/-- the frame is a proper rotation whose third row is the geodetic zenith -/
theorem C24_frame (lamb psi : ℝ) :
    (enzMatrix lamb psi).IsRotation ∧ (enzMatrix lamb psi).row3 = geodeticDirection psi lamb ∧
    -- first row: due east, i.e. horizontal, along increasing longitude
    (enzMatrix lamb psi).row1 = ⟨-sin lamb, cos lamb, 0⟩ := by
  refine ⟨(enz_orth lamb psi).isRotation ?_, rfl, ?_⟩
  · simp only [enzMatrix_eq, Mat3.determinant]
    linear_combination (sin psi ^ 2 + cos psi ^ 2) * sin_sq_add_cos_sq lamb + sin_sq_add_cos_sq psi
  · rw [enzMatrix_eq]

/-- ENZ coordinates seen from a site convert back to the ITRF offset, and ranges are preserved -/
theorem C24_inverse (lla : LLA) (g : GroundSite) (hg : GroundSite.new lla = .ok g) (p e : Vec3) :
    PositionConvert.enzToItrf lla (g.enzPosition p) = p.minus g.itrf_position ∧
    (g.enzPosition p).magnitude = (p.minus g.itrf_position).magnitude ∧
    g.enzPosition ((PositionConvert.enzToItrf lla e).plus g.itrf_position) = e := by
  simp only [GroundSite.new, bind_eq_ok, pure_eq_ok, Except.ok.injEq] at hg
  obtain ⟨q, _, hg⟩ := hg
  subst hg
  have ho := enz_orth lla.longitude lla.latitude
  refine ⟨?_, ?_, ?_⟩
  · simp only [PositionConvert.enzToItrf, GroundSite.enzPosition]; exact ho.transpose_mulVec _
  · simp only [GroundSite.enzPosition]; exact ho.magnitude_mulVec _
  · simp only [PositionConvert.enzToItrf, GroundSite.enzPosition]
    rw [show (((enzMatrix lla.longitude lla.latitude).transpose.mulVec e).plus q).minus q
      = (enzMatrix lla.longitude lla.latitude).transpose.mulVec e by
        ext <;> simp [Vec3.plus, Vec3.minus]]
    exact ho.mulVec_transpose _

/-! ## C25 -/

/-- first eccentricity squared -/
noncomputable def geoE2 : ℝ := Earth.FLATTENING * (2 - Earth.FLATTENING)

theorem flattening_bounds : 0 < Earth.FLATTENING ∧ Earth.FLATTENING < 1 := by
  norm_num [Earth.FLATTENING]

theorem geoE2_pos : 0 < geoE2 := by norm_num [geoE2, Earth.FLATTENING]
theorem geoE2_lt : geoE2 < 1 := by norm_num [geoE2, Earth.FLATTENING]

theorem geo_den_pos (lat : ℝ) : 0 < 1 - geoE2 * sin lat ^ 2 := by
  nlinarith [geoE2_pos, geoE2_lt, sin_sq_le_one lat, sq_nonneg (sin lat)]

/-- radius of curvature in the prime vertical -/
noncomputable def geoN (lat : ℝ) : ℝ := Earth.RADIUS / √(1 - geoE2 * sin lat ^ 2)

theorem geoN_pos (lat : ℝ) : 0 < geoN lat := by
  have := geo_den_pos lat
  have hR : 0 < Earth.RADIUS := by norm_num [Earth.RADIUS]
  unfold geoN; positivity

theorem geoN_sq (lat : ℝ) : geoN lat ^ 2 * (1 - geoE2 * sin lat ^ 2) = Earth.RADIUS ^ 2 := by
  have := geo_den_pos lat
  unfold geoN
  rw [div_pow, Real.sq_sqrt this.le]; field_simp

theorem llaToItrf_ok (lla : LLA) : PositionConvert.llaToItrf lla = .ok
    ⟨(geoN lla.latitude + lla.altitude) * cos lla.latitude * cos lla.longitude,
     (geoN lla.latitude + lla.altitude) * cos lla.latitude * sin lla.longitude,
     (geoN lla.latitude * (1 - geoE2) + lla.altitude) * sin lla.latitude⟩ := by
  have hp := geoE2_pos
  have hd := geo_den_pos lla.latitude
  have h1 : pySqrt (Earth.FLATTENING * (2 - Earth.FLATTENING)) = .ok (√geoE2) := pySqrt_ok hp.le
  have h2 : (1 : ℝ) - √geoE2 * √geoE2 * sin lla.latitude * sin lla.latitude
      = 1 - geoE2 * sin lla.latitude ^ 2 := by
    rw [Real.mul_self_sqrt hp.le]; ring
  simp only [PositionConvert.llaToItrf, h1, ok_bind, pySin, pyCos]
  rw [h2]
  simp only [pySqrt_ok hd.le, ok_bind,
    pyDiv_ok (Real.sqrt_pos.mpr hd).ne', Real.mul_self_sqrt hp.le, pure_eq_ok, lit_one, geoN]

/-- the conversion never raises; height 0 is on the ellipsoid, and height `h` is that point moved
by `h` along the geodetic direction, which is the outward unit normal of the ellipsoid there -/
theorem C25_lla_to_itrf (lat lon h : ℝ) :
    ∃ p0 p, PositionConvert.llaToItrf ⟨lat, lon, 0⟩ = .ok p0 ∧ PositionConvert.llaToItrf ⟨lat, lon, h⟩ = .ok p ∧
      OnEllipsoid p0 ∧ p = p0.plus ((geodeticDirection lat lon).scaled h) ∧
      (geodeticDirection lat lon).magnitude = 1 ∧
      ∃ k : ℝ, 0 < k ∧ ellipsoidNormal p0 = (geodeticDirection lat lon).scaled k := by
  have hR : 0 < Earth.RADIUS := by norm_num [Earth.RADIUS]
  have hN := geoN_pos lat
  have hN2 := geoN_sq lat
  have hcl := sin_sq_add_cos_sq lon
  have hcp := sin_sq_add_cos_sq lat
  have hb : semiMinor ^ 2 = Earth.RADIUS ^ 2 * (1 - geoE2) := by
    unfold semiMinor geoE2; ring
  have h1e : 0 < 1 - geoE2 := by linarith [geoE2_lt]
  refine ⟨_, _, llaToItrf_ok _, llaToItrf_ok _, ?_, ?_, ?_, geoN lat / Earth.RADIUS ^ 2, by positivity, ?_⟩
  · simp only [OnEllipsoid, hb, semiMajor, add_zero]
    field_simp
    linear_combination geoN lat ^ 2 * cos lat ^ 2 * hcl + geoN lat ^ 2 * hcp + hN2
  · ext <;> simp only [Vec3.plus, Vec3.scaled, geodeticDirection] <;> ring
  · apply Vec3.magnitude_unit
    simp only [Vec3.dot, geodeticDirection]
    linear_combination cos lat ^ 2 * hcl + hcp
  · ext
    · simp only [ellipsoidNormal, Vec3.scaled, geodeticDirection, semiMajor]; field_simp; ring
    · simp only [ellipsoidNormal, Vec3.scaled, geodeticDirection, semiMajor]; field_simp; ring
    · simp only [ellipsoidNormal, Vec3.scaled, geodeticDirection, hb]; field_simp; ring

end Openspace
