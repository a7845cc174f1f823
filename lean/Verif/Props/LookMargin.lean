import Verif.Props.DetectMargin
import Verif.Props.Horizon
import Verif.Props.Gravity

/-!
# C178: look angles of an uncertain target

What a ground site is told by `angles_and_range` of a predicted target, and what it will see of the true one, which is
within `d` kilometres of it.  The conversion to Earth-fixed coordinates stretches distances by up to `5.5e-9`.
-/

namespace Openspace

open Real Spec DetectMargin

namespace LookMargin

theorem gcrfToItrf_apart (t : Epoch) {p p' : Vec3} {d : ℝ} (h : (p'.minus p).magnitude ≤ d) :
    ∃ q q', PositionConvert.gcrfToItrf p t = .ok q ∧ PositionConvert.gcrfToItrf p' t = .ok q' ∧
      (q'.minus q).magnitude ≤ (1 + 5.5e-9) * d := by
  obtain ⟨m, hm, hr⟩ := rotation_isRotation t
  have key : ∀ v, PositionConvert.gcrfToItrf v t =
      .ok (m.mulVec ((Earth.nutation t).mulVec ((Earth.precession t).mulVec v))) := fun v => by
    simp only [PositionConvert.gcrfToItrf, PositionConvert.gcrfToTod, PositionConvert.gcrfToMod, hm, ok_bind, pure_eq_ok]
  refine ⟨_, _, key p, key p', ?_⟩
  have := (gcrfToItrf_magnitude t (key (p'.minus p))).2
  rw [mulVec_minus, mulVec_minus, mulVec_minus] at this
  refine this.trans ?_
  gcongr

/-- the horizontal and vertical parts of the direction stored in an observation -/
theorem parts (site : State) (v : Vec3) (re ae : ℝ) :
    let o := GroundObservation.new site v re ae
    o.range * cos o.elevation = √(v.x * v.x + v.y * v.y) ∧ (v ≠ ⟨0, 0, 0⟩ → o.elevation = arcsin (v.z / v.magnitude)) := by
  intro o
  obtain ⟨-, -, -, -, h1, h2, h3⟩ := C55_north_through_east site v re ae
  change o.range = v.magnitude at h1
  change o.range * sin o.elevation = v.z at h2
  change |o.elevation| ≤ π / 2 at h3
  rw [abs_le] at h3
  have hc : 0 ≤ cos o.elevation := cos_nonneg_of_mem_Icc ⟨by linarith [h3.1], h3.2⟩
  have hr : 0 ≤ o.range := by rw [h1]; exact Vec3.magnitude_nonneg _
  constructor
  · symm
    rw [sqrt_eq_iff_mul_self_eq (by nlinarith [sq_nonneg v.x, sq_nonneg v.y]) (by positivity)]
    have e1 : o.range ^ 2 = v.x * v.x + v.y * v.y + v.z * v.z := by
      rw [h1, Vec3.magnitude_sq_dot]; rfl
    have e2 := sin_sq_add_cos_sq o.elevation
    have e3 : o.range ^ 2 * sin o.elevation ^ 2 = v.z * v.z := by rw [← h2]; ring
    linear_combination -e1 + e3 - o.range ^ 2 * e2
  · intro hv
    have hm := Vec3.magnitude_pos.mpr hv
    rw [← h2, h1, mul_div_cancel_left₀ _ hm.ne', arcsin_sin (by linarith [h3.1]) h3.2]

/-- observations of two directions at most `D` apart -/
theorem apart (site : State) (v v' : Vec3) (D : ℝ) (h : (v'.minus v).magnitude ≤ D) :
    let o := GroundObservation.new site v 0 0
    let o' := GroundObservation.new site v' 0 0
    |o'.range - o.range| ≤ D ∧ (D < o.range → |o'.elevation - o.elevation| ≤ arcsin (D / o.range)) ∧
    (D < o.range * cos o.elevation →
      ∃ k : ℤ, |o'.azimuth - o.azimuth - 2 * π * k| ≤ arcsin (D / (o.range * cos o.elevation))) := by
  intro o o'
  obtain ⟨-, -, s1, c1, r1, -, -⟩ := C55_north_through_east site v 0 0
  obtain ⟨-, -, s2, c2, r2, -, -⟩ := C55_north_through_east site v' 0 0
  obtain ⟨p1, p2⟩ := parts site v 0 0
  obtain ⟨p1', p2'⟩ := parts site v' 0 0
  change √(v.x * v.x + v.y * v.y) * sin o.azimuth = v.x at s1
  change √(v.x * v.x + v.y * v.y) * cos o.azimuth = v.y at c1
  change √(v'.x * v'.x + v'.y * v'.y) * sin o'.azimuth = v'.x at s2
  change √(v'.x * v'.x + v'.y * v'.y) * cos o'.azimuth = v'.y at c2
  change o.range = _ at r1
  change o'.range = _ at r2
  change o.range * cos o.elevation = _ at p1
  change _ → o.elevation = _ at p2
  change _ → o'.elevation = _ at p2'
  have hD : 0 ≤ D := (Vec3.magnitude_nonneg _).trans h
  have hE : ‖v'.toE - v.toE‖ ≤ D := by rw [← toE_minus, Vec3.norm_toE]; exact h
  have hR : |o'.range - o.range| ≤ D := by
    rw [r1, r2, ← Vec3.norm_toE, ← Vec3.norm_toE]
    exact (abs_norm_sub_norm_le _ _).trans hE
  refine ⟨hR, fun hd => ?_, fun hd => ?_⟩
  · obtain ⟨x, y, a1, a2, a3⟩ := C177_angle ⟨0, 0, 1⟩ v v' D (by simp) h (by rw [← r1]; exact hd)
    obtain ⟨⟨-, hv⟩, hx⟩ := Vec3.angle_eq_ok.mp a1
    obtain ⟨⟨-, hv'⟩, hy⟩ := Vec3.angle_eq_ok.mp a2
    have hz : (⟨0, 0, 1⟩ : Vec3).magnitude = 1 := by simp [Vec3.magnitude, sqrtNN]
    have hdot : ∀ u : Vec3, (⟨0, 0, 1⟩ : Vec3).dot u = u.z := fun u => by simp [Vec3.dot]
    rw [hdot, hz, one_mul] at hx hy
    rw [p2 hv, p2' hv', r1]
    rw [hx, hy, arccos, arccos] at a3
    rw [abs_le] at a3 ⊢
    constructor <;> linarith
  · rw [p1] at hd ⊢
    obtain ⟨f, hf⟩ : ∃ f : Vec3 → Vec3, f = fun u => ⟨u.x, u.y, 0⟩ := ⟨_, rfl⟩
    have hfm : ∀ u, (f u).magnitude = √(u.x * u.x + u.y * u.y) := fun u => by
      rw [hf]; simp [Vec3.magnitude, sqrtNN]
    have hfd : ‖(f v').toE - (f v).toE‖ ≤ D := by
      rw [← toE_minus, Vec3.norm_toE]
      refine le_trans ?_ h
      rw [hf]
      refine abs_le_of_sq_le_sq' ?_ (Vec3.magnitude_nonneg _) |>.2
      rw [Vec3.magnitude_sq_dot, Vec3.magnitude_sq_dot]
      simp only [Vec3.dot, Vec3.minus]
      nlinarith [sq_nonneg (v'.z - v.z)]
    have hn : ‖(f v).toE‖ = √(v.x * v.x + v.y * v.y) := by rw [Vec3.norm_toE, hfm]
    have hn' : ‖(f v').toE‖ = √(v'.x * v'.x + v'.y * v'.y) := by rw [Vec3.norm_toE, hfm]
    have ha := angle_le_arcsin hfd (by rw [hn]; exact hd)
    have hpos : 0 < √(v.x * v.x + v.y * v.y) := hD.trans_lt hd
    have hpos' : 0 < √(v'.x * v'.x + v'.y * v'.y) := by
      have := norm_sub_norm_le (f v).toE (f v').toE
      rw [norm_sub_rev, hn, hn'] at this
      linarith
    rw [hn] at ha
    have hcos : cos (InnerProductGeometry.angle (f v).toE (f v').toE) = cos (o'.azimuth - o.azimuth) := by
      rw [InnerProductGeometry.cos_angle, hn, hn', Vec3.inner_toE, hf, cos_sub]
      simp only [Vec3.dot]
      rw [div_eq_iff (by positivity)]
      linear_combination -v'.x * s1 - √(v.x * v.x + v.y * v.y) * sin o.azimuth * s2 - v'.y * c1 -
        √(v.x * v.x + v.y * v.y) * cos o.azimuth * c2
    obtain ⟨k, hk⟩ := cos_eq_cos_iff.mp hcos
    have h0 := InnerProductGeometry.angle_nonneg (f v).toE (f v').toE
    refine ⟨k, ?_⟩
    rcases hk with hk | hk
    · rw [hk, show 2 * (k : ℝ) * π + InnerProductGeometry.angle (f v).toE (f v').toE - 2 * π * k =
        InnerProductGeometry.angle (f v).toE (f v').toE by ring, abs_of_nonneg h0]
      exact ha
    · rw [hk, show 2 * (k : ℝ) * π - InnerProductGeometry.angle (f v).toE (f v').toE - 2 * π * k =
        -InnerProductGeometry.angle (f v).toE (f v').toE by ring, abs_neg, abs_of_nonneg h0]
      exact ha

end LookMargin

open LookMargin

/-- **Look angles of a target known to within `d`**: range, elevation and azimuth, the latter up to whole turns -/
theorem C178_angles {ι : Type} (lla : LLA) (g : GroundSite) (hg : GroundSite.new lla = .ok g) (t t' : Spacecraft ι) (d : ℝ)
    (he : t'.currentEpoch = t.currentEpoch) (hd : (t'.position.minus t.position).magnitude ≤ d) :
    ∃ o o', g.anglesAndRange t = .ok o ∧ g.anglesAndRange t' = .ok o' ∧ ∀ D, D = (1 + 5.5e-9) * d →
      |o'.range - o.range| ≤ D ∧ (D < o.range → |o'.elevation - o.elevation| ≤ arcsin (D / o.range)) ∧
      (D < o.range * cos o.elevation →
        ∃ k : ℤ, |o'.azimuth - o.azimuth - 2 * π * k| ≤ arcsin (D / (o.range * cos o.elevation))) := by
  obtain ⟨q, q', h1, h2, h3⟩ := gcrfToItrf_apart t.currentEpoch hd
  refine ⟨GroundObservation.new (State.fromFixed t.currentEpoch g.itrf_position) (g.enzPosition q) 0 0,
    GroundObservation.new (State.fromFixed t.currentEpoch g.itrf_position) (g.enzPosition q') 0 0,
    by simp only [GroundSite.anglesAndRange, h1, ok_bind, pure_eq_ok],
    by simp only [GroundSite.anglesAndRange, he, h2, ok_bind, pure_eq_ok], fun D hD => ?_⟩
  refine apart _ _ _ D ?_
  have e : (g.enzPosition q').minus (g.enzPosition q) = g.enz_matrix.mulVec (q'.minus q) := by
    unfold GroundSite.enzPosition
    rw [← mulVec_minus]
    congr 1
    ext <;> simp [Vec3.minus]
  have ho : (g.enz_matrix.mulVec (q'.minus q)).magnitude = (q'.minus q).magnitude := by
    simp only [GroundSite.new, bind_eq_ok, pure_eq_ok, Except.ok.injEq] at hg
    obtain ⟨p, -, rfl⟩ := hg
    exact (C24_frame _ _).1.orth.magnitude_mulVec _
  rw [e, ho, hD]
  exact h3

/-- **A pass forecast with a margin is a pass**: the predicted target stands higher than the angle under which its
uncertainty is seen, so the true one is in view -/
theorem C178_in_view {ι : Type} (lat lon h : ℝ) (hh : 0 ≤ h) (t t' : Spacecraft ι) (d D : ℝ) (hD : D = (1 + 5.5e-9) * d)
    (he : t'.currentEpoch = t.currentEpoch) (hd : (t'.position.minus t.position).magnitude ≤ d) :
    ∃ g o q', GroundSite.new ⟨lat, lon, h⟩ = .ok g ∧ g.anglesAndRange t = .ok o ∧
      PositionConvert.gcrfToItrf t'.position t'.currentEpoch = .ok q' ∧
      (D < o.range → arcsin (D / o.range) ≤ o.elevation →
        ∀ x, 0 ≤ x → ¬ InsideEllipsoid (sightPoint g.itrf_position q' x)) := by
  obtain ⟨g, o', q', h1, h2, h3, h4⟩ := C130_in_view lat lon h hh t'
  obtain ⟨o, o'', k1, k2, k3⟩ := C178_angles _ g h1 t t' d he hd
  rw [h2] at k2; cases k2
  refine ⟨g, o, q', h1, k1, h3, fun hr hel => h4 ?_⟩
  have := (k3 D hD).2.1 hr
  rw [abs_le] at this
  linarith

/-- **A target forecast below the horizon by a margin is out of view** of a site on the ellipsoid -/
theorem C178_out_of_view {ι : Type} (lat lon : ℝ) (t t' : Spacecraft ι) (d D : ℝ) (hD : D = (1 + 5.5e-9) * d)
    (he : t'.currentEpoch = t.currentEpoch) (hd : (t'.position.minus t.position).magnitude ≤ d) :
    ∃ g o q', GroundSite.new ⟨lat, lon, 0⟩ = .ok g ∧ g.anglesAndRange t = .ok o ∧
      PositionConvert.gcrfToItrf t'.position t'.currentEpoch = .ok q' ∧
      (D < o.range → o.elevation < -arcsin (D / o.range) →
        ∃ x, 0 < x ∧ x ≤ 1 ∧ InsideEllipsoid (sightPoint g.itrf_position q' x)) := by
  obtain ⟨g, o', q', h1, h2, h3, h4⟩ := C130_out_of_view lat lon t'
  obtain ⟨o, o'', k1, k2, k3⟩ := C178_angles _ g h1 t t' d he hd
  rw [h2] at k2; cases k2
  refine ⟨g, o, q', h1, k1, h3, fun hr hel => h4 ?_⟩
  have := (k3 D hD).2.1 hr
  rw [abs_le] at this
  linarith

/-- a target 400 km above the horizon of a site and 300 km east of it, known to within 10 km: all three conditions hold,
and it is in view -/
example : ∃ (t : Spacecraft Unit) (g : GroundSite) (o : GroundObservation), GroundSite.new ⟨0.5, 1, 0⟩ = .ok g ∧
    g.anglesAndRange t = .ok o ∧ ∀ D, D = (1 + 5.5e-9) * 10 → D < o.range ∧ D < o.range * cos o.elevation ∧
      arcsin (D / o.range) ≤ o.elevation := by
  obtain ⟨p0, p, h0, h1, -⟩ := C25_lla_to_itrf 0.5 1 0
  obtain ⟨g, hg⟩ : ∃ g, GroundSite.new ⟨0.5, 1, 0⟩ = .ok g :=
    ⟨⟨p, 0.5, 1, enzMatrix 1 0.5⟩, by simp only [GroundSite.new, h1, ok_bind, pure_eq_ok]⟩
  obtain ⟨t, ht⟩ := spacecraft_at ((PositionConvert.enzToItrf ⟨0.5, 1, 0⟩ ⟨300, 0, 400⟩).plus g.itrf_position)
  have he := (C24_inverse ⟨0.5, 1, 0⟩ g hg ⟨0, 0, 0⟩ ⟨300, 0, 400⟩).2.2
  refine ⟨t, g, GroundObservation.new (State.fromFixed t.currentEpoch g.itrf_position) ⟨300, 0, 400⟩ 0 0, hg,
    by simp only [GroundSite.anglesAndRange, ht, he, ok_bind, pure_eq_ok], fun D hD => ?_⟩
  have hm : (⟨300, 0, 400⟩ : Vec3).magnitude = 500 := by
    have h : (⟨300, 0, 400⟩ : Vec3).magnitude ^ 2 = 500 ^ 2 := by
      rw [Vec3.magnitude_sq_dot]; norm_num [Vec3.dot]
    exact (pow_left_inj₀ (Vec3.magnitude_nonneg _) (by norm_num) two_ne_zero).mp h
  obtain ⟨h2, h3⟩ := parts (State.fromFixed t.currentEpoch g.itrf_position) ⟨300, 0, 400⟩ 0 0
  obtain ⟨-, -, -, -, h4, -⟩ := C55_north_through_east (State.fromFixed t.currentEpoch g.itrf_position) ⟨300, 0, 400⟩ 0 0
  rw [h2, h3 (by simp), h4, hm]
  refine ⟨by rw [hD]; norm_num, ?_, arcsin_le_arcsin (by rw [hD]; norm_num)⟩
  rw [show ((300 : ℝ) * 300 + 0 * 0) = 300 ^ 2 by norm_num, sqrt_sq (by norm_num), hD]
  norm_num

end Openspace
