import Verif.Props.Geodetic
import Verif.Props.Observations

/-!
# Property C56: a simulated ground observation reproduces the target
-/

namespace Openspace

open Real

/-- the site knows its own geodetic frame: converting its ITRF position gives back the frame it uses -/
def SiteFrame (g : GroundSite) : Prop :=
  ∃ l, PositionConvert.itrfToLla g.itrf_position = .ok l ∧ enzMatrix l.longitude l.latitude = g.enz_matrix

theorem enzMatrix_congr {a b c : ℝ} (h1 : cos a = cos b) (h2 : sin a = sin b) :
    enzMatrix a c = enzMatrix b c := by
  simp only [enzMatrix_eq, h1, h2]

theorem siteFrame_new (lat lon h : ℝ) (hlat : |lat| < π / 2) (hh : -6200 ≤ h) (g : GroundSite)
    (hg : GroundSite.new ⟨lat, lon, h⟩ = .ok g) : SiteFrame g := by
  obtain ⟨hl1, hl2⟩ := abs_lt.mp hlat
  have hc : 0 < cos lat := cos_pos_of_mem_Ioo ⟨hl1, hl2⟩
  have hv := llaToItrf_ok ⟨lat, lon, h⟩
  obtain ⟨hpos, hq⟩ := lla_domain hh hv
  simp only [GroundSite.new, hv, ok_bind, pure_eq_ok, Except.ok.injEq] at hg
  subst hg
  refine ⟨_, itrf_of_lla lat lon h hl1.le hl2.le hpos hv hq, ?_⟩
  have hr : 0 < (geoN lat + h) * cos lat := by
    apply mul_pos _ hc; nlinarith [geoE2_pos, geoN_pos lat]
  have hs := mul_sin_atan2 ((geoN lat + h) * cos lat * sin lon) ((geoN lat + h) * cos lat * cos lon)
  have hco := mul_cos_atan2 ((geoN lat + h) * cos lat * sin lon) ((geoN lat + h) * cos lat * cos lon)
  have hroot : √((geoN lat + h) * cos lat * cos lon * ((geoN lat + h) * cos lat * cos lon)
      + (geoN lat + h) * cos lat * sin lon * ((geoN lat + h) * cos lat * sin lon)) = (geoN lat + h) * cos lat := by
    rw [show (geoN lat + h) * cos lat * cos lon * ((geoN lat + h) * cos lat * cos lon)
      + (geoN lat + h) * cos lat * sin lon * ((geoN lat + h) * cos lat * sin lon)
      = ((geoN lat + h) * cos lat) ^ 2 by
        linear_combination ((geoN lat + h) * cos lat) ^ 2 * sin_sq_add_cos_sq lon]
    exact Real.sqrt_sq hr.le
  rw [hroot] at hs hco
  apply enzMatrix_congr
  · rw [wrapNeg_cos]; exact mul_left_cancel₀ hr.ne' hco
  · rw [wrapNeg_sin]; exact mul_left_cancel₀ hr.ne' hs

theorem siteFrame_fromItrf (p : Vec3) (g : GroundSite) (hg : GroundSite.fromItrfPosition p = .ok g) :
    SiteFrame g := by
  have hp := C27_or_raises p g hg
  simp only [GroundSite.fromItrfPosition, GroundSite.new, bind_eq_ok, pure_eq_ok, Except.ok.injEq] at hg
  obtain ⟨l, h1, q, h2, rfl⟩ := hg
  exact ⟨l, by rw [hp]; exact h1, rfl⟩

theorem site_orth (g : GroundSite) (h : SiteFrame g) : g.enz_matrix.Orth := by
  obtain ⟨l, -, h⟩ := h; rw [← h]; exact enz_orth _ _

/-- the content of C56 for one site and one target -/
theorem ground_observation {ι : Type} (g : GroundSite) (hg : SiteFrame g) (target : Spacecraft ι) :
    ∃ o itrf ijk gcrf, g.anglesAndRange target = .ok o ∧
      PositionConvert.gcrfToItrf target.position target.currentEpoch = .ok itrf ∧
      PositionConvert.gcrfToIjk target.position target.currentEpoch = .ok ijk ∧
      o.epoch = target.currentEpoch ∧
      o.ijkPosition = .ok ijk ∧
      o.range = (itrf.minus g.itrf_position).magnitude ∧
      o.gcrfPosition = .ok gcrf ∧
      (gcrf.minus target.position).magnitude ≤ 1.1e-8 * target.position.magnitude := by
  obtain ⟨q, gcrf, hq, hr, hbound⟩ := C75_bound target.currentEpoch target.position
  have ho := site_orth g hg
  obtain ⟨l, h1, h2⟩ := hg
  have hob : (GroundObservation.new (State.fromFixed target.currentEpoch g.itrf_position)
      (g.enzPosition q) 0 0).itrfOb = .ok q := by
    have e : (GroundObservation.new (State.fromFixed target.currentEpoch g.itrf_position)
      (g.enzPosition q) 0 0).observer_state.position = g.itrf_position := rfl
    have e' : (GroundObservation.new (State.fromFixed target.currentEpoch g.itrf_position)
      (g.enzPosition q) 0 0).observed_direction = g.enzPosition q := rfl
    unfold GroundObservation.itrfOb
    rw [e, e', h1, ok_bind]
    simp only [pure_eq_ok, Except.ok.injEq, PositionConvert.enzToItrf, h2, GroundSite.enzPosition, ho.transpose_mulVec]
    ext <;> simp [Vec3.plus, Vec3.minus]
  refine ⟨GroundObservation.new (State.fromFixed target.currentEpoch g.itrf_position) (g.enzPosition q) 0 0,
    q, ⟨cos target.currentEpoch.gha * q.x - sin target.currentEpoch.gha * q.y,
      sin target.currentEpoch.gha * q.x + cos target.currentEpoch.gha * q.y, q.z⟩, gcrf, ?_, hq, ?_, rfl, ?_, ?_, ?_, hbound⟩
  · simp only [GroundSite.anglesAndRange, hq, ok_bind, pure_eq_ok]
  · simp only [PositionConvert.gcrfToIjk, hq, ok_bind]; exact itrfToIjk_ok _ _
  · simp only [GroundObservation.ijkPosition, hob, ok_bind]; exact itrfToIjk_ok _ _
  · have := (C55_north_through_east (State.fromFixed target.currentEpoch g.itrf_position) (g.enzPosition q) 0 0).2.2.2.2.1
    rw [this]
    exact ho.magnitude_mulVec _
  · simp only [GroundObservation.gcrfPosition, hob, ok_bind]; exact hr

/-- a site at any geodetic position off the exact poles: simulating an observation never fails, its range is
the distance between site and target, its IJK position is the target's, and its GCRF position is the target's
up to the error of the frame conversion -/
theorem C56_site {ι : Type} (lat lon h : ℝ) (hlat : |lat| < π / 2) (hh : -6200 ≤ h) (target : Spacecraft ι) :
    ∃ g o itrf ijk gcrf, GroundSite.new ⟨lat, lon, h⟩ = .ok g ∧ g.anglesAndRange target = .ok o ∧
      PositionConvert.gcrfToItrf target.position target.currentEpoch = .ok itrf ∧
      PositionConvert.gcrfToIjk target.position target.currentEpoch = .ok ijk ∧
      o.epoch = target.currentEpoch ∧
      o.ijkPosition = .ok ijk ∧
      o.range = (itrf.minus g.itrf_position).magnitude ∧
      o.gcrfPosition = .ok gcrf ∧
      (gcrf.minus target.position).magnitude ≤ 1.1e-8 * target.position.magnitude := by
  obtain ⟨g, hg⟩ : ∃ g, GroundSite.new ⟨lat, lon, h⟩ = .ok g :=
    ⟨_, by simp only [GroundSite.new, llaToItrf_ok, ok_bind, pure_eq_ok]; rfl⟩
  obtain ⟨o, itrf, ijk, gcrf, hall⟩ := ground_observation g (siteFrame_new lat lon h hlat hh g hg) target
  exact ⟨g, o, itrf, ijk, gcrf, hg, hall⟩

/-- the same for a site built from an ITRF position, the poles included -/
theorem C56_from_itrf {ι : Type} (p : Vec3) (g : GroundSite) (hg : GroundSite.fromItrfPosition p = .ok g)
    (target : Spacecraft ι) :
    ∃ o itrf ijk gcrf, g.anglesAndRange target = .ok o ∧
      PositionConvert.gcrfToItrf target.position target.currentEpoch = .ok itrf ∧
      PositionConvert.gcrfToIjk target.position target.currentEpoch = .ok ijk ∧
      o.epoch = target.currentEpoch ∧
      o.ijkPosition = .ok ijk ∧
      o.range = (itrf.minus p).magnitude ∧
      o.gcrfPosition = .ok gcrf ∧
      (gcrf.minus target.position).magnitude ≤ 1.1e-8 * target.position.magnitude := by
  have := ground_observation g (siteFrame_fromItrf p g hg) target
  rwa [C27_or_raises p g hg] at this

/-- a site in the southern hemisphere meets the hypotheses -/
example (target : Spacecraft Unit) : ∃ g o ijk, GroundSite.new ⟨-1, -2, 3⟩ = .ok g ∧
    g.anglesAndRange target = .ok o ∧
    PositionConvert.gcrfToIjk target.position target.currentEpoch = .ok ijk ∧ o.ijkPosition = .ok ijk := by
  obtain ⟨g, o, _, ijk, _, h1, h2, -, h3, -, h4, -⟩ := C56_site (-1) (-2) 3
    (by rw [abs_neg, abs_one]; linarith [pi_gt_three]) (by norm_num) target
  exact ⟨g, o, ijk, h1, h2, h3, h4⟩

end Openspace
