import Verif.Model.DoubleObs
import Verif.Lemmas.DoubleGround
import Verif.Props.DoubleLatitude
import Verif.Props.DoubleToIjk
import Verif.Props.Observations

/-! # C159: inertial positions of observations in double precision -/

namespace Openspace

open Real Spec

namespace F64

variable {lib : Libm} {e : ℝ}

/-- a sum of two vectors -/
theorem plus_rounded (a b : Vec3) : ((plus a b).minus (a.plus b)).magnitude ≤ 1.7321 * (u * (a.plus b).magnitude) := by
  obtain ⟨c1, c2, c3⟩ := component_le (a.plus b)
  have hu := u_pos
  have key : ∀ x : ℝ, |x| ≤ (a.plus b).magnitude → |rnd x - x| ≤ u * (a.plus b).magnitude :=
    fun x h => (rnd_u x).trans (by gcongr)
  exact magnitude_le_of (key _ c1) (key _ c2) (key _ c3)

/-- a direction in the frame of a site, but for the longitude of the site -/
noncomputable def tilt (lat : ℝ) (d : Vec3) : Vec3 := ⟨-sin lat * d.y + cos lat * d.z, d.x, cos lat * d.y + sin lat * d.z⟩

theorem enz_tilt (lon lat : ℝ) (d : Vec3) :
    (Openspace.enzMatrix lon lat).transpose.mulVec d = (turn lon).transpose.mulVec (tilt lat d) := by
  ext <;> simp only [Openspace.enzMatrix, turn, tilt, Mat3.mulVec, Mat3.transpose, Vec3.dot, pySin, pyCos] <;> norm_num <;> ring

theorem tilt_magnitude (lat : ℝ) (d : Vec3) : (tilt lat d).magnitude = d.magnitude := by
  refine Vec3.magnitude_of_dot d.magnitude_nonneg ?_
  have h := sin_sq_add_cos_sq lat
  rw [Vec3.magnitude_sq_dot]
  simp only [tilt, Vec3.dot]
  linear_combination (d.y * d.y + d.z * d.z) * h

theorem tilt_close (a b : ℝ) (d : Vec3) : ((tilt a d).minus (tilt b d)).magnitude ≤ |a - b| * d.magnitude := by
  have hc : 1 - (a - b) ^ 2 / 2 ≤ cos (a - b) := one_sub_sq_div_two_le_cos
  rw [cos_sub] at hc
  have hv := Vec3.magnitude_sq_dot d
  simp only [Vec3.dot] at hv
  have ha := sin_sq_add_cos_sq a
  have hb := sin_sq_add_cos_sq b
  apply abs_le_of_sq_le_sq' _ (mul_nonneg (abs_nonneg _) d.magnitude_nonneg) |>.2
  rw [mul_pow, sq_abs, Vec3.magnitude_sq_dot, hv]
  have h1 : 2 - 2 * (cos a * cos b + sin a * sin b) ≤ (a - b) ^ 2 := by linarith
  have h2 := mul_le_mul_of_nonneg_right h1 (show 0 ≤ d.y * d.y + d.z * d.z by nlinarith)
  have h3 : 0 ≤ (a - b) ^ 2 * (d.x * d.x) := mul_nonneg (sq_nonneg _) (mul_self_nonneg _)
  simp only [tilt, Vec3.dot, Vec3.minus]
  have e : (-sin a * d.y + cos a * d.z - (-sin b * d.y + cos b * d.z)) * (-sin a * d.y + cos a * d.z - (-sin b * d.y + cos b * d.z)) +
      (d.x - d.x) * (d.x - d.x) + (cos a * d.y + sin a * d.z - (cos b * d.y + sin b * d.z)) *
      (cos a * d.y + sin a * d.z - (cos b * d.y + sin b * d.z)) =
      (2 - 2 * (cos a * cos b + sin a * sin b)) * (d.y * d.y + d.z * d.z) := by
    linear_combination (d.y * d.y + d.z * d.z) * ha + (d.y * d.y + d.z * d.z) * hb
  linarith

/-- a direction in the frames of two sites -/
theorem enz_change {lon lon' lat lat' E Λ : ℝ} (h1 : AngleNear lon' lon E) (h2 : |lat' - lat| ≤ Λ) (d : Vec3) :
    (((Openspace.enzMatrix lon' lat').transpose.mulVec d).minus ((Openspace.enzMatrix lon lat).transpose.mulVec d)).magnitude ≤
      (E + Λ) * d.magnitude := by
  obtain ⟨k, hk⟩ := h1
  have hd := d.magnitude_nonneg
  rw [enz_tilt, enz_tilt]
  have a1 := (turn_close lon' (lon + 2 * π * k) (tilt lat' d)).2
  rw [turn_turns, tilt_magnitude] at a1
  have a2 := minus_triangle ((turn lon').transpose.mulVec (tilt lat' d)) ((turn lon).transpose.mulVec (tilt lat' d))
    ((turn lon).transpose.mulVec (tilt lat d))
  rw [← Mat3.mulVec_minus, (turn_orth lon).transpose.magnitude_mulVec] at a2
  have a3 := tilt_close lat' lat d
  have a4 : |lon' - (lon + 2 * π * k)| * d.magnitude ≤ E * d.magnitude := by gcongr
  have a5 : |lat' - lat| * d.magnitude ≤ Λ * d.magnitude := by gcongr
  linarith

theorem enzMatrix_sc (hlib : Accurate lib) (lon lat : ℝ) : ScM (enzMatrix lib lon lat) (Openspace.enzMatrix lon lat) 6 1 := by
  have s1 := sc_sin hlib lon
  have c1 := sc_cos hlib lon
  have s2 := sc_sin hlib lat
  have c2 := sc_cos hlib lat
  have z : Sc (0 : ℝ) (0.0 : ℝ) 6 1 := by
    have := (Sc.exact (x := 0) (s := 1) (by norm_num)).mono (e' := 6) (by norm_num)
    norm_num at this ⊢; exact this
  have e3 := (s2.neg.mul c1 (by norm_num) (by norm_num) (by norm_num) (by norm_num)).mono (e' := 6) (by norm_num)
  have e4 := (s2.neg.mul s1 (by norm_num) (by norm_num) (by norm_num) (by norm_num)).mono (e' := 6) (by norm_num)
  have e5 := (c2.mul c1 (by norm_num) (by norm_num) (by norm_num) (by norm_num)).mono (e' := 6) (by norm_num)
  have e6 := (c2.mul s1 (by norm_num) (by norm_num) (by norm_num) (by norm_num)).mono (e' := 6) (by norm_num)
  rw [one_mul] at e3 e4 e5 e6
  exact ⟨s1.neg.mono (by norm_num), c1.mono (by norm_num), z, e3, e4, c2.mono (by norm_num), e5, e6, s2.mono (by norm_num)⟩

/-- a direction turned out of the frame of a site -/
theorem enzToItrf_error (hlib : Accurate lib) {l l' : LLA} {E Λ : ℝ} (h1 : AngleNear l'.longitude l.longitude E)
    (h2 : |l'.latitude - l.latitude| ≤ Λ) (d : Vec3) :
    ((enzToItrf lib l' d).minus (PositionConvert.enzToItrf l d)).magnitude ≤ (E + Λ + 56 * u) * d.magnitude := by
  have hd := d.magnitude_nonneg
  have o := (C24_frame l'.longitude l'.latitude).1.orth
  have s := ((enzMatrix_sc hlib l'.longitude l'.latitude).transpose.mulVec (ScV.exact d) (k' := 28) (t' := d.magnitude)
    (by norm_num) (by norm_num) le_rfl (by norm_num) (by linarith) (by rw [o.transpose.magnitude_mulVec])).magnitude_le
  have a := enz_change h1 h2 d
  have t := minus_triangle (enzToItrf lib l' d) ((Openspace.enzMatrix l'.longitude l'.latitude).transpose.mulVec d)
    (PositionConvert.enzToItrf l d)
  rw [PositionConvert.enzToItrf] at t ⊢
  rw [enzToItrf] at t ⊢
  linarith

/-- the Earth-fixed position of an observed object, given the errors of the coordinates of the site -/
theorem itrfOb_error (hlib : Accurate lib) (o : GroundObservation) {l l' : LLA} {Λ : ℝ} (hΛ : Λ ≤ 0.036)
    (hl : PositionConvert.itrfToLla o.observer_state.position = .ok l) (hl' : itrfToLla lib o.observer_state.position = .ok l')
    (h1 : AngleNear l'.longitude l.longitude 2e-15) (h2 : |l'.latitude - l.latitude| ≤ Λ) :
    ∃ q' q, groundItrfOb lib o = .ok q' ∧ o.itrfOb = .ok q ∧
      q.magnitude ≤ o.observer_state.position.magnitude + o.observed_direction.magnitude ∧
      (q'.minus q).magnitude ≤ (Λ + 1e-14) * o.observed_direction.magnitude +
        3e-16 * (o.observer_state.position.magnitude + o.observed_direction.magnitude) := by
  obtain ⟨s, hs⟩ : ∃ s, s = o.observer_state.position := ⟨_, rfl⟩
  obtain ⟨d, hd⟩ : ∃ d, d = o.observed_direction := ⟨_, rfl⟩
  refine ⟨plus (enzToItrf lib l' d) s, (PositionConvert.enzToItrf l d).plus s, ?_, ?_, ?_⟩
  · simp only [groundItrfOb, hl', ok_bind, pure_eq_ok, hs, hd]
  · simp only [GroundObservation.itrfOb, hl, ok_bind, pure_eq_ok, hs, hd]
  rw [← hs, ← hd]
  have hu := u_pos
  have hu' := u_tiny
  have m1 := s.magnitude_nonneg
  have m2 := d.magnitude_nonneg
  have hΛ0 : 0 ≤ Λ := (abs_nonneg _).trans h2
  have a1 := enzToItrf_error hlib h1 h2 d
  have a2 := plus_rounded (enzToItrf lib l' d) s
  have o1 : (PositionConvert.enzToItrf l d).magnitude = d.magnitude :=
    (C24_frame l.longitude l.latitude).1.orth.transpose.magnitude_mulVec d
  have a3 := Vec3.magnitude_plus_le (PositionConvert.enzToItrf l d) s
  have a4 := minus_triangle (plus (enzToItrf lib l' d) s) ((enzToItrf lib l' d).plus s) ((PositionConvert.enzToItrf l d).plus s)
  have e4 : ((enzToItrf lib l' d).plus s).minus ((PositionConvert.enzToItrf l d).plus s) =
      (enzToItrf lib l' d).minus (PositionConvert.enzToItrf l d) := by
    ext <;> simp only [Vec3.plus, Vec3.minus] <;> ring
  have a5 := magnitude_le_of_minus ((enzToItrf lib l' d).plus s) ((PositionConvert.enzToItrf l d).plus s)
  rw [e4] at a4 a5
  have b1 : u * d.magnitude ≤ 12 / 10 ^ 17 * d.magnitude := by gcongr
  have b2 : Λ * d.magnitude ≤ 0.036 * d.magnitude := by gcongr
  have b3 : (2e-15 + Λ + 56 * u) * d.magnitude ≤ (Λ + 0.9e-14) * d.magnitude := by
    refine mul_le_mul_of_nonneg_right ?_ m2
    norm_num at hu' ⊢; linarith
  have b4 : ((enzToItrf lib l' d).plus s).magnitude ≤ 1.04 * (s.magnitude + d.magnitude) := by
    norm_num at b2 b3 ⊢; linarith
  have b5 : u * ((enzToItrf lib l' d).plus s).magnitude ≤ 12 / 10 ^ 17 * (1.04 * (s.magnitude + d.magnitude)) :=
    mul_le_mul hu' b4 (Vec3.magnitude_nonneg _) (by norm_num)
  constructor
  · linarith
  · norm_num at a1 a2 b3 b5 ⊢
    linarith

theorem turn_neg (g : ℝ) : turn (-g) = (turn g).transpose := by
  simp only [turn, Mat3.transpose, cos_neg, sin_neg, neg_neg]

theorem itrfToIjk_exact (q : Vec3) (t : Epoch) : PositionConvert.itrfToIjk q t = .ok ((turn t.gha).transpose.mulVec q) := by
  rw [itrfToIjk_ok]
  simp only [turn, Mat3.transpose, Mat3.mulVec, Vec3.dot, Except.ok.injEq]
  ext <;> simp only <;> ring

/-- `to_ijk` of an Earth-fixed position with errors, but for the hour angle -/
theorem itrfToIjk_core (hlib : Accurate lib) {q' q : Vec3} {l t : ℝ} (hq : ScV q' q l t) (hl0 : 0 ≤ l) (hl : l ≤ 1600)
    (ht : q.magnitude ≤ t) :
    ∃ p', itrfToIjk lib q' e = .ok p' ∧ ScV p' ((turn (gha e)).transpose.mulVec q) (3 * l + 34) t := by
  obtain ⟨m, hm, hm'⟩ := rotationMatrix_sc hlib (-gha e)
  rw [neg_neg] at hm
  rw [turn_neg] at hm'
  have hp := hq.hx.nonneg
  have s := hm'.mulVec hq (k' := 3 * l + 34) (t' := t) (by norm_num) (by norm_num) hl0
    (by norm_num; linarith) (by linarith) (by rw [(turn_orth _).transpose.magnitude_mulVec]; exact ht)
  exact ⟨_, by simp only [itrfToIjk, rotationAboutAxis, hm, ok_bind, pure_eq_ok], s⟩

/-- the error of `to_ijk` is the one of the hour angle and a few units of rounding -/
theorem to_ijk_error (hlib : Accurate lib) {k : ℤ} {D : ℝ} (h : |gha e - (⟨e⟩ : Epoch).gha - 2 * π * k| ≤ D) (q : Vec3) :
    ∃ p' p, itrfToIjk lib q e = .ok p' ∧ PositionConvert.itrfToIjk q ⟨e⟩ = .ok p ∧
      (p'.minus p).magnitude ≤ (D + 1e-14) * q.magnitude := by
  obtain ⟨p', e1, s⟩ := itrfToIjk_core (e := e) hlib (ScV.exact q) le_rfl (by norm_num) le_rfl
  refine ⟨p', _, e1, itrfToIjk_exact q ⟨e⟩, ?_⟩
  have hq := q.magnitude_nonneg
  have hu' := u_tiny
  have a1 := s.magnitude_le
  have a2 := (turn_close (gha e) ((⟨e⟩ : Epoch).gha + 2 * π * k) q).2
  rw [turn_turns, ← sub_sub] at a2
  have a3 : |gha e - (⟨e⟩ : Epoch).gha - 2 * π * k| * q.magnitude ≤ D * q.magnitude := by gcongr
  have a4 := minus_triangle p' ((turn (gha e)).transpose.mulVec q) ((turn (⟨e⟩ : Epoch).gha).transpose.mulVec q)
  have a5 : u * q.magnitude ≤ 12 / 10 ^ 17 * q.magnitude := by gcongr
  norm_num at a1 a5 ⊢
  linarith

/-- exact conversions of two positions -/
theorem exact_change (q' q : Vec3) (t : Epoch) : ∃ p' p r' r, PositionConvert.itrfToGcrf q' t = .ok p' ∧
    PositionConvert.itrfToGcrf q t = .ok p ∧ PositionConvert.itrfToIjk q' t = .ok r' ∧ PositionConvert.itrfToIjk q t = .ok r ∧
    (p'.minus p).magnitude ≤ 1.001 * (q'.minus q).magnitude ∧ (r'.minus r).magnitude = (q'.minus q).magnitude := by
  refine ⟨_, _, _, _, itrfToGcrf_exact q' t, itrfToGcrf_exact q t, itrfToIjk_exact q' t, itrfToIjk_exact q t, ?_, ?_⟩
  · rw [← Mat3.mulVec_minus, ← Mat3.mulVec_minus, ← Mat3.mulVec_minus, (precession_orth t).transpose.magnitude_mulVec]
    refine (nutation_length t _).2.trans ?_
    rw [(turn_orth _).transpose.magnitude_mulVec]
  · rw [← Mat3.mulVec_minus, (turn_orth _).transpose.magnitude_mulVec]

/-- the inertial positions of an observed object, given the errors of the coordinates of the site and of the hour angle -/
theorem ground_error (hlib : Accurate lib) (o : GroundObservation) (h0 : 1 ≤ o.epoch.value) (h3 : o.epoch.value ≤ 131072)
    {l l' : LLA} {Λ D : ℝ} {k : ℤ} (hΛ : Λ ≤ 0.036) (hD : |gha o.epoch.value - o.epoch.gha - 2 * π * k| ≤ D)
    (hl : PositionConvert.itrfToLla o.observer_state.position = .ok l) (hl' : itrfToLla lib o.observer_state.position = .ok l')
    (h1 : AngleNear l'.longitude l.longitude 2e-15) (h2 : |l'.latitude - l.latitude| ≤ Λ) :
    ∃ p' p r' r, groundGcrfPosition lib o = .ok p' ∧ o.gcrfPosition = .ok p ∧ groundIjkPosition lib o = .ok r' ∧
      o.ijkPosition = .ok r ∧
      (p'.minus p).magnitude ≤ 1.001 * (Λ + 1e-14) * o.observed_direction.magnitude +
        1.04 * (1.001 * D + 2e-12) * (o.observer_state.position.magnitude + o.observed_direction.magnitude) ∧
      (r'.minus r).magnitude ≤ 1.001 * (Λ + 1e-14) * o.observed_direction.magnitude +
        1.04 * (1.001 * D + 2e-12) * (o.observer_state.position.magnitude + o.observed_direction.magnitude) := by
  obtain ⟨q', q, e1, e2, hq, hqq⟩ := itrfOb_error hlib o hΛ hl hl' h1 h2
  have m1 := o.observer_state.position.magnitude_nonneg
  have m2 := o.observed_direction.magnitude_nonneg
  obtain ⟨S, hS⟩ : ∃ S, S = o.observer_state.position.magnitude + o.observed_direction.magnitude := ⟨_, rfl⟩
  rw [← hS] at hq hqq ⊢
  obtain ⟨p', p1, a1, a2, a3⟩ := to_gcrf_error hlib h0 h3 (k := k) (d := D) hD q'
  obtain ⟨r', r1, b1, b2, b3⟩ := to_ijk_error hlib (e := o.epoch.value) (k := k) (D := D) hD q'
  obtain ⟨p2, p, r2, r, c1, c2, c3, c4, c5, c6⟩ := exact_change q' q o.epoch
  obtain rfl : p1 = p2 := Except.ok.inj (a2.symm.trans c1)
  obtain rfl : r1 = r2 := Except.ok.inj (b2.symm.trans c3)
  refine ⟨p', p, r', r, by simp only [groundGcrfPosition, e1, ok_bind, a1],
    by simp only [GroundObservation.gcrfPosition, e2, ok_bind, c2], by simp only [groundIjkPosition, e1, ok_bind, b1],
    by simp only [GroundObservation.ijkPosition, e2, ok_bind, c4], ?_⟩
  have hD0 : 0 ≤ D := (abs_nonneg _).trans hD
  have hΛ0 : 0 ≤ Λ := (abs_nonneg _).trans h2
  have g1 := magnitude_le_of_minus q' q
  have g2 : Λ * o.observed_direction.magnitude ≤ 0.036 * S :=
    mul_le_mul hΛ (by linarith) m2 (by norm_num)
  have g3 : q'.magnitude ≤ 1.04 * S := by norm_num at hqq g2 ⊢; linarith
  have g4 : (1.001 * D + 1e-12) * q'.magnitude ≤ (1.001 * D + 1e-12) * (1.04 * S) := by gcongr
  have g5 : (D + 1e-14) * q'.magnitude ≤ (D + 1e-14) * (1.04 * S) := by gcongr
  have g6 : 0 ≤ D * S := mul_nonneg hD0 (by linarith)
  have t1 := minus_triangle p' p1 p
  have t2 := minus_triangle r' r1 r
  have g7 : 0 ≤ Λ * o.observed_direction.magnitude := mul_nonneg hΛ0 m2
  constructor
  · norm_num at a3 hqq c5 g4 ⊢; linarith
  · norm_num at b3 hqq g5 ⊢; linarith

/-- the equation of the equinoxes is computed without the error of the hour angle -/
theorem equinoxes_near (hlib : Accurate lib) (h0 : 1 ≤ e) (h1 : e ≤ 131072) :
    |(gast lib e - gha e) - (gastOf ⟨e⟩ - (⟨e⟩ : Epoch).gha)| ≤ 13 * u := by
  have hu := u_pos
  have hu' := u_tiny
  have hd := dpsi_sc hlib h0 h1
  have ce := Sc.cosine hlib (obliquity_sc h0 h1) (k := 60) (t := 1) (by norm_num) le_rfl
  have m := hd.mul ce (by norm_num) (by norm_num) (by norm_num) (by norm_num)
  have m1 := m.1
  have m2 := m.2
  obtain ⟨g0, g1⟩ := C110_range e
  have g2 : gha e ≤ 6.3 := by
    refine g1.trans ?_
    have := (abs_le.mp (rnd_u (2 * pi))).2
    have hp := pi_gap.1
    rw [abs_of_pos (by linarith [pi_pos'])] at this
    have : u * (2 * pi) ≤ u * 6.3 := by gcongr; linarith [pi_lt_d2]
    have hp4 := pi_lt_d4
    linarith
  have r := rnd_u (rnd (dpsi lib e * lib.cos (obliquity e)) + gha e)
  obtain ⟨m3, m4⟩ := abs_le.mp m1
  obtain ⟨m5, m6⟩ := abs_le.mp m2
  have b : |rnd (dpsi lib e * lib.cos (obliquity e)) + gha e| ≤ 7 := by
    rw [abs_le]; constructor <;> linarith
  have b1 : u * |rnd (dpsi lib e * lib.cos (obliquity e)) + gha e| ≤ u * 7 := by gcongr
  obtain ⟨r1, r2⟩ := abs_le.mp r
  rw [gast, gastOf, Spec.apparentSidereal, abs_le]
  constructor <;> linarith

theorem turn_comp (a b : ℝ) (w : Vec3) : (turn b).transpose.mulVec ((turn a).mulVec w) = (turn (a - b)).mulVec w := by
  simp only [turn, Mat3.transpose, Mat3.mulVec, Vec3.dot, cos_sub, sin_sub]
  ext <;> simp only <;> ring

theorem gcrfToIjk_exact (p : Vec3) (t : Epoch) : PositionConvert.gcrfToIjk p t =
    .ok ((turn t.gha).transpose.mulVec ((turn (gastOf t)).mulVec ((Earth.nutation t).mulVec ((Earth.precession t).mulVec p)))) := by
  simp only [PositionConvert.gcrfToIjk, gcrfToItrf_exact, ok_bind, itrfToIjk_exact]

/-- `to_ijk` of an inertial position: the error of the hour angle cancels -/
theorem gcrfToIjk_error (hlib : Accurate lib) (h0 : 1 ≤ e) (h1 : e ≤ 131072) (p : Vec3) :
    ∃ r' r, gcrfToIjk lib p e = .ok r' ∧ PositionConvert.gcrfToIjk p ⟨e⟩ = .ok r ∧
      (r'.minus r).magnitude ≤ 1.2e-12 * p.magnitude := by
  obtain ⟨q', e1, s⟩ := gcrfToItrf_core hlib h0 h1 p
  have hp := p.magnitude_nonneg
  have w1 : ((Earth.precession ⟨e⟩).mulVec p).magnitude = p.magnitude := (precession_orth ⟨e⟩).magnitude_mulVec p
  have w2 := (nutation_length ⟨e⟩ ((Earth.precession ⟨e⟩).mulVec p)).1
  have ex := gcrfToIjk_exact p ⟨e⟩
  rw [w1] at w2
  obtain ⟨w, hw⟩ : ∃ w, w = (Earth.nutation ⟨e⟩).mulVec ((Earth.precession ⟨e⟩).mulVec p) := ⟨_, rfl⟩
  rw [← hw] at s w2 ex
  obtain ⟨r', e2, s2⟩ := itrfToIjk_core (e := e) hlib s (by norm_num) (by norm_num)
    (by rw [(turn_orth _).magnitude_mulVec]; exact w2)
  refine ⟨r', _, by simp only [gcrfToIjk, e1, ok_bind, e2], ex, ?_⟩
  have hu := u_pos
  have hu' : u ≤ 1112 / 10 ^ 19 := by unfold u; norm_num
  have a1 := s2.magnitude_le
  rw [turn_comp] at a1 ⊢
  have a2 := (turn_close (gast lib e - gha e) (gastOf ⟨e⟩ - (⟨e⟩ : Epoch).gha) w).1
  have a3 : |(gast lib e - gha e) - (gastOf ⟨e⟩ - (⟨e⟩ : Epoch).gha)| * w.magnitude ≤ 13 * u * (1.001 * p.magnitude) := by
    have := w.magnitude_nonneg
    gcongr
    exact equinoxes_near hlib h0 h1
  have a4 := minus_triangle r' ((turn (gast lib e - gha e)).mulVec w) ((turn (gastOf ⟨e⟩ - (⟨e⟩ : Epoch).gha)).mulVec w)
  have a5 : u * p.magnitude ≤ 1112 / 10 ^ 19 * p.magnitude := by gcongr
  norm_num at a1 a3 a5 ⊢
  linarith

theorem gcrfToIjk_change (p' p : Vec3) (t : Epoch) : ∃ r' r, PositionConvert.gcrfToIjk p' t = .ok r' ∧
    PositionConvert.gcrfToIjk p t = .ok r ∧ (r'.minus r).magnitude ≤ 1.001 * (p'.minus p).magnitude := by
  refine ⟨_, _, gcrfToIjk_exact p' t, gcrfToIjk_exact p t, ?_⟩
  rw [← Mat3.mulVec_minus, ← Mat3.mulVec_minus, ← Mat3.mulVec_minus, ← Mat3.mulVec_minus,
    (turn_orth _).transpose.magnitude_mulVec, (turn_orth _).magnitude_mulVec]
  refine (nutation_length t _).1.trans ?_
  rw [(precession_orth t).magnitude_mulVec]

end F64

/-- **C159**, first part.  The IJK position of a GCRF position in double precision, from 1858 to 2217: within 1.2e-12 of the
distance, a thousand times better than the Earth-fixed position it is computed from, because the error of the hour angle cancels. -/
theorem C159_to_ijk {lib : F64.Libm} (hlib : Accurate lib) {e : ℝ} (h0 : 1 ≤ e) (h1 : e ≤ 131072) (p : Vec3) :
    ∃ r' r, F64.gcrfToIjk lib p e = .ok r' ∧ PositionConvert.gcrfToIjk p ⟨e⟩ = .ok r ∧
      (r'.minus r).magnitude ≤ 1.2e-12 * p.magnitude := F64.gcrfToIjk_error hlib h0 h1 p

/-- The IJK position of what a spacecraft observes is within 1.3e-12 of its distance from the centre of the Earth. -/
theorem C159_space {lib : F64.Libm} (hlib : Accurate lib) (o : SpaceObservation) (h0 : 1 ≤ o.epoch.value)
    (h1 : o.epoch.value ≤ 131072) :
    ∃ r' r, F64.spaceIjkPosition lib o = .ok r' ∧ o.ijkPosition = .ok r ∧
      (r'.minus r).magnitude ≤ 1.3e-12 * (o.observer_state.position.plus o.observed_direction).magnitude := by
  obtain ⟨r', r1, a1, a2, a3⟩ := F64.gcrfToIjk_error hlib h0 h1 (F64.plus o.observer_state.position o.observed_direction)
  obtain ⟨r2, r, b1, b2, b3⟩ := F64.gcrfToIjk_change (F64.plus o.observer_state.position o.observed_direction)
    (o.observer_state.position.plus o.observed_direction) o.epoch
  obtain rfl : r1 = r2 := Except.ok.inj (a2.symm.trans b1)
  refine ⟨r', r, a1, b2, ?_⟩
  have c1 := F64.plus_rounded o.observer_state.position o.observed_direction
  have c2 := F64.magnitude_le_of_minus (F64.plus o.observer_state.position o.observed_direction)
    (o.observer_state.position.plus o.observed_direction)
  have c3 := F64.minus_triangle r' r1 r
  have hm := (o.observer_state.position.plus o.observed_direction).magnitude_nonneg
  have hu' := F64.u_tiny
  have c4 : F64.u * (o.observer_state.position.plus o.observed_direction).magnitude ≤
      12 / 10 ^ 17 * (o.observer_state.position.plus o.observed_direction).magnitude := by gcongr
  norm_num at a3 b3 c1 c4 ⊢
  linarith

/-- **C159**, second part.  The inertial positions of what a site sees, in GCRF and in IJK, with every rounding in the coordinates
of the site, its frame and the rotation of the Earth.  `s` is the position of the site, between 6000 and 50000 km from the centre
and with a geodetic latitude within 89 degrees, `d` the direction that was observed; `δ` is the error of the latitude of C154. -/
theorem C159_ground {lib : F64.Libm} (hlib : Accurate lib) (hatan : Atan2Accurate lib) (hasin : AsinAccurate lib)
    (hpow : F64.PowAccurate lib) (o : GroundObservation) (h0 : 1 ≤ o.epoch.value) (h1 : o.epoch.value ≤ 131072) (l : LLA)
    (hl : PositionConvert.itrfToLla o.observer_state.position = .ok l) (hlat : |l.latitude| ≤ 89 * (π / 180))
    (h2 : 6000 ≤ o.observer_state.position.magnitude) (h3 : o.observer_state.position.magnitude ≤ 50000) :
    let s := o.observer_state.position
    let d := o.observed_direction
    ∃ p' p r' r δ, F64.groundGcrfPosition lib o = .ok p' ∧ o.gcrfPosition = .ok p ∧ F64.groundIjkPosition lib o = .ok r' ∧
      o.ijkPosition = .ok r ∧ 0 ≤ δ ∧ δ * cos l.latitude ≤ 1.21e-8 * s.magnitude ∧
      |s.z| * (δ * cos l.latitude) ≤ 5.3e-17 * s.magnitude ^ 3 ∧ (s.z = 0 → δ = 0) ∧
      (p'.minus p).magnitude ≤ (1.001 * δ + 2.6e-14 / cos l.latitude) * d.magnitude + 3.5e-9 * (s.magnitude + d.magnitude) ∧
      (r'.minus r).magnitude ≤ (1.001 * δ + 2.6e-14 / cos l.latitude) * d.magnitude + 3.5e-9 * (s.magnitude + d.magnitude) := by
  intro s d
  obtain ⟨l', δ, k1, k2, k3, k4, k5, k6, k7, -⟩ := C154_coordinates_partial hlib hatan hasin hpow _ h2 h3 l hl hlat
  have c0 := (F64.cos_sq_89 hlat).2
  have c1 := cos_le_one l.latitude
  have hc : 0 < cos l.latitude := by linarith
  obtain ⟨i, hi⟩ : ∃ i, i = 1 / cos l.latitude := ⟨_, rfl⟩
  have i1 : 1 ≤ i := by rw [hi, le_div_iff₀ hc]; linarith
  have i2 : i ≤ 58 := by rw [hi, div_le_iff₀ hc]; linarith
  have hδ : δ ≤ 0.0349 := by
    by_contra h
    have := mul_lt_mul_of_pos_right (not_le.mp h) hc
    norm_num at k3 this; linarith
  rw [show 1.5e-14 / cos l.latitude = 1.5e-14 * i by rw [hi]; ring] at k6
  obtain ⟨k, hk⟩ := C110_accuracy h0 h1
  obtain ⟨p', p, r', r, e1, e2, e3, e4, e5, e6⟩ := F64.ground_error hlib o h0 h1
    (by norm_num at hδ ⊢; linarith) hk hl k1 k7 k6
  refine ⟨p', p, r', r, δ, e1, e2, e3, e4, k2, k3, k4, k5, e5.trans ?_, e6.trans ?_⟩ <;>
  · rw [show 2.6e-14 / cos l.latitude = 2.6e-14 * i by rw [hi]; ring]
    have m1 := s.magnitude_nonneg
    have m2 := d.magnitude_nonneg
    show _ * d.magnitude + _ * (s.magnitude + d.magnitude) ≤ _
    gcongr
    · norm_num; linarith
    · norm_num

/-- A site from one to 89 degrees from the equator, between 10 km below and 100 km above the ellipsoid: the object it sees is put
within 2.3 cm, and 0.15 mm per kilometre of range, of the exact place. -/
theorem C159_site {lib : F64.Libm} (hlib : Accurate lib) (hatan : Atan2Accurate lib) (hasin : AsinAccurate lib)
    (hpow : F64.PowAccurate lib) (lat lon h : ℝ) (hlat0 : π / 180 ≤ |lat|) (hlat : |lat| ≤ 89 * (π / 180)) (hlon : 0 ≤ lon)
    (hlon' : lon < 2 * π) (h1 : -10 ≤ h) (h2 : h ≤ 100) :
    ∃ pos, PositionConvert.llaToItrf ⟨lat, lon, h⟩ = .ok pos ∧ ∀ o : GroundObservation, o.observer_state.position = pos →
      1 ≤ o.epoch.value → o.epoch.value ≤ 131072 →
      ∃ p' p r' r, F64.groundGcrfPosition lib o = .ok p' ∧ o.gcrfPosition = .ok p ∧ F64.groundIjkPosition lib o = .ok r' ∧
        o.ijkPosition = .ok r ∧ (p'.minus p).magnitude ≤ 2.3e-5 + 1.5e-7 * o.observed_direction.magnitude ∧
        (r'.minus r).magnitude ≤ 2.3e-5 + 1.5e-7 * o.observed_direction.magnitude := by
  obtain ⟨pos, l', e1, e2, e3, e4, e5, -⟩ := C154_off_equator_partial hlib hatan hasin hpow lat lon h hlat0 hlat hlon hlon' h1 h2
  refine ⟨pos, e1, fun o ho t0 t1 => ?_⟩
  have r2 := (F64.site_size e1 h1 h2).2.1
  rw [← ho] at e2 e3 r2
  obtain ⟨k, hk⟩ := C110_accuracy t0 t1
  obtain ⟨p', p, r', r, f1, f2, f3, f4, f5, f6⟩ := F64.ground_error hlib o t0 t1 (by norm_num) hk e2 e3 e5 e4
  have m2 := o.observed_direction.magnitude_nonneg
  refine ⟨p', p, r', r, f1, f2, f3, f4, f5.trans ?_, f6.trans ?_⟩ <;>
  · norm_num at r2 ⊢; linarith

/-- Unless it is within two microseconds of midnight UTC, one millimetre takes the place of the 2.3 cm. -/
theorem C159_site_daytime {lib : F64.Libm} (hlib : Accurate lib) (hatan : Atan2Accurate lib) (hasin : AsinAccurate lib)
    (hpow : F64.PowAccurate lib) (lat lon h : ℝ) (hlat0 : π / 180 ≤ |lat|) (hlat : |lat| ≤ 89 * (π / 180)) (hlon : 0 ≤ lon)
    (hlon' : lon < 2 * π) (h1 : -10 ≤ h) (h2 : h ≤ 100) :
    ∃ pos, PositionConvert.llaToItrf ⟨lat, lon, h⟩ = .ok pos ∧ ∀ o : GroundObservation, o.observer_state.position = pos →
      1 ≤ o.epoch.value → o.epoch.value ≤ 131072 → ∀ n : ℤ, n + 16 / 10 ^ 12 < o.epoch.value - 69.184 / 86400 →
      o.epoch.value - 69.184 / 86400 < n + 1 - 16 / 10 ^ 12 →
      ∃ p' p r' r, F64.groundGcrfPosition lib o = .ok p' ∧ o.gcrfPosition = .ok p ∧ F64.groundIjkPosition lib o = .ok r' ∧
        o.ijkPosition = .ok r ∧ (p'.minus p).magnitude ≤ 1e-6 + 1.5e-7 * o.observed_direction.magnitude ∧
        (r'.minus r).magnitude ≤ 1e-6 + 1.5e-7 * o.observed_direction.magnitude := by
  obtain ⟨pos, l', e1, e2, e3, e4, e5, -⟩ := C154_off_equator_partial hlib hatan hasin hpow lat lon h hlat0 hlat hlon hlon' h1 h2
  refine ⟨pos, e1, fun o ho t0 t1 n t2 t3 => ?_⟩
  have r2 := (F64.site_size e1 h1 h2).2.1
  rw [← ho] at e2 e3 r2
  obtain ⟨k, hk⟩ := C110_daytime t0 t1 n t2 t3
  obtain ⟨p', p, r', r, f1, f2, f3, f4, f5, f6⟩ := F64.ground_error hlib o t0 t1 (by norm_num) hk e2 e3 e5 e4
  have m2 := o.observed_direction.magnitude_nonneg
  refine ⟨p', p, r', r, f1, f2, f3, f4, f5.trans ?_, f6.trans ?_⟩ <;>
  · norm_num at r2 ⊢; linarith

/-- an observatory at 60 degrees of latitude, 500 m up, which sees something 1000 km away at noon in 2024 -/
example : ∃ pos, PositionConvert.llaToItrf ⟨60 * (π / 180), 1, 0.5⟩ = .ok pos ∧ ∃ p' p,
    F64.groundGcrfPosition F64.rounded (GroundObservation.new (State.fromFixed ⟨60310.5⟩ pos) ⟨600, 0, 800⟩ 0 0) = .ok p' ∧
      (GroundObservation.new (State.fromFixed ⟨60310.5⟩ pos) ⟨600, 0, 800⟩ 0 0).gcrfPosition = .ok p ∧
      (p'.minus p).magnitude ≤ 1.6e-4 := by
  have hpi := Real.pi_pos
  obtain ⟨pos, e1, key⟩ := C159_site_daytime F64.rounded_accurate.1 F64.rounded_accurate.2 F64.asin_rounded
    (F64.powAccurate_rounded _ _ _ _) (60 * (π / 180)) 1 0.5 (by rw [abs_of_pos (by positivity)]; linarith)
    (by rw [abs_of_pos (by positivity)]; linarith) (by norm_num) (by linarith [pi_gt_three]) (by norm_num) (by norm_num)
  obtain ⟨p', p, r', r, f1, f2, -, -, f5, -⟩ := key (GroundObservation.new (State.fromFixed ⟨60310.5⟩ pos) ⟨600, 0, 800⟩ 0 0)
    rfl (by norm_num [GroundObservation.new, GroundObservation.epoch, State.fromFixed, State.copy, State.new, Epoch.copy])
    (by norm_num [GroundObservation.new, GroundObservation.epoch, State.fromFixed, State.copy, State.new, Epoch.copy]) 60310
    (by norm_num [GroundObservation.new, GroundObservation.epoch, State.fromFixed, State.copy, State.new, Epoch.copy])
    (by norm_num [GroundObservation.new, GroundObservation.epoch, State.fromFixed, State.copy, State.new, Epoch.copy])
  refine ⟨pos, e1, p', p, f1, f2, f5.trans ?_⟩
  have : (⟨600, 0, 800⟩ : Vec3).magnitude = 1000 := Vec3.magnitude_of_dot (by norm_num) (by norm_num [Vec3.dot])
  have e : (GroundObservation.new (State.fromFixed ⟨60310.5⟩ pos) ⟨600, 0, 800⟩ 0 0).observed_direction.magnitude = 1000 := this
  rw [e]; norm_num

end Openspace
