import Verif.Lemmas.DoubleEarth

/-! # C139: GCRF and ITRF positions in double precision -/

namespace Openspace

open Real

namespace F64

theorem turn_orth (g : ℝ) : (turn g).Orth := by
  have h := sin_sq_add_cos_sq g
  constructor <;> simp only [turn, Vec3.dot] <;> nlinarith

theorem turn_turns (g : ℝ) (k : ℤ) : turn (g + 2 * π * k) = turn g := by
  have e : g + 2 * π * k = g + k * (2 * π) := by ring
  rw [turn, turn, e, cos_add_int_mul_two_pi, sin_add_int_mul_two_pi]

/-- two rotations by nearly the same angle -/
theorem turn_close (a b : ℝ) (v : Vec3) : (((turn a).mulVec v).minus ((turn b).mulVec v)).magnitude ≤ |a - b| * v.magnitude ∧
    (((turn a).transpose.mulVec v).minus ((turn b).transpose.mulVec v)).magnitude ≤ |a - b| * v.magnitude := by
  have hc : 1 - (a - b) ^ 2 / 2 ≤ cos (a - b) := one_sub_sq_div_two_le_cos
  rw [cos_sub] at hc
  have hv := Vec3.magnitude_sq_dot v
  simp only [Vec3.dot] at hv
  have ha := sin_sq_add_cos_sq a
  have hb := sin_sq_add_cos_sq b
  have key : (2 - 2 * (cos a * cos b + sin a * sin b)) * (v.x * v.x + v.y * v.y) ≤ (a - b) ^ 2 * v.magnitude ^ 2 := by
    rw [hv]
    have h1 : 2 - 2 * (cos a * cos b + sin a * sin b) ≤ (a - b) ^ 2 := by linarith
    have h2 := mul_le_mul_of_nonneg_right h1 (show 0 ≤ v.x * v.x + v.y * v.y by nlinarith)
    have h3 : 0 ≤ (a - b) ^ 2 * (v.z * v.z) := mul_nonneg (sq_nonneg _) (mul_self_nonneg _)
    linarith
  constructor
  · apply abs_le_of_sq_le_sq' _ (mul_nonneg (abs_nonneg _) v.magnitude_nonneg) |>.2
    rw [mul_pow, sq_abs, Vec3.magnitude_sq_dot]
    refine le_trans (le_of_eq ?_) key
    simp only [turn, Mat3.mulVec, Vec3.dot, Vec3.minus]
    linear_combination (v.x * v.x + v.y * v.y) * ha + (v.x * v.x + v.y * v.y) * hb
  · apply abs_le_of_sq_le_sq' _ (mul_nonneg (abs_nonneg _) v.magnitude_nonneg) |>.2
    rw [mul_pow, sq_abs, Vec3.magnitude_sq_dot]
    refine le_trans (le_of_eq ?_) key
    simp only [turn, Mat3.mulVec, Mat3.transpose, Vec3.dot, Vec3.minus]
    linear_combination (v.x * v.x + v.y * v.y) * ha + (v.x * v.x + v.y * v.y) * hb

/-- the linearised nutation hardly changes lengths -/
theorem nutation_length (t : Epoch) (v : Vec3) : ((Earth.nutation t).mulVec v).magnitude ≤ 1.001 * v.magnitude ∧
    ((Earth.nutation t).transpose.mulVec v).magnitude ≤ 1.001 * v.magnitude := by
  have a1 := Openspace.cross_magnitude_le (nutAxis t) v
  have a3 := nutAxis_bound t
  rw [← Vec3.magnitude_sq_dot] at a3
  have a4 : (nutAxis t).magnitude ≤ 0.001 := by
    apply abs_le_of_sq_le_sq' _ (by norm_num) |>.2
    norm_num at a3 ⊢; linarith
  have hv := v.magnitude_nonneg
  have a5 : (nutAxis t).magnitude * v.magnitude ≤ 0.001 * v.magnitude := by gcongr
  constructor
  · rw [nutation_mulVec]
    have := Vec3.magnitude_plus_le v ((nutAxis t).cross v)
    linarith
  · rw [nutation_transpose_mulVec]
    have e : v.minus ((nutAxis t).cross v) = v.plus (((nutAxis t).cross v).scaled (-1)) := by
      ext <;> simp only [Vec3.minus, Vec3.plus, Vec3.scaled] <;> ring
    have := Vec3.magnitude_plus_le v (((nutAxis t).cross v).scaled (-1))
    rw [Vec3.magnitude_scaled_abs, abs_neg, abs_one, one_mul] at this
    rw [e]
    linarith

theorem ScV.magnitude_le {v' v : Vec3} {k s : ℝ} (h : ScV v' v k s) : (v'.minus v).magnitude ≤ 2 * (k * u * s) := by
  obtain ⟨h1, h2, h3⟩ := h
  have h0 : 0 ≤ k * u * s := (abs_nonneg _).trans h1.1
  apply abs_le_of_sq_le_sq' _ (by positivity) |>.2
  rw [Vec3.magnitude_sq_dot]
  simp only [Vec3.dot, Vec3.minus]
  have key : ∀ {p : ℝ}, |p| ≤ k * u * s → p * p ≤ (k * u * s) ^ 2 := by
    intro p h
    rw [← sq, ← sq_abs]; gcongr
  have a1 := key h1.1
  have a2 := key h2.1
  have a3 := key h3.1
  nlinarith [sq_nonneg (k * u * s)]

variable {lib : Libm} {e : ℝ}

/-- the apparent sidereal time -/
theorem gast_near (hlib : Spec.Accurate lib) (h0 : 1 ≤ e) (h1 : e ≤ 131072) {k : ℤ} {d : ℝ}
    (h : |gha e - (⟨e⟩ : Epoch).gha - 2 * π * k| ≤ d) : |gast lib e - (gastOf ⟨e⟩ + 2 * π * k)| ≤ d + 13 * u := by
  have hu := u_pos
  have hu' := u_tiny
  have hd := dpsi_sc hlib h0 h1
  have ce := Sc.cosine hlib (obliquity_sc h0 h1) (k := 60) (t := 1) (by norm_num) le_rfl
  have m := hd.mul ce (by norm_num) (by norm_num) (by norm_num) (by norm_num)
  have m1 := m.1
  have m2 := m.2
  obtain ⟨g0, g1⟩ := C110_range e
  have g2 : gha e ≤ 6.3 := by
    refine g1.trans ?_
    have := (abs_le.mp (rnd_u (2 * pi))).2
    have hp := pi_gap.1
    have hp2 := pi_lt_d2
    rw [abs_of_pos (by linarith [pi_pos'])] at this
    have : u * (2 * pi) ≤ u * 6.3 := by gcongr; linarith
    have hp4 := pi_lt_d4
    linarith
  have r := rnd_u (rnd (dpsi lib e * lib.cos (obliquity e)) + gha e)
  obtain ⟨m3, m4⟩ := abs_le.mp m1
  obtain ⟨m5, m6⟩ := abs_le.mp m2
  have b : |rnd (dpsi lib e * lib.cos (obliquity e)) + gha e| ≤ 7 := by
    rw [abs_le]; constructor <;> linarith
  have b1 : u * |rnd (dpsi lib e * lib.cos (obliquity e)) + gha e| ≤ u * 7 := by gcongr
  obtain ⟨r1, r2⟩ := abs_le.mp r
  obtain ⟨k1, k2⟩ := abs_le.mp h
  rw [gast, gastOf, Spec.apparentSidereal, abs_le]
  constructor <;> linarith

/-- `to_itrf` but for the sidereal time -/
theorem gcrfToItrf_core (hlib : Spec.Accurate lib) (h0 : 1 ≤ e) (h1 : e ≤ 131072) (p : Vec3) :
    ∃ q', gcrfToItrf lib p e = .ok q' ∧ ScV q' ((turn (gast lib e)).mulVec
      ((Earth.nutation ⟨e⟩).mulVec ((Earth.precession ⟨e⟩).mulVec p))) 1500 (1.001 * p.magnitude) := by
  obtain ⟨m, hm, hm'⟩ := rotation_sc hlib e
  have hp := p.magnitude_nonneg
  have w1 : ((Earth.precession ⟨e⟩).mulVec p).magnitude = p.magnitude := (precession_orth ⟨e⟩).magnitude_mulVec p
  have w2 := (nutation_length ⟨e⟩ ((Earth.precession ⟨e⟩).mulVec p)).1
  rw [w1] at w2
  have s1 := (precession_sc hlib h0 h1).mulVec (ScV.exact p) (k' := 151) (t' := p.magnitude) (by norm_num) (by norm_num)
    le_rfl (by norm_num) (by linarith) w1.le
  have s2 := (nutation_sc hlib h0 h1).mulVec s1 (k' := 475) (t' := 1.001 * p.magnitude) (by norm_num) (by norm_num)
    (by norm_num) (by norm_num) (by linarith) w2
  have s3 := hm'.mulVec s2 (k' := 1500) (t' := 1.001 * p.magnitude) (by norm_num) (by norm_num) (by norm_num)
    (by norm_num) (by linarith) (by rw [(turn_orth _).magnitude_mulVec]; exact w2)
  exact ⟨_, by simp only [gcrfToItrf, hm, ok_bind, pure_eq_ok]; rfl, s3⟩

/-- `to_gcrf` of a position with errors, but for the sidereal time -/
theorem itrfToGcrf_core (hlib : Spec.Accurate lib) (h0 : 1 ≤ e) (h1 : e ≤ 131072) {q' q : Vec3} {l t : ℝ}
    (hq : ScV q' q l t) (hl0 : 0 ≤ l) (hl : l ≤ 1600) (ht : q.magnitude ≤ t) :
    ∃ p', itrfToGcrf lib q' e = .ok p' ∧ ScV p' ((Earth.precession ⟨e⟩).transpose.mulVec
      ((Earth.nutation ⟨e⟩).transpose.mulVec ((turn (gast lib e)).transpose.mulVec q))) (54 * l + 900) (1.001 * t) := by
  obtain ⟨m, hm, hm'⟩ := rotation_sc hlib e
  have hp := hq.hx.nonneg
  have hlt : 0 ≤ l * t := mul_nonneg hl0 hp
  have w0 : ((turn (gast lib e)).transpose.mulVec q).magnitude = q.magnitude := (turn_orth _).transpose.magnitude_mulVec q
  have w1 := (nutation_length ⟨e⟩ ((turn (gast lib e)).transpose.mulVec q)).2
  rw [w0] at w1
  have s1 := hm'.transpose.mulVec hq (k' := 3 * l + 34) (t' := t) (by norm_num) (by norm_num) hl0
    (by norm_num; linarith) (by linarith) (by rw [w0]; exact ht)
  have s2 := (nutation_sc hlib h0 h1).transpose.mulVec s1 (k' := 9 * l + 124) (t' := 1.001 * t) (by norm_num)
    (by norm_num) (by linarith) (by norm_num; linarith) (by linarith) (by linarith)
  have s3 := (precession_sc hlib h0 h1).transpose.mulVec s2 (k' := 54 * l + 900) (t' := 1.001 * t) (by norm_num)
    (by norm_num) (by linarith) (by norm_num; linarith) (by linarith)
    (by rw [(precession_orth ⟨e⟩).transpose.magnitude_mulVec]; linarith)
  exact ⟨_, by simp only [itrfToGcrf, itrfToMod, itrfToTod, hm, ok_bind, pure_eq_ok], s3⟩

theorem gcrfToItrf_exact (p : Vec3) (t : Epoch) : PositionConvert.gcrfToItrf p t =
    .ok ((turn (gastOf t)).mulVec ((Earth.nutation t).mulVec ((Earth.precession t).mulVec p))) := by
  simp only [PositionConvert.gcrfToItrf, rotation_eq, ok_bind, pure_eq_ok, PositionConvert.gcrfToTod,
    PositionConvert.gcrfToMod, turn]

theorem itrfToGcrf_exact (q : Vec3) (t : Epoch) : PositionConvert.itrfToGcrf q t =
    .ok ((Earth.precession t).transpose.mulVec ((Earth.nutation t).transpose.mulVec
      ((turn (gastOf t)).transpose.mulVec q))) := by
  simp only [PositionConvert.itrfToGcrf, PositionConvert.itrfToMod, PositionConvert.itrfToTod, rotation_eq, ok_bind,
    pure_eq_ok, turn]

/-- the error of `to_itrf` is the error of the hour angle and a few hundred units of rounding -/
theorem to_itrf_error (hlib : Spec.Accurate lib) (h0 : 1 ≤ e) (h1 : e ≤ 131072) {k : ℤ} {d : ℝ}
    (h : |gha e - (⟨e⟩ : Epoch).gha - 2 * π * k| ≤ d) (p : Vec3) :
    ∃ q' q, gcrfToItrf lib p e = .ok q' ∧ PositionConvert.gcrfToItrf p ⟨e⟩ = .ok q ∧
      (q'.minus q).magnitude ≤ (1.001 * d + 1e-12) * p.magnitude := by
  obtain ⟨q', e1, s⟩ := gcrfToItrf_core hlib h0 h1 p
  refine ⟨q', _, e1, gcrfToItrf_exact p ⟨e⟩, ?_⟩
  have hu := u_pos
  have hu' := u_tiny
  have hp := p.magnitude_nonneg
  have w1 : ((Earth.precession ⟨e⟩).mulVec p).magnitude = p.magnitude := (precession_orth ⟨e⟩).magnitude_mulVec p
  have w2 := (nutation_length ⟨e⟩ ((Earth.precession ⟨e⟩).mulVec p)).1
  rw [w1] at w2
  obtain ⟨w, hw⟩ : ∃ w, w = (Earth.nutation ⟨e⟩).mulVec ((Earth.precession ⟨e⟩).mulVec p) := ⟨_, rfl⟩
  rw [← hw] at s w2 ⊢
  have a1 := s.magnitude_le
  have a2 := (turn_close (gast lib e) (gastOf ⟨e⟩ + 2 * π * k) w).1
  rw [turn_turns] at a2
  have a3 := gast_near hlib h0 h1 h
  have a4 : |gast lib e - (gastOf ⟨e⟩ + 2 * π * k)| * w.magnitude ≤ (d + 13 * u) * (1.001 * p.magnitude) := by
    have := w.magnitude_nonneg
    gcongr
    exact (abs_nonneg _).trans a3
  have a5 := minus_triangle q' ((turn (gast lib e)).mulVec w) ((turn (gastOf ⟨e⟩)).mulVec w)
  have a6 : u * p.magnitude ≤ 12 / 10 ^ 17 * p.magnitude := by gcongr
  norm_num at a1 a4 a6 ⊢
  linarith

theorem to_gcrf_error (hlib : Spec.Accurate lib) (h0 : 1 ≤ e) (h1 : e ≤ 131072) {k : ℤ} {d : ℝ}
    (h : |gha e - (⟨e⟩ : Epoch).gha - 2 * π * k| ≤ d) (q : Vec3) :
    ∃ p' p, itrfToGcrf lib q e = .ok p' ∧ PositionConvert.itrfToGcrf q ⟨e⟩ = .ok p ∧
      (p'.minus p).magnitude ≤ (1.001 * d + 1e-12) * q.magnitude := by
  obtain ⟨p', e1, s⟩ := itrfToGcrf_core hlib h0 h1 (ScV.exact q) le_rfl (by norm_num) le_rfl
  refine ⟨p', _, e1, itrfToGcrf_exact q ⟨e⟩, ?_⟩
  have hu := u_pos
  have hu' := u_tiny
  have hq := q.magnitude_nonneg
  have a1 := s.magnitude_le
  have a2 := (turn_close (gast lib e) (gastOf ⟨e⟩ + 2 * π * k) q).2
  rw [turn_turns] at a2
  have a3 := gast_near hlib h0 h1 h
  have a4 : |gast lib e - (gastOf ⟨e⟩ + 2 * π * k)| * q.magnitude ≤ (d + 13 * u) * q.magnitude := by gcongr
  have a5 := minus_triangle p' ((Earth.precession ⟨e⟩).transpose.mulVec ((Earth.nutation ⟨e⟩).transpose.mulVec
      ((turn (gast lib e)).transpose.mulVec q))) ((Earth.precession ⟨e⟩).transpose.mulVec
      ((Earth.nutation ⟨e⟩).transpose.mulVec ((turn (gastOf ⟨e⟩)).transpose.mulVec q)))
  rw [← Mat3.mulVec_minus, ← Mat3.mulVec_minus, (precession_orth ⟨e⟩).transpose.magnitude_mulVec] at a5
  have a7 := (nutation_length ⟨e⟩ (((turn (gast lib e)).transpose.mulVec q).minus
    ((turn (gastOf ⟨e⟩)).transpose.mulVec q))).2
  have a6 : u * q.magnitude ≤ 12 / 10 ^ 17 * q.magnitude := by gcongr
  norm_num at a1 a4 a6 a7 ⊢
  linarith

end F64

/-- From 1858 to 2217 the conversion of a GCRF position to ITRF in double precision differs from the exact value by at
most 3.4e-9 of the distance from the Earth's centre (two centimetres in low orbit). -/
theorem C139_to_itrf {lib : F64.Libm} (hlib : Spec.Accurate lib) {e : ℝ} (h0 : 1 ≤ e) (h1 : e ≤ 131072) (p : Vec3) :
    ∃ q' q, F64.gcrfToItrf lib p e = .ok q' ∧ PositionConvert.gcrfToItrf p ⟨e⟩ = .ok q ∧
      (q'.minus q).magnitude ≤ 3.4e-9 * p.magnitude := by
  obtain ⟨k, hk⟩ := C110_accuracy h0 h1
  obtain ⟨q', q, a1, a2, a3⟩ := F64.to_itrf_error hlib h0 h1 hk p
  refine ⟨q', q, a1, a2, a3.trans ?_⟩
  have := p.magnitude_nonneg
  gcongr
  norm_num

/-- Unless it is within two microseconds of midnight UTC the difference is at most 1.4e-10 of the distance (a
millimetre in low orbit). -/
theorem C139_to_itrf_daytime {lib : F64.Libm} (hlib : Spec.Accurate lib) {e : ℝ} (h0 : 1 ≤ e) (h1 : e ≤ 131072) (n : ℤ)
    (h2 : n + 16 / 10 ^ 12 < e - 69.184 / 86400) (h3 : e - 69.184 / 86400 < n + 1 - 16 / 10 ^ 12) (p : Vec3) :
    ∃ q' q, F64.gcrfToItrf lib p e = .ok q' ∧ PositionConvert.gcrfToItrf p ⟨e⟩ = .ok q ∧
      (q'.minus q).magnitude ≤ 1.4e-10 * p.magnitude := by
  obtain ⟨k, hk⟩ := C110_daytime h0 h1 n h2 h3
  obtain ⟨q', q, a1, a2, a3⟩ := F64.to_itrf_error hlib h0 h1 hk p
  refine ⟨q', q, a1, a2, a3.trans ?_⟩
  have := p.magnitude_nonneg
  gcongr
  norm_num

/-- The conversion of an ITRF position to GCRF has the same error. -/
theorem C139_to_gcrf {lib : F64.Libm} (hlib : Spec.Accurate lib) {e : ℝ} (h0 : 1 ≤ e) (h1 : e ≤ 131072) (q : Vec3) :
    ∃ p' p, F64.itrfToGcrf lib q e = .ok p' ∧ PositionConvert.itrfToGcrf q ⟨e⟩ = .ok p ∧
      (p'.minus p).magnitude ≤ 3.4e-9 * q.magnitude := by
  obtain ⟨k, hk⟩ := C110_accuracy h0 h1
  obtain ⟨p', p, a1, a2, a3⟩ := F64.to_gcrf_error hlib h0 h1 hk q
  refine ⟨p', p, a1, a2, a3.trans ?_⟩
  have := q.magnitude_nonneg
  gcongr
  norm_num

/-- Likewise away from midnight UTC. -/
theorem C139_to_gcrf_daytime {lib : F64.Libm} (hlib : Spec.Accurate lib) {e : ℝ} (h0 : 1 ≤ e) (h1 : e ≤ 131072) (n : ℤ)
    (h2 : n + 16 / 10 ^ 12 < e - 69.184 / 86400) (h3 : e - 69.184 / 86400 < n + 1 - 16 / 10 ^ 12) (q : Vec3) :
    ∃ p' p, F64.itrfToGcrf lib q e = .ok p' ∧ PositionConvert.itrfToGcrf q ⟨e⟩ = .ok p ∧
      (p'.minus p).magnitude ≤ 1.4e-10 * q.magnitude := by
  obtain ⟨k, hk⟩ := C110_daytime h0 h1 n h2 h3
  obtain ⟨p', p, a1, a2, a3⟩ := F64.to_gcrf_error hlib h0 h1 hk q
  refine ⟨p', p, a1, a2, a3.trans ?_⟩
  have := q.magnitude_nonneg
  gcongr
  norm_num

/-- Converting to ITRF and back loses no more in double precision than without rounding (C75), but for 1e-10 of the
distance: the error of the hour angle cancels. -/
theorem C139_round_trip {lib : F64.Libm} (hlib : Spec.Accurate lib) {e : ℝ} (h0 : 1 ≤ e) (h1 : e ≤ 131072) (p : Vec3) :
    ∃ q r, F64.gcrfToItrf lib p e = .ok q ∧ F64.itrfToGcrf lib q e = .ok r ∧
      (r.minus p).magnitude ≤ 1.11e-8 * p.magnitude := by
  obtain ⟨q', e1, s⟩ := F64.gcrfToItrf_core hlib h0 h1 p
  have hp := p.magnitude_nonneg
  have w1 : ((Earth.precession ⟨e⟩).mulVec p).magnitude = p.magnitude := (precession_orth ⟨e⟩).magnitude_mulVec p
  have w2 := (F64.nutation_length ⟨e⟩ ((Earth.precession ⟨e⟩).mulVec p)).1
  rw [w1] at w2
  obtain ⟨w, hw⟩ : ∃ w, w = (Earth.nutation ⟨e⟩).mulVec ((Earth.precession ⟨e⟩).mulVec p) := ⟨_, rfl⟩
  rw [← hw] at s w2
  obtain ⟨r', e2, s2⟩ := F64.itrfToGcrf_core hlib h0 h1 s (by norm_num) (by norm_num)
    (by rw [(F64.turn_orth _).magnitude_mulVec]; exact w2)
  rw [(F64.turn_orth _).transpose_mulVec] at s2
  refine ⟨q', r', e1, e2, ?_⟩
  obtain ⟨q, r, x1, x2, x3⟩ := C75_bound ⟨e⟩ p
  rw [F64.gcrfToItrf_exact, Except.ok.injEq] at x1
  rw [← x1, F64.itrfToGcrf_exact, (F64.turn_orth _).transpose_mulVec, Except.ok.injEq, ← hw] at x2
  rw [x2] at s2
  have a1 := s2.magnitude_le
  have a2 := F64.minus_triangle r' r p
  have hu := F64.u_pos
  have hu' := F64.u_tiny
  have a6 : F64.u * p.magnitude ≤ 12 / 10 ^ 17 * p.magnitude := by gcongr
  norm_num at a1 a6 x3 ⊢
  linarith

/-- Hence the computed ITRF position is the one of the classical reduction to 4.4e-8 of the distance in every
component. -/
theorem C139_reduction {lib : F64.Libm} (hlib : Spec.Accurate lib) {e : ℝ} (h0 : 1 ≤ e) (h1 : e ≤ 131072) (p : Vec3) :
    ∃ q, F64.gcrfToItrf lib p e = .ok q ∧
      ∀ i, |q.toFun i - (Spec.toEarthFixed (⟨e⟩ : Epoch).days (⟨e⟩ : Epoch).gha).mulVec p.toFun i| ≤
        4.4e-8 * p.magnitude := by
  obtain ⟨q', q, a1, a2, a3⟩ := C139_to_itrf hlib h0 h1 p
  obtain ⟨q2, b1, b2⟩ := C93_reduction p ⟨e⟩
  rw [a2, Except.ok.injEq] at b1
  subst b1
  refine ⟨q', a1, fun i => ?_⟩
  have hp := p.magnitude_nonneg
  have c := F64.component_le (q'.minus q)
  have c' : |q'.toFun i - q.toFun i| ≤ (q'.minus q).magnitude := by
    fin_cases i
    · exact c.1
    · exact c.2.1
    · exact c.2.2
  have t := abs_sub_le (q'.toFun i) (q.toFun i) ((Spec.toEarthFixed (⟨e⟩ : Epoch).days (⟨e⟩ : Epoch).gha).mulVec p.toFun i)
  have b := b2 i
  norm_num at a3 b ⊢
  linarith

/-- a geostationary position at noon on 1 January 2000 -/
example : ∃ q' q, F64.gcrfToItrf F64.rounded ⟨42164, 0, 0⟩ 51544.5 = .ok q' ∧
    PositionConvert.gcrfToItrf ⟨42164, 0, 0⟩ ⟨51544.5⟩ = .ok q ∧
      (q'.minus q).magnitude ≤ 1.4e-10 * (⟨42164, 0, 0⟩ : Vec3).magnitude :=
  C139_to_itrf_daytime F64.rounded_accurate.1 (by norm_num) (by norm_num) 51544 (by norm_num) (by norm_num) _

end Openspace
