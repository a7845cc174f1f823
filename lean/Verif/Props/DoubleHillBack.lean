import Verif.Props.DoubleHill
import Verif.Props.Maneuvers

/-! # C114, C115: from Hill coordinates to GCRF and impulsive manoeuvres in double precision -/

namespace Openspace

open Real

namespace F64

/-- the columns of the frame -/
theorem frame_columns {M M' : Mat3} (hrot : M.IsRotation) (n1 : (M'.row1.minus M.row1).magnitude ≤ 80 * u)
    (n2 : (M'.row2.minus M.row2).magnitude ≤ 80 * u) (n3 : (M'.row3.minus M.row3).magnitude ≤ 80 * u) {w w' : Vec3}
    {l t : ℝ} (g1 : Sc w'.x w.x l t) (g2 : Sc w'.y w.y l t) (g3 : Sc w'.z w.z l t) (hl : 0 ≤ l) (hl' : l ≤ 4e4) :
    Sc (mulVec M'.transpose w').x (M.transpose.mulVec w).x (80 + l + 3.02) (3 * t) ∧
    Sc (mulVec M'.transpose w').y (M.transpose.mulVec w).y (80 + l + 3.02) (3 * t) ∧
    Sc (mulVec M'.transpose w').z (M.transpose.mulVec w).z (80 + l + 3.02) (3 * t) := by
  have ho := hrot.orth
  have key : ∀ {r r' : Vec3}, r.dot r = 1 → (r'.minus r).magnitude ≤ 80 * u →
      Sc r'.x r.x 80 1 ∧ Sc r'.y r.y 80 1 ∧ Sc r'.z r.z 80 1 := by
    intro r r' h h'
    have e : r.magnitude = 1 := Vec3.magnitude_of_dot (by norm_num) (by rw [h]; norm_num)
    obtain ⟨a1, a2, a3⟩ := component_le (r'.minus r)
    obtain ⟨b1, b2, b3⟩ := component_le r
    rw [e] at b1 b2 b3
    exact ⟨⟨by rw [mul_one]; exact a1.trans h', b1⟩, ⟨by rw [mul_one]; exact a2.trans h', b2⟩,
      by rw [mul_one]; exact a3.trans h', b3⟩
  obtain ⟨x1, y1, z1⟩ := key ho.r11 n1
  obtain ⟨x2, y2, z2⟩ := key ho.r22 n2
  obtain ⟨x3, y3, z3⟩ := key ho.r33 n3
  have d1 := Sc.dot (a' := M'.transpose.row1) (a := M.transpose.row1) x1 x2 x3 g1 g2 g3 (by norm_num) (by norm_num) hl hl'
  have d2 := Sc.dot (a' := M'.transpose.row2) (a := M.transpose.row2) y1 y2 y3 g1 g2 g3 (by norm_num) (by norm_num) hl hl'
  have d3 := Sc.dot (a' := M'.transpose.row3) (a := M.transpose.row3) z1 z2 z3 g1 g2 g3 (by norm_num) (by norm_num) hl hl'
  rw [one_mul] at d1 d2 d3
  exact ⟨d1, d2, d3⟩

/-- the position in the frame of the origin -/
theorem polar_near {sp cp sl cl sp' cp' sl' cl' r r' a e R : ℝ} (h1 : Sc sp' sp a 1) (h2 : Sc cp' cp a 1)
    (h3 : Sc sl' sl a 1) (h4 : Sc cl' cl a 1) (hr : Sc r' r e R) (ha : 0 ≤ a) (ha' : a ≤ 1000) (he : 0 ≤ e)
    (he' : e ≤ 1000) :
    Sc (rnd (rnd (cp' * r') * cl')) (cp * r * cl) (2 * a + e + 2.02) R ∧
    Sc (rnd (rnd (cp' * r') * sl')) (cp * r * sl) (2 * a + e + 2.02) R ∧
    Sc (rnd (sp' * r')) (sp * r) (2 * a + e + 2.02) R := by
  have m1 := h2.mul hr ha (by linarith) he (by linarith)
  have m2 := m1.mul h4 (by linarith) (by linarith) ha (by linarith)
  have m3 := m1.mul h3 (by linarith) (by linarith) ha (by linarith)
  have m4 := h1.mul hr ha (by linarith) he (by linarith)
  rw [one_mul, mul_one] at m2 m3
  rw [one_mul] at m4
  exact ⟨m2.mono (by linarith), m3.mono (by linarith), m4.mono (by linarith)⟩

/-- the velocity in the frame of the origin -/
theorem unsez_near {sp cp sl cl sp' cp' sl' cl' a b Q : ℝ} {q q' : Vec3} (h1 : Sc sp' sp a 1) (h2 : Sc cp' cp a 1)
    (h3 : Sc sl' sl a 1) (h4 : Sc cl' cl a 1) (q1 : Sc q'.x q.x b Q) (q2 : Sc q'.y q.y b Q) (q3 : Sc q'.z q.z b Q)
    (ha : 0 ≤ a) (ha' : a ≤ 1000) (hb : 0 ≤ b) (hb' : b ≤ 2e4) :
    Sc (mulVec (rswSez sp' cp' sl' cl').transpose q').x ((Openspace.rswSez sp cp sl cl).transpose.mulVec q).x
      (2 * a + b + 4.03) (3 * Q) ∧
    Sc (mulVec (rswSez sp' cp' sl' cl').transpose q').y ((Openspace.rswSez sp cp sl cl).transpose.mulVec q).y
      (2 * a + b + 4.03) (3 * Q) ∧
    Sc (mulVec (rswSez sp' cp' sl' cl').transpose q').z ((Openspace.rswSez sp cp sl cl).transpose.mulVec q).z
      (2 * a + b + 4.03) (3 * Q) := by
  have hu0 := u_pos
  have z : Sc 0 0 (a + a + 1.01) 1 := ⟨by simp only [sub_self, abs_zero]; positivity, by simp⟩
  have m1 := h1.mul h4 ha (by linarith) ha (by linarith)
  have m2 := h1.mul h3 ha (by linarith) ha (by linarith)
  have m3 := h2.mul h4 ha (by linarith) ha (by linarith)
  have m4 := h2.mul h3 ha (by linarith) ha (by linarith)
  rw [one_mul] at m1 m2 m3 m4
  have up : ∀ {x y : ℝ}, Sc x y a 1 → Sc x y (a + a + 1.01) 1 := fun h => h.mono (by linarith)
  have d1 := Sc.dot (a' := (rswSez sp' cp' sl' cl').transpose.row1) (a := (Openspace.rswSez sp cp sl cl).transpose.row1)
    m1 (up h3.neg) m3 q1 q2 q3 (by linarith) (by linarith) hb (by linarith)
  have d2 := Sc.dot (a' := (rswSez sp' cp' sl' cl').transpose.row2) (a := (Openspace.rswSez sp cp sl cl).transpose.row2)
    m2 (up h4) m4 q1 q2 q3 (by linarith) (by linarith) hb (by linarith)
  have d3 := Sc.dot (a' := (rswSez sp' cp' sl' cl').transpose.row3) (a := (Openspace.rswSez sp cp sl cl).transpose.row3)
    (up h2.neg) z (up h1) q1 q2 q3 (by linarith) (by linarith) hb (by linarith)
  rw [one_mul] at d1 d2 d3
  exact ⟨d1.mono (by linarith), d2.mono (by linarith), d3.mono (by linarith)⟩

/-- the velocity in the turned frame -/
theorem spherical_rates {R R' r r' cp cp' W Vo e ev a : ℝ} {v v' T T' : Vec3} (hR : 0 < R) (hR' : Near R' R 4.2)
    (hr : Sc r' r (e + 5.21) (2 * R)) (hcp : Sc cp' cp a 1)
    (v1 : Sc v'.x v.x ev W) (v2 : Sc v'.y v.y ev W) (v3 : Sc v'.z v.z ev W) (t1 : Sc T'.x T.x 83.2 Vo)
    (t2 : Sc T'.y T.y 83.2 Vo) (he : 0 ≤ e) (he' : e ≤ 500) (hev : 0 ≤ ev) (hev' : ev ≤ 2100) (ha : 0 ≤ a)
    (ha' : a ≤ 1000) : R' ≠ 0 ∧
    Sc (rnd (-r' * rnd (v'.z / R'))) (-r * (v.z / R)) (e + ev + a + 97) (2 * (W + Vo)) ∧
    Sc (rnd (rnd (r' * rnd (rnd (v'.y / R') + rnd (T'.y / R'))) * cp')) (r * (v.y / R + T.y / R) * cp)
      (e + ev + a + 97) (2 * (W + Vo)) ∧
    Sc (rnd (v'.x + T'.x)) (v.x + T.x) (e + ev + a + 97) (2 * (W + Vo)) := by
  have hW := v1.nonneg
  have hVo := t1.nonneg
  obtain ⟨n1, d1⟩ := v2.div hR' hR.ne' hev (by linarith) (by norm_num) (by norm_num)
  obtain ⟨-, d2⟩ := v3.div hR' hR.ne' hev (by linarith) (by norm_num) (by norm_num)
  obtain ⟨-, d3⟩ := t2.div hR' hR.ne' (by norm_num) (by norm_num) (by norm_num) (by norm_num)
  rw [abs_of_pos hR] at d1 d2 d3
  refine ⟨n1, ?_, ?_, ?_⟩
  · have := hr.neg.mul d2 (by linarith) (by linarith) (by linarith) (by linarith)
    have e : 2 * R * (W / R) = 2 * W := by field_simp
    rw [e] at this
    exact (this.mono (by linarith)).scale (by linarith) (by linarith)
  · have s1 := (d1.mono (e' := ev + 88.41) (by linarith)).add (d3.mono (by linarith)) (by linarith) (by norm_num; linarith)
    have s2 := hr.mul s1 (by linarith) (by linarith) (by linarith) (by linarith)
    have s3 := s2.mul hcp (by linarith) (by linarith) ha (by linarith)
    have e : 2 * R * (W / R + Vo / R) * 1 = 2 * (W + Vo) := by field_simp
    rw [e] at s3
    exact s3.mono (by linarith)
  · have s1 := (v1.mono (e' := ev + 83.2) (by linarith)).add (t1.mono (by linarith)) (by linarith) (by norm_num; linarith)
    exact (s1.mono (by linarith)).scale (by linarith) (by linarith)

/-- from Hill coordinates to GCRF with exact arithmetic, and with rounding and inexact arguments -/
theorem hcwToGcrf_near {lib : Libm} (hlib : Spec.Accurate lib) {o : GCRF} {s : State} {p v : Vec3} {e ev W : ℝ}
    (hc : o.position.cross o.velocity ≠ ⟨0, 0, 0⟩)
    (ho : o.position.magnitude * o.velocity.magnitude ≤ 10 * (o.position.cross o.velocity).magnitude)
    (he : 0 ≤ e) (he' : e ≤ 500) (hev : 0 ≤ ev) (hev' : ev ≤ 2100)
    (p1 : Sc p.x s.position.x e o.position.magnitude) (p2 : Sc p.y s.position.y e (1.6 * o.position.magnitude))
    (p3 : Sc p.z s.position.z e (1.6 * o.position.magnitude)) (v1 : Sc v.x s.velocity.x ev W)
    (v2 : Sc v.y s.velocity.y ev W) (v3 : Sc v.z s.velocity.z ev W) :
    ∃ g gp gv, Openspace.hcwToGcrf s o = .ok g ∧ hcwToGcrf lib p v o.position o.velocity = .ok (gp, gv) ∧
      (|gp.x - g.position.x| ≤ (26 * e + 690) * u * o.position.magnitude ∧
        |gp.y - g.position.y| ≤ (26 * e + 690) * u * o.position.magnitude ∧
        |gp.z - g.position.z| ≤ (26 * e + 690) * u * o.position.magnitude) ∧
      (|gv.x - g.velocity.x| ≤ (105 * e + 18 * ev + 3900) * u * (W + o.velocity.magnitude) ∧
        |gv.y - g.velocity.y| ≤ (105 * e + 18 * ev + 3900) * u * (W + o.velocity.magnitude) ∧
        |gv.z - g.velocity.z| ≤ (105 * e + 18 * ev + 3900) * u * (W + o.velocity.magnitude)) := by
  have hu := u_tiny
  have hu0 := u_pos
  obtain ⟨M, M', hM, hM', hrot, -, n1, n2, n3⟩ := frame_pair hc ho
  have hR : 0 < o.position.magnitude := Vec3.magnitude_pos.mpr (position_ne_of_cross hc)
  obtain ⟨t1, t2, -⟩ := frame_rows hrot n1 n2 n3 o.velocity
  have nR := magnitude_near o.position
  obtain ⟨R, hRe⟩ : ∃ R, R = o.position.magnitude := ⟨_, rfl⟩
  obtain ⟨Vo, hVoe⟩ : ∃ Vo, Vo = o.velocity.magnitude := ⟨_, rfl⟩
  obtain ⟨R', hR'e⟩ : ∃ R', R' = magnitude o.position := ⟨_, rfl⟩
  obtain ⟨T, hT⟩ : ∃ P, P = M.mulVec o.velocity := ⟨_, rfl⟩
  obtain ⟨T', hT'⟩ : ∃ P, P = mulVec M' o.velocity := ⟨_, rfl⟩
  rw [← hRe] at hR p1 p2 p3 nR ⊢
  rw [← hVoe] at t1 t2 ⊢
  rw [← hR'e] at nR
  rw [← hT, ← hT'] at t1 t2
  have hVo := t1.nonneg
  have hW := v1.nonneg
  have sR : Sc R' R 4.2 R := Sc.of_near nR (by norm_num) (by rw [abs_of_pos hR])
  have sr0 := (sR.mono (e' := e + 4.2) (by linarith)).add (p1.mono (by linarith)) (by linarith) (by norm_num; linarith)
  have sr : Sc (rnd (R' + p.x)) (R + s.position.x) (e + 5.21) (2 * R) := by
    rw [two_mul]; exact sr0.mono (by linarith)
  obtain ⟨hR0, l1⟩ := p2.div nR hR.ne' he (by linarith) (by norm_num) (by norm_num)
  obtain ⟨-, l2⟩ := p3.div nR hR.ne' he (by linarith) (by norm_num) (by norm_num)
  rw [abs_of_pos hR, mul_div_cancel_right₀ _ hR.ne'] at l1 l2
  have k1 : |rnd (p.y / R') - s.position.y / R| ≤ (1.6 * e + 8.4) * u := by
    refine l1.1.trans ?_
    have : (e + 4.2 + 1.01) * 1.6 * u ≤ (1.6 * e + 8.4) * u := by gcongr; linarith
    linarith
  have k2 : |rnd (p.z / R') - s.position.z / R| ≤ (1.6 * e + 8.4) * u := by
    refine l2.1.trans ?_
    have : (e + 4.2 + 1.01) * 1.6 * u ≤ (1.6 * e + 8.4) * u := by gcongr; linarith
    linarith
  have c1 := Sc.sin hlib k2
  have c2 := Sc.cos hlib k2
  have c3 := Sc.sin hlib k1
  have c4 := Sc.cos hlib k1
  obtain ⟨x1, x2, x3⟩ := polar_near c1 c2 c3 c4 sr (by linarith) (by linarith) (by linarith) (by linarith)
  obtain ⟨-, y1, y2, y3⟩ := spherical_rates hR nR sr c2 v1 v2 v3 t1 t2 he he' hev hev' (by linarith) (by linarith)
  obtain ⟨q, hq⟩ : ∃ q : Vec3, q = ⟨-(R + s.position.x) * (s.velocity.z / R),
    (R + s.position.x) * (s.velocity.y / R + T.y / R) * Real.cos (s.position.z / R), s.velocity.x + T.x⟩ := ⟨_, rfl⟩
  obtain ⟨q', hq'⟩ : ∃ q : Vec3, q = ⟨rnd (-rnd (R' + p.x) * rnd (v.z / R')),
    rnd (rnd (rnd (R' + p.x) * rnd (rnd (v.y / R') + rnd (T'.y / R'))) * lib.cos (rnd (p.z / R'))), rnd (v.x + T'.x)⟩ :=
      ⟨_, rfl⟩
  obtain ⟨z1, z2, z3⟩ := unsez_near (q := q) (q' := q') c1 c2 c3 c4 (by rw [hq, hq']; exact y1) (by rw [hq, hq']; exact y2)
    (by rw [hq, hq']; exact y3) (by linarith) (by linarith) (by linarith) (by linarith)
  obtain ⟨w, hw⟩ : ∃ q : Vec3, q = ⟨Real.cos (s.position.z / R) * (R + s.position.x) * Real.cos (s.position.y / R),
    Real.cos (s.position.z / R) * (R + s.position.x) * Real.sin (s.position.y / R),
    Real.sin (s.position.z / R) * (R + s.position.x)⟩ := ⟨_, rfl⟩
  obtain ⟨w', hw'⟩ : ∃ q : Vec3, q = ⟨rnd (rnd (lib.cos (rnd (p.z / R')) * rnd (R' + p.x)) * lib.cos (rnd (p.y / R'))),
    rnd (rnd (lib.cos (rnd (p.z / R')) * rnd (R' + p.x)) * lib.sin (rnd (p.y / R'))),
    rnd (lib.sin (rnd (p.z / R')) * rnd (R' + p.x))⟩ := ⟨_, rfl⟩
  obtain ⟨f1, f2, f3⟩ := frame_columns hrot n1 n2 n3 (w := w) (w' := w') (by rw [hw, hw']; exact x1) (by rw [hw, hw']; exact x2)
    (by rw [hw, hw']; exact x3) (by linarith) (by linarith)
  obtain ⟨g1, g2, g3⟩ := frame_columns hrot n1 n2 n3 z1 z2 z3 (by linarith) (by linarith)
  have b1 : ∀ {y x : ℝ}, Sc y x (80 + (2 * (1.6 * e + 8.4 + 2) + (e + 5.21) + 2.02) + 3.02) (3 * (2 * R)) →
      |y - x| ≤ (26 * e + 690) * u * R := by
    intro y x h
    refine h.1.trans ?_
    have : (80 + (2 * (1.6 * e + 8.4 + 2) + (e + 5.21) + 2.02) + 3.02) * 6 * (u * R) ≤ (26 * e + 690) * (u * R) := by
      gcongr; linarith
    linarith
  have b2 : ∀ {y x : ℝ}, Sc y x (80 + (2 * (1.6 * e + 8.4 + 2) + (e + ev + (1.6 * e + 8.4 + 2) + 97) + 4.03) + 3.02)
      (3 * (3 * (2 * (W + Vo)))) → |y - x| ≤ (105 * e + 18 * ev + 3900) * u * (W + Vo) := by
    intro y x h
    refine h.1.trans ?_
    have : (80 + (2 * (1.6 * e + 8.4 + 2) + (e + ev + (1.6 * e + 8.4 + 2) + 97) + 4.03) + 3.02) * 18 * (u * (W + Vo))
        ≤ (105 * e + 18 * ev + 3900) * (u * (W + Vo)) := by
      gcongr; linarith
    linarith
  refine ⟨GCRF.new o.epoch (M.transpose.mulVec w) (M.transpose.mulVec ((Openspace.rswSez (Real.sin (s.position.z / R))
      (Real.cos (s.position.z / R)) (Real.sin (s.position.y / R)) (Real.cos (s.position.y / R))).transpose.mulVec q)),
    mulVec M'.transpose w', mulVec M'.transpose (mulVec (rswSez (lib.sin (rnd (p.z / R'))) (lib.cos (rnd (p.z / R')))
      (lib.sin (rnd (p.y / R'))) (lib.cos (rnd (p.y / R')))).transpose q'), ?_, ?_, ⟨b1 f1, b1 f2, b1 f3⟩,
    b2 g1, b2 g2, b2 g3⟩
  · simp only [Openspace.hcwToGcrf, hM, ok_bind, ← hRe, ← hT, pyDiv_ok hR.ne', pyCos, pySin, ← hq, ← hw, pure_eq_ok]
  · simp only [hcwToGcrf, hM', ok_bind, ← hR'e, ← hT', div_ok hR0, ← hq', ← hw', pure_eq_ok]

end F64

theorem cross_ne_of_angle {o : GCRF} (hp : o.position ≠ ⟨0, 0, 0⟩) (hv : o.velocity ≠ ⟨0, 0, 0⟩)
    (ho : o.position.magnitude * o.velocity.magnitude ≤ 10 * (o.position.cross o.velocity).magnitude) :
    o.position.cross o.velocity ≠ ⟨0, 0, 0⟩ := by
  intro h
  rw [h, Vec3.magnitude_eq_zero.mpr rfl] at ho
  have := mul_pos (Vec3.magnitude_pos.mpr hp) (Vec3.magnitude_pos.mpr hv)
  linarith

/-- **C114**: in double precision `to_gcrf` of Hill coordinates succeeds and its result has an error of at most 9e-14 of
the distance of the origin in position and 5e-13 of the sum of the speeds in velocity. -/
theorem C114_to_gcrf {lib : F64.Libm} (hlib : Spec.Accurate lib) (o : GCRF) (s : State) (hp : o.position ≠ ⟨0, 0, 0⟩)
    (hv : o.velocity ≠ ⟨0, 0, 0⟩)
    (ho : o.position.magnitude * o.velocity.magnitude ≤ 10 * (o.position.cross o.velocity).magnitude)
    (hx : |s.position.x| ≤ o.position.magnitude) (hy : |s.position.y| ≤ 1.6 * o.position.magnitude)
    (hz : |s.position.z| ≤ 1.6 * o.position.magnitude) :
    ∃ g p v, hcwToGcrf s o = .ok g ∧
      F64.hcwToGcrf lib s.position s.velocity o.position o.velocity = .ok (p, v) ∧
      (|p.x - g.position.x| ≤ 9 / 10 ^ 14 * o.position.magnitude ∧
        |p.y - g.position.y| ≤ 9 / 10 ^ 14 * o.position.magnitude ∧
        |p.z - g.position.z| ≤ 9 / 10 ^ 14 * o.position.magnitude) ∧
      (|v.x - g.velocity.x| ≤ 5 / 10 ^ 13 * (s.velocity.magnitude + o.velocity.magnitude) ∧
        |v.y - g.velocity.y| ≤ 5 / 10 ^ 13 * (s.velocity.magnitude + o.velocity.magnitude) ∧
        |v.z - g.velocity.z| ≤ 5 / 10 ^ 13 * (s.velocity.magnitude + o.velocity.magnitude)) := by
  have hu := F64.u_tiny
  obtain ⟨c1, c2, c3⟩ := F64.component_le s.velocity
  obtain ⟨g, p, v, h1, h2, ⟨a1, a2, a3⟩, b1, b2, b3⟩ := F64.hcwToGcrf_near hlib (cross_ne_of_angle hp hv ho) ho le_rfl
    (by norm_num) le_rfl (by norm_num) (F64.Sc.exact hx) (F64.Sc.exact hy) (F64.Sc.exact hz) (F64.Sc.exact c1)
    (F64.Sc.exact c2) (F64.Sc.exact c3)
  have hR := o.position.magnitude_nonneg
  have hV := s.velocity.magnitude_nonneg
  have hVo := o.velocity.magnitude_nonneg
  have k1 : (26 * 0 + 690) * F64.u * o.position.magnitude ≤ 9 / 10 ^ 14 * o.position.magnitude := by
    gcongr; norm_num at hu ⊢; linarith
  have k2 : (105 * 0 + 18 * 0 + 3900) * F64.u * (s.velocity.magnitude + o.velocity.magnitude)
      ≤ 5 / 10 ^ 13 * (s.velocity.magnitude + o.velocity.magnitude) := by
    gcongr; norm_num at hu ⊢; linarith
  exact ⟨g, p, v, h1, h2, ⟨a1.trans k1, a2.trans k1, a3.trans k1⟩, b1.trans k2, b2.trans k2, b3.trans k2⟩

/-- a state within 90 degrees of the origin is not on its orbit normal -/
theorem normal_ne {o : GCRF} {q : Vec3} (hc : o.position.cross o.velocity ≠ ⟨0, 0, 0⟩) (hd : o.position.dot q ≠ 0) :
    (o.position.cross o.velocity).cross q ≠ ⟨0, 0, 0⟩ := by
  intro h
  apply hc
  have e : ∀ c : Vec3, c.dot o.position = 0 → c.cross q = ⟨0, 0, 0⟩ → c.scaled (o.position.dot q) = ⟨0, 0, 0⟩ := by
    intro c h1 h2
    have hx := congrArg Vec3.x h2
    have hy := congrArg Vec3.y h2
    have hz := congrArg Vec3.z h2
    simp only [Vec3.cross, Vec3.dot] at hx hy hz h1
    ext <;> simp only [Vec3.scaled, Vec3.dot]
    · linear_combination q.x * h1 + o.position.y * hz - o.position.z * hy
    · linear_combination q.y * h1 + o.position.z * hx - o.position.x * hz
    · linear_combination q.z * h1 + o.position.x * hy - o.position.y * hx
  have h0 := e _ (by simp only [Vec3.dot, Vec3.cross]; ring) h
  have hx := congrArg Vec3.x h0
  have hy := congrArg Vec3.y h0
  have hz := congrArg Vec3.z h0
  simp only [Vec3.scaled, mul_eq_zero, hd, or_false] at hx hy hz
  ext <;> assumption

/-- **C114**: converting a GCRF state to Hill coordinates and back, all in double precision, returns the state with an
error of at most 1.6e-12 of the distance of the origin in position and 6e-11 of the sum of the speeds in velocity, for
every state in the domain of C113. -/
theorem C114_round_trip {lib : F64.Libm} (hlib : Spec.Accurate lib) (hatan : Spec.Atan2Accurate lib)
    (hasin : Spec.AsinAccurate lib) (o s : GCRF) (hp : o.position ≠ ⟨0, 0, 0⟩) (hv : o.velocity ≠ ⟨0, 0, 0⟩)
    (ho : o.position.magnitude * o.velocity.magnitude ≤ 10 * (o.position.cross o.velocity).magnitude)
    (h1 : o.position.magnitude ≤ 2 * s.position.magnitude) (h2 : s.position.magnitude ≤ 2 * o.position.magnitude)
    (hd : o.position.magnitude * s.position.magnitude ≤ 2 * o.position.dot s.position) :
    ∃ p v gp gv, F64.gcrfToHcw lib o.position o.velocity s.position s.velocity = .ok (p, v) ∧
      F64.hcwToGcrf lib p v o.position o.velocity = .ok (gp, gv) ∧
      (|gp.x - s.position.x| ≤ 1.6 / 10 ^ 12 * o.position.magnitude ∧
        |gp.y - s.position.y| ≤ 1.6 / 10 ^ 12 * o.position.magnitude ∧
        |gp.z - s.position.z| ≤ 1.6 / 10 ^ 12 * o.position.magnitude) ∧
      (|gv.x - s.velocity.x| ≤ 6 / 10 ^ 11 * (s.velocity.magnitude + o.velocity.magnitude) ∧
        |gv.y - s.velocity.y| ≤ 6 / 10 ^ 11 * (s.velocity.magnitude + o.velocity.magnitude) ∧
        |gv.z - s.velocity.z| ≤ 6 / 10 ^ 11 * (s.velocity.magnitude + o.velocity.magnitude)) := by
  have hu := F64.u_tiny
  have hu0 := F64.u_pos
  have hc := cross_ne_of_angle hp hv ho
  have hR := Vec3.magnitude_pos.mpr hp
  have hs : 0 < s.position.magnitude := by linarith
  obtain ⟨h, p, v, e1, e2, ⟨a1, a2, a3⟩, b1, b2, b3⟩ := F64.gcrfToHcw_near hlib hatan hasin hc ho h1 h2 hd
  obtain ⟨h', g', r1, r2, r3, r4, -⟩ := C32_round_trip o (nonDegenerate_iff.mpr hc) s (normal_ne hc (by
    have := mul_pos hR hs
    intro hz
    rw [hz] at hd
    linarith))
  rw [e1] at r1
  cases r1
  obtain ⟨g, gp, gv, f1, f2, ⟨x1, x2, x3⟩, y1, y2, y3⟩ := F64.hcwToGcrf_near hlib hc ho (by norm_num) (by norm_num)
    (by norm_num) (by norm_num) a1 (a2.mono (by norm_num)) (a3.mono (by norm_num)) b1 b2 b3
  rw [f1] at r2
  cases r2
  have hV := s.velocity.magnitude_nonneg
  have hVo := o.velocity.magnitude_nonneg
  have k1 : (26 * 480 + 690) * F64.u * o.position.magnitude ≤ 1.6 / 10 ^ 12 * o.position.magnitude := by
    gcongr; norm_num at hu ⊢; linarith
  have k2 : (105 * 480 + 18 * 2050 + 3900) * F64.u * (4 * (s.velocity.magnitude + o.velocity.magnitude) + o.velocity.magnitude)
      ≤ 6 / 10 ^ 11 * (s.velocity.magnitude + o.velocity.magnitude) := by
    have : (105 * 480 + 18 * 2050 + 3900) * F64.u * (4 * (s.velocity.magnitude + o.velocity.magnitude) + o.velocity.magnitude)
      ≤ 91200 * F64.u * (5 * (s.velocity.magnitude + o.velocity.magnitude)) := by
      gcongr
      · norm_num
      · linarith
    refine this.trans ?_
    have : 91200 * 5 * F64.u * (s.velocity.magnitude + o.velocity.magnitude) ≤
        6 / 10 ^ 11 * (s.velocity.magnitude + o.velocity.magnitude) := by
      gcongr; norm_num at hu ⊢; linarith
    linarith
  rw [r3] at x1 x2 x3
  rw [r4] at y1 y2 y3
  exact ⟨p, v, gp, gv, e2, f2, ⟨x1.trans k1, x2.trans k1, x3.trans k1⟩, y1.trans k2, y2.trans k2, y3.trans k2⟩

/-- **C115**: an impulsive manoeuvre in double precision leaves the position unchanged to 9e-14 of its length and changes
the velocity by the commanded radial, in-track and cross-track components to 5e-13 of the speeds. -/
theorem C115_impulse {lib : F64.Libm} (hlib : Spec.Accurate lib) (o : GCRF) (dv : Vec3) (hp : o.position ≠ ⟨0, 0, 0⟩)
    (hv : o.velocity ≠ ⟨0, 0, 0⟩)
    (ho : o.position.magnitude * o.velocity.magnitude ≤ 10 * (o.position.cross o.velocity).magnitude) :
    ∃ p v M, frameMatrix o = .ok M ∧ F64.impulsiveManeuver lib o.position o.velocity dv = .ok (p, v) ∧
      (|p.x - o.position.x| ≤ 9 / 10 ^ 14 * o.position.magnitude ∧
        |p.y - o.position.y| ≤ 9 / 10 ^ 14 * o.position.magnitude ∧
        |p.z - o.position.z| ≤ 9 / 10 ^ 14 * o.position.magnitude) ∧
      ∀ d, d = o.velocity.plus (((M.row1.scaled dv.x).plus (M.row2.scaled dv.y)).plus (M.row3.scaled dv.z)) →
        |v.x - d.x| ≤ 5 / 10 ^ 13 * (dv.magnitude + o.velocity.magnitude) ∧
        |v.y - d.y| ≤ 5 / 10 ^ 13 * (dv.magnitude + o.velocity.magnitude) ∧
        |v.z - d.z| ≤ 5 / 10 ^ 13 * (dv.magnitude + o.velocity.magnitude) := by
  have hc := cross_ne_of_angle hp hv ho
  have hR := o.position.magnitude_nonneg
  obtain ⟨M, hM, -⟩ := C33_frame o (nonDegenerate_iff.mpr hc)
  obtain ⟨g, p, v, h1, h2, ha, hb⟩ := C114_to_gcrf hlib o (State.new o.epoch ⟨0, 0, 0⟩ dv) hp hv ho
    (by simpa [State.new, Vec3.copy] using hR) (by simp [State.new, Vec3.copy]; positivity)
    (by simp [State.new, Vec3.copy]; positivity)
  rw [hcwToGcrf_at_origin hc hM] at h1
  cases h1
  refine ⟨p, v, M, hM, h2, ha, ?_⟩
  intro d hd
  have e : d = o.velocity.plus (M.transpose.mulVec dv) := by
    rw [hd]; ext <;> simp only [Vec3.plus, Vec3.scaled, Mat3.transpose, Mat3.mulVec, Vec3.dot] <;> ring
  rw [e]
  exact hb

theorem geo_shape : geoState.position.magnitude = 42164 ∧ geoState.velocity.magnitude = 3.0747 ∧
    (geoState.position.cross geoState.velocity).magnitude = 42164 * 3.0747 :=
  ⟨Vec3.magnitude_of_dot (by norm_num) (by simp only [geoState, GCRF.new, State.new, Vec3.copy, Vec3.dot]; norm_num),
   Vec3.magnitude_of_dot (by norm_num) (by simp only [geoState, GCRF.new, State.new, Vec3.copy, Vec3.dot]; norm_num),
   Vec3.magnitude_of_dot (by norm_num) (by
    simp only [geoState, GCRF.new, State.new, Vec3.copy, Vec3.dot, Vec3.cross]; norm_num)⟩

/-- an in-track burn of 5 m/s of a geosynchronous satellite, with a correctly rounded library -/
example : ∃ p v, F64.impulsiveManeuver F64.rounded geoState.position geoState.velocity ⟨0, 0.005, 0⟩ = .ok (p, v) ∧
    |p.x - 42164| ≤ 9 / 10 ^ 14 * 42164 := by
  obtain ⟨e1, e2, e3⟩ := geo_shape
  obtain ⟨p, v, M, -, h, ⟨hx, -⟩, -⟩ := C115_impulse F64.rounded_accurate.1 geoState ⟨0, 0.005, 0⟩
    (Vec3.magnitude_pos.mp (by rw [e1]; norm_num)) (Vec3.magnitude_pos.mp (by rw [e2]; norm_num))
    (by rw [e1, e2, e3]; norm_num)
  rw [e1] at hx
  exact ⟨p, v, h, hx⟩

/-- a satellite 100 km ahead of a geosynchronous one -/
example : ∃ p v gp gv, F64.gcrfToHcw F64.rounded geoState.position geoState.velocity ⟨42164, 100, 3⟩ ⟨0.01, 3.07, 0⟩ = .ok (p, v) ∧
    F64.hcwToGcrf F64.rounded p v geoState.position geoState.velocity = .ok (gp, gv) ∧
    |gp.y - 100| ≤ 1.6 / 10 ^ 12 * 42164 := by
  obtain ⟨e1, e2, e3⟩ := geo_shape
  obtain ⟨s, hs⟩ : ∃ s, s = GCRF.new ⟨59932⟩ ⟨42164, 100, 3⟩ ⟨0.01, 3.07, 0⟩ := ⟨_, rfl⟩
  have sq : s.position.magnitude ^ 2 = 42164 ^ 2 + 100 ^ 2 + 3 ^ 2 := by
    rw [Vec3.magnitude_sq_dot, hs]; simp only [GCRF.new, State.new, Vec3.copy, Vec3.dot]; norm_num
  have b1 : 42164 ≤ s.position.magnitude :=
    abs_le_of_sq_le_sq' (by rw [sq]; norm_num) (Vec3.magnitude_nonneg _) |>.2
  have b2 : s.position.magnitude ≤ 42165 := abs_le_of_sq_le_sq' (by rw [sq]; norm_num) (by norm_num) |>.2
  obtain ⟨p, v, gp, gv, h1, h2, ⟨-, h3, -⟩, -⟩ := C114_round_trip F64.rounded_accurate.1 F64.rounded_accurate.2
    F64.asin_rounded geoState s (Vec3.magnitude_pos.mp (by rw [e1]; norm_num)) (Vec3.magnitude_pos.mp (by rw [e2]; norm_num))
    (by rw [e1, e2, e3]; norm_num) (by rw [e1]; linarith) (by rw [e1]; linarith) (by
      have : geoState.position.dot s.position = 42164 * 42164 := by
        rw [hs]; simp only [geoState, GCRF.new, State.new, Vec3.copy, Vec3.dot]; norm_num
      rw [e1, this]; linarith)
  rw [e1] at h3
  rw [hs] at h1 h3
  exact ⟨p, v, gp, gv, h1, h2, h3⟩

/-- Hill coordinates (1, 2, 3) seen from a geosynchronous satellite -/
example : ∃ g p v, hcwToGcrf (State.new ⟨0⟩ ⟨1, 2, 3⟩ ⟨0.1, 0.2, 0.3⟩) geoState = .ok g ∧
    F64.hcwToGcrf F64.rounded ⟨1, 2, 3⟩ ⟨0.1, 0.2, 0.3⟩ geoState.position geoState.velocity = .ok (p, v) ∧
    |p.z - g.position.z| ≤ 9 / 10 ^ 14 * 42164 := by
  obtain ⟨e1, e2, e3⟩ := geo_shape
  obtain ⟨g, p, v, h1, h2, ⟨-, -, h3⟩, -⟩ := C114_to_gcrf F64.rounded_accurate.1 geoState
    (State.new ⟨0⟩ ⟨1, 2, 3⟩ ⟨0.1, 0.2, 0.3⟩)
    (Vec3.magnitude_pos.mp (by rw [e1]; norm_num)) (Vec3.magnitude_pos.mp (by rw [e2]; norm_num))
    (by rw [e1, e2, e3]; norm_num) (by rw [e1]; norm_num [State.new, Vec3.copy])
    (by rw [e1]; norm_num [State.new, Vec3.copy]) (by rw [e1]; norm_num [State.new, Vec3.copy])
  rw [e1] at h3
  exact ⟨g, p, v, h1, h2, h3⟩

end Openspace
