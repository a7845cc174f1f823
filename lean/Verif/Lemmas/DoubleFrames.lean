import Verif.Lemmas.DoubleGeodetic
import Verif.Model.DoubleStates
import Verif.Props.DoubleSpherical
import Verif.Props.Forces
import Verif.Props.States

/-! # Rounding errors relative to a scale, and the frame of an orbit in double precision -/

namespace Openspace.F64

open Real

/-! ## errors relative to a scale -/

/-- `y` is a computed value of `x`, with an error of at most `e` units of rounding of `s`, and `|x| ≤ s` -/
def Sc (y x e s : ℝ) : Prop := |y - x| ≤ e * u * s ∧ |x| ≤ s

variable {x y x' y' e e' s s' : ℝ}

theorem Sc.nonneg (h : Sc y x e s) : 0 ≤ s := (abs_nonneg _).trans h.2

theorem Sc.exact (h : |x| ≤ s) : Sc x x 0 s := ⟨by simp, h⟩

theorem Sc.mono (h : Sc y x e s) (he : e ≤ e') : Sc y x e' s := by
  have hu := u_pos
  have hs := h.nonneg
  exact ⟨h.1.trans (by gcongr), h.2⟩

theorem Sc.scale (h : Sc y x e s) (he : 0 ≤ e) (hs : s ≤ s') : Sc y x e s' := by
  have hu := u_pos
  exact ⟨h.1.trans (by gcongr), h.2.trans hs⟩

/-- another scale, of which the old one is at most `k` times -/
theorem Sc.tighten {k : ℝ} (h : Sc y x e (k * s)) (hx : |x| ≤ s) (he : k * e ≤ e') : Sc y x e' s := by
  have hu := u_pos
  have hs : 0 ≤ s := (abs_nonneg _).trans hx
  refine ⟨h.1.trans ?_, hx⟩
  have : k * e * (u * s) ≤ e' * (u * s) := by gcongr
  linarith

theorem Sc.of_near {k : ℝ} (h : Near y x k) (hk : 0 ≤ k) (hx : |x| ≤ s) : Sc y x k s := by
  have hu := u_pos
  unfold Near at h
  exact ⟨h.trans (by gcongr), hx⟩

theorem Sc.abs_le (h : Sc y x e s) (he : 0 ≤ e) (he' : e ≤ 1e5) : |y| ≤ 1.0001 * s := by
  have hu := u_tiny
  have hu0 := u_pos
  have hs := h.nonneg
  have h1 := abs_sub_abs_le_abs_sub y x
  have h2 : e * u * s ≤ 0.0001 * s := by
    gcongr
    have : e * u ≤ 1e5 * u := by gcongr
    norm_num at hu this ⊢
    linarith
  have := h.1
  have := h.2
  linarith

theorem Sc.round (h : Sc y x e s) (he : 0 ≤ e) (he' : e ≤ 1e5) : Sc (rnd y) x (e + 1.001) s := by
  have hu0 := u_pos
  have hs := h.nonneg
  refine ⟨?_, h.2⟩
  have h1 := h.abs_le he he'
  have h2 := rnd_u y
  have h3 := abs_sub_le (rnd y) y x
  have h4 : u * |y| ≤ u * (1.0001 * s) := by gcongr
  have h5 : (0:ℝ) ≤ u * s := by positivity
  have := h.1
  nlinarith

theorem Sc.neg (h : Sc y x e s) : Sc (-y) (-x) e s := by
  refine ⟨?_, by rw [abs_neg]; exact h.2⟩
  rw [show -y - -x = -(y - x) by ring, abs_neg]; exact h.1

theorem Sc.add0 (h : Sc y x e s) (h' : Sc y' x' e s') : Sc (y + y') (x + x') e (s + s') := by
  refine ⟨?_, (abs_add_le _ _).trans (add_le_add h.2 h'.2)⟩
  rw [show y + y' - (x + x') = (y - x) + (y' - x') by ring]
  have := abs_add_le (y - x) (y' - x')
  have := h.1
  have := h'.1
  linarith

theorem Sc.add (h : Sc y x e s) (h' : Sc y' x' e s') (he : 0 ≤ e) (he' : e ≤ 1e5) :
    Sc (rnd (y + y')) (x + x') (e + 1.001) (s + s') := (h.add0 h').round he he'

theorem Sc.sub (h : Sc y x e s) (h' : Sc y' x' e s') (he : 0 ≤ e) (he' : e ≤ 1e5) :
    Sc (rnd (y - y')) (x - x') (e + 1.001) (s + s') := by
  have := h.add h'.neg he he'
  rwa [← sub_eq_add_neg, ← sub_eq_add_neg] at this

theorem Sc.mul0 (h : Sc y x e s) (h' : Sc y' x' e' s') (he : 0 ≤ e) (hl : e ≤ 9e4) (he' : 0 ≤ e') (hl' : e' ≤ 9e4) :
    Sc (y * y') (x * x') (e + e' + 0.001) (s * s') := by
  have hu := u_tiny
  have hu0 := u_pos
  have hs := h.nonneg
  have hs' := h'.nonneg
  refine ⟨?_, by rw [abs_mul]; exact mul_le_mul h.2 h'.2 (abs_nonneg _) hs⟩
  have hy' : |y'| ≤ (1 + e' * u) * s' := by
    have h1 := abs_sub_abs_le_abs_sub y' x'
    have := h'.1
    have := h'.2
    linarith
  rw [show y * y' - x * x' = (y - x) * y' + x * (y' - x') by ring]
  have h2 := abs_add_le ((y - x) * y') (x * (y' - x'))
  rw [abs_mul, abs_mul] at h2
  have h3 : |y - x| * |y'| ≤ (e * u * s) * ((1 + e' * u) * s') := by gcongr; exact h.1
  have h4 : |x| * |y' - x'| ≤ s * (e' * u * s') := by gcongr; exacts [h.2, h'.1]
  have h5 : e * (e' * u) ≤ 0.001 := by
    have : e' * u ≤ 9e4 * u := by gcongr
    have : e * (e' * u) ≤ 9e4 * (9e4 * u) := by gcongr
    norm_num at hu this ⊢
    linarith
  have h6 : e * (e' * u) * (u * (s * s')) ≤ 0.001 * (u * (s * s')) := by gcongr
  linarith

theorem Sc.mul (h : Sc y x e s) (h' : Sc y' x' e' s') (he : 0 ≤ e) (hl : e ≤ 4e4) (he' : 0 ≤ e') (hl' : e' ≤ 4e4) :
    Sc (rnd (y * y')) (x * x') (e + e' + 1.01) (s * s') :=
  ((h.mul0 h' he (by linarith) he' (by linarith)).round (by linarith) (by norm_num; linarith)).mono (by linarith)

theorem Sc.div {k : ℝ} (h : Sc y x e s) (h' : Near y' x' k) (hx' : x' ≠ 0) (he : 0 ≤ e) (hl : e ≤ 4e4) (hk : 0 ≤ k)
    (hk' : k ≤ 4e4) : y' ≠ 0 ∧ Sc (rnd (y / y')) (x / x') (e + k + 1.01) (s / |x'|) := by
  obtain ⟨h1, h2⟩ := near_inv' h' hx' hk (by norm_num; linarith)
  refine ⟨h1, ?_⟩
  have h3 := Sc.of_near h2 (by linarith) le_rfl
  have h4 := ((h.mul0 h3 he (by linarith) (by linarith) (by norm_num; linarith)).round (by linarith) (by norm_num; linarith))
  rw [mul_one_div, mul_one_div, abs_div, abs_one, mul_one_div] at h4
  exact h4.mono (by linarith)

/-- the sum of three products -/
theorem Sc.dot {a a' b b' : Vec3} {k l s t : ℝ} (h1 : Sc a'.x a.x k s) (h2 : Sc a'.y a.y k s) (h3 : Sc a'.z a.z k s)
    (g1 : Sc b'.x b.x l t) (g2 : Sc b'.y b.y l t) (g3 : Sc b'.z b.z l t) (hk : 0 ≤ k) (hk' : k ≤ 4e4) (hl : 0 ≤ l)
    (hl' : l ≤ 4e4) : Sc (F64.dot a' b') (a.dot b) (k + l + 3.02) (3 * (s * t)) := by
  have m1 := h1.mul g1 hk hk' hl hl'
  have m2 := h2.mul g2 hk hk' hl hl'
  have m3 := h3.mul g3 hk hk' hl hl'
  have n1 := m1.add m2 (by linarith) (by norm_num; linarith)
  have n2 := n1.add (m3.mono (e' := k + l + 1.01 + 1.001) (by linarith)) (by linarith) (by norm_num; linarith)
  have e : s * t + s * t + s * t = 3 * (s * t) := by ring
  rw [e] at n2
  exact n2.mono (by linarith)

/-! ## vectors -/

theorem components_le {a e : Vec3} {k : ℝ} (hk : 0 ≤ k) (h1 : |e.x| ≤ k * |a.x|) (h2 : |e.y| ≤ k * |a.y|)
    (h3 : |e.z| ≤ k * |a.z|) : e.magnitude ≤ k * a.magnitude := by
  apply abs_le_of_sq_le_sq' _ (mul_nonneg hk a.magnitude_nonneg) |>.2
  rw [mul_pow, Vec3.magnitude_sq_dot, Vec3.magnitude_sq_dot]
  have key : ∀ {p q : ℝ}, |p| ≤ k * |q| → p * p ≤ k ^ 2 * (q * q) := by
    intro p q h
    have : |p| ^ 2 ≤ (k * |q|) ^ 2 := by gcongr
    rw [mul_pow, sq_abs, sq_abs] at this
    linarith
  simp only [Vec3.dot]
  linarith [key h1, key h2, key h3]

theorem component_le (a : Vec3) : |a.x| ≤ a.magnitude ∧ |a.y| ≤ a.magnitude ∧ |a.z| ≤ a.magnitude := by
  have h := Vec3.magnitude_sq_dot a
  simp only [Vec3.dot] at h
  have h0 := a.magnitude_nonneg
  refine ⟨?_, ?_, ?_⟩ <;> apply abs_le_of_sq_le_sq _ h0 <;>
    nlinarith [mul_self_nonneg a.x, mul_self_nonneg a.y, mul_self_nonneg a.z]

theorem minus_triangle (a b c : Vec3) : (a.minus c).magnitude ≤ (a.minus b).magnitude + (b.minus c).magnitude := by
  have e : a.minus c = (a.minus b).plus (b.minus c) := by ext <;> simp [Vec3.minus, Vec3.plus]
  rw [e]; exact Vec3.magnitude_plus_le _ _

theorem scaled_round {a : Vec3} {k k' κ : ℝ} (h : Near k' k κ) (h0 : 0 ≤ κ) (h1 : κ ≤ 90) :
    ((scaled a k').minus (a.scaled k)).magnitude ≤ (κ + 1.01) * u * (|k| * a.magnitude) := by
  have hu := u_pos
  have key : ∀ p : ℝ, |rnd (p * k') - p * k| ≤ (κ + 1.01) * u * |k| * |p| := by
    intro p
    have := ((Near.refl p).mul h h0 le_rfl (by norm_num) (by linarith)).round (by linarith) (by linarith)
    have := this.mono (l := κ + 1.01) (by linarith)
    unfold Near at this
    rw [abs_mul] at this
    linarith
  have := components_le (a := a) (e := (scaled a k').minus (a.scaled k)) (k := (κ + 1.01) * u * |k|) (by positivity)
    (key a.x) (key a.y) (key a.z)
  linarith

/-- directions of two vectors near each other -/
theorem unit_diff {a b : Vec3} (ha : 0 < a.magnitude) (hb : 0 < b.magnitude) :
    ((a.scaled (1 / a.magnitude)).minus (b.scaled (1 / b.magnitude))).magnitude * b.magnitude
      ≤ 2 * (a.minus b).magnitude := by
  have t := minus_triangle (a.scaled (1 / a.magnitude)) (a.scaled (1 / b.magnitude)) (b.scaled (1 / b.magnitude))
  have e1 : (a.scaled (1 / a.magnitude)).minus (a.scaled (1 / b.magnitude)) =
      a.scaled (1 / a.magnitude - 1 / b.magnitude) := by ext <;> simp [Vec3.scaled, Vec3.minus] <;> ring
  have e2 : (a.scaled (1 / b.magnitude)).minus (b.scaled (1 / b.magnitude)) =
      (a.minus b).scaled (1 / b.magnitude) := by ext <;> simp [Vec3.scaled, Vec3.minus] <;> ring
  rw [e1, e2, Vec3.magnitude_scaled_abs, Vec3.magnitude_scaled_abs, abs_of_pos (by positivity : 0 < 1 / b.magnitude)] at t
  have h1 := magnitude_sub_le a b
  have e3 : |1 / a.magnitude - 1 / b.magnitude| * a.magnitude * b.magnitude = |a.magnitude - b.magnitude| := by
    rw [show 1 / a.magnitude - 1 / b.magnitude = -(a.magnitude - b.magnitude) / (a.magnitude * b.magnitude) by
      field_simp; ring, abs_div, abs_neg, abs_of_pos (mul_pos ha hb)]
    field_simp
  have e4 : 1 / b.magnitude * (a.minus b).magnitude * b.magnitude = (a.minus b).magnitude := by field_simp
  have t' := mul_le_mul_of_nonneg_right t hb.le
  rw [add_mul] at t'
  linarith

theorem normalized_near {a : Vec3} (ha : a ≠ ⟨0, 0, 0⟩) : ∃ n, normalized a = .ok n ∧
    (n.minus (a.scaled (1 / a.magnitude))).magnitude ≤ 6.3 * u := by
  have hm := Vec3.magnitude_pos.mpr ha
  obtain ⟨h1, h2⟩ := near_inv (magnitude_near a) hm.ne' (by norm_num) (by norm_num)
  refine ⟨scaled a (rnd (1 / magnitude a)), by simp only [normalized, div_ok h1, ok_bind, pure_eq_ok], ?_⟩
  have h3 := scaled_round (a := a) (h2.round (by norm_num) (by norm_num)) (by norm_num) (by norm_num)
  rw [abs_of_pos (by positivity : 0 < 1 / a.magnitude), one_div_mul_cancel hm.ne', mul_one] at h3
  have := u_pos
  norm_num at h3 ⊢
  linarith

theorem unit_magnitude {a : Vec3} (ha : a ≠ ⟨0, 0, 0⟩) : (a.scaled (1 / a.magnitude)).magnitude = 1 := by
  have hm := Vec3.magnitude_pos.mpr ha
  rw [Vec3.magnitude_scaled_abs, abs_of_pos (by positivity), one_div_mul_cancel hm.ne']

theorem cross_magnitude_le (a b : Vec3) : (a.cross b).magnitude ≤ a.magnitude * b.magnitude := by
  apply abs_le_of_sq_le_sq' _ (mul_nonneg (Vec3.magnitude_nonneg _) (Vec3.magnitude_nonneg _)) |>.2
  rw [mul_pow, Vec3.magnitude_sq_dot, Vec3.magnitude_sq_dot, Vec3.magnitude_sq_dot, Vec3.lagrange]
  nlinarith [sq_nonneg (a.dot b)]

/-- the computed rows of the frame -/
theorem frameMatrix_near {p v : Vec3} (hc : p.cross v ≠ ⟨0, 0, 0⟩)
    (h : p.magnitude * v.magnitude ≤ 10 * (p.cross v).magnitude) :
    ∃ m, frameMatrix p v = .ok m ∧
      (m.row1.minus (p.scaled (1 / p.magnitude))).magnitude ≤ 7 * u ∧
      (m.row2.minus (((p.cross v).scaled (1 / (p.cross v).magnitude)).cross (p.scaled (1 / p.magnitude)))).magnitude ≤ 80 * u ∧
      (m.row3.minus ((p.cross v).scaled (1 / (p.cross v).magnitude))).magnitude ≤ 67 * u := by
  have hu := u_tiny
  have hu0 := u_pos
  have hp : p ≠ ⟨0, 0, 0⟩ := by intro h; apply hc; rw [h]; simp [Vec3.cross]
  have hcm := Vec3.magnitude_pos.mpr hc
  -- the computed momentum
  have c1 := cross_near p v
  have c2 : ((cross p v).minus (p.cross v)).magnitude ≤ 30 * u * (p.cross v).magnitude := by
    have : 3 * u * (p.magnitude * v.magnitude) ≤ 3 * u * (10 * (p.cross v).magnitude) := by gcongr
    linarith
  have c3 := magnitude_sub_le (cross p v) (p.cross v)
  have c4 : 0 < (cross p v).magnitude := by
    have := (abs_le.mp (c3.trans c2)).1
    have : 30 * u * (p.cross v).magnitude ≤ 1 / 2 * (p.cross v).magnitude := by gcongr; norm_num at hu; linarith
    linarith
  have hc' : cross p v ≠ ⟨0, 0, 0⟩ := Vec3.magnitude_pos.mp c4
  obtain ⟨r, hr, hr'⟩ := normalized_near hp
  obtain ⟨c, hcn, hcn'⟩ := normalized_near hc'
  obtain ⟨R, hR⟩ : ∃ R, R = p.scaled (1 / p.magnitude) := ⟨_, rfl⟩
  obtain ⟨C, hC⟩ : ∃ C, C = (p.cross v).scaled (1 / (p.cross v).magnitude) := ⟨_, rfl⟩
  have hR1 : R.magnitude = 1 := by rw [hR]; exact unit_magnitude hp
  have hC1 : C.magnitude = 1 := by rw [hC]; exact unit_magnitude hc
  have d1 : (c.minus C).magnitude ≤ 66.3 * u := by
    have t := minus_triangle c ((cross p v).scaled (1 / (cross p v).magnitude)) C
    have t2 := unit_diff c4 hcm
    rw [← hC] at t2
    have t3 : (((cross p v).scaled (1 / (cross p v).magnitude)).minus C).magnitude ≤ 60 * u := by
      apply le_of_mul_le_mul_right _ hcm
      linarith
    linarith
  rw [← hR] at hr' ⊢
  rw [← hC]
  refine ⟨⟨r, cross c r, c⟩, by simp only [frameMatrix, hr, hcn, ok_bind, pure_eq_ok], ?_, ?_, ?_⟩
  · linarith
  · show ((cross c r).minus (C.cross R)).magnitude ≤ 80 * u
    have t1 := cross_near c r
    have t2 := minus_triangle (cross c r) (c.cross r) (C.cross R)
    have t3 := minus_triangle (c.cross r) (C.cross r) (C.cross R)
    have e1 : (c.cross r).minus (C.cross r) = (c.minus C).cross r := by
      ext <;> simp only [Vec3.cross, Vec3.minus] <;> ring
    have e2 : (C.cross r).minus (C.cross R) = C.cross (r.minus R) := by
      ext <;> simp only [Vec3.cross, Vec3.minus] <;> ring
    rw [e1, e2] at t3
    have m1 : c.magnitude ≤ 1.001 := by
      have := (abs_le.mp (magnitude_sub_le c C)).2
      norm_num at hu ⊢; linarith
    have m2 : r.magnitude ≤ 1.001 := by
      have := (abs_le.mp (magnitude_sub_le r R)).2
      norm_num at hu ⊢; linarith
    have t4 := cross_magnitude_le (c.minus C) r
    have t5 := cross_magnitude_le C (r.minus R)
    have n1 := (c.minus C).magnitude_nonneg
    have n2 := r.magnitude_nonneg
    have n3 := c.magnitude_nonneg
    have t6 : (c.minus C).magnitude * r.magnitude ≤ 66.3 * u * 1.001 := by gcongr
    have t7 : 3 * u * (c.magnitude * r.magnitude) ≤ 3 * u * (1.001 * 1.001) := by gcongr
    rw [hC1] at t5
    norm_num at hr' t6 t7 ⊢
    linarith
  · show (c.minus C).magnitude ≤ 67 * u
    linarith

/-- a row of the frame times a vector -/
theorem dot_row {m m' v : Vec3} (hm : m.magnitude = 1) (h : (m'.minus m).magnitude ≤ 80 * u) :
    Sc (dot m' v) (m.dot v) 83.2 v.magnitude := by
  have hu := u_tiny
  have hu0 := u_pos
  have hv := v.magnitude_nonneg
  refine ⟨?_, ?_⟩
  · have h1 := dot_near m' v
    have h2 : |m'.dot v - m.dot v| ≤ 80 * u * v.magnitude := by
      rw [← Vec3.dot_minus_left]
      exact (Vec3.cauchy _ _).trans (by gcongr)
    have m1 : m'.magnitude ≤ 1.001 := by
      have := (abs_le.mp (magnitude_sub_le m' m)).2
      norm_num at hu ⊢; linarith
    have h3 : 3.1 * u * (m'.magnitude * v.magnitude) ≤ 3.1 * u * (1.001 * v.magnitude) := by gcongr
    have h4 := abs_sub_le (dot m' v) (m'.dot v) (m.dot v)
    have h5 : 0 ≤ u * v.magnitude := by positivity
    norm_num at h3 ⊢
    linarith
  · have := Vec3.cauchy m v
    rwa [hm, one_mul] at this

end Openspace.F64
