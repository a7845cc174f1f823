import Verif.Lemmas.DoubleElements
import Verif.Lemmas.DoubleFrames
import Verif.Props.DoubleSpherical
import Verif.Spec.Angle

/-! # The angles among the classical elements in double precision -/

namespace Openspace

open Real

namespace Spec

theorem AngleNear.trans {x y z E F : ℝ} (h : AngleNear x y E) (h' : AngleNear y z F) : AngleNear x z (E + F) := by
  obtain ⟨k, hk⟩ := h
  obtain ⟨l, hl⟩ := h'
  refine ⟨k + l, ?_⟩
  push_cast
  rw [show x - (z + 2 * π * ((k : ℝ) + l)) = (x - (y + 2 * π * k)) + (y - (z + 2 * π * l)) by ring]
  exact (abs_add_le _ _).trans (add_le_add hk hl)

theorem AngleNear.symm {x y E : ℝ} (h : AngleNear x y E) : AngleNear y x E := by
  obtain ⟨k, hk⟩ := h
  refine ⟨-k, ?_⟩
  push_cast
  rw [show y - (x + 2 * π * -(k : ℝ)) = -(x - (y + 2 * π * k)) by ring, abs_neg]
  exact hk

theorem AngleNear.mono {x y E F : ℝ} (h : AngleNear x y E) (hE : E ≤ F) : AngleNear x y F := by
  obtain ⟨k, hk⟩ := h
  exact ⟨k, hk.trans hE⟩

theorem AngleNear.of_abs {x y E : ℝ} (h : |x - y| ≤ E) : AngleNear x y E := ⟨0, by simpa using h⟩

theorem AngleNear.sub {x y z w E F : ℝ} (h : AngleNear x y E) (h' : AngleNear z w F) : AngleNear (x - z) (y - w) (E + F) := by
  obtain ⟨k, hk⟩ := h
  obtain ⟨l, hl⟩ := h'
  refine ⟨k - l, ?_⟩
  push_cast
  rw [show x - z - (y - w + 2 * π * ((k : ℝ) - l)) = (x - (y + 2 * π * k)) - (z - (w + 2 * π * l)) by ring]
  exact (abs_sub _ _).trans (add_le_add hk hl)

end Spec

open Spec

theorem wrapNeg_angle (x : ℝ) : AngleNear (wrapNeg x) x 0 := by
  obtain ⟨k, hk⟩ := exists_wrapNeg x
  exact ⟨k, by rw [hk, sub_self, abs_zero]⟩

/-- the direction of a point that is slightly off -/
theorem atan2_shift {x y x' y' d ρ : ℝ} (hρ : 0 < ρ) (hxy : x * x + y * y = ρ * ρ) (d0 : 0 ≤ d)
    (hd : (x' - x) ^ 2 + (y' - y) ^ 2 ≤ d ^ 2) (hs : d ≤ ρ / 100) :
    AngleNear (pyAtan2 y' x') (pyAtan2 y x) (1.02 * (d / ρ)) := by
  obtain ⟨s, hs'⟩ : ∃ s, s = x' - x := ⟨_, rfl⟩
  obtain ⟨t, ht'⟩ : ∃ t, t = y' - y := ⟨_, rfl⟩
  rw [← hs', ← ht'] at hd
  have ex : x' = x + s := by linarith
  have ey : y' = y + t := by linarith
  -- the quotient of the two points
  obtain ⟨p, hp⟩ : ∃ p, p = x' * x + y' * y := ⟨_, rfl⟩
  obtain ⟨q, hq⟩ : ∃ q, q = y' * x - x' * y := ⟨_, rfl⟩
  have b1 : |s * x + t * y| ≤ d * ρ := by
    refine abs_le_of_sq_le_sq ?_ (by positivity)
    have : (d * ρ) ^ 2 = d ^ 2 * (x * x + y * y) := by rw [hxy]; ring
    rw [this]
    have i := mul_le_mul_of_nonneg_right hd (show 0 ≤ x * x + y * y by rw [hxy]; positivity)
    nlinarith [sq_nonneg (s * y - t * x)]
  have b2 : |q| ≤ d * ρ := by
    refine abs_le_of_sq_le_sq ?_ (by positivity)
    have : (d * ρ) ^ 2 = d ^ 2 * (x * x + y * y) := by rw [hxy]; ring
    rw [this, hq, ex, ey]
    have i := mul_le_mul_of_nonneg_right hd (show 0 ≤ x * x + y * y by rw [hxy]; positivity)
    nlinarith [sq_nonneg (s * x + t * y)]
  have ep : p = ρ * ρ + (s * x + t * y) := by rw [hp, ex, ey, ← hxy]; ring
  have p1 : 0.99 * (ρ * ρ) ≤ p := by
    have := (abs_le.mp b1).1
    have : d * ρ ≤ ρ / 100 * ρ := by gcongr
    rw [ep]; linarith
  have p0 : 0 < p := lt_of_lt_of_le (by positivity) p1
  have hm : p * p + q * q = (ρ * ρ) * (x' * x' + y' * y') := by rw [hp, hq, ← hxy]; ring
  have n0 : 0 ≤ x' * x' + y' * y' := add_nonneg (mul_self_nonneg _) (mul_self_nonneg _)
  obtain ⟨m, hm'⟩ : ∃ m, m = √(x' * x' + y' * y') := ⟨_, rfl⟩
  have m2 : m * m = x' * x' + y' * y' := by rw [hm']; exact Real.mul_self_sqrt n0
  have m0 : 0 < m := by
    rw [hm', Real.sqrt_pos]
    by_contra h
    have : x' * x' + y' * y' = 0 := le_antisymm (not_lt.mp h) n0
    rw [this, mul_zero] at hm
    nlinarith [mul_self_nonneg q]
  have c1 := mul_cos_atan2 q p
  have s1 := mul_sin_atan2 q p
  have c2 := mul_cos_atan2 y x
  have s2 := mul_sin_atan2 y x
  have c3 := mul_cos_atan2 y' x'
  have s3 := mul_sin_atan2 y' x'
  rw [hm, Real.sqrt_mul (by positivity), Real.sqrt_mul_self hρ.le, ← hm'] at c1 s1
  rw [hxy, Real.sqrt_mul_self hρ.le] at c2 s2
  rw [← hm'] at c3 s3
  have hsmall : |pyAtan2 q p| ≤ 1.02 * (d / ρ) := by
    rw [pyAtan2_of_pos p0]
    refine (F64.abs_arctan_le _).trans ?_
    rw [abs_div, abs_of_pos p0, div_le_iff₀ p0]
    have : 1.02 * (d / ρ) * (0.99 * (ρ * ρ)) ≤ 1.02 * (d / ρ) * p := by gcongr
    refine le_trans ?_ this
    rw [show 1.02 * (d / ρ) * (0.99 * (ρ * ρ)) = 1.0098 * (d * ρ) by field_simp; norm_num; ring]
    have : 0 ≤ d * ρ := by positivity
    linarith
  obtain ⟨α, hα⟩ : ∃ α, α = pyAtan2 y x := ⟨_, rfl⟩
  obtain ⟨β, hβ⟩ : ∃ β, β = pyAtan2 y' x' := ⟨_, rfl⟩
  obtain ⟨θ, hθ⟩ : ∃ θ, θ = pyAtan2 q p := ⟨_, rfl⟩
  rw [← hα] at c2 s2 ⊢
  rw [← hβ] at c3 s3 ⊢
  rw [← hθ] at c1 s1 hsmall
  have hk : ρ * ρ * m ≠ 0 := by positivity
  have e1 : cos β = cos (α + θ) := by
    rw [cos_add]
    apply mul_left_cancel₀ hk
    calc ρ * ρ * m * cos β = ρ * ρ * (m * cos β) := by ring
      _ = ρ * ρ * x' := by rw [c3]
      _ = x * p - y * q := by rw [hp, hq, ← hxy]; ring
      _ = (ρ * cos α) * (ρ * m * cos θ) - (ρ * sin α) * (ρ * m * sin θ) := by rw [c1, s1, c2, s2]
      _ = _ := by ring
  have e2 : sin β = sin (α + θ) := by
    rw [sin_add]
    apply mul_left_cancel₀ hk
    calc ρ * ρ * m * sin β = ρ * ρ * (m * sin β) := by ring
      _ = ρ * ρ * y' := by rw [s3]
      _ = y * p + x * q := by rw [hp, hq, ← hxy]; ring
      _ = (ρ * sin α) * (ρ * m * cos θ) + (ρ * cos α) * (ρ * m * sin θ) := by rw [c1, s1, c2, s2]
      _ = _ := by ring
  obtain ⟨k, hk⟩ := exists_turn e1 e2
  refine ⟨k, ?_⟩
  rw [hk, show α + θ + 2 * π * k - (α + 2 * π * k) = θ by ring]
  exact hsmall

namespace F64

theorem wrapNeg_angle_near {x : ℝ} (hx : |x| ≤ 10) : AngleNear (wrapNeg x) x (9 * u) := by
  have hu := u_tiny
  have hu0 := u_pos
  have hp := Real.pi_lt_d2
  have hp' := Real.pi_gt_d2
  obtain ⟨x1, x2⟩ := abs_le.mp hx
  unfold wrapNeg
  split_ifs with h0
  · refine ⟨1, ?_⟩
    have h1 := turn_near
    have h2 : |x + rnd (2 * pi) - (x + 2 * π)| ≤ 2.3 * u := by
      rw [show x + rnd (2 * pi) - (x + 2 * π) = rnd (2 * pi) - 2 * π by ring]; exact h1
    have h3 := rabs h2 (M := 6.4) (by
      have : |x + 2 * π| ≤ 6.3 := by rw [_root_.abs_le]; norm_num at hp hp' ⊢; constructor <;> linarith
      norm_num at this hu ⊢; linarith)
    push_cast
    rw [mul_one]
    linarith
  · refine ⟨0, ?_⟩
    push_cast
    rw [mul_zero, add_zero, sub_self, abs_zero]; positivity

/-- an arctangent of the C library, wrapped -/
theorem atan2_wrapped {lib : Libm} (hatan : Atan2Accurate lib) {x y x' y' d ρ : ℝ} (hρ : 0 < ρ) (hxy : x * x + y * y = ρ * ρ)
    (d0 : 0 ≤ d) (hd : (x' - x) ^ 2 + (y' - y) ^ 2 ≤ d ^ 2) (hs : d ≤ ρ / 100) :
    AngleNear (wrapNeg (lib.atan2 y' x')) (pyAtan2 y x) (1.02 * (d / ρ) + 13 * u) := by
  have hu2 : (1 : ℝ) / 2 ^ 51 = 4 * u := by unfold u; norm_num
  have hu := u_tiny
  have h1 := hatan y' x'
  rw [hu2] at h1
  have h2 : |lib.atan2 y' x'| ≤ 10 := by
    have i1 : |Complex.arg ⟨x', y'⟩| ≤ π := Complex.abs_arg_le_pi _
    have i2 := abs_sub_abs_le_abs_sub (lib.atan2 y' x') (Complex.arg ⟨x', y'⟩)
    have i3 := Real.pi_lt_d2
    norm_num at i3 hu; linarith
  exact ((wrapNeg_angle_near h2).trans ((AngleNear.of_abs h1).trans (atan2_shift hρ hxy d0 hd hs))).mono (by linarith)

/-- directions of two vectors -/
theorem direction_near (a b : Vec3) (ha : a ≠ ⟨0, 0, 0⟩) (hb : b ≠ ⟨0, 0, 0⟩) :
    ((a.scaled (1 / a.magnitude)).minus (b.scaled (1 / b.magnitude))).magnitude ≤ 2 * (a.minus b).magnitude / b.magnitude := by
  have ma := Vec3.magnitude_pos.mpr ha
  have mb := Vec3.magnitude_pos.mpr hb
  have e : (a.scaled (1 / a.magnitude)).minus (b.scaled (1 / b.magnitude))
      = ((a.minus b).scaled (1 / b.magnitude)).plus (a.scaled (1 / a.magnitude - 1 / b.magnitude)) := by
    ext <;> simp only [Vec3.scaled, Vec3.minus, Vec3.plus] <;> ring
  have t := Vec3.magnitude_plus_le ((a.minus b).scaled (1 / b.magnitude)) (a.scaled (1 / a.magnitude - 1 / b.magnitude))
  rw [← e, Vec3.magnitude_scaled_abs, Vec3.magnitude_scaled_abs, abs_of_pos (by positivity : 0 < 1 / b.magnitude)] at t
  have i := magnitude_sub_le a b
  have e2 : |1 / a.magnitude - 1 / b.magnitude| * a.magnitude = |a.magnitude - b.magnitude| * (1 / b.magnitude) := by
    rw [show 1 / a.magnitude - 1 / b.magnitude = -((a.magnitude - b.magnitude) * (1 / (a.magnitude * b.magnitude))) by field_simp; ring,
      abs_neg, abs_mul, abs_of_pos (by positivity : 0 < 1 / (a.magnitude * b.magnitude))]
    field_simp
  have i2 : |a.magnitude - b.magnitude| * (1 / b.magnitude) ≤ (a.minus b).magnitude * (1 / b.magnitude) := by gcongr
  rw [show 2 * (a.minus b).magnitude / b.magnitude = (a.minus b).magnitude * (1 / b.magnitude) + (a.minus b).magnitude * (1 / b.magnitude)
    by ring]
  linarith

theorem atan2_range {lib : Libm} (hatan : Atan2Accurate lib) (y x : ℝ) :
    0 ≤ wrapNeg (lib.atan2 y x) ∧ wrapNeg (lib.atan2 y x) ≤ 6.4 := by
  have hu2 : (1 : ℝ) / 2 ^ 51 = 4 * u := by unfold u; norm_num
  have hu := u_tiny
  have hu0 := u_pos
  have h1 := hatan y x
  rw [hu2] at h1
  have i1 : |Complex.arg ⟨x, y⟩| ≤ π := Complex.abs_arg_le_pi _
  have i3 := Real.pi_lt_d2
  have i4 := Real.pi_gt_d2
  obtain ⟨a1, a2⟩ := _root_.abs_le.mp h1
  obtain ⟨b1, b2⟩ := _root_.abs_le.mp i1
  obtain ⟨t1, t2⟩ := _root_.abs_le.mp turn_near
  unfold wrapNeg
  split_ifs with h0
  · have h3 := _root_.abs_le.mp (rnd_u (lib.atan2 y x + rnd (2 * pi)))
    have h4 : 0 ≤ lib.atan2 y x + rnd (2 * pi) := by norm_num at i3 i4 hu ⊢; linarith
    refine ⟨rnd_nonneg h4, ?_⟩
    rw [abs_of_nonneg h4] at h3
    have : u * (lib.atan2 y x + rnd (2 * pi)) ≤ u * 10 := by
      gcongr; norm_num at i3 hu ⊢; linarith
    norm_num at i3 hu this ⊢; linarith
  · refine ⟨not_lt.mp h0, ?_⟩
    norm_num at i3 hu ⊢; linarith

/-! ## the orientation of the plane -/

/-- the computed normal of the plane -/
theorem normal_error {p v : Vec3} (hh : p.cross v ≠ ⟨0, 0, 0⟩) {w : Vec3} {k : ℝ} (hw : w.dot w = 1) (hk : 0 < k)
    (hc : p.cross v = w.scaled k) (hB : p.magnitude * v.magnitude ≤ 2.3 * (p.cross v).magnitude) {w' : Vec3}
    (hw' : normalized (cross p v) = .ok w') : (w'.minus w).magnitude ≤ 20.2 * u := by
  have hu := u_pos
  have hu' := u_tiny
  have h0 := Vec3.magnitude_pos.mpr hh
  have h1 := cross_near p v
  have h2 : ((cross p v).minus (p.cross v)).magnitude ≤ 6.9 * u * (p.cross v).magnitude := by
    refine h1.trans ?_
    calc 3 * u * (p.magnitude * v.magnitude) ≤ 3 * u * (2.3 * (p.cross v).magnitude) := by gcongr
      _ = _ := by ring
  have h3 : cross p v ≠ ⟨0, 0, 0⟩ := by
    intro h
    rw [h] at h2
    have : ((⟨0, 0, 0⟩ : Vec3).minus (p.cross v)).magnitude = (p.cross v).magnitude := by
      rw [show (⟨0, 0, 0⟩ : Vec3).minus (p.cross v) = (p.cross v).scaled (-1) by ext <;> simp [Vec3.minus, Vec3.scaled],
        Vec3.magnitude_scaled]
      norm_num
    rw [this] at h2
    nlinarith
  obtain ⟨n, n1, n2⟩ := normalized_near h3
  rw [hw', Except.ok.injEq] at n1
  subst n1
  have h4 := direction_near (cross p v) (p.cross v) h3 hh
  have h5 : 2 * ((cross p v).minus (p.cross v)).magnitude / (p.cross v).magnitude ≤ 13.8 * u := by
    rw [div_le_iff₀ h0]; linarith
  have e : w = (p.cross v).scaled (1 / (p.cross v).magnitude) := by
    have hm : (p.cross v).magnitude = k := by
      rw [hc, Vec3.magnitude_scaled, Vec3.magnitude_unit hw, mul_one, abs_of_pos hk]
    rw [hm, hc]
    ext <;> simp only [Vec3.scaled] <;> field_simp
  have h6 := minus_triangle w' ((cross p v).scaled (1 / (cross p v).magnitude)) w
  rw [← e] at h4
  linarith

/-- distance from the axis -/
theorem polar_sub_le (a b : Vec3) : (b.z - a.z) ^ 2 + (√(b.x * b.x + b.y * b.y) - √(a.x * a.x + a.y * a.y)) ^ 2
    ≤ (b.minus a).magnitude ^ 2 := by
  have ha : 0 ≤ a.x * a.x + a.y * a.y := add_nonneg (mul_self_nonneg _) (mul_self_nonneg _)
  have hb : 0 ≤ b.x * b.x + b.y * b.y := add_nonneg (mul_self_nonneg _) (mul_self_nonneg _)
  have h1 := Real.sq_sqrt ha
  have h2 := Real.sq_sqrt hb
  have h3 : a.x * b.x + a.y * b.y ≤ √(b.x * b.x + b.y * b.y) * √(a.x * a.x + a.y * a.y) := by
    rw [← Real.sqrt_mul hb]
    refine Real.le_sqrt_of_sq_le ?_
    nlinarith [sq_nonneg (a.x * b.y - a.y * b.x)]
  rw [Vec3.magnitude_sq]
  simp only [Vec3.minus]
  nlinarith

/-- the inclination -/
theorem inclination_error {lib : Libm} (hatan : Atan2Accurate lib) {w w' : Vec3} (hw : w.dot w = 1)
    (h : (w'.minus w).magnitude ≤ 20.2 * u) : |incFromW lib w' - Openspace.incFromW w| ≤ 28 * u := by
  have hu := u_pos
  have hu' := u_tiny
  have hu2 : (1 : ℝ) / 2 ^ 51 = 4 * u := by unfold u; norm_num
  obtain ⟨y, hy⟩ : ∃ y, y = √(w.x * w.x + w.y * w.y) := ⟨_, rfl⟩
  obtain ⟨y'', hy''⟩ : ∃ y, y = √(w'.x * w'.x + w'.y * w'.y) := ⟨_, rfl⟩
  obtain ⟨y', hy'⟩ : ∃ y, y = rnd (sqrtNN (rnd (rnd (w'.x * w'.x) + rnd (w'.y * w'.y)))) := ⟨_, rfl⟩
  have k1 := polar_sub_le w w'
  have k2 := polarDistance_near w'
  rw [← hy, ← hy''] at k1
  rw [← hy', ← hy''] at k2
  have y0 : 0 ≤ y := by rw [hy]; exact Real.sqrt_nonneg _
  have y0'' : 0 ≤ y'' := by rw [hy'']; exact Real.sqrt_nonneg _
  have y0' : 0 ≤ y' := by
    rw [hy']; exact rnd_nonneg (Real.sqrt_nonneg _)
  have hyy : y * y = w.x * w.x + w.y * w.y := by
    rw [hy]; exact Real.mul_self_sqrt (add_nonneg (mul_self_nonneg _) (mul_self_nonneg _))
  simp only [Vec3.dot] at hw
  have hyz : w.z * w.z + y * y = 1 * 1 := by rw [hyy]; linarith
  have m0 := (w'.minus w).magnitude_nonneg
  have k3 : (w'.minus w).magnitude ^ 2 ≤ (20.2 * u) ^ 2 := by gcongr
  have k4 : |y'' - y| ≤ 20.2 * u := by
    refine abs_le_of_sq_le_sq ?_ (by positivity)
    nlinarith [sq_nonneg (w'.z - w.z)]
  have y1 : y ≤ 1 := by nlinarith [mul_self_nonneg w.z]
  unfold Near at k2
  rw [abs_of_nonneg y0''] at k2
  have k5 : |y' - y''| ≤ 3.2 * u := by
    refine k2.trans ?_
    have : y'' ≤ 1.01 := by have := (_root_.abs_le.mp k4).2; norm_num at hu' ⊢; linarith
    nlinarith
  have k6 : (w'.z - w.z) ^ 2 + (y' - y) ^ 2 ≤ (23.4 * u) ^ 2 := by
    have e : y' - y = (y'' - y) + (y' - y'') := by ring
    obtain ⟨s, hs⟩ : ∃ s, s = y'' - y := ⟨_, rfl⟩
    obtain ⟨t, ht⟩ : ∃ t, t = y' - y'' := ⟨_, rfl⟩
    rw [e]
    rw [← hs] at k1 k4 ⊢
    rw [← ht] at k5 ⊢
    have i1 : s * t ≤ (20.2 * u) * (3.2 * u) := by
      calc s * t ≤ |s * t| := le_abs_self _
        _ = |s| * |t| := abs_mul _ _
        _ ≤ _ := by gcongr
    have i2 : t ^ 2 ≤ (3.2 * u) ^ 2 := by rw [← sq_abs]; gcongr
    nlinarith
  obtain ⟨k, hk⟩ := atan2_shift (x := w.z) (y := y) (x' := w'.z) (y' := y') (d := 23.4 * u) (ρ := 1) one_pos hyz (by positivity) k6
    (by norm_num at hu' ⊢; linarith)
  have n0 : 0 ≤ pyAtan2 y w.z := Complex.arg_nonneg_iff.mpr y0
  have n1 : pyAtan2 y w.z ≤ π := Complex.arg_le_pi _
  have n0' : 0 ≤ pyAtan2 y' w'.z := Complex.arg_nonneg_iff.mpr y0'
  have n1' : pyAtan2 y' w'.z ≤ π := Complex.arg_le_pi _
  have hpi := Real.pi_gt_d2
  rw [div_one] at hk
  obtain ⟨l1, l2⟩ := _root_.abs_le.mp hk
  have hk0 : k = 0 := by
    by_contra hne
    rcases lt_or_gt_of_ne hne with hlt | hgt
    · have : (k : ℝ) ≤ -1 := by exact_mod_cast (by omega : k ≤ -1)
      norm_num at hpi hu' l1 l2
      nlinarith
    · have : (1 : ℝ) ≤ k := by exact_mod_cast (by omega : 1 ≤ k)
      norm_num at hpi hu' l1 l2
      nlinarith
  rw [hk0] at hk
  push_cast at hk
  rw [mul_zero, add_zero] at hk
  have h2 := hatan y' w'.z
  rw [hu2] at h2
  have h3 := abs_sub_le (lib.atan2 y' w'.z) (pyAtan2 y' w'.z) (pyAtan2 y w.z)
  have e1 : incFromW lib w' = lib.atan2 y' w'.z := by rw [incFromW, hy']
  have e2 : Openspace.incFromW w = pyAtan2 y w.z := by rw [Openspace.incFromW, hy]; rfl
  have h2' : |lib.atan2 y' w'.z - pyAtan2 y' w'.z| ≤ 4 * u := h2
  rw [e1, e2]
  linarith

/-- the node -/
theorem node_error {lib : Libm} (hatan : Atan2Accurate lib) {w w' : Vec3} {ρ : ℝ} (hρ : 1e-12 ≤ ρ) (hρ1 : ρ ≤ 1)
    (hw : w.x * w.x + w.y * w.y = ρ * ρ) (h : (w'.minus w).magnitude ≤ 20.2 * u) :
    AngleNear (raanFromW lib w') (Openspace.raanFromW w) (34 * u / ρ) := by
  have hu := u_pos
  have hu' := u_tiny
  have ρ0 : 0 < ρ := lt_of_lt_of_le (by norm_num) hρ
  have m0 := (w'.minus w).magnitude_nonneg
  have k3 : (w'.minus w).magnitude ^ 2 ≤ (20.2 * u) ^ 2 := by gcongr
  rw [Vec3.magnitude_sq] at k3
  simp only [Vec3.minus] at k3
  have k := atan2_wrapped hatan (x := -w.y) (y := w.x) (x' := -w'.y) (y' := w'.x) (d := 20.2 * u) ρ0 (by linarith) (by positivity)
    (by nlinarith [sq_nonneg (w'.z - w.z)]) (by norm_num at hu' hρ ⊢; linarith)
  refine (k.trans (wrapNeg_angle (pyAtan2 w.x (-w.y))).symm).mono ?_
  have : 13 * u ≤ 13 * u / ρ := by rw [le_div_iff₀ ρ0]; exact mul_le_of_le_one_right (by positivity) hρ1
  rw [show 34 * u / ρ = 1.02 * (20.2 * u / ρ) + 13 * u / ρ + 0.396 * u / ρ by ring, add_zero]
  have : 0 ≤ 0.396 * u / ρ := by positivity
  linarith

theorem sum_component (x y : ℝ) : |rnd (rnd x + rnd y) - (x + y)| ≤ 2.1 * u * (|x| + |y|) := by
  have hu := u_pos
  have hu' := u_small
  have h1 := rnd_u x
  have h2 := rnd_u y
  have h3 := rnd_u (rnd x + rnd y)
  have t1 : |rnd x + rnd y - (x + y)| ≤ u * |x| + u * |y| := by
    rw [show rnd x + rnd y - (x + y) = (rnd x - x) + (rnd y - y) by ring]
    exact (abs_add_le _ _).trans (add_le_add h1 h2)
  have t2 : |rnd x + rnd y| ≤ (1 + u) * (|x| + |y|) := by
    have i1 := abs_sub_abs_le_abs_sub (rnd x + rnd y) (x + y)
    have i2 := abs_add_le x y
    linarith
  have t3 := abs_sub_le (rnd (rnd x + rnd y)) (rnd x + rnd y) (x + y)
  have t4 : u * |rnd x + rnd y| ≤ u * ((1 + u) * (|x| + |y|)) := by gcongr
  have t5 : u * ((1 + u) * (|x| + |y|)) ≤ u * (1.1 * (|x| + |y|)) := by
    have := abs_nonneg x; have := abs_nonneg y
    gcongr; linarith
  linarith

theorem planar_le {p q s t a b : ℝ} (ha : 0 ≤ a) (hp : p * p + q * q ≤ a ^ 2) (hb : 0 ≤ b) (hs : s * s + t * t ≤ b ^ 2) :
    |p| * |t| + |q| * |s| ≤ a * b := by
  refine (abs_le_of_sq_le_sq' ?_ (by positivity)).2
  have i := mul_le_mul hp hs (add_nonneg (mul_self_nonneg _) (mul_self_nonneg _)) (sq_nonneg a)
  rw [mul_pow]
  refine le_trans ?_ i
  rw [← sq, ← sq, ← sq, ← sq, ← sq_abs p, ← sq_abs q, ← sq_abs s, ← sq_abs t]
  nlinarith [sq_nonneg (|p| * |s| - |q| * |t|)]

/-- the argument of latitude -/
theorem latitude_error {lib : Libm} (hatan : Atan2Accurate lib) {p w w' : Vec3} {ρ : ℝ} (hρ : 1e-12 ≤ ρ) (hρ1 : ρ ≤ 1)
    (hp : p ≠ ⟨0, 0, 0⟩) (hpw : p.dot w = 0) (hw1 : w.dot w = 1)
    (hw : w.x * w.x + w.y * w.y = ρ * ρ) (h : (w'.minus w).magnitude ≤ 20.2 * u) :
    AngleNear (uFromRW lib p w') (Openspace.uFromRW p w) (37 * u / ρ) := by
  have hu := u_pos
  have hu' := u_tiny
  have ρ0 : 0 < ρ := lt_of_lt_of_le (by norm_num) hρ
  have r0 := Vec3.magnitude_pos.mpr hp
  obtain ⟨r, hr⟩ : ∃ r, r = p.magnitude := ⟨_, rfl⟩
  have hr2 := Vec3.magnitude_sq p
  rw [← hr] at r0 hr2
  have m0 := (w'.minus w).magnitude_nonneg
  have k3 : (w'.minus w).magnitude ^ 2 ≤ (20.2 * u) ^ 2 := by gcongr
  rw [Vec3.magnitude_sq] at k3
  simp only [Vec3.minus] at k3
  simp only [Vec3.dot] at hpw hw1
  -- the exact point
  have e : (-p.x * w.y + p.y * w.x) * (-p.x * w.y + p.y * w.x) + p.z * p.z = (r * ρ) * (r * ρ) := by
    have e1 : p.x * w.x + p.y * w.y = -(p.z * w.z) := by linarith
    have e2 : w.z * w.z = 1 - ρ * ρ := by linarith
    have e3 : (-p.x * w.y + p.y * w.x) * (-p.x * w.y + p.y * w.x)
        = (p.x * p.x + p.y * p.y) * (w.x * w.x + w.y * w.y) - (p.x * w.x + p.y * w.y) * (p.x * w.x + p.y * w.y) := by ring
    have e4 : (r * ρ) * (r * ρ) = r ^ 2 * (ρ * ρ) := by ring
    rw [e4, hr2, e3, e1, hw]
    linear_combination (-p.z * p.z) * e2
  -- the computed one
  have hpxy : p.x * p.x + p.y * p.y ≤ r ^ 2 := by rw [hr2]; nlinarith [mul_self_nonneg p.z]
  have d1 : |-p.x * (w'.y - w.y) + p.y * (w'.x - w.x)| ≤ r * (20.2 * u) := by
    refine abs_le_of_sq_le_sq ?_ (by positivity)
    have i := mul_le_mul hpxy k3 (add_nonneg (add_nonneg (mul_self_nonneg _) (mul_self_nonneg _)) (mul_self_nonneg _))
      (sq_nonneg r)
    rw [mul_pow]
    refine le_trans ?_ i
    have c := sq_nonneg (p.x * (w'.x - w.x) + p.y * (w'.y - w.y))
    have c2 : 0 ≤ (p.x * p.x + p.y * p.y) * ((w'.z - w.z) * (w'.z - w.z)) :=
      mul_nonneg (add_nonneg (mul_self_nonneg _) (mul_self_nonneg _)) (mul_self_nonneg _)
    nlinarith
  have d2 := sum_component (-p.x * w'.y) (p.y * w'.x)
  have d3 : |-p.x * w'.y| + |p.y * w'.x| ≤ 1.5 * r := by
    rw [abs_mul, abs_mul, abs_neg]
    refine (planar_le r0.le hpxy (b := 1.01) (by norm_num) ?_).trans (by linarith)
    have c1 := magnitude_sub_le w' w
    rw [Vec3.magnitude_unit (u := w) (by simpa only [Vec3.dot] using hw1)] at c1
    have c2 : w'.magnitude ≤ 1.01 := by
      have := (_root_.abs_le.mp (c1.trans h)).2
      norm_num at hu' ⊢; linarith
    have c3 : w'.magnitude ^ 2 ≤ 1.01 ^ 2 := by
      have := w'.magnitude_nonneg
      gcongr
    rw [Vec3.magnitude_sq] at c3
    nlinarith [mul_self_nonneg w'.z]
  have d4 : |rnd (rnd (-p.x * w'.y) + rnd (p.y * w'.x)) - (-p.x * w.y + p.y * w.x)| ≤ r * (23.4 * u) := by
    have t := abs_sub_le (rnd (rnd (-p.x * w'.y) + rnd (p.y * w'.x))) (-p.x * w'.y + p.y * w'.x) (-p.x * w.y + p.y * w.x)
    have e' : -p.x * w'.y + p.y * w'.x - (-p.x * w.y + p.y * w.x) = -p.x * (w'.y - w.y) + p.y * (w'.x - w.x) := by ring
    rw [e'] at t
    have : 2.1 * u * (|-p.x * w'.y| + |p.y * w'.x|) ≤ 2.1 * u * (1.5 * r) := by gcongr
    have := mul_pos hu r0
    linarith
  have k := atan2_wrapped hatan (x := -p.x * w.y + p.y * w.x) (y := p.z) (x' := rnd (rnd (-p.x * w'.y) + rnd (p.y * w'.x)))
    (y' := p.z) (d := r * (23.4 * u)) (ρ := r * ρ) (by positivity) e (by positivity)
    (by
      rw [sub_self, zero_pow (by norm_num), add_zero, ← sq_abs]
      gcongr)
    (by
      rw [mul_div_assoc]
      gcongr
      norm_num at hu' hρ ⊢; linarith)
  refine (k.trans (wrapNeg_angle (pyAtan2 p.z (-p.x * w.y + p.y * w.x))).symm).mono ?_
  have e5 : r * (23.4 * u) / (r * ρ) = 23.4 * u / ρ := by field_simp
  have : 13 * u ≤ 13 * u / ρ := by rw [le_div_iff₀ ρ0]; exact mul_le_of_le_one_right (by positivity) hρ1
  rw [e5, show 37 * u / ρ = 1.02 * (23.4 * u / ρ) + 13 * u / ρ + 0.132 * u / ρ by ring, add_zero]
  have : 0 ≤ 0.132 * u / ρ := by positivity
  linarith

end F64

end Openspace
