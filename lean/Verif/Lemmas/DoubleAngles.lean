import Verif.Lemmas.ScaledError
import Verif.Lemmas.GravityBound
import Verif.Model.DoubleGravity
import Verif.Spec.Tangent
import Verif.Props.DoubleSpherical
import Verif.Props.DoublePositions

/-! # Spherical coordinates computed from a slightly wrong position -/

namespace Openspace.F64

open Real

theorem ratio_diff {a A b B δ : ℝ} (hA : 0 < A) (hB : 0 < B) (ha : |a| ≤ A) (h1 : |a - b| ≤ δ) (h2 : |A - B| ≤ δ) :
    |a / A - b / B| ≤ 2 * (δ / B) := by
  have e : a / A - b / B = (a - b) / B + a / A * ((B - A) / B) := by field_simp; ring
  rw [e]
  have h3 : |(a - b) / B| ≤ δ / B := by rw [abs_div, abs_of_pos hB]; gcongr
  have h4 : |a / A * ((B - A) / B)| ≤ 1 * (δ / B) := by
    rw [abs_mul, abs_div, abs_div, abs_of_pos hA, abs_of_pos hB, abs_sub_comm B A]
    have : |a| / A ≤ 1 := by rw [div_le_one hA]; exact ha
    gcongr
  have := abs_add_le ((a - b) / B) (a / A * ((B - A) / B))
  linarith

theorem abs_sin_mul_le (m : ℕ) (x : ℝ) : |sin (m * x)| ≤ m * |sin x| := by
  induction m with
  | zero => simp
  | succ m ih =>
    have e : ((m + 1 : ℕ) : ℝ) * x = m * x + x := by push_cast; ring
    rw [e, sin_add]
    refine (abs_add_le _ _).trans ?_
    rw [abs_mul, abs_mul]
    have h1 : |sin (m * x)| * |cos x| ≤ |sin (m * x)| := mul_le_of_le_one_right (abs_nonneg _) (abs_cos_le_one x)
    have h2 : |cos (m * x)| * |sin x| ≤ |sin x| := mul_le_of_le_one_left (abs_nonneg _) (abs_cos_le_one _)
    push_cast
    linarith

/-- angles with nearly the same sine and cosine have multiples with nearly the same sine and cosine -/
theorem multiple_angle {α β t : ℝ} (m : ℕ) (hc : |cos α - cos β| ≤ t) (hs : |sin α - sin β| ≤ t) :
    |cos (m * α) - cos (m * β)| ≤ m * (1.42 * t) ∧ |sin (m * α) - sin (m * β)| ≤ m * (1.42 * t) := by
  have t0 : 0 ≤ t := (abs_nonneg _).trans hc
  have hh : 2 * |sin ((α - β) / 2)| ≤ 1.42 * t := by
    refine abs_le_of_sq_le_sq' (a := 2 * |sin ((α - β) / 2)|) ?_ (by positivity) |>.2
    have h1 : (cos α - cos β) ^ 2 + (sin α - sin β) ^ 2 = 4 * sin ((α - β) / 2) ^ 2 := by
      rw [cos_sub_cos, sin_sub_sin]
      have := sin_sq_add_cos_sq ((α + β) / 2)
      linear_combination (4 * sin ((α - β) / 2) ^ 2) * this
    have h2 : (cos α - cos β) ^ 2 ≤ t ^ 2 := by rw [← sq_abs]; gcongr
    have h3 : (sin α - sin β) ^ 2 ≤ t ^ 2 := by rw [← sq_abs]; gcongr
    rw [mul_pow, sq_abs, mul_pow]
    norm_num
    nlinarith [sq_nonneg t]
  have hm : |sin (m * ((α - β) / 2))| ≤ m * |sin ((α - β) / 2)| := abs_sin_mul_le m _
  have e1 : ((m : ℝ) * α + m * β) / 2 = m * ((α + β) / 2) := by ring
  have e2 : ((m : ℝ) * α - m * β) / 2 = m * ((α - β) / 2) := by ring
  have h4 : 2 * |sin (m * ((α - β) / 2))| ≤ m * (1.42 * t) := by
    calc _ ≤ 2 * (m * |sin ((α - β) / 2)|) := by gcongr
      _ = m * (2 * |sin ((α - β) / 2)|) := by ring
      _ ≤ _ := by gcongr
  constructor
  · rw [cos_sub_cos, e1, e2, abs_mul, abs_mul, abs_neg, abs_two, mul_right_comm]
    exact (mul_le_of_le_one_right (by positivity) (abs_sin_le_one _)).trans h4
  · rw [sin_sub_sin, e1, e2, abs_mul, abs_mul, abs_two]
    exact (mul_le_of_le_one_right (by positivity) (abs_cos_le_one _)).trans h4

/-- distance from the axis -/
noncomputable abbrev axis (q : Vec3) : ℝ := √(q.x * q.x + q.y * q.y)

theorem axis_nonneg (q : Vec3) : 0 ≤ axis q := Real.sqrt_nonneg _

theorem axis_sq (q : Vec3) : axis q ^ 2 = q.x * q.x + q.y * q.y :=
  Real.sq_sqrt (add_nonneg (mul_self_nonneg _) (mul_self_nonneg _))

theorem axis_le (q : Vec3) : axis q ≤ q.magnitude := by
  refine Real.sqrt_le_iff.mpr ⟨q.magnitude_nonneg, ?_⟩
  have h := Vec3.magnitude_sq_dot q
  simp only [Vec3.dot] at h
  rw [h]; nlinarith [mul_self_nonneg q.z]

theorem le_axis (q : Vec3) : |q.x| ≤ axis q ∧ |q.y| ≤ axis q := by
  constructor <;> refine Real.abs_le_sqrt ?_ <;> nlinarith [mul_self_nonneg q.x, mul_self_nonneg q.y]

theorem axis_diff (q' q : Vec3) : |axis q' - axis q| ≤ (q'.minus q).magnitude := by
  have h := magnitude_sub_le ⟨q'.x, q'.y, 0⟩ ⟨q.x, q.y, 0⟩
  have e : ∀ v : Vec3, Vec3.magnitude ⟨v.x, v.y, 0⟩ = axis v := by
    intro v; simp [Vec3.magnitude, axis, sqrtNN]
  rw [e, e] at h
  refine h.trans ?_
  have := axis_le (q'.minus q)
  have e2 : (Vec3.minus ⟨q'.x, q'.y, 0⟩ ⟨q.x, q.y, 0⟩) = ⟨(q'.minus q).x, (q'.minus q).y, 0⟩ := by
    simp [Vec3.minus]
  rw [e2, e]
  exact this

/-- the computed right ascension is not large -/
theorem ascension_abs {lib : Libm} (hatan : Spec.Atan2Accurate lib) (q : Vec3) :
    |(fromCartesian lib q).right_ascension| ≤ 20 := by
  have h1 := hatan q.y q.x
  have h2 := Complex.abs_arg_le_pi ⟨q.x, q.y⟩
  have hp := pi_lt_d2
  have h3 : |lib.atan2 q.y q.x| ≤ 3.2 := by
    have := abs_sub_abs_le_abs_sub (lib.atan2 q.y q.x) (Complex.arg ⟨q.x, q.y⟩)
    norm_num at *; linarith
  simp only [fromCartesian, wrapNeg]
  have hu := u_tiny
  have hup := u_pos
  have hub : u ≤ 1e-3 := by norm_num at hu ⊢; linarith
  have key : ∀ x : ℝ, |rnd x| ≤ 1.001 * |x| := fun x => by
    have a1 := rnd_u x
    have a2 := abs_sub_abs_le_abs_sub (rnd x) x
    have a3 : u * |x| ≤ 1e-3 * |x| := by gcongr
    norm_num at *; linarith
  split
  · have k1 := key (lib.atan2 q.y q.x + rnd (2 * pi))
    have k2 := key (2 * pi)
    have k3 := key Real.pi
    have k4 := abs_add_le (lib.atan2 q.y q.x) (rnd (2 * pi))
    rw [abs_mul, abs_two] at k2
    rw [abs_of_pos (a := Real.pi) pi_pos] at k3
    change |pi| ≤ _ at k3
    norm_num at *; linarith
  · norm_num at *; linarith

section

variable {lib : Libm} {tan : ℝ → ℝ} (hlib : Spec.Accurate lib) (hatan : Spec.Atan2Accurate lib)
  (htan : Spec.TanAccurate tan)
  {q' q : Vec3} {η θ : ℝ} (hη : ErrUnit η) (hθ : ErrUnit θ) (hq : (q'.minus q).magnitude ≤ η * q.magnitude)
  (hρ : θ * axis q = η * q.magnitude) (hm : 0 < q.magnitude)

include hη hm hρ hθ

theorem axis_pos : 0 < axis q := by
  have h1 := axis_nonneg q
  rcases h1.eq_or_lt with h | h
  · rw [← h, mul_zero] at hρ
    have := mul_pos hη.pos hm
    linarith
  · exact h

theorem theta_cos : θ * cos (SphericalPosition.fromCartesian q).declination = η := by
  have h1 := mag_mul_cos_dec q
  have : θ * (q.magnitude * cos (SphericalPosition.fromCartesian q).declination) = η * q.magnitude := by rw [h1]; exact hρ
  have h2 : (θ * cos (SphericalPosition.fromCartesian q).declination) * q.magnitude = η * q.magnitude := by linarith
  exact mul_right_cancel₀ hm.ne' h2

include hq

theorem other_pos : 0 < q'.magnitude ∧ 0 < axis q' := by
  have h0 := axis_pos hη hθ hρ hm
  have h1 := (abs_le.mp (axis_diff q' q)).1
  have h2 : θ * axis q ≤ 1e-5 * axis q := by have := hθ.hi; gcongr
  have h3 : 0 < axis q' := by norm_num at h2; linarith
  exact ⟨h3.trans_le (axis_le q'), h3⟩

theorem exact_declination :
    |sin (SphericalPosition.fromCartesian q').declination - sin (SphericalPosition.fromCartesian q).declination| ≤ 2 * η ∧
    |cos (SphericalPosition.fromCartesian q').declination - cos (SphericalPosition.fromCartesian q).declination| ≤ 2 * η := by
  obtain ⟨hm', -⟩ := other_pos hη hθ hq hρ hm
  have s1 := mag_mul_sin_dec q
  have s2 := mag_mul_sin_dec q'
  have c1 := mag_mul_cos_dec q
  have c2 := mag_mul_cos_dec q'
  have hd := magnitude_sub_le q' q
  rw [mul_comm, ← eq_div_iff hm.ne'] at s1 c1
  rw [mul_comm, ← eq_div_iff hm'.ne'] at s2 c2
  have hη2 : η * q.magnitude / q.magnitude = η := by field_simp
  rw [s1, s2, c1, c2, ← hη2]
  constructor
  · exact ratio_diff hm' hm (component_le q').2.2 ((component_le (q'.minus q)).2.2.trans hq) (hd.trans hq)
  · exact ratio_diff hm' hm (by rw [abs_of_nonneg (axis_nonneg q')]; exact axis_le q') ((axis_diff q' q).trans hq) (hd.trans hq)

theorem exact_ascension :
    |cos (SphericalPosition.fromCartesian q').right_ascension - cos (SphericalPosition.fromCartesian q).right_ascension| ≤
      2 * θ ∧
    |sin (SphericalPosition.fromCartesian q').right_ascension - sin (SphericalPosition.fromCartesian q).right_ascension| ≤
      2 * θ := by
  obtain ⟨-, ha'⟩ := other_pos hη hθ hq hρ hm
  have ha := axis_pos hη hθ hρ hm
  have c1 := rho_mul_cos_ra q
  have c2 := rho_mul_cos_ra q'
  have s1 := rho_mul_sin_ra q
  have s2 := rho_mul_sin_ra q'
  rw [mul_comm, ← eq_div_iff ha.ne'] at s1 c1
  rw [mul_comm, ← eq_div_iff ha'.ne'] at s2 c2
  have hθ2 : θ * axis q / axis q = θ := by field_simp
  rw [s1, s2, c1, c2, ← hθ2, hρ]
  constructor
  · exact ratio_diff ha' ha (le_axis q').1 ((component_le (q'.minus q)).1.trans hq) ((axis_diff q' q).trans hq)
  · exact ratio_diff ha' ha (le_axis q').2 ((component_le (q'.minus q)).2.1.trans hq) ((axis_diff q' q).trans hq)

include hatan

theorem true_declination :
    |sin (fromCartesian lib q').declination - sin (SphericalPosition.fromCartesian q).declination| ≤ 2.01 * η ∧
    |cos (fromCartesian lib q').declination - cos (SphericalPosition.fromCartesian q).declination| ≤ 2.01 * η := by
  obtain ⟨h1, h2⟩ := exact_declination hη hθ hq hρ hm
  obtain ⟨-, h3, -⟩ := C112_angles hatan q'
  have h4 := abs_sin_sub (fromCartesian lib q').declination (SphericalPosition.fromCartesian q').declination
  have h5 := abs_cos_sub (fromCartesian lib q').declination (SphericalPosition.fromCartesian q').declination
  have hl := hη.lo
  have hu : u = 1 / 2 ^ 53 := by norm_num [u]
  rw [hu] at hl
  constructor
  · have := abs_sub_le (sin (fromCartesian lib q').declination) (sin (SphericalPosition.fromCartesian q').declination)
      (sin (SphericalPosition.fromCartesian q).declination)
    norm_num at *; linarith
  · have := abs_sub_le (cos (fromCartesian lib q').declination) (cos (SphericalPosition.fromCartesian q').declination)
      (cos (SphericalPosition.fromCartesian q).declination)
    norm_num at *; linarith

include hlib

theorem declination_ts :
    Ts η 1 (lib.sin (fromCartesian lib q').declination) (sin (SphericalPosition.fromCartesian q).declination) 2.02 1 ∧
    Ts η 1 (lib.cos (fromCartesian lib q').declination) (cos (SphericalPosition.fromCartesian q).declination) 2.02 1 := by
  obtain ⟨h1, h2⟩ := true_declination hatan hη hθ hq hρ hm
  have hl := hη.lo
  have hs := hlib.sin (fromCartesian lib q').declination
  have hc := hlib.cos (fromCartesian lib q').declination
  rw [show (1 : ℝ) / 2 ^ 52 = 2 * u by norm_num [u]] at hs hc
  constructor
  · refine ⟨?_, by rw [mul_one]; exact abs_sin_le_one _, by norm_num, by norm_num, by norm_num⟩
    have := abs_sub_le (lib.sin (fromCartesian lib q').declination) (sin (fromCartesian lib q').declination)
      (sin (SphericalPosition.fromCartesian q).declination)
    have := hη.pos
    norm_num only at *; linarith
  · refine ⟨?_, by rw [mul_one]; exact abs_cos_le_one _, by norm_num, by norm_num, by norm_num⟩
    have := abs_sub_le (lib.cos (fromCartesian lib q').declination) (cos (fromCartesian lib q').declination)
      (cos (SphericalPosition.fromCartesian q).declination)
    have := hη.pos
    norm_num only at *; linarith

theorem ascension_ts (m : ℕ) (hm4 : m ≤ 4) :
    Ts θ 1 (lib.cos (rnd (ofNat m * (fromCartesian lib q').right_ascension)))
      (cos (m * (SphericalPosition.fromCartesian q).right_ascension)) (2.85 * m + 0.06) 1 ∧
    Ts θ 1 (lib.sin (rnd (ofNat m * (fromCartesian lib q').right_ascension)))
      (sin (m * (SphericalPosition.fromCartesian q).right_ascension)) (2.85 * m + 0.06) 1 := by
  obtain ⟨h1, h2⟩ := exact_ascension hη hθ hq hρ hm
  obtain ⟨-, -, k, h3⟩ := C112_angles hatan q'
  obtain ⟨m1, m2⟩ := multiple_angle m h1 h2
  obtain ⟨a', ha'⟩ : ∃ a, a = (fromCartesian lib q').right_ascension := ⟨_, rfl⟩
  obtain ⟨b, hb⟩ : ∃ a, a = (SphericalPosition.fromCartesian q').right_ascension := ⟨_, rfl⟩
  obtain ⟨a, ha⟩ : ∃ a, a = (SphericalPosition.fromCartesian q).right_ascension := ⟨_, rfl⟩
  rw [← ha', ← hb] at h3
  rw [← hb, ← ha] at m1 m2
  rw [← ha', ← ha]
  have h4 : |a'| ≤ 20 := ha' ▸ ascension_abs hatan q'
  have hmr : (m : ℝ) ≤ 4 := by exact_mod_cast hm4
  have hm0 : (0 : ℝ) ≤ m := m.cast_nonneg
  have h5 : |rnd (ofNat m * a') - (m * b + ((m * k : ℤ) : ℝ) * (2 * π))| ≤ 90 * u + 1e-14 := by
    have g1 := rnd_u ((m : ℝ) * a')
    have g2 : |(m : ℝ) * a'| ≤ 4 * 20 := by rw [abs_mul, abs_of_nonneg hm0]; gcongr
    have g3 : |(m : ℝ) * a' - (m * b + ((m * k : ℤ) : ℝ) * (2 * π))| ≤ 4 * (2 / 10 ^ 15) := by
      rw [show (m : ℝ) * a' - (m * b + ((m * k : ℤ) : ℝ) * (2 * π)) = m * (a' - (b + 2 * π * k)) by push_cast; ring, abs_mul,
        abs_of_nonneg hm0]
      gcongr
    have g4 : u * |(m : ℝ) * a'| ≤ u * (4 * 20) := by have := u_pos; gcongr
    have g5 := abs_sub_le (rnd ((m : ℝ) * a')) ((m : ℝ) * a') (m * b + ((m * k : ℤ) : ℝ) * (2 * π))
    have := u_pos
    simp only [ofNat]
    norm_num only at *; linarith
  have hlo := hθ.lo
  have hu : u = 1 / 2 ^ 53 := by norm_num [u]
  have hθp := hθ.pos
  have h6 : 92 * u + 1e-14 ≤ 0.05 * θ := by rw [hu] at hlo ⊢; norm_num at hlo ⊢; linarith
  have h7 : (m : ℝ) * (1.42 * (2 * θ)) ≤ 2.85 * m * θ := by
    have : 0 ≤ (m : ℝ) * θ := by positivity
    norm_num at *; linarith
  have e52 : (1 : ℝ) / 2 ^ 52 = 2 * u := by norm_num [u]
  have hc := hlib.cos (rnd (ofNat m * a'))
  have hs := hlib.sin (rnd (ofNat m * a'))
  rw [e52] at hc hs
  obtain ⟨R, hR⟩ : ∃ R, R = rnd (ofNat m * a') := ⟨_, rfl⟩
  rw [← hR] at h5 hc hs ⊢
  have c1 := abs_cos_sub R (m * b + ((m * k : ℤ) : ℝ) * (2 * π))
  have s1 := abs_sin_sub R (m * b + ((m * k : ℤ) : ℝ) * (2 * π))
  rw [cos_add_int_mul_two_pi] at c1
  rw [sin_add_int_mul_two_pi] at s1
  constructor
  · refine ⟨?_, by rw [mul_one]; exact abs_cos_le_one _, by positivity, by norm_num, by norm_num⟩
    have t1 := abs_sub_le (lib.cos R) (cos R) (cos (m * a))
    have t2 := abs_sub_le (cos R) (cos (m * b)) (cos (m * a))
    norm_num only at *; linarith
  · refine ⟨?_, by rw [mul_one]; exact abs_sin_le_one _, by positivity, by norm_num, by norm_num⟩
    have t1 := abs_sub_le (lib.sin R) (sin R) (sin (m * a))
    have t2 := abs_sub_le (sin R) (sin (m * b)) (sin (m * a))
    norm_num only at *; linarith

include htan
omit hlib

theorem tangent_ts :
    Ts θ (1 / cos (SphericalPosition.fromCartesian q).declination) (tan (fromCartesian lib q').declination)
      (Real.tan (SphericalPosition.fromCartesian q).declination) 4.1 1 := by
  obtain ⟨h1, h2⟩ := true_declination hatan hη hθ hq hρ hm
  have htc := theta_cos hη hθ hρ hm
  have ht := htan (fromCartesian lib q').declination
  obtain ⟨d', hd'⟩ : ∃ a, a = (fromCartesian lib q').declination := ⟨_, rfl⟩
  obtain ⟨d, hd⟩ : ∃ a, a = (SphericalPosition.fromCartesian q).declination := ⟨_, rfl⟩
  rw [← hd', ← hd] at h1 h2
  rw [← hd'] at ht
  rw [← hd] at htc
  rw [← hd', ← hd]
  have hθp := hθ.pos
  have hηp := hη.pos
  have hc : 0 < cos d := by
    have : 0 < θ * cos d := htc ▸ hηp
    exact pos_of_mul_pos_right this hθp.le
  have hθ1 := hθ.hi
  have hc' : 0.9999 * cos d ≤ cos d' := by
    have h3 := (abs_le.mp h2).1
    have h4 : θ * cos d ≤ 1e-5 * cos d := by gcongr
    rw [htc] at h4
    norm_num at *; linarith
  have hc'0 : 0 < cos d' := lt_of_lt_of_le (by positivity) hc'
  have s1 := abs_sin_le_one d
  have s1' := abs_sin_le_one d'
  have c1 := cos_le_one d
  have k1 : |Real.tan d' - Real.tan d| ≤ 4.0208 * η / (cos d * cos d) := by
    have e : Real.tan d' - Real.tan d = ((sin d' - sin d) * cos d - sin d * (cos d' - cos d)) / (cos d' * cos d) := by
      rw [tan_eq_sin_div_cos, tan_eq_sin_div_cos]; field_simp; ring
    rw [e, abs_div, abs_of_pos (by positivity : 0 < cos d' * cos d), div_le_div_iff₀ (by positivity) (by positivity)]
    have h5 : |(sin d' - sin d) * cos d - sin d * (cos d' - cos d)| ≤ 4.02 * η := by
      refine (abs_sub _ _).trans ?_
      rw [abs_mul, abs_mul, abs_of_pos hc]
      have g1 : |sin d' - sin d| * cos d ≤ 2.01 * η * 1 := mul_le_mul h1 c1 hc.le (by positivity)
      have g2 : |sin d| * |cos d' - cos d| ≤ 1 * (2.01 * η) := mul_le_mul s1 h2 (abs_nonneg _) zero_le_one
      norm_num at *; linarith
    calc _ ≤ 4.02 * η * (cos d * cos d) := by gcongr
      _ ≤ 4.0208 * η * (0.9999 * cos d * cos d) := by
        have : 0 ≤ η * (cos d * cos d) := by positivity
        norm_num; nlinarith
      _ ≤ _ := by gcongr
  have k2 : |Real.tan d'| ≤ 1.001 / cos d := by
    rw [tan_eq_sin_div_cos, abs_div, abs_of_pos hc'0, div_le_div_iff₀ hc'0 hc]
    have : |sin d'| * cos d ≤ 1 * cos d := by gcongr
    norm_num at *; linarith
  have k3 := hη.lo
  have k4 : 4.0208 * η / (cos d * cos d) = 4.0208 * θ * (1 / cos d) := by rw [← htc]; field_simp
  have k5 := abs_sub_le (tan d') (Real.tan d') (Real.tan d)
  have k6 : 1 / 2 ^ 52 * |Real.tan d'| ≤ 0.001 * θ * (1 / cos d) := by
    have e : (1 : ℝ) / 2 ^ 52 = 2 * u := by norm_num [u]
    have hlo := hθ.lo
    have hup := u_pos
    rw [e]
    calc 2 * u * |Real.tan d'| ≤ 2 * (1.2e-4 * θ) * (1.001 / cos d) := by gcongr
      _ = (2 * 1.2e-4 * 1.001) * θ * (1 / cos d) := by ring
      _ ≤ _ := by gcongr; norm_num
  refine ⟨?_, ?_, by norm_num, by norm_num, by positivity⟩
  · rw [k4] at k1
    have : 0 ≤ θ * (1 / cos d) := by positivity
    calc _ ≤ 0.001 * θ * (1 / cos d) + 4.0208 * θ * (1 / cos d) := by linarith
      _ = 4.0218 * (θ * (1 / cos d)) := by ring
      _ ≤ 4.1 * (θ * (1 / cos d)) := by gcongr; norm_num
      _ = _ := by ring
  · rw [tan_eq_sin_div_cos, abs_div, abs_of_pos hc, one_mul]
    gcongr

end

end Openspace.F64
