import Verif.Props.DoubleVectors
import Verif.Props.HillPosition
import Verif.Props.Positions

/-!
# Property C112: spherical coordinates in double precision
-/

namespace Openspace

open Real

namespace F64

/-! ## the declination -/

theorem abs_arctan_le (w : ℝ) : |arctan w| ≤ |w| := by
  have key : ∀ x : ℝ, 0 ≤ x → arctan x ≤ x := by
    intro x hx
    have h0 : 0 ≤ arctan x := arctan_nonneg.mpr hx
    calc arctan x ≤ tan (arctan x) := le_tan h0 (arctan_lt_pi_div_two x)
      _ = x := tan_arctan x
  rcases le_total 0 w with h | h
  · rw [abs_of_nonneg h, abs_of_nonneg (arctan_nonneg.mpr h)]; exact key w h
  · have := key (-w) (by linarith)
    rw [arctan_neg] at this
    rw [abs_of_nonpos h, abs_of_nonpos (by have := arctan_nonneg.mpr (show 0 ≤ -w by linarith); rw [arctan_neg] at this; linarith)]
    exact this

/-- the direction of a point whose first coordinate is slightly off -/
theorem atan2_perturb {z r r' k : ℝ} (hr : 0 ≤ r) (h : |r' - r| ≤ k * r) (hk0 : 0 ≤ k) (hk : k ≤ 1 / 100) :
    |pyAtan2 z r' - pyAtan2 z r| ≤ 0.6 * k := by
  rcases hr.eq_or_lt with h0 | h0
  · rw [← h0] at h ⊢
    have : r' = 0 := by simpa using h
    rw [this, sub_self, abs_zero]; positivity
  · obtain ⟨h1, h2⟩ := abs_le.mp h
    have hr' : 99 / 100 * r ≤ r' := by nlinarith
    have hp' : 0 < r' := by linarith
    rw [pyAtan2_of_pos h0, pyAtan2_of_pos hp']
    have e : arctan (z / r') - arctan (z / r) = arctan ((z / r' - z / r) / (1 + z / r' * (z / r))) := by
      rw [sub_eq_add_neg, ← arctan_neg, arctan_add (by
        have : 0 ≤ z / r' * (z / r) := by
          rw [div_mul_div_comm]; exact div_nonneg (mul_self_nonneg z) (by positivity)
        linarith)]
      congr 1; ring
    rw [e]
    refine (abs_arctan_le _).trans ?_
    have e2 : (z / r' - z / r) / (1 + z / r' * (z / r)) = z * (r - r') / (r * r' + z * z) := by
      have : 0 < r * r' + z * z := by nlinarith [mul_pos h0 hp', mul_self_nonneg z]
      field_simp
    have hden : 0 < r * r' + z * z := by nlinarith [mul_pos h0 hp', mul_self_nonneg z]
    rw [e2, abs_div, abs_of_pos hden, div_le_iff₀ hden, abs_mul]
    rw [abs_sub_comm] at h
    have i1 : |z| * |r - r'| ≤ |z| * (k * r) := by gcongr
    have i2 : |z| * r ≤ 0.6 * (99 / 100 * r * r + |z| * |z|) := by nlinarith [sq_nonneg (|z| - r), abs_nonneg z]
    have i3 : k * (|z| * r) ≤ k * (0.6 * (99 / 100 * r * r + |z| * |z|)) := by gcongr
    have i4 : 99 / 100 * r * r ≤ r * r' := by nlinarith
    have i5 : k * (99 / 100 * r * r) ≤ k * (r * r') := by gcongr
    rw [abs_mul_abs_self] at i3
    linarith

theorem polarDistance_near (v : Vec3) :
    Near (rnd (sqrtNN (rnd (rnd (v.x * v.x) + rnd (v.y * v.y))))) (√(v.x * v.x + v.y * v.y)) 3.1 := by
  have p1 := mul_self_nonneg v.x
  have p2 := mul_self_nonneg v.y
  have h := ((near_rnd (v.x * v.x)).add (near_rnd (v.y * v.y)) p1 p2).round (by norm_num) (by norm_num)
  have h0 : 0 ≤ rnd (rnd (v.x * v.x) + rnd (v.y * v.y)) := rnd_nonneg (add_nonneg (rnd_nonneg p1) (rnd_nonneg p2))
  exact ((near_sqrt h (add_nonneg p1 p2) h0).round (by norm_num) (by norm_num)).mono (by norm_num)

theorem declination_near {lib : Libm} (hlib : Spec.Atan2Accurate lib) (v : Vec3) :
    |(fromCartesian lib v).declination - (SphericalPosition.fromCartesian v).declination| ≤ 6 * u := by
  have h1 := hlib v.z (rnd (sqrtNN (rnd (rnd (v.x * v.x) + rnd (v.y * v.y)))))
  have h2 := polarDistance_near v
  unfold Near at h2
  have hr := Real.sqrt_nonneg (v.x * v.x + v.y * v.y)
  rw [abs_of_nonneg hr] at h2
  have hu := u_tiny
  have h3 := atan2_perturb (z := v.z) hr h2 (by linarith [u_pos]) (by linarith)
  simp only [fromCartesian, SphericalPosition.fromCartesian, sqrtNN] at h1 h3 ⊢
  have hu2 : (1 : ℝ) / 2 ^ 51 = 4 * u := by unfold u; norm_num
  rw [hu2] at h1
  have h4 := abs_sub_le (lib.atan2 v.z (rnd √(rnd (rnd (v.x * v.x) + rnd (v.y * v.y)))))
    (pyAtan2 v.z (rnd √(rnd (rnd (v.x * v.x) + rnd (v.y * v.y))))) (pyAtan2 v.z √(v.x * v.x + v.y * v.y))
  have h5 : |lib.atan2 v.z (rnd √(rnd (rnd (v.x * v.x) + rnd (v.y * v.y)))) -
    pyAtan2 v.z (rnd √(rnd (rnd (v.x * v.x) + rnd (v.y * v.y))))| ≤ 4 * u := h1
  linarith [u_pos]

/-! ## the right ascension -/

theorem turn_near : |rnd (2 * pi) - 2 * π| ≤ 2.3 * u := by
  have h1 := Real.pi_gt_d20
  have h2 := Real.pi_lt_d20
  have hu : u = 1 / 2 ^ 53 := by unfold u; norm_num
  rw [turn_value, hu, abs_le]
  norm_num at h1 h2 ⊢
  constructor <;> linarith

theorem wrapNeg_near {x y : ℝ} (h : |x - y| ≤ 4 * u) (hy : |y| ≤ π) : ∃ k : ℤ, |wrapNeg x - (y + 2 * π * k)| ≤ 13 * u := by
  have hu := u_tiny
  have hu0 := u_pos
  have hp := Real.pi_lt_d2
  unfold wrapNeg
  split_ifs with h0
  · refine ⟨1, ?_⟩
    have h1 : |x + rnd (2 * pi) - (y + 2 * π)| ≤ 6.3 * u := by
      have := turn_near
      have := abs_add_le (x - y) (rnd (2 * pi) - 2 * π)
      rw [show x + rnd (2 * pi) - (y + 2 * π) = (x - y) + (rnd (2 * pi) - 2 * π) by ring]
      linarith
    have h2 : |y + 2 * π| ≤ 6.31 := by
      obtain ⟨a1, a2⟩ := abs_le.mp h
      obtain ⟨b1, b2⟩ := abs_le.mp hy
      rw [abs_of_nonneg (by linarith)]
      norm_num at hp hu ⊢
      linarith
    have h3 := rabs h1 (M := 6.32) (by norm_num at h2 hu ⊢; linarith)
    push_cast
    rw [mul_one]
    linarith
  · exact ⟨0, by push_cast; rw [mul_zero, add_zero]; linarith⟩

theorem rightAscension_near {lib : Libm} (hlib : Spec.Atan2Accurate lib) (v : Vec3) : ∃ k : ℤ,
    |(fromCartesian lib v).right_ascension - ((SphericalPosition.fromCartesian v).right_ascension + 2 * π * k)|
      ≤ 13 * u := by
  have hu2 : (1 : ℝ) / 2 ^ 51 = 4 * u := by unfold u; norm_num
  have h1 := hlib v.y v.x
  rw [hu2] at h1
  obtain ⟨k, hk⟩ := wrapNeg_near h1 (Complex.abs_arg_le_pi _)
  obtain ⟨l, hl⟩ := exists_wrapNeg (pyAtan2 v.y v.x)
  refine ⟨k - l, ?_⟩
  simp only [fromCartesian, SphericalPosition.fromCartesian]
  rw [hl]
  push_cast
  rw [show pyAtan2 v.y v.x + 2 * π * l + 2 * π * ((k : ℝ) - l) = pyAtan2 v.y v.x + 2 * π * k by ring]
  exact hk

/-! ## back to cartesian coordinates -/

theorem cos_lipschitz (x y : ℝ) : |cos x - cos y| ≤ |x - y| := by
  rw [cos_sub_abs]
  have h1 := abs_sin_le_one ((x + y) / 2)
  have h2 : |sin ((x - y) / 2)| ≤ |(x - y) / 2| := abs_sin_le_abs
  rw [abs_div, abs_two] at h2
  have h3 : |sin ((x + y) / 2)| * |sin ((x - y) / 2)| ≤ 1 * (|x - y| / 2) := by gcongr
  linarith

theorem sin_lipschitz (x y : ℝ) : |sin x - sin y| ≤ |x - y| := by
  have := cos_lipschitz (π / 2 - x) (π / 2 - y)
  rw [cos_pi_div_two_sub, cos_pi_div_two_sub, show π / 2 - x - (π / 2 - y) = -(x - y) by ring, abs_neg] at this
  exact this

/-- a product of two numbers of at most one -/
theorem unit_product {c c' d d' : ℝ} (hc : |c' - c| ≤ 8 * u) (hd : |d' - d| ≤ 15 * u) (h1 : |c| ≤ 1) (h2 : |d| ≤ 1) :
    |rnd (c' * d') - c * d| ≤ 24.1 * u := by
  have hu := u_tiny
  have hu0 := u_pos
  have e : |c' * d' - c * d| ≤ 23.01 * u := by
    rw [show c' * d' - c * d = (c' - c) * d' + c * (d' - d) by ring]
    have t := abs_add_le ((c' - c) * d') (c * (d' - d))
    rw [abs_mul, abs_mul] at t
    have hd' : |d'| ≤ 1 + 15 * u := by
      have := abs_sub_abs_le_abs_sub d' d
      linarith
    have t1 : |c' - c| * |d'| ≤ (8 * u) * (1 + 15 * u) := by gcongr
    have t2 : |c| * |d' - d| ≤ 1 * (15 * u) := by gcongr
    nlinarith
  have h3 : |c * d| ≤ 1 := by
    rw [abs_mul]; exact mul_le_one₀ h1 (abs_nonneg _) h2
  refine (rabs e (M := 1.01) (by linarith)).trans ?_
  linarith

/-- a unit component times the radius -/
theorem component_near {c c' r r' : ℝ} (hc : |c' - c| ≤ 24.1 * u) (h1 : |c| ≤ 1) (hr : 0 ≤ r) (hr' : |r' - r| ≤ 4.2 * u * r) :
    |rnd (c' * r') - c * r| ≤ 30 * u * r := by
  have hu := u_tiny
  have hu0 := u_pos
  have e : |c' * r' - c * r| ≤ 28.4 * u * r := by
    rw [show c' * r' - c * r = (c' - c) * r' + c * (r' - r) by ring]
    have t := abs_add_le ((c' - c) * r') (c * (r' - r))
    rw [abs_mul, abs_mul] at t
    have hr2 : |r'| ≤ 1.001 * r := by
      have := abs_sub_abs_le_abs_sub r' r
      rw [abs_of_nonneg hr] at this
      nlinarith
    have t1 : |c' - c| * |r'| ≤ (24.1 * u) * (1.001 * r) := by gcongr
    have t2 : |c| * |r' - r| ≤ 1 * (4.2 * u * r) := by gcongr
    have := mul_nonneg hu0.le hr
    linarith
  have h3 : |c * r| ≤ r := by
    rw [abs_mul, abs_of_nonneg hr]
    exact mul_le_of_le_one_left hr h1
  refine (rabs e (M := 1.01 * r) (by nlinarith)).trans ?_
  have := mul_nonneg hu0.le hr
  linarith

end F64

/-- the computed radius, declination and right ascension (up to whole turns) -/
theorem C112_angles {lib : F64.Libm} (hlib : Spec.Atan2Accurate lib) (v : Vec3) :
    let s := F64.fromCartesian lib v
    let t := SphericalPosition.fromCartesian v
    |s.radius - t.radius| ≤ 5 / 10 ^ 16 * v.magnitude ∧ |s.declination - t.declination| ≤ 1 / 10 ^ 15 ∧
      ∃ k : ℤ, |s.right_ascension - (t.right_ascension + 2 * π * k)| ≤ 2 / 10 ^ 15 := by
  have hu : F64.u ≤ 1112 / 10 ^ 19 := by unfold F64.u; norm_num
  refine ⟨?_, (F64.declination_near hlib v).trans (by norm_num at hu ⊢; linarith), ?_⟩
  · have h := F64.magnitude_near v
    unfold F64.Near at h
    rw [abs_of_nonneg v.magnitude_nonneg] at h
    refine h.trans ?_
    have := v.magnitude_nonneg
    gcongr
    norm_num at hu ⊢; linarith
  · obtain ⟨k, hk⟩ := F64.rightAscension_near hlib v
    exact ⟨k, hk.trans (by norm_num at hu ⊢; linarith)⟩

/-- a vector converted to spherical coordinates and back -/
theorem C112_round_trip {lib : F64.Libm} (hlib : Spec.Accurate lib) (hatan : Spec.Atan2Accurate lib) (v : Vec3) :
    let w := F64.toCartesian lib (F64.fromCartesian lib v)
    |w.x - v.x| ≤ 4 / 10 ^ 15 * v.magnitude ∧ |w.y - v.y| ≤ 4 / 10 ^ 15 * v.magnitude ∧
      |w.z - v.z| ≤ 4 / 10 ^ 15 * v.magnitude := by
  intro w
  have hu := F64.u_tiny
  have hr := v.magnitude_nonneg
  have hr' := F64.magnitude_near v
  unfold F64.Near at hr'
  rw [abs_of_nonneg hr] at hr'
  have hd := F64.declination_near hatan v
  obtain ⟨k, hk⟩ := F64.rightAscension_near hatan v
  have hv := C23_cartesian v
  have hrad : (F64.fromCartesian lib v).radius = F64.magnitude v := rfl
  have hrad' : (SphericalPosition.fromCartesian v).radius = v.magnitude := rfl
  have hw : w = F64.toCartesian lib (F64.fromCartesian lib v) := rfl
  rw [F64.toCartesian, hrad] at hw
  rw [SphericalPosition.toCartesian, hrad'] at hv
  obtain ⟨d, hde⟩ : ∃ d, d = (F64.fromCartesian lib v).declination := ⟨_, rfl⟩
  obtain ⟨a, hae⟩ : ∃ a, a = (F64.fromCartesian lib v).right_ascension := ⟨_, rfl⟩
  obtain ⟨d0, hd0⟩ : ∃ d, d = (SphericalPosition.fromCartesian v).declination := ⟨_, rfl⟩
  obtain ⟨a0, ha0⟩ : ∃ a, a = (SphericalPosition.fromCartesian v).right_ascension := ⟨_, rfl⟩
  rw [← hde, ← hae] at hw
  rw [← hd0, ← ha0] at hv
  rw [← hde, ← hd0] at hd
  rw [← hae, ← ha0] at hk
  have l : (1 : ℝ) / 2 ^ 52 = 2 * F64.u := by unfold F64.u; norm_num
  have cd : |lib.cos d - cos d0| ≤ 8 * F64.u := by
    have t1 := hlib.cos d
    have t2 := F64.cos_lipschitz d d0
    have t3 := abs_sub_le (lib.cos d) (cos d) (cos d0)
    linarith
  have sd : |lib.sin d - sin d0| ≤ 24.1 * F64.u := by
    have t1 := hlib.sin d
    have t2 := F64.sin_lipschitz d d0
    have t3 := abs_sub_le (lib.sin d) (sin d) (sin d0)
    linarith [F64.u_pos]
  have ca : |lib.cos a - cos a0| ≤ 15 * F64.u := by
    have t1 := hlib.cos a
    have t2 := F64.cos_lipschitz a (a0 + 2 * π * k)
    rw [show a0 + 2 * π * k = a0 + k * (2 * π) by ring, cos_add_int_mul_two_pi, ← show a0 + 2 * π * k = a0 + k * (2 * π) by ring] at t2
    have t3 := abs_sub_le (lib.cos a) (cos a) (cos a0)
    linarith
  have sa : |lib.sin a - sin a0| ≤ 15 * F64.u := by
    have t1 := hlib.sin a
    have t2 := F64.sin_lipschitz a (a0 + 2 * π * k)
    rw [show a0 + 2 * π * k = a0 + k * (2 * π) by ring, sin_add_int_mul_two_pi, ← show a0 + 2 * π * k = a0 + k * (2 * π) by ring] at t2
    have t3 := abs_sub_le (lib.sin a) (sin a) (sin a0)
    linarith
  have fin : ∀ {x y : ℝ}, |x - y| ≤ 30 * F64.u * v.magnitude → |x - y| ≤ 4 / 10 ^ 15 * v.magnitude := by
    intro x y h
    refine h.trans ?_
    gcongr
    norm_num at hu ⊢; linarith
  have one : ∀ {x y : ℝ}, |x| ≤ 1 → |y| ≤ 1 → |x * y| ≤ 1 := by
    intro x y hx hy
    rw [abs_mul]; exact mul_le_one₀ hx (abs_nonneg _) hy
  rw [hw]
  simp only [pyCos, pySin, Vec3.scaled] at hv
  simp only [F64.scaled]
  have ex : v.x = cos d0 * cos a0 * v.magnitude := by conv_lhs => rw [← hv]
  have ey : v.y = cos d0 * sin a0 * v.magnitude := by conv_lhs => rw [← hv]
  have ez : v.z = sin d0 * v.magnitude := by conv_lhs => rw [← hv]
  refine ⟨fin ?_, fin ?_, fin ?_⟩
  · rw [ex]
    exact F64.component_near (F64.unit_product cd ca (abs_cos_le_one _) (abs_cos_le_one _))
      (one (abs_cos_le_one _) (abs_cos_le_one _)) hr hr'
  · rw [ey]
    exact F64.component_near (F64.unit_product cd sa (abs_cos_le_one _) (abs_sin_le_one _))
      (one (abs_cos_le_one _) (abs_sin_le_one _)) hr hr'
  · rw [ez]
    exact F64.component_near sd (abs_sin_le_one _) hr hr'

/-- a library all of whose functions are correctly rounded meets the assumptions -/
noncomputable def F64.rounded : F64.Libm :=
  ⟨fun x => F64.rnd (sin x), fun x => F64.rnd (cos x), fun y x => F64.rnd (Complex.arg ⟨x, y⟩),
   fun x => F64.rnd (arcsin x), fun x y => F64.rnd (x ^ y)⟩

theorem F64.rounded_accurate : Spec.Accurate F64.rounded ∧ Spec.Atan2Accurate F64.rounded := by
  have key : ∀ {x M : ℝ}, |x| ≤ M → |F64.rnd x - x| ≤ 2⁻¹ ^ 53 * M := by
    intro x M h
    refine (F64.rnd_near x).trans ?_
    gcongr
  refine ⟨⟨fun x => ?_, fun x => ?_⟩, fun y x => ?_⟩
  · exact (key (abs_sin_le_one x)).trans (by norm_num)
  · exact (key (abs_cos_le_one x)).trans (by norm_num)
  · exact (key ((Complex.abs_arg_le_pi _).trans Real.pi_lt_four.le)).trans (by norm_num)

example : |(F64.toCartesian F64.rounded (F64.fromCartesian F64.rounded ⟨3000, -4000, 12000⟩)).y - (-4000)|
    ≤ 4 / 10 ^ 15 * 13000 := by
  have h := (C112_round_trip F64.rounded_accurate.1 F64.rounded_accurate.2 ⟨3000, -4000, 12000⟩).2.1
  have e : (⟨3000, -4000, 12000⟩ : Vec3).magnitude = 13000 := Vec3.magnitude_of_dot (by norm_num) (by norm_num [Vec3.dot])
  rwa [e] at h

end Openspace
