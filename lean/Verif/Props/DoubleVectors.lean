import Verif.Model.DoubleVectors
import Verif.Spec.Libm
import Verif.Lemmas.DoubleGeodetic
import Verif.Props.DoubleAngles
import Verif.Props.Linalg

/-!
# Property C111: the angle between two vectors in double precision
-/

namespace Openspace

namespace F64

theorem dot_component_sum (a b : Vec3) : |a.x * b.x| + |a.y * b.y| + |a.z * b.z| ≤ a.magnitude * b.magnitude := by
  have h := Vec3.cauchy ⟨|a.x|, |a.y|, |a.z|⟩ ⟨|b.x|, |b.y|, |b.z|⟩
  have e : ∀ v : Vec3, (⟨|v.x|, |v.y|, |v.z|⟩ : Vec3).magnitude = v.magnitude := by
    intro v; simp [Vec3.magnitude]
  rw [e, e] at h
  refine le_trans (le_of_eq ?_) ((le_abs_self _).trans h)
  simp [Vec3.dot, abs_mul]

theorem dot_near (a b : Vec3) : |dot a b - a.dot b| ≤ 3.1 * u * (a.magnitude * b.magnitude) := by
  have hs := dot_component_sum a b
  have hu := u_pos
  have hu' := u_tiny
  have h1 := rnd_u (a.x * b.x)
  have h2 := rnd_u (a.y * b.y)
  have h3 := rnd_u (a.z * b.z)
  unfold dot Vec3.dot
  obtain ⟨p, hp⟩ : ∃ p, p = a.x * b.x := ⟨_, rfl⟩
  obtain ⟨q, hq⟩ : ∃ q, q = a.y * b.y := ⟨_, rfl⟩
  obtain ⟨r, hr⟩ : ∃ r, r = a.z * b.z := ⟨_, rfl⟩
  obtain ⟨M, hM⟩ : ∃ M, M = a.magnitude * b.magnitude := ⟨_, rfl⟩
  rw [← hp] at h1 hs ⊢
  rw [← hq] at h2 hs ⊢
  rw [← hr] at h3 hs ⊢
  rw [← hM] at hs ⊢
  have p0 := abs_nonneg p
  have q0 := abs_nonneg q
  have r0 := abs_nonneg r
  have h4 : |rnd p + rnd q - (p + q)| ≤ u * (|p| + |q|) := by
    rw [show rnd p + rnd q - (p + q) = (rnd p - p) + (rnd q - q) by ring]
    have := abs_add_le (rnd p - p) (rnd q - q)
    linarith
  have h5 := rabs h4 (M := (1 + u) * (|p| + |q|)) (by have := abs_add_le p q; linarith)
  have h6 : |rnd (rnd p + rnd q) + rnd r - (p + q + r)| ≤ u * (2 + u) * (|p| + |q|) + u * |r| := by
    rw [show rnd (rnd p + rnd q) + rnd r - (p + q + r) = (rnd (rnd p + rnd q) - (p + q)) + (rnd r - r) by ring]
    have := abs_add_le (rnd (rnd p + rnd q) - (p + q)) (rnd r - r)
    linarith
  have h7 : |rnd (rnd p + rnd q) + rnd r - (p + q + r)| ≤ u * (2 + u) * M := by
    have : u * |r| ≤ u * (2 + u) * |r| := by
      have : u * 1 * |r| ≤ u * (2 + u) * |r| := by gcongr; linarith
      linarith
    have : u * (2 + u) * (|p| + |q| + |r|) ≤ u * (2 + u) * M := by gcongr
    linarith
  have h8 : |p + q + r| ≤ M := by
    have := abs_add_le (p + q) r
    have := abs_add_le p q
    linarith
  have h9 := rabs h7 (M := (1 + u * (2 + u)) * M) (by linarith)
  have hM0 : 0 ≤ M := by linarith
  refine h9.trans ?_
  have : 2 + u + (1 + u * (2 + u)) ≤ 3.1 := by nlinarith
  have := mul_le_mul_of_nonneg_right this (mul_nonneg hu.le hM0)
  linarith

theorem magnitude_pos {a : Vec3} (ha : a ≠ ⟨0, 0, 0⟩) : 0 < magnitude a := by
  have h0 : 0 < a.magnitude := lt_of_le_of_ne a.magnitude_nonneg (Ne.symm (Vec3.magnitude_ne_zero.mpr ha))
  have h := magnitude_near a
  unfold Near at h
  rw [abs_of_pos h0] at h
  have hu := u_tiny
  have := (abs_le.mp h).1
  nlinarith

theorem magnitude_zero : magnitude ⟨0, 0, 0⟩ = 0 := by simp [magnitude, dot, rnd_zero, sqrtNN]

/-- the computed cosine -/
theorem cosine_near {a b : Vec3} (ha : a ≠ ⟨0, 0, 0⟩) (hb : b ≠ ⟨0, 0, 0⟩) :
    |rnd (dot a b / rnd (magnitude a * magnitude b)) - a.dot b / (a.magnitude * b.magnitude)| ≤ 15 * u := by
  have hu := u_pos
  have hu' := u_tiny
  have a0 : 0 < a.magnitude := lt_of_le_of_ne a.magnitude_nonneg (Ne.symm (Vec3.magnitude_ne_zero.mpr ha))
  have b0 : 0 < b.magnitude := lt_of_le_of_ne b.magnitude_nonneg (Ne.symm (Vec3.magnitude_ne_zero.mpr hb))
  have hd := dot_near a b
  have hc := Vec3.cauchy a b
  have hm := ((magnitude_near a).mul (magnitude_near b) (by norm_num) (by norm_num) (by norm_num) (by norm_num)).round
    (by norm_num) (by norm_num)
  have hm0 : 0 < rnd (magnitude a * magnitude b) := rnd_pos (mul_pos (magnitude_pos ha) (magnitude_pos hb))
  have hM0 := mul_pos a0 b0
  obtain ⟨M, hM⟩ : ∃ M, M = a.magnitude * b.magnitude := ⟨_, rfl⟩
  obtain ⟨m, hme⟩ : ∃ m, m = rnd (magnitude a * magnitude b) := ⟨_, rfl⟩
  rw [← hM] at hd hc hm hM0 ⊢
  rw [← hme] at hm hm0 ⊢
  unfold Near at hm
  rw [abs_of_pos hM0] at hm
  have hml : (1 - 10 * u) * M ≤ m := by
    have := (abs_le.mp hm).1
    nlinarith [mul_pos hu hM0]
  have hq : |dot a b / m - a.dot b / M| ≤ 13 * u := by
    rw [show dot a b / m - a.dot b / M = ((dot a b - a.dot b) * M - a.dot b * (m - M)) / (m * M) by
      field_simp; ring, abs_div, abs_of_pos (mul_pos hm0 hM0), div_le_iff₀ (mul_pos hm0 hM0)]
    have t1 := abs_sub ((dot a b - a.dot b) * M) (a.dot b * (m - M))
    rw [abs_mul, abs_mul, abs_of_pos hM0] at t1
    have t2 : |dot a b - a.dot b| * M ≤ (3.1 * u * M) * M := by gcongr
    have t3 : |a.dot b| * |m - M| ≤ M * ((4.2 + 4.2 + 0.001 + 1.001) * u * M) := by gcongr
    have t4 : 13 * u * (((1 - 10 * u) * M) * M) ≤ 13 * u * (m * M) := by gcongr
    have t5 : 12.6 * u * (M * M) ≤ 13 * u * (((1 - 10 * u) * M) * M) := by
      have : 0 < u * (M * M) := by positivity
      nlinarith
    nlinarith [mul_pos hu (mul_pos hM0 hM0)]
  have hx : |a.dot b / M| ≤ 1 := by
    rw [abs_div, abs_of_pos hM0, div_le_one hM0]; exact hc
  refine (rabs hq (M := 1 + 13 * u) (by linarith)).trans ?_
  nlinarith

/-- limiting a number to an interval brings it nearer to every number inside -/
theorem clamp_near {y x : ℝ} (hx : |x| ≤ 1) :
    |(if y > 1 then 1 else if y < -1 then -1 else y) - x| ≤ |y - x| ∧
      |(if y > 1 then 1 else if y < -1 then -1 else y)| ≤ 1 := by
  obtain ⟨h1, h2⟩ := abs_le.mp hx
  split_ifs with h3 h4
  · refine ⟨?_, by norm_num⟩
    rw [abs_of_nonneg (by linarith), abs_of_nonneg (by linarith)]; linarith
  · refine ⟨?_, by norm_num⟩
    rw [abs_of_nonpos (by linarith), abs_of_nonpos (by linarith)]; linarith
  · exact ⟨le_rfl, abs_le.mpr ⟨by linarith, by linarith⟩⟩

theorem angle_value (acos : ℝ → ℝ) {a b : Vec3} (ha : a ≠ ⟨0, 0, 0⟩) (hb : b ≠ ⟨0, 0, 0⟩) :
    angle acos a b = .ok (acos (if rnd (dot a b / rnd (magnitude a * magnitude b)) > 1 then 1
      else if rnd (dot a b / rnd (magnitude a * magnitude b)) < -1 then -1
      else rnd (dot a b / rnd (magnitude a * magnitude b)))) := by
  have h : rnd (magnitude a * magnitude b) ≠ 0 := (rnd_pos (mul_pos (magnitude_pos ha) (magnitude_pos hb))).ne'
  simp only [angle, div_ok h, ok_bind, pure_eq_ok]

/-- cosines and half differences -/
theorem cos_sub_abs (s t : ℝ) : |Real.cos s - Real.cos t| = 2 * |Real.sin ((s + t) / 2)| * |Real.sin ((s - t) / 2)| := by
  rw [Real.cos_sub_cos, abs_mul, abs_mul]; simp

theorem half_sin {d : ℝ} (h : |d| ≤ Real.pi) : |d| / Real.pi ≤ |Real.sin (d / 2)| := by
  have hp := Real.pi_pos
  have h1 : |Real.sin (d / 2)| = Real.sin (|d| / 2) := by
    rcases abs_cases d with ⟨h2, h3⟩ | ⟨h2, h3⟩
    · rw [h2, abs_of_nonneg (Real.sin_nonneg_of_nonneg_of_le_pi (by linarith) (by linarith))]
    · rw [h2, show -d / 2 = -(d / 2) by ring, Real.sin_neg,
        abs_of_nonpos (by
          have := Real.sin_nonneg_of_nonneg_of_le_pi (x := -(d / 2)) (by linarith) (by linarith)
          rw [Real.sin_neg] at this; linarith)]
  rw [h1]
  have := Real.mul_le_sin (x := |d| / 2) (by positivity) (by linarith)
  calc |d| / Real.pi = 2 / Real.pi * (|d| / 2) := by ring
    _ ≤ _ := this

/-- angles with nearly the same cosine are near each other -/
theorem near_of_cos {s t e : ℝ} (hs0 : 0 ≤ s) (hs : s ≤ Real.pi) (ht0 : 0 ≤ t) (ht : t ≤ Real.pi)
    (h : |Real.cos s - Real.cos t| ≤ e) : 2 * (s - t) ^ 2 ≤ Real.pi ^ 2 * e := by
  have hp := Real.pi_pos
  have hd : |s - t| ≤ Real.pi := abs_le.mpr ⟨by linarith, by linarith⟩
  have h1 := half_sin hd
  have h2 : |Real.sin ((s - t) / 2)| ≤ |Real.sin ((s + t) / 2)| := by
    have e1 : Real.sin ((s + t) / 2) ^ 2 - Real.sin ((s - t) / 2) ^ 2 = Real.sin s * Real.sin t := by
      have a1 : Real.sin s = Real.sin ((s + t) / 2 + (s - t) / 2) := by congr 1; ring
      have a2 : Real.sin t = Real.sin ((s + t) / 2 - (s - t) / 2) := by congr 1; ring
      rw [a1, a2, Real.sin_add, Real.sin_sub]
      have b1 := Real.sin_sq_add_cos_sq ((s + t) / 2)
      have b2 := Real.sin_sq_add_cos_sq ((s - t) / 2)
      linear_combination Real.sin ((s - t) / 2) ^ 2 * b1 - Real.sin ((s + t) / 2) ^ 2 * b2
    have e2 := mul_nonneg (Real.sin_nonneg_of_nonneg_of_le_pi hs0 hs) (Real.sin_nonneg_of_nonneg_of_le_pi ht0 ht)
    exact sq_le_sq.mp (by linarith)
  rw [cos_sub_abs] at h
  have h3 : 2 * (|s - t| / Real.pi) * (|s - t| / Real.pi) ≤ e := by
    have i0 : 0 ≤ |s - t| / Real.pi := by positivity
    calc _ ≤ 2 * |Real.sin ((s + t) / 2)| * |Real.sin ((s - t) / 2)| := by
          gcongr; exact h1.trans h2
      _ ≤ e := h
  have h4 : 2 * (|s - t| / Real.pi) * (|s - t| / Real.pi) = 2 * (s - t) ^ 2 / Real.pi ^ 2 := by
    rw [← sq_abs (s - t)]; ring
  rw [h4, div_le_iff₀ (by positivity)] at h3
  linarith

/-- the angle whose arccosine is taken, before the error of the C library -/
theorem angle_before (acos : ℝ → ℝ) {a b : Vec3} (ha : a ≠ ⟨0, 0, 0⟩) (hb : b ≠ ⟨0, 0, 0⟩) : ∃ x : ℝ, |x| ≤ 1 ∧
    angle acos a b = .ok (acos x) ∧
      |Real.cos (Real.arccos x) - Real.cos (InnerProductGeometry.angle a.toE b.toE)| ≤ 15 * u := by
  have h1 := cosine_near ha hb
  have h2 := Vec3.cauchy' a b
  obtain ⟨h3, h4⟩ := clamp_near (y := rnd (dot a b / rnd (magnitude a * magnitude b))) h2
  refine ⟨_, h4, angle_value acos ha hb, ?_⟩
  rw [Real.cos_arccos (abs_le.mp h4).1 (abs_le.mp h4).2, InnerProductGeometry.cos_angle, Vec3.inner_toE, Vec3.norm_toE,
    Vec3.norm_toE]
  exact h3.trans h1

end F64

/-- no vectors but zero make `angle` raise -/
theorem C111_raises (acos : ℝ → ℝ) (a b : Vec3) (e : PyErr) :
    F64.angle acos a b = .error e ↔ (a = ⟨0, 0, 0⟩ ∨ b = ⟨0, 0, 0⟩) ∧ e = .zeroDivision := by
  by_cases ha : a = ⟨0, 0, 0⟩
  · simp [F64.angle, F64.div, ha, F64.magnitude_zero, F64.rnd_zero, pyDiv, eq_comm]
  · by_cases hb : b = ⟨0, 0, 0⟩
    · simp [F64.angle, F64.div, hb, F64.magnitude_zero, F64.rnd_zero, pyDiv, eq_comm]
    · simp [F64.angle_value acos ha hb, ha, hb]

/-- any two vectors: an error of at most a ten millionth of a radian -/
theorem C111_accuracy {acos : ℝ → ℝ} (hacos : Spec.AcosAccurate acos) {a b : Vec3} (ha : a ≠ ⟨0, 0, 0⟩)
    (hb : b ≠ ⟨0, 0, 0⟩) : ∃ t, F64.angle acos a b = .ok t ∧ |t - InnerProductGeometry.angle a.toE b.toE| ≤ 1 / 10 ^ 7 := by
  obtain ⟨x, hx, h1, h2⟩ := F64.angle_before acos ha hb
  refine ⟨_, h1, ?_⟩
  have h3 := F64.near_of_cos (Real.arccos_nonneg x) (Real.arccos_le_pi x) (InnerProductGeometry.angle_nonneg _ _)
    (InnerProductGeometry.angle_le_pi _ _) h2
  have h4 := hacos x hx
  have hu := F64.u_tiny
  have hu0 := F64.u_pos
  have hp1 := Real.pi_gt_d2
  have hp2 := Real.pi_lt_d2
  have h5 : |Real.arccos x - InnerProductGeometry.angle a.toE b.toE| ≤ 95 / 10 ^ 9 := by
    apply abs_le_of_sq_le_sq _ (by norm_num)
    have : Real.pi ^ 2 ≤ 9.93 := by nlinarith
    have : Real.pi ^ 2 * (15 * F64.u) ≤ 9.93 * (15 * (12 / 10 ^ 17)) := by gcongr
    norm_num at this ⊢
    linarith
  have h6 := abs_sub_le (acos x) (Real.arccos x) (InnerProductGeometry.angle a.toE b.toE)
  norm_num at h4 h5 h6 ⊢
  linarith

/-- vectors which are not nearly parallel: an error of at most `1e-12` -/
theorem C111_transverse {acos : ℝ → ℝ} (hacos : Spec.AcosAccurate acos) {a b : Vec3} (ha : a ≠ ⟨0, 0, 0⟩)
    (hb : b ≠ ⟨0, 0, 0⟩) (h0 : 1 / 100 ≤ InnerProductGeometry.angle a.toE b.toE)
    (h1 : InnerProductGeometry.angle a.toE b.toE ≤ Real.pi - 1 / 100) :
    ∃ t, F64.angle acos a b = .ok t ∧ |t - InnerProductGeometry.angle a.toE b.toE| ≤ 1 / 10 ^ 12 := by
  obtain ⟨x, hx, e1, h2⟩ := F64.angle_before acos ha hb
  refine ⟨_, e1, ?_⟩
  have h4 := hacos x hx
  have s0 := Real.arccos_nonneg x
  have s1 := Real.arccos_le_pi x
  have t0 := InnerProductGeometry.angle_nonneg a.toE b.toE
  have t1 := InnerProductGeometry.angle_le_pi a.toE b.toE
  obtain ⟨s, hs⟩ : ∃ s, s = Real.arccos x := ⟨_, rfl⟩
  obtain ⟨t, ht⟩ : ∃ t, t = InnerProductGeometry.angle a.toE b.toE := ⟨_, rfl⟩
  rw [← hs] at h2 h4 s0 s1
  rw [← ht] at h2 h0 h1 t0 t1 ⊢
  have hu := F64.u_tiny
  have hu0 := F64.u_pos
  have hp1 := Real.pi_gt_d2
  have hp2 := Real.pi_lt_d2
  have hd : |s - t| ≤ Real.pi := abs_le.mpr ⟨by linarith, by linarith⟩
  have i1 := F64.half_sin hd
  have i2 : 1 / 320 ≤ |Real.sin ((s + t) / 2)| := by
    refine le_trans ?_ (le_abs_self _)
    rcases le_total ((s + t) / 2) (Real.pi / 2) with h | h
    · have := Real.mul_le_sin (x := (s + t) / 2) (by linarith) h
      refine le_trans ?_ this
      rw [div_mul_eq_mul_div, le_div_iff₀ (by linarith)]; linarith
    · have := Real.mul_le_sin (x := Real.pi - (s + t) / 2) (by linarith) (by linarith)
      rw [Real.sin_pi_sub] at this
      refine le_trans ?_ this
      rw [div_mul_eq_mul_div, le_div_iff₀ (by linarith)]; linarith
  rw [F64.cos_sub_abs] at h2
  have i3 : 2 * (1 / 320) * (|s - t| / Real.pi) ≤ 15 * F64.u := by
    refine le_trans ?_ h2
    have : 0 ≤ |s - t| / Real.pi := by positivity
    gcongr
  have i4 : |s - t| / Real.pi ≤ 160 * (15 * F64.u) := by linarith
  rw [div_le_iff₀ (by linarith)] at i4
  have i5 : 160 * (15 * F64.u) * Real.pi ≤ 160 * (15 * (12 / 10 ^ 17)) * 3.15 := by gcongr
  have h6 := abs_sub_le (acos x) s t
  norm_num at h4 i5 h6 ⊢
  linarith

/-- near parallel vectors the first bound is needed: a vector and itself can be `1e-8` apart -/
theorem C111_parallel {acos : ℝ → ℝ} (hacos : Spec.AcosAccurate acos) :
    ∃ t, F64.angle acos ⟨1, 1, 0⟩ ⟨1, 1, 0⟩ = .ok t ∧ 1 / 10 ^ 8 ≤ t := by
  have hv : (⟨1, 1, 0⟩ : Vec3) ≠ ⟨0, 0, 0⟩ := by simp
  have r1 : F64.rnd 1 = 1 := F64.isDouble_one
  have r2 : F64.rnd 2 = 2 := F64.isDouble_two
  have hd : F64.dot ⟨1, 1, 0⟩ ⟨1, 1, 0⟩ = 2 := by
    simp only [F64.dot, mul_one, mul_zero, r1, F64.rnd_zero, add_zero]
    norm_num [r2]
  have s0 : (0 : ℝ) ≤ √2 := Real.sqrt_nonneg 2
  have s2 : √2 * √2 = 2 := Real.mul_self_sqrt (by norm_num)
  have b1 : (63690516725257725 / 10 / 2 ^ 52 : ℝ) < √2 := by
    rw [Real.lt_sqrt (by norm_num)]; norm_num
  have b2 : √2 < (63690516725257735 / 10 / 2 ^ 52 : ℝ) := by
    rw [Real.sqrt_lt' (by norm_num)]; norm_num
  have hm : F64.magnitude ⟨1, 1, 0⟩ = 6369051672525773 / 2 ^ 52 := by
    rw [F64.magnitude, hd, sqrtNN, F64.rnd_eq 6369051672525773 (-52)]
    · norm_num
    · norm_num at b1 ⊢
    · norm_num at b2 ⊢
    · rw [abs_lt]; norm_num at b1 b2 ⊢; constructor <;> linarith
  have hp : F64.rnd (F64.magnitude ⟨1, 1, 0⟩ * F64.magnitude ⟨1, 1, 0⟩) = 4503599627370497 / 2 ^ 51 := by
    rw [hm, F64.rnd_eq 4503599627370497 (-51)] <;> norm_num [abs_lt]
  have hq : F64.rnd (F64.dot ⟨1, 1, 0⟩ ⟨1, 1, 0⟩ / F64.rnd (F64.magnitude ⟨1, 1, 0⟩ * F64.magnitude ⟨1, 1, 0⟩))
      = 1 - 1 / 2 ^ 52 := by
    rw [hp, hd, F64.rnd_eq 9007199254740990 (-53)] <;> norm_num [abs_lt]
  have ha := F64.angle_value acos hv hv
  rw [hq, if_neg (by norm_num), if_neg (by norm_num)] at ha
  refine ⟨_, ha, ?_⟩
  have h1 := hacos (1 - 1 / 2 ^ 52) (by rw [abs_le]; norm_num)
  have h2 : 2 / 10 ^ 8 ≤ Real.arccos (1 - 1 / 2 ^ 52) := by
    have c1 := Real.one_sub_sq_div_two_le_cos (x := Real.arccos (1 - 1 / 2 ^ 52))
    rw [Real.cos_arccos (by norm_num) (by norm_num)] at c1
    have c2 := Real.arccos_nonneg (1 - 1 / 2 ^ 52)
    by_contra hlt
    norm_num at c1 c2 hlt
    nlinarith
  have h3 := (abs_le.mp h1).1
  norm_num at h2 h3 ⊢
  linarith

/-- a correctly rounded arccosine is accurate enough -/
theorem F64.acos_rounded : Spec.AcosAccurate fun x => F64.rnd (Real.arccos x) := by
  intro x _
  have h := F64.rnd_near (Real.arccos x)
  rw [abs_of_nonneg (Real.arccos_nonneg x)] at h
  have h1 := Real.arccos_le_pi x
  have h2 := Real.pi_lt_four
  norm_num at h ⊢
  linarith

example : ∃ t, F64.angle (fun x => F64.rnd (Real.arccos x)) ⟨1, 0, 0⟩ ⟨1, 1, 0⟩ = .ok t ∧
    |t - Real.pi / 4| ≤ 1 / 10 ^ 12 := by
  have e : InnerProductGeometry.angle (⟨1, 0, 0⟩ : Vec3).toE (⟨1, 1, 0⟩ : Vec3).toE = Real.pi / 4 := by
    have h1 : (⟨1, 0, 0⟩ : Vec3).angle ⟨1, 1, 0⟩ = .ok _ := (C04_angle _ _).1 (by simp) (by simp)
    rw [Vec3.angle_ok (by simp) (by simp)] at h1
    injection h1 with h1
    rw [← h1, ← Real.arccos_cos (x := Real.pi / 4) (by positivity) (by linarith [Real.pi_pos]), Real.cos_pi_div_four]
    congr 1
    have s2 : √2 * √2 = 2 := Real.mul_self_sqrt (by norm_num)
    simp [Vec3.dot, Vec3.magnitude, sqrtNN]
    norm_num
    field_simp
    linarith
  have := C111_transverse F64.acos_rounded (a := ⟨1, 0, 0⟩) (b := ⟨1, 1, 0⟩) (by simp) (by simp)
    (by rw [e]; have := Real.pi_gt_three; linarith) (by rw [e]; have := Real.pi_gt_three; linarith)
  rwa [e] at this

end Openspace
