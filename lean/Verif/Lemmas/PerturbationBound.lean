import Verif.Props.Forces
import Verif.Lemmas.DoubleDerivative

/-!
Bounds of the perturbing accelerations that fall off, or grow, with the distance as they should.
-/

namespace Openspace

section sums
variable {q : ℝ} (hq : 0 ≤ q) (hq' : q ≤ 1.28)
include hq hq'

theorem powers_square : q ^ 3 ≤ 1.28 * q ^ 2 ∧ q ^ 4 ≤ 1.64 * q ^ 2 := by
  have h : q ^ 2 ≤ 1.64 := (powers_le hq hq').1
  constructor
  · have := mul_le_mul_of_nonneg_right hq' (sq_nonneg q)
    linarith [show q ^ 3 = q * q ^ 2 by ring]
  · have := mul_le_mul_of_nonneg_right h (sq_nonneg q)
    linarith [show q ^ 4 = q ^ 2 * q ^ 2 by ring]

theorem gsum_r_square (ra dec : ℝ) : |gsum fun n m => (gterm ra dec q n m).r| ≤ 3.9e-3 * q ^ 2 := by
  obtain ⟨p3, p4⟩ := powers_square hq hq'
  have p2 := sq_nonneg q
  refine (abs_gsum_le _ _ fun n m h2 h4 hm => gterm_r_le ra dec hq n m h2 h4 hm).trans ?_
  rw [gsum_eq]
  simp only [Finset.sum_range_succ, Finset.sum_range_zero, legBound, coefBound]
  norm_num at p2 p3 p4 ⊢
  linarith

theorem gsum_phi_square (ra : ℝ) {dec : ℝ} (hC : Real.cos dec ≠ 0) :
    |gsum fun n m => (gterm ra dec q n m).phi| ≤ 3.9e-3 * q ^ 2 := by
  obtain ⟨p3, p4⟩ := powers_square hq hq'
  have p2 := sq_nonneg q
  refine (abs_gsum_le _ _ fun n m h2 h4 hm => gterm_phi_le ra hC hq n m h2 h4 hm).trans ?_
  rw [gsum_eq]
  simp only [Finset.sum_range_succ, Finset.sum_range_zero, legBound, coefBound]
  norm_num at p2 p3 p4 ⊢
  linarith

theorem gsum_lamb_square (ra dec : ℝ) :
    |gsum fun n m => (gterm ra dec q n m).lamb| ≤ |Real.cos dec| * (2.5e-4 * q ^ 2) := by
  obtain ⟨p3, p4⟩ := powers_square hq hq'
  have p2 := sq_nonneg q
  refine (abs_gsum_le _ _ fun n m h2 h4 hm => gterm_lamb_le ra hq n m h2 h4 hm).trans ?_
  have : (gsum fun n m => |Real.cos dec| * (q ^ n * (m * legBound n m * coefBound n m))) =
      |Real.cos dec| * gsum fun n m => q ^ n * (m * legBound n m * coefBound n m) := by
    simp only [gsum, Finset.mul_sum]
  rw [this]
  refine mul_le_mul_of_nonneg_left ?_ (abs_nonneg _)
  rw [gsum_eq]
  simp only [Finset.sum_range_succ, Finset.sum_range_zero, legBound, coefBound]
  norm_num at p2 p3 p4 ⊢
  linarith

end sums

/-- the body-fixed perturbation falls off with the fourth power of the distance -/
theorem gravityItrf_square (ecef : Vec3) {d : ℝ} (hd : 5000 ≤ d) (hxy : 0 < ecef.x * ecef.x + ecef.y * ecef.y)
    (h1 : d ≤ ecef.magnitude) (h2 : ecef.magnitude ≤ (1 + 5.5e-9) * d) :
    ∃ g, gravityItrf ecef d = .ok g ∧ g.magnitude ≤ 5.6e-3 * (Earth.RADIUS / d) ^ 2 * (Earth.MU / d ^ 2) := by
  have hd0 : 0 < d := by linarith
  refine ⟨_, gravityItrf_eq ecef hd0 hxy, ?_⟩
  have hC : Real.cos (SphericalPosition.fromCartesian ecef).declination ≠ 0 := by
    intro h
    have := mag_mul_cos_dec ecef
    rw [h, mul_zero] at this
    exact (Real.sqrt_pos.mpr hxy).ne this
  have hq0 : 0 ≤ Earth.RADIUS / d := div_nonneg (by norm_num [Earth.RADIUS]) hd0.le
  have hq1 : Earth.RADIUS / d ≤ 1.28 := by
    rw [div_le_iff₀ hd0]; norm_num [Earth.RADIUS]; linarith
  have hr := gsum_r_square hq0 hq1 (SphericalPosition.fromCartesian ecef).right_ascension
    (SphericalPosition.fromCartesian ecef).declination
  have hp := gsum_phi_square hq0 hq1 (SphericalPosition.fromCartesian ecef).right_ascension hC
  have hl := gsum_lamb_square hq0 hq1 (SphericalPosition.fromCartesian ecef).right_ascension
    (SphericalPosition.fromCartesian ecef).declination
  obtain ⟨sr, esr⟩ : ∃ x, x = gsum fun n m => (gterm (SphericalPosition.fromCartesian ecef).right_ascension
    (SphericalPosition.fromCartesian ecef).declination (Earth.RADIUS / d) n m).r := ⟨_, rfl⟩
  obtain ⟨sp, esp⟩ : ∃ x, x = gsum fun n m => (gterm (SphericalPosition.fromCartesian ecef).right_ascension
    (SphericalPosition.fromCartesian ecef).declination (Earth.RADIUS / d) n m).phi := ⟨_, rfl⟩
  obtain ⟨sl, esl⟩ : ∃ x, x = gsum fun n m => (gterm (SphericalPosition.fromCartesian ecef).right_ascension
    (SphericalPosition.fromCartesian ecef).declination (Earth.RADIUS / d) n m).lamb := ⟨_, rfl⟩
  rw [← esr] at hr; rw [← esp] at hp; rw [← esl] at hl
  rw [← esr, ← esp, ← esl]
  have hMU : 0 < Earth.MU := by norm_num [Earth.MU]
  obtain ⟨M, hM⟩ : ∃ M, M = Earth.MU / d ^ 2 := ⟨_, rfl⟩
  have hM0 : 0 < M := by rw [hM]; positivity
  rw [← hM]
  obtain ⟨k, hk⟩ : ∃ k, k = ecef.magnitude / d := ⟨_, rfl⟩
  have hk1 : 1 ≤ k := by rw [hk, le_div_iff₀ hd0]; linarith
  have hk2 : k ≤ 1 + 5.5e-9 := by rw [hk, div_le_iff₀ hd0]; exact h2
  rw [← hk]
  obtain ⟨Q, hQ⟩ : ∃ Q, Q = (Earth.RADIUS / d) ^ 2 := ⟨_, rfl⟩
  have hQ0 : 0 ≤ Q := by rw [hQ]; positivity
  rw [← hQ] at hr hp hl ⊢
  refine (pow_le_pow_iff_left₀ (Vec3.magnitude_nonneg _) (by positivity) two_ne_zero).mp ?_
  rw [fieldVec_sq]
  obtain ⟨e, he⟩ : ∃ e, e = sl / Real.cos (SphericalPosition.fromCartesian ecef).declination := ⟨_, rfl⟩
  have heb : |e| ≤ 2.5e-4 * Q := by
    rw [he, abs_div, div_le_iff₀ (abs_pos.mpr hC), mul_comm]; exact hl
  have e1 : M / Real.cos (SphericalPosition.fromCartesian ecef).declination * sl = M * e := by rw [he]; ring
  rw [e1]
  have a1 : sr ^ 2 ≤ (3.9e-3 * Q) ^ 2 := sq_le_sq' (by linarith [(abs_le.mp hr).1]) (abs_le.mp hr).2
  have a2 : sp ^ 2 ≤ (3.9e-3 * Q) ^ 2 := sq_le_sq' (by linarith [(abs_le.mp hp).1]) (abs_le.mp hp).2
  have a3 : e ^ 2 ≤ (2.5e-4 * Q) ^ 2 := sq_le_sq' (by linarith [(abs_le.mp heb).1]) (abs_le.mp heb).2
  have k1 : k ^ 2 ≤ 1.0000001 := (pow_le_pow_left₀ (by linarith) hk2 2).trans (by norm_num)
  have k2 : (k⁻¹) ^ 2 ≤ 1 := pow_le_one₀ (by positivity) (inv_le_one_of_one_le₀ hk1)
  have b1 : k ^ 2 * (sr ^ 2 + sp ^ 2) ≤ 1.0000001 * ((3.9e-3 * Q) ^ 2 + (3.9e-3 * Q) ^ 2) :=
    mul_le_mul k1 (add_le_add a1 a2) (by positivity) (by norm_num)
  have b2 : (k⁻¹) ^ 2 * e ^ 2 ≤ 1 * (2.5e-4 * Q) ^ 2 := mul_le_mul k2 a3 (by positivity) (by norm_num)
  calc k ^ 2 * ((-M * sr) ^ 2 + (M * sp) ^ 2) + (k⁻¹) ^ 2 * (M * e) ^ 2
      = M ^ 2 * (k ^ 2 * (sr ^ 2 + sp ^ 2) + (k⁻¹) ^ 2 * e ^ 2) := by ring
    _ ≤ M ^ 2 * (1.0000001 * ((3.9e-3 * Q) ^ 2 + (3.9e-3 * Q) ^ 2) + 1 * (2.5e-4 * Q) ^ 2) := by
        apply mul_le_mul_of_nonneg_left (add_le_add b1 b2) (by positivity)
    _ = (M * Q) ^ 2 * (1.0000001 * (3.9e-3 ^ 2 + 3.9e-3 ^ 2) + 2.5e-4 ^ 2) := by ring
    _ ≤ (M * Q) ^ 2 * 5.55e-3 ^ 2 := by
        apply mul_le_mul_of_nonneg_left _ (by positivity); norm_num
    _ ≤ (M * Q) ^ 2 * 5.6e-3 ^ 2 := by
        apply mul_le_mul_of_nonneg_left _ (by positivity); norm_num
    _ = _ := by ring

end Openspace
