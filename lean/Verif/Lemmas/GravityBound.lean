import Verif.Lemmas.GravitySum

/-!
# Lemmas: size of the non-spherical gravity computed by the code
-/

namespace Openspace

open Spec

/-- bound of the `m`-th derivative of the Legendre polynomial of degree `n` on `[-1, 1]` -/
def legBound : ℕ → ℕ → ℝ
  | 2, 0 => 1 | 2, 1 => 3 | 2, 2 => 3
  | 3, 0 => 1 | 3, 1 => 6 | 3, 2 => 15 | 3, 3 => 15
  | 4, 0 => 1 | 4, 1 => 10 | 4, 2 => 45 | 4, 3 => 105 | 4, 4 => 105
  | _, _ => 0

/-- bound of the sum of the absolute values of the two coefficients of degree `n` and order `m` -/
noncomputable def coefBound : ℕ → ℕ → ℝ
  | 2, 0 => 1.084e-3 | 2, 1 => 2.1e-9 | 2, 2 => 2.6e-6
  | 3, 0 => 2.6e-6 | 3, 1 => 2.6e-6 | 3, 2 => 5.5e-7 | 3, 3 => 3.2e-7
  | 4, 0 => 1.7e-6 | 4, 1 => 1.0e-6 | 4, 2 => 2.5e-7 | 4, 3 => 7.5e-8 | 4, 4 => 1.2e-8
  | _, _ => 0

theorem legBound_nonneg (n m : ℕ) : 0 ≤ legBound n m := by
  unfold legBound; split <;> norm_num

theorem coefBound_nonneg (n m : ℕ) : 0 ≤ coefBound n m := by
  unfold coefBound; split <;> norm_num

theorem abs_legendreDeriv_le (n m : ℕ) (h2 : 2 ≤ n) (h4 : n ≤ 4) (hm : m ≤ n + 1) {u : ℝ} (hu : |u| ≤ 1) :
    |legendreDeriv n m u| ≤ legBound n m := by
  obtain ⟨hu1, hu2⟩ := abs_le.mp hu
  have q0 := sq_nonneg u
  have q1 : u ^ 2 ≤ 1 := by nlinarith
  by_cases he : m = n + 1
  · subst he; rw [legendreDeriv_eq_zero, abs_zero]; exact legBound_nonneg _ _
  have hm' : m ≤ n := by omega
  interval_cases n <;> interval_cases m <;>
    first
    | rw [ld20] | rw [ld21] | rw [ld22] | rw [ld30] | rw [ld31] | rw [ld32] | rw [ld33]
    | rw [ld40] | rw [ld41] | rw [ld42] | rw [ld43] | rw [ld44]
  all_goals simp only [legBound]; rw [abs_le]
  · constructor <;> nlinarith
  · constructor <;> nlinarith
  · norm_num
  · constructor <;> nlinarith [mul_nonneg (sub_nonneg.mpr hu2) q0, mul_nonneg (by linarith : 0 ≤ 1 + u) q0,
      mul_nonneg (by linarith : 0 ≤ 1 - u) (sq_nonneg (5 * u + 5 / 2)), mul_nonneg (by linarith : 0 ≤ 1 + u) (sq_nonneg (5 * u - 5 / 2)),
      mul_nonneg (by linarith : 0 ≤ 1 + u) (sq_nonneg (u - 1 / 2)), mul_nonneg (by linarith : 0 ≤ 1 - u) (sq_nonneg (u + 1 / 2))]
  · constructor <;> nlinarith
  · constructor <;> nlinarith
  · norm_num
  · constructor <;> nlinarith [sq_nonneg (u ^ 2 - 3 / 7), mul_nonneg q0 (sub_nonneg.mpr q1)]
  · constructor <;> nlinarith [mul_nonneg (by linarith : 0 ≤ 1 - u) (sq_nonneg (u + 1 / 2)),
      mul_nonneg (by linarith : 0 ≤ 1 + u) (sq_nonneg (u - 1 / 2))]
  · constructor <;> nlinarith
  · constructor <;> nlinarith
  · norm_num

theorem abs_coef_le (n m : ℕ) (h2 : 2 ≤ n) (h4 : n ≤ 4) (hm : m ≤ n) :
    |cf n m| + |sf n m| ≤ coefBound n m := by
  have key : ∀ (c s f y b : ℝ), 0 ≤ f → 0 ≤ y → f ≤ y ^ 2 → (|c| + |s|) * y ≤ b →
      |c * Real.sqrt f| + |s * Real.sqrt f| ≤ b := by
    intro c s f y b h0 hy h hb
    have h1 : Real.sqrt f ≤ y := Real.sqrt_le_iff.mpr ⟨hy, h⟩
    rw [abs_mul, abs_mul, abs_of_nonneg (Real.sqrt_nonneg f), ← add_mul]
    exact (mul_le_mul_of_nonneg_left h1 (by positivity)).trans hb
  have e : ∀ n m : ℕ, |cf n m| + |sf n m| = |Cbar n m * normFactor n m| + |Sbar n m * normFactor n m| := fun _ _ => rfl
  rw [e]
  unfold normFactor
  interval_cases n <;> interval_cases m
  · refine key _ _ _ 2.2362 _ ?_ (by norm_num) ?_ ?_ <;> norm_num [Cbar, Sbar, coefBound, abs_of_neg, Nat.factorial, abs_div]
  · refine key _ _ _ 1.3 _ ?_ (by norm_num) ?_ ?_ <;> norm_num [Cbar, Sbar, coefBound, abs_of_neg, Nat.factorial, abs_div]
  · refine key _ _ _ 0.65 _ ?_ (by norm_num) ?_ ?_ <;> norm_num [Cbar, Sbar, coefBound, abs_of_neg, Nat.factorial, abs_div]
  · refine key _ _ _ 2.65 _ ?_ (by norm_num) ?_ ?_ <;> norm_num [Cbar, Sbar, coefBound, abs_of_neg, Nat.factorial, abs_div]
  · refine key _ _ _ 1.09 _ ?_ (by norm_num) ?_ ?_ <;> norm_num [Cbar, Sbar, coefBound, abs_of_neg, Nat.factorial, abs_div]
  · refine key _ _ _ 0.342 _ ?_ (by norm_num) ?_ ?_ <;> norm_num [Cbar, Sbar, coefBound, abs_of_neg, Nat.factorial, abs_div]
  · refine key _ _ _ 0.14 _ ?_ (by norm_num) ?_ ?_ <;> norm_num [Cbar, Sbar, coefBound, abs_of_neg, Nat.factorial, abs_div]
  · refine key _ _ _ 3 _ ?_ (by norm_num) ?_ ?_ <;> norm_num [Cbar, Sbar, coefBound, abs_of_neg, Nat.factorial, abs_div]
  · refine key _ _ _ 0.95 _ ?_ (by norm_num) ?_ ?_ <;> norm_num [Cbar, Sbar, coefBound, abs_of_neg, Nat.factorial, abs_div]
  · refine key _ _ _ 0.224 _ ?_ (by norm_num) ?_ ?_ <;> norm_num [Cbar, Sbar, coefBound, abs_of_neg, Nat.factorial, abs_div]
  · refine key _ _ _ 0.06 _ ?_ (by norm_num) ?_ ?_ <;> norm_num [Cbar, Sbar, coefBound, abs_of_neg, Nat.factorial, abs_div]
  · refine key _ _ _ 0.0212 _ ?_ (by norm_num) ?_ ?_ <;> norm_num [Cbar, Sbar, coefBound, abs_of_neg, Nat.factorial, abs_div]

theorem abs_trig_le (c s x : ℝ) : |c * Real.cos x + s * Real.sin x| ≤ |c| + |s| := by
  refine (abs_add_le _ _).trans ?_
  rw [abs_mul, abs_mul]
  exact add_le_add (mul_le_of_le_one_right (abs_nonneg _) (Real.abs_cos_le_one x))
    (mul_le_of_le_one_right (abs_nonneg _) (Real.abs_sin_le_one x))

theorem abs_trig_le' (c s x : ℝ) : |s * Real.cos x - c * Real.sin x| ≤ |c| + |s| := by
  have := abs_trig_le s (-c) x
  rw [abs_neg] at this
  rw [show s * Real.cos x - c * Real.sin x = s * Real.cos x + -c * Real.sin x by ring]
  linarith

theorem gterm_r_le (ra dec : ℝ) {q : ℝ} (hq : 0 ≤ q) (n m : ℕ) (h2 : 2 ≤ n) (h4 : n ≤ 4) (hm : m ≤ n) :
    |(gterm ra dec q n m).r| ≤ q ^ n * ((n + 1) * legBound n m * coefBound n m) := by
  have h1 := abs_legendreDeriv_le n m h2 h4 (by omega) (Real.abs_sin_le_one dec)
  have h3 := (abs_trig_le (cf n m) (sf n m) (m * ra)).trans (abs_coef_le n m h2 h4 hm)
  have h5 : |Real.cos dec ^ m| ≤ 1 := by
    rw [abs_pow]; exact pow_le_one₀ (abs_nonneg _) (Real.abs_cos_le_one dec)
  have h6 : |assocLegendre n m dec| ≤ legBound n m := by
    rw [assocLegendre, abs_mul]
    calc _ ≤ 1 * legBound n m := mul_le_mul h5 h1 (abs_nonneg _) zero_le_one
      _ = _ := one_mul _
  simp only [gterm]
  rw [abs_mul, abs_mul, abs_of_nonneg (by positivity : (0 : ℝ) ≤ q ^ n * (n + 1))]
  calc _ ≤ q ^ n * (n + 1) * legBound n m * coefBound n m :=
        mul_le_mul (mul_le_mul_of_nonneg_left h6 (by positivity)) h3 (abs_nonneg _)
          (mul_nonneg (by positivity) (legBound_nonneg _ _))
    _ = _ := by ring

theorem gterm_phi_le (ra : ℝ) {dec q : ℝ} (hC : Real.cos dec ≠ 0) (hq : 0 ≤ q) (n m : ℕ) (h2 : 2 ≤ n) (h4 : n ≤ 4)
    (hm : m ≤ n) :
    |(gterm ra dec q n m).phi| ≤ q ^ n * ((legBound n (m + 1) + m * legBound n m) * coefBound n m) := by
  have h1 := abs_legendreDeriv_le n m h2 h4 (by omega) (Real.abs_sin_le_one dec)
  have h1' := abs_legendreDeriv_le n (m + 1) h2 h4 (by omega) (Real.abs_sin_le_one dec)
  have h3 := (abs_trig_le (cf n m) (sf n m) (m * ra)).trans (abs_coef_le n m h2 h4 hm)
  have h5 : ∀ k : ℕ, |Real.cos dec ^ k| ≤ 1 := fun k => by
    rw [abs_pow]; exact pow_le_one₀ (abs_nonneg _) (Real.abs_cos_le_one dec)
  have h6 : |assocLegendre n (m + 1) dec - m * Real.tan dec * assocLegendre n m dec| ≤
      legBound n (m + 1) + m * legBound n m := by
    refine (abs_sub _ _).trans (add_le_add ?_ ?_)
    · rw [assocLegendre, abs_mul]
      calc _ ≤ 1 * legBound n (m + 1) := mul_le_mul (h5 _) h1' (abs_nonneg _) zero_le_one
        _ = _ := one_mul _
    · cases m with
      | zero => simp
      | succ k =>
        have e : ((k + 1 : ℕ) : ℝ) * Real.tan dec * assocLegendre n (k + 1) dec =
            ((k + 1 : ℕ) : ℝ) * ((Real.sin dec * Real.cos dec ^ k) * legendreDeriv n (k + 1) (Real.sin dec)) := by
          rw [assocLegendre, Real.tan_eq_sin_div_cos]; field_simp; ring
        rw [e, abs_mul, abs_of_nonneg (by positivity : (0 : ℝ) ≤ ((k + 1 : ℕ) : ℝ)), abs_mul, abs_mul]
        refine mul_le_mul_of_nonneg_left ?_ (by positivity)
        calc _ ≤ 1 * 1 * legBound n (k + 1) := mul_le_mul
              (mul_le_mul (Real.abs_sin_le_one _) (h5 _) (abs_nonneg _) zero_le_one) h1 (abs_nonneg _) (by norm_num)
          _ = _ := by ring
  simp only [gterm]
  rw [abs_mul, abs_mul, abs_of_nonneg (by positivity : (0 : ℝ) ≤ q ^ n), mul_assoc]
  refine mul_le_mul_of_nonneg_left (mul_le_mul h6 h3 (abs_nonneg _) ?_) (by positivity)
  exact add_nonneg (legBound_nonneg _ _) (mul_nonneg (by positivity) (legBound_nonneg _ _))

theorem gterm_lamb_le (ra : ℝ) {dec q : ℝ} (hq : 0 ≤ q) (n m : ℕ) (h2 : 2 ≤ n) (h4 : n ≤ 4)
    (hm : m ≤ n) :
    |(gterm ra dec q n m).lamb| ≤ |Real.cos dec| * (q ^ n * (m * legBound n m * coefBound n m)) := by
  have h1 := abs_legendreDeriv_le n m h2 h4 (by omega) (Real.abs_sin_le_one dec)
  have h3 := (abs_trig_le' (cf n m) (sf n m) (m * ra)).trans (abs_coef_le n m h2 h4 hm)
  have h5 : ∀ k : ℕ, |Real.cos dec ^ k| ≤ 1 := fun k => by
    rw [abs_pow]; exact pow_le_one₀ (abs_nonneg _) (Real.abs_cos_le_one dec)
  simp only [gterm]
  cases m with
  | zero => simp
  | succ k =>
    have h6 : |assocLegendre n (k + 1) dec| ≤ |Real.cos dec| * legBound n (k + 1) := by
      rw [assocLegendre, pow_succ', abs_mul, abs_mul, mul_assoc]
      refine mul_le_mul_of_nonneg_left ?_ (abs_nonneg _)
      calc _ ≤ 1 * legBound n (k + 1) := mul_le_mul (h5 _) h1 (abs_nonneg _) zero_le_one
        _ = _ := one_mul _
    rw [abs_mul, abs_mul, abs_of_nonneg (by positivity : (0 : ℝ) ≤ q ^ n * ((k + 1 : ℕ) : ℝ))]
    calc _ ≤ q ^ n * ((k + 1 : ℕ) : ℝ) * (|Real.cos dec| * legBound n (k + 1)) * coefBound n (k + 1) :=
          mul_le_mul (mul_le_mul_of_nonneg_left h6 (by positivity)) h3 (abs_nonneg _)
            (mul_nonneg (by positivity) (mul_nonneg (abs_nonneg _) (legBound_nonneg _ _)))
      _ = _ := by ring

theorem abs_gsum_le (f g : ℕ → ℕ → ℝ) (h : ∀ n m, 2 ≤ n → n ≤ 4 → m ≤ n → |f n m| ≤ g n m) :
    |gsum f| ≤ gsum g := by
  refine (Finset.abs_sum_le_sum_abs _ _).trans (Finset.sum_le_sum fun n hn => ?_)
  obtain ⟨h2, h4⟩ := Finset.mem_Icc.mp hn
  refine (Finset.abs_sum_le_sum_abs _ _).trans (Finset.sum_le_sum fun m hm => ?_)
  exact h n m h2 h4 (by have := Finset.mem_range.mp hm; omega)

section sums
variable {q : ℝ} (hq : 0 ≤ q) (hq' : q ≤ 1.28)
include hq hq'

theorem powers_le : q ^ 2 ≤ 1.64 ∧ q ^ 3 ≤ 2.1 ∧ q ^ 4 ≤ 2.69 := by
  refine ⟨(pow_le_pow_left₀ hq hq' 2).trans (by norm_num), (pow_le_pow_left₀ hq hq' 3).trans (by norm_num),
    (pow_le_pow_left₀ hq hq' 4).trans (by norm_num)⟩

theorem gsum_r_le (ra dec : ℝ) : |gsum fun n m => (gterm ra dec q n m).r| ≤ 6.4e-3 := by
  obtain ⟨p2, p3, p4⟩ := powers_le hq hq'
  refine (abs_gsum_le _ _ fun n m h2 h4 hm => gterm_r_le ra dec hq n m h2 h4 hm).trans ?_
  rw [gsum_eq]
  simp only [Finset.sum_range_succ, Finset.sum_range_zero, legBound, coefBound]
  norm_num at p2 p3 p4 ⊢
  linarith

theorem gsum_phi_le (ra : ℝ) {dec : ℝ} (hC : Real.cos dec ≠ 0) :
    |gsum fun n m => (gterm ra dec q n m).phi| ≤ 6.4e-3 := by
  obtain ⟨p2, p3, p4⟩ := powers_le hq hq'
  refine (abs_gsum_le _ _ fun n m h2 h4 hm => gterm_phi_le ra hC hq n m h2 h4 hm).trans ?_
  rw [gsum_eq]
  simp only [Finset.sum_range_succ, Finset.sum_range_zero, legBound, coefBound]
  norm_num at p2 p3 p4 ⊢
  linarith

theorem gsum_lamb_le (ra dec : ℝ) :
    |gsum fun n m => (gterm ra dec q n m).lamb| ≤ |Real.cos dec| * 4e-4 := by
  obtain ⟨p2, p3, p4⟩ := powers_le hq hq'
  refine (abs_gsum_le _ _ fun n m h2 h4 hm => gterm_lamb_le ra hq n m h2 h4 hm).trans ?_
  have : (gsum fun n m => |Real.cos dec| * (q ^ n * (m * legBound n m * coefBound n m))) =
      |Real.cos dec| * gsum fun n m => q ^ n * (m * legBound n m * coefBound n m) := by
    simp only [gsum, Finset.mul_sum]
  rw [this]
  refine mul_le_mul_of_nonneg_left ?_ (abs_nonneg _)
  rw [gsum_eq]
  simp only [Finset.sum_range_succ, Finset.sum_range_zero, legBound, coefBound]
  norm_num at p2 p3 p4 ⊢
  linarith

end sums

/-- the body-fixed perturbation is at most a hundredth of the central attraction from 5000 km outward -/
theorem gravityItrf_bound (ecef : Vec3) {d : ℝ} (hd : 5000 ≤ d) (hxy : 0 < ecef.x * ecef.x + ecef.y * ecef.y)
    (h1 : d ≤ ecef.magnitude) (h2 : ecef.magnitude ≤ (1 + 5.5e-9) * d) :
    ∃ g, gravityItrf ecef d = .ok g ∧ g.magnitude ≤ 0.0095 * (Earth.MU / d ^ 2) := by
  have hd0 : 0 < d := by linarith
  refine ⟨_, gravityItrf_eq ecef hd0 hxy, ?_⟩
  have hC : Real.cos (SphericalPosition.fromCartesian ecef).declination ≠ 0 := by
    intro h
    have := mag_mul_cos_dec ecef
    rw [h, mul_zero] at this
    exact (Real.sqrt_pos.mpr hxy).ne this
  have hq0 : 0 ≤ Earth.RADIUS / d := div_nonneg (by norm_num [Earth.RADIUS]) hd0.le
  have hq1 : Earth.RADIUS / d ≤ 1.28 := by
    rw [div_le_iff₀ hd0]; norm_num [Earth.RADIUS]; linarith
  have hr := gsum_r_le hq0 hq1 (SphericalPosition.fromCartesian ecef).right_ascension
    (SphericalPosition.fromCartesian ecef).declination
  have hp := gsum_phi_le hq0 hq1 (SphericalPosition.fromCartesian ecef).right_ascension hC
  have hl := gsum_lamb_le hq0 hq1 (SphericalPosition.fromCartesian ecef).right_ascension
    (SphericalPosition.fromCartesian ecef).declination
  obtain ⟨sr, esr⟩ : ∃ x, x = gsum fun n m => (gterm (SphericalPosition.fromCartesian ecef).right_ascension
    (SphericalPosition.fromCartesian ecef).declination (Earth.RADIUS / d) n m).r := ⟨_, rfl⟩
  obtain ⟨sp, esp⟩ : ∃ x, x = gsum fun n m => (gterm (SphericalPosition.fromCartesian ecef).right_ascension
    (SphericalPosition.fromCartesian ecef).declination (Earth.RADIUS / d) n m).phi := ⟨_, rfl⟩
  obtain ⟨sl, esl⟩ : ∃ x, x = gsum fun n m => (gterm (SphericalPosition.fromCartesian ecef).right_ascension
    (SphericalPosition.fromCartesian ecef).declination (Earth.RADIUS / d) n m).lamb := ⟨_, rfl⟩
  rw [← esr] at hr; rw [← esp] at hp; rw [← esl] at hl
  rw [← esr, ← esp, ← esl]
  have hMU : 0 < Earth.MU := by norm_num [Earth.MU]
  obtain ⟨M, hM⟩ : ∃ M, M = Earth.MU / d ^ 2 := ⟨_, rfl⟩
  have hM0 : 0 < M := by rw [hM]; positivity
  rw [← hM]
  obtain ⟨k, hk⟩ : ∃ k, k = ecef.magnitude / d := ⟨_, rfl⟩
  have hk1 : 1 ≤ k := by rw [hk, le_div_iff₀ hd0]; linarith
  have hk2 : k ≤ 1 + 5.5e-9 := by rw [hk, div_le_iff₀ hd0]; exact h2
  rw [← hk]
  refine (pow_le_pow_iff_left₀ (Vec3.magnitude_nonneg _) (by positivity) two_ne_zero).mp ?_
  rw [fieldVec_sq]
  obtain ⟨e, he⟩ : ∃ e, e = sl / Real.cos (SphericalPosition.fromCartesian ecef).declination := ⟨_, rfl⟩
  have heb : |e| ≤ 4e-4 := by
    rw [he, abs_div, div_le_iff₀ (abs_pos.mpr hC), mul_comm]; exact hl
  have e1 : M / Real.cos (SphericalPosition.fromCartesian ecef).declination * sl = M * e := by rw [he]; ring
  rw [e1]
  have a1 : sr ^ 2 ≤ 6.4e-3 ^ 2 := sq_le_sq' (by linarith [(abs_le.mp hr).1]) (abs_le.mp hr).2
  have a2 : sp ^ 2 ≤ 6.4e-3 ^ 2 := sq_le_sq' (by linarith [(abs_le.mp hp).1]) (abs_le.mp hp).2
  have a3 : e ^ 2 ≤ 4e-4 ^ 2 := sq_le_sq' (by linarith [(abs_le.mp heb).1]) (abs_le.mp heb).2
  have k1 : k ^ 2 ≤ 1.0000001 := (pow_le_pow_left₀ (by linarith) hk2 2).trans (by norm_num)
  have k2 : (k⁻¹) ^ 2 ≤ 1 := pow_le_one₀ (by positivity) (inv_le_one_of_one_le₀ hk1)
  have b1 : k ^ 2 * (sr ^ 2 + sp ^ 2) ≤ 1.0000001 * (6.4e-3 ^ 2 + 6.4e-3 ^ 2) :=
    mul_le_mul k1 (add_le_add a1 a2) (by positivity) (by norm_num)
  have b2 : (k⁻¹) ^ 2 * e ^ 2 ≤ 1 * 4e-4 ^ 2 := mul_le_mul k2 a3 (by positivity) (by norm_num)
  calc k ^ 2 * ((-M * sr) ^ 2 + (M * sp) ^ 2) + (k⁻¹) ^ 2 * (M * e) ^ 2
      = M ^ 2 * (k ^ 2 * (sr ^ 2 + sp ^ 2) + (k⁻¹) ^ 2 * e ^ 2) := by ring
    _ ≤ M ^ 2 * (1.0000001 * (6.4e-3 ^ 2 + 6.4e-3 ^ 2) + 1 * 4e-4 ^ 2) := by
        apply mul_le_mul_of_nonneg_left (add_le_add b1 b2) (by positivity)
    _ ≤ M ^ 2 * 0.0095 ^ 2 := by
        apply mul_le_mul_of_nonneg_left _ (by positivity); norm_num
    _ = _ := by ring

end Openspace
