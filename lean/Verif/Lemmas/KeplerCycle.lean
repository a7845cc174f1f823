import Verif.Lemmas.Kepler
import Mathlib.Analysis.SpecialFunctions.Trigonometric.Deriv
import Mathlib.Analysis.Calculus.Deriv.Prod
import Mathlib.Analysis.SpecificLimits.Basic

/-!
# Newton's method for Kepler's equation from any starting value

It converges for small eccentricities; for larger ones it has attracting cycles.
-/

namespace Openspace

open Real Filter Topology

/-! ## small eccentricities -/

section
variable {e : ℝ} (he : 0 ≤ e) (he' : e < 1)
include he he'

theorem newton_step_le (M E : ℝ) : |newton e M E - E| ≤ |kepler e E - M| / (1 - e) := by
  have hp := kepler_deriv_pos he he' E
  have hg := kepler_deriv_ge he he' E
  have e1 : newton e M E - E = -(kepler e E - M) / (1 - e * cos E) := by unfold newton kepler; ring
  rw [e1, abs_div, abs_neg, abs_of_pos hp]
  exact div_le_div_of_nonneg_left (abs_nonneg _) (by linarith) hg

theorem newton_stops_small (hs : e < 1 / 2) (M : ℝ) : NewtonStops e M (keplerStart M e) := by
  obtain ⟨E0, hE0⟩ : ∃ E0, E0 = keplerStart M e := ⟨_, rfl⟩
  rw [← hE0]
  have h0 : |kepler e E0 - M| ≤ 2 * e := by
    have h1 := neg_one_le_sin E0
    have h2 := sin_le_one E0
    have : E0 = M - e ∨ E0 = M + e := by
      rw [hE0]; unfold keplerStart; split_ifs <;> simp
    unfold kepler
    rw [abs_le]
    rcases this with h | h
    · constructor <;> nlinarith
    · constructor <;> nlinarith
  obtain ⟨q, hq⟩ : ∃ q, q = (e / (1 - e)) ^ 2 := ⟨_, rfl⟩
  have hq0 : 0 ≤ q := by rw [hq]; positivity
  have hq1 : q < 1 := by
    rw [hq, sq_lt_one_iff₀ (div_nonneg he (by linarith)), div_lt_one (by linarith)]
    linarith
  have key : ∀ n, |kepler e ((newton e M)^[n] E0) - M| ≤ 2 * e * q ^ n := by
    intro n
    induction n with
    | zero => simpa using h0
    | succ n ih =>
      rw [Function.iterate_succ_apply']
      obtain ⟨E, hE⟩ : ∃ E, E = (newton e M)^[n] E0 := ⟨_, rfl⟩
      rw [← hE] at ih ⊢
      have h1 := newton_residual he he' M E
      have h2 := newton_step_le he he' M E
      obtain ⟨r, hr⟩ : ∃ r, r = |kepler e E - M| := ⟨_, rfl⟩
      rw [← hr] at ih h2
      have hr0 : 0 ≤ r := by rw [hr]; exact abs_nonneg _
      have hr2 : r ≤ 2 * e := ih.trans (mul_le_of_le_one_right (by linarith) (pow_le_one₀ hq0 hq1.le))
      have h3 : (newton e M E - E) ^ 2 ≤ (r / (1 - e)) ^ 2 := by
        rw [← sq_abs]; gcongr
      calc _ ≤ e * (newton e M E - E) ^ 2 / 2 := h1
        _ ≤ e * (r / (1 - e)) ^ 2 / 2 := by gcongr
        _ = e * r * r / (2 * (1 - e) ^ 2) := by
          have : (1 - e) ≠ 0 := by linarith
          field_simp
        _ ≤ e * (2 * e) * r / (2 * (1 - e) ^ 2) := by gcongr
        _ = q * r := by
          have : (1 - e) ≠ 0 := by linarith
          rw [hq]; field_simp
        _ ≤ q * (2 * e * q ^ n) := by gcongr
        _ = _ := by ring
  have hlim : Tendsto (fun n : ℕ => 2 * e * q ^ n / (1 - e)) atTop (𝓝 (2 * e * 0 / (1 - e))) :=
    ((tendsto_pow_atTop_nhds_zero_of_lt_one hq0 hq1).const_mul _).div_const _
  rw [mul_zero, zero_div] at hlim
  obtain ⟨n, hn⟩ := (hlim.eventually (gt_mem_nhds tol_pos)).exists
  refine ⟨n, lt_of_le_of_lt ?_ hn⟩
  rw [Function.iterate_succ_apply']
  refine (newton_step_le he he' M _).trans ?_
  exact div_le_div_of_nonneg_right (key n) (by linarith)

omit he he' in
theorem newton_iterate_shift (e M E : ℝ) (k : ℤ) (n : ℕ) :
    (newton e (M + 2 * π * k))^[n] (E + 2 * π * k) = (newton e M)^[n] E + 2 * π * k := by
  induction n with
  | zero => rfl
  | succ n ih =>
    rw [Function.iterate_succ_apply', Function.iterate_succ_apply', ih]
    obtain ⟨x, hx⟩ : ∃ x, x = (newton e M)^[n] E := ⟨_, rfl⟩
    rw [← hx]
    unfold newton
    have h1 : sin (x + 2 * π * k) = sin x := by
      rw [mul_comm (2 * π)]; exact sin_add_int_mul_two_pi x k
    have h2 : cos (x + 2 * π * k) = cos x := by
      rw [mul_comm (2 * π)]; exact cos_add_int_mul_two_pi x k
    rw [h1, h2]; ring_nf

/-- the starting value is right in the second half of every turn (counted away from zero) -/
theorem newton_stops_half (k : ℕ) {M : ℝ}
    (h : (2 * π * k + π < M ∧ M ≤ 2 * π * k + 2 * π) ∨ (-(2 * π * k) - 2 * π ≤ M ∧ M < -(2 * π * k) - π)) :
    NewtonStops e M (keplerStart M e) := by
  have hpi := pi_pos
  have hk : (0 : ℝ) ≤ k := k.cast_nonneg
  have hk' : 0 ≤ 2 * π * k := by positivity
  rcases h with ⟨h1, h2⟩ | ⟨h1, h2⟩
  · obtain ⟨⟨n, hn⟩, -⟩ := newton_all he he' (M := M - 2 * π * k) (by linarith) (by linarith)
    refine ⟨n, ?_⟩
    have s1 : keplerStart (M - 2 * π * k) e = M - 2 * π * k - e := by
      unfold keplerStart pyPi; rw [if_pos (Or.inr (by linarith))]
    have s2 : keplerStart M e = M - 2 * π * k - e + 2 * π * (k : ℤ) := by
      unfold keplerStart pyPi; rw [if_pos (Or.inr (by linarith))]; push_cast; ring
    have s3 : M = M - 2 * π * k + 2 * π * (k : ℤ) := by push_cast; ring
    rw [s1] at hn
    rw [s2]
    generalize M - 2 * π * k = M' at *
    subst s3
    rw [newton_iterate_shift, newton_iterate_shift]
    convert hn using 2; ring
  · obtain ⟨⟨n, hn⟩, -⟩ := newton_all he he' (M := M + 2 * π * k) (by linarith) (by linarith)
    refine ⟨n, ?_⟩
    have s1 : keplerStart (M + 2 * π * k) e = M + 2 * π * k + e := by
      unfold keplerStart pyPi; rw [if_neg]; rintro (h3 | h3) <;> linarith
    have s2 : keplerStart M e = M + 2 * π * k + e + 2 * π * (-k : ℤ) := by
      unfold keplerStart pyPi; rw [if_neg]
      · push_cast; ring
      · rintro (h3 | h3) <;> linarith
    have s3 : M = M + 2 * π * k + 2 * π * (-k : ℤ) := by push_cast; ring
    rw [s1] at hn
    rw [s2]
    generalize M + 2 * π * k = M' at *
    subst s3
    rw [newton_iterate_shift, newton_iterate_shift]
    convert hn using 2; ring

end

/-! ## the cycle -/

theorem exists_cycle : ∃ D : ℝ, 2 * π < D ∧ D < 5 * π / 2 ∧ D * cos D = 1 + sin D := by
  have hpi := pi_gt_three
  have hc : ContinuousOn (fun D : ℝ => D * cos D - (1 + sin D)) (Set.Icc (2 * π) (5 * π / 2)) := by fun_prop
  have h52c : cos (5 * π / 2) = 0 := by
    rw [show 5 * π / 2 = π / 2 + 2 * π by ring, cos_add_two_pi, cos_pi_div_two]
  have h52s : sin (5 * π / 2) = 1 := by
    rw [show 5 * π / 2 = π / 2 + 2 * π by ring, sin_add_two_pi, sin_pi_div_two]
  obtain ⟨D, ⟨h1, h2⟩, hD⟩ := intermediate_value_Icc' (by linarith) hc
    (show (0 : ℝ) ∈ Set.Icc _ _ by
      constructor
      · simp only [h52c, h52s]; norm_num
      · simp only [cos_two_pi, sin_two_pi]; linarith)
  simp only at hD
  refine ⟨D, lt_of_le_of_ne h1 ?_, lt_of_le_of_ne h2 ?_, by linarith⟩
  · rintro rfl
    rw [cos_two_pi, sin_two_pi] at hD; linarith
  · rintro rfl
    rw [h52c, h52s] at hD; norm_num at hD

/-- Newton's step as a function of eccentricity, mean anomaly and iterate -/
noncomputable def newton3 (p : ℝ × ℝ × ℝ) : ℝ := newton p.1 p.2.1 p.2.2

theorem newton3_differentiable {p : ℝ × ℝ × ℝ} (h : 1 - p.1 * cos p.2.2 ≠ 0) : DifferentiableAt ℝ newton3 p := by
  unfold newton3 newton
  fun_prop (disch := assumption)

/-- near a point the map is Lipschitz, relative to that point -/
theorem newton3_lipschitz {p : ℝ × ℝ × ℝ} (h : 1 - p.1 * cos p.2.2 ≠ 0) :
    ∃ B d : ℝ, 0 < B ∧ 0 < d ∧ ∀ q, ‖q - p‖ ≤ d → |newton3 q - newton3 p| ≤ B * ‖q - p‖ := by
  obtain ⟨B, hB, hO⟩ := (newton3_differentiable h).isBigO_sub.exists_pos
  rw [Asymptotics.IsBigOWith] at hO
  obtain ⟨d, hd, hball⟩ := Metric.eventually_nhds_iff.mp hO
  refine ⟨B, d / 2, hB, by linarith, fun q hq => ?_⟩
  have := hball (y := q) (by rw [dist_eq_norm]; linarith)
  simpa [Real.norm_eq_abs] using this

/-- at the first point of the cycle the map does not depend on the iterate, to first order -/
theorem newton3_flat {e M x : ℝ} (h : 1 - e * cos x ≠ 0) (hs : sin x = 0) (c : ℝ) (hc : 0 < c) :
    ∃ A d : ℝ, 0 < A ∧ 0 < d ∧ ∀ q : ℝ × ℝ × ℝ, ‖q - (e, M, x)‖ ≤ d →
      |newton3 q - newton3 (e, M, x)| ≤ A * max |q.1 - e| |q.2.1 - M| + c * ‖q - (e, M, x)‖ := by
  have hdiff := (newton3_differentiable (p := (e, M, x)) h).hasFDerivAt
  obtain ⟨L, hL⟩ : ∃ L, L = fderiv ℝ newton3 (e, M, x) := ⟨_, rfl⟩
  rw [← hL] at hdiff
  -- the derivative along the iterate vanishes
  have hline : HasDerivAt (fun y : ℝ => newton3 (e, M, y)) (L (0, 0, 1)) x := by
    have h1 : HasDerivAt (fun y : ℝ => ((e, M, y) : ℝ × ℝ × ℝ)) (0, 0, 1) x :=
      (hasDerivAt_const x e).prodMk ((hasDerivAt_const x M).prodMk (hasDerivAt_id x))
    exact hdiff.comp_hasDerivAt x h1
  have hzero : HasDerivAt (fun y : ℝ => newton3 (e, M, y)) 0 x := by
    have h1 : HasDerivAt (fun y : ℝ => y + (M - y + e * sin y) / (1 - e * cos y))
        (1 + ((0 - 1 + e * cos x) * (1 - e * cos x) - (M - x + e * sin x) * (0 - e * (-sin x))) / (1 - e * cos x) ^ 2) x :=
      (hasDerivAt_id x).add (((((hasDerivAt_const x M).sub (hasDerivAt_id x)).add ((hasDerivAt_sin x).const_mul e))).div
        ((hasDerivAt_const x (1 : ℝ)).sub ((hasDerivAt_cos x).const_mul e)) h)
    have h2 : 1 + ((0 - 1 + e * cos x) * (1 - e * cos x) - (M - x + e * sin x) * (0 - e * (-sin x))) /
        (1 - e * cos x) ^ 2 = 0 := by
      rw [hs]; field_simp; ring
    rw [h2] at h1
    exact h1
  have hL1 : L (0, 0, 1) = 0 := hline.unique hzero
  have ho := hdiff.isLittleO.def hc
  obtain ⟨d, hd, hball⟩ := Metric.eventually_nhds_iff.mp ho
  refine ⟨‖L‖ + 1, d / 2, by positivity, by linarith, fun q hq => ?_⟩
  have h1 := hball (y := q) (by rw [dist_eq_norm]; linarith)
  have h2 : L (q - (e, M, x)) = L (q.1 - e, q.2.1 - M, 0) := by
    have : q - (e, M, x) = (q.1 - e, q.2.1 - M, 0) + (q.2.2 - x) • ((0, 0, 1) : ℝ × ℝ × ℝ) := by
      ext <;> simp
    rw [this, map_add, map_smul, hL1, smul_zero, add_zero]
  have h3 : |L (q - (e, M, x))| ≤ ‖L‖ * max |q.1 - e| |q.2.1 - M| := by
    rw [h2]
    refine (L.le_opNorm _).trans ?_
    gcongr
    rw [Prod.norm_def, Prod.norm_def]
    simp only [Real.norm_eq_abs, abs_zero]
    exact max_le (le_max_left _ _) (max_le (le_max_right _ _) (le_max_of_le_left (abs_nonneg _)))
  rw [Real.norm_eq_abs] at h1
  have h4 : newton3 q - newton3 (e, M, x) =
      (newton3 q - newton3 (e, M, x) - L (q - (e, M, x))) + L (q - (e, M, x)) := by ring
  rw [h4]
  refine (abs_add_le _ _).trans ?_
  have h5 : 0 ≤ max |q.1 - e| |q.2.1 - M| := le_max_of_le_left (abs_nonneg _)
  linarith

/-- near the cycle every perturbed run of Newton's method jumps to and fro for ever -/
theorem cycle_attracts : ∃ e₀ M₀ ε : ℝ, 0 < ε ∧ ε ≤ 1 / 100 ∧ 86 / 100 < e₀ ∧ e₀ < 89 / 100 ∧ M₀ = 2 * π + e₀ ∧
    ∀ e M : ℝ, |e - e₀| ≤ ε → |M - M₀| ≤ ε → ∀ E : ℕ → ℝ, |E 0 - (M - e)| ≤ ε →
      (∀ k, |E (k + 1) - newton e M (E k)| ≤ ε) → ∀ k, 1 ≤ |E (k + 1) - E k| := by
  obtain ⟨D, hD1, hD2, hD⟩ := exists_cycle
  have hpi := pi_gt_three
  have hpi' := pi_gt_d2
  have hpi'' := pi_lt_d2
  obtain ⟨e₀, he₀⟩ : ∃ e₀, e₀ = D / (1 + D) := ⟨_, rfl⟩
  have hDp : 0 < 1 + D := by linarith
  have heD : e₀ * (1 + D) = D := by rw [he₀]; field_simp
  have e1 : 86 / 100 < e₀ := by rw [he₀, lt_div_iff₀ hDp]; linarith
  have e2 : e₀ < 89 / 100 := by rw [he₀, div_lt_iff₀ hDp]; linarith
  have hden : ∀ x, 1 - e₀ * cos x ≠ 0 := fun x => (kepler_deriv_pos (by linarith) (by linarith) x).ne'
  obtain ⟨M₀, hM₀⟩ : ∃ M₀, M₀ = 2 * π + e₀ := ⟨_, rfl⟩
  have n1 : newton3 (e₀, M₀, 2 * π) = 2 * π + D := by
    simp only [newton3, newton, sin_two_pi, cos_two_pi, hM₀]
    have : 1 - e₀ ≠ 0 := by linarith
    field_simp
    linear_combination heD
  have n2 : newton3 (e₀, M₀, 2 * π + D) = 2 * π := by
    have hs : sin (2 * π + D) = sin D := by rw [add_comm, sin_add_two_pi]
    have hc : cos (2 * π + D) = cos D := by rw [add_comm, cos_add_two_pi]
    have hd := hden D
    simp only [newton3, newton, hs, hc, hM₀]
    field_simp
    linear_combination (-e₀) * hD
  obtain ⟨B, d1, hB, hd1, hlip⟩ := newton3_lipschitz (p := (e₀, M₀, 2 * π + D)) (hden _)
  obtain ⟨A, d0, hA, hd0, hflat⟩ := newton3_flat (e := e₀) (M := M₀) (x := 2 * π) (hden _) sin_two_pi
    (1 / (2 * B)) (by positivity)
  rw [n1] at hflat
  rw [n2] at hlip
  -- the radii
  obtain ⟨δ, hδ, hδ0, hδ1, hδ2, hδ3⟩ : ∃ δ : ℝ, 0 < δ ∧ δ ≤ d0 ∧ δ ≤ 1 ∧ δ ≤ B * d1 ∧ δ ≤ B :=
    ⟨min (min d0 1) (min (B * d1) B), by positivity, (min_le_left _ _).trans (min_le_left _ _),
      (min_le_left _ _).trans (min_le_right _ _), (min_le_right _ _).trans (min_le_left _ _),
      (min_le_right _ _).trans (min_le_right _ _)⟩
  have hcδ1 : 1 / (2 * B) * δ ≤ d1 / 2 := by
    rw [div_mul_eq_mul_div, one_mul, div_le_iff₀ (by positivity)]; linarith
  have hcδ2 : 1 / (2 * B) * δ ≤ 1 / 2 := by
    rw [div_mul_eq_mul_div, one_mul, div_le_iff₀ (by positivity)]; linarith
  have hBc : B * (1 / (2 * B) * δ) = δ / 2 := by field_simp
  obtain ⟨ε, hε, hε1, hε2, hε3, hε4, hε5, hε6⟩ : ∃ ε : ℝ, 0 < ε ∧ ε ≤ 1 / 100 ∧ 3 * ε ≤ δ ∧ ε ≤ d1 ∧
      (A + 1) * ε ≤ d1 / 2 ∧ (A + 1) * ε ≤ 1 / 2 ∧ (B * (A + 2) + 1) * ε ≤ δ / 2 := by
    refine ⟨min (min (1 / 100) (δ / 3)) (min d1 (min (d1 / 2 / (A + 1)) (min (1 / 2 / (A + 1))
      (δ / 2 / (B * (A + 2) + 1))))), by positivity, ?_, ?_, ?_, ?_, ?_, ?_⟩
    · exact (min_le_left _ _).trans (min_le_left _ _)
    · have := (min_le_left (min (1 / 100) (δ / 3)) (min d1 (min (d1 / 2 / (A + 1)) (min (1 / 2 / (A + 1))
        (δ / 2 / (B * (A + 2) + 1)))))).trans (min_le_right _ _)
      linarith
    · exact (min_le_right _ _).trans (min_le_left _ _)
    · rw [mul_comm, ← le_div_iff₀ (by positivity)]
      exact (min_le_right _ _).trans ((min_le_right _ _).trans (min_le_left _ _))
    · rw [mul_comm, ← le_div_iff₀ (by positivity)]
      exact (min_le_right _ _).trans ((min_le_right _ _).trans ((min_le_right _ _).trans (min_le_left _ _)))
    · rw [mul_comm, ← le_div_iff₀ (by positivity)]
      exact (min_le_right _ _).trans ((min_le_right _ _).trans ((min_le_right _ _).trans (min_le_right _ _)))
  refine ⟨e₀, M₀, ε, hε, hε1, e1, e2, hM₀, fun e M he hM E h0 hE => ?_⟩
  have hmax : max |e - e₀| |M - M₀| ≤ ε := max_le he hM
  -- there
  have there : ∀ k, |E k - 2 * π| ≤ δ → |E (k + 1) - (2 * π + D)| ≤ (A + 1) * ε + 1 / (2 * B) * δ := by
    intro k hk
    have hn : ‖((e, M, E k) : ℝ × ℝ × ℝ) - (e₀, M₀, 2 * π)‖ ≤ δ := by
      simp only [Prod.norm_def, Prod.fst_sub, Prod.snd_sub, Real.norm_eq_abs]
      exact max_le (by linarith) (max_le (by linarith) hk)
    have h1 := hflat (e, M, E k) (hn.trans hδ0)
    simp only [newton3] at h1
    have h2 := hE k
    have h3 : A * max |e - e₀| |M - M₀| ≤ A * ε := by gcongr
    have h4 : 1 / (2 * B) * ‖((e, M, E k) : ℝ × ℝ × ℝ) - (e₀, M₀, 2 * π)‖ ≤ 1 / (2 * B) * δ := by gcongr
    rw [abs_le] at h1 h2 ⊢
    constructor <;> linarith [h1.1, h1.2, h2.1, h2.2]
  -- and back
  have back : ∀ k, |E k - (2 * π + D)| ≤ (A + 1) * ε + 1 / (2 * B) * δ → |E (k + 1) - 2 * π| ≤ δ := by
    intro k hk
    have hn : ‖((e, M, E k) : ℝ × ℝ × ℝ) - (e₀, M₀, 2 * π + D)‖ ≤ (A + 1) * ε + 1 / (2 * B) * δ := by
      simp only [Prod.norm_def, Prod.fst_sub, Prod.snd_sub, Real.norm_eq_abs]
      have : ε ≤ (A + 1) * ε + 1 / (2 * B) * δ := by
        have h1 : 0 ≤ A * ε := by positivity
        have h2 : 0 ≤ 1 / (2 * B) * δ := by positivity
        linarith
      exact max_le (by linarith) (max_le (by linarith) hk)
    have h1 := hlip (e, M, E k) (by linarith)
    simp only [newton3] at h1
    have h2 := hE k
    have h3 : B * ‖((e, M, E k) : ℝ × ℝ × ℝ) - (e₀, M₀, 2 * π + D)‖ ≤ B * ((A + 1) * ε + 1 / (2 * B) * δ) := by
      gcongr
    have h4 : B * ((A + 1) * ε + 1 / (2 * B) * δ) = B * (A + 1) * ε + δ / 2 := by rw [← hBc]; ring
    have h5 : 0 ≤ B * ε := by positivity
    rw [abs_le] at h1 h2 ⊢
    constructor <;> linarith [h1.1, h1.2, h2.1, h2.2]
  have hstart : |E 0 - 2 * π| ≤ δ := by
    rw [abs_le] at h0 he hM ⊢
    constructor <;> linarith [h0.1, h0.2, he.1, he.2, hM.1, hM.2]
  have even : ∀ k, |E (2 * k) - 2 * π| ≤ δ := by
    intro k
    induction k with
    | zero => simpa using hstart
    | succ k ih => exact back _ (there _ ih)
  intro k
  rcases Nat.even_or_odd' k with ⟨j, rfl | rfl⟩
  · have h1 := even j
    have h2 := there _ h1
    rw [abs_le] at h1 h2
    rw [le_abs]; left
    linarith [h1.2, h2.1]
  · have h1 := there _ (even j)
    have h2 := even (j + 1)
    rw [show 2 * (j + 1) = 2 * j + 1 + 1 by ring] at h2
    rw [abs_le] at h1 h2
    rw [le_abs]; right
    linarith [h1.1, h2.2]

end Openspace
