import Mathlib.Analysis.InnerProductSpace.Calculus
import Mathlib.Analysis.SpecialFunctions.Sqrt
import Mathlib.Analysis.Calculus.Deriv.Add
import Mathlib.Analysis.Calculus.Deriv.Inv
import Mathlib.Analysis.Calculus.Deriv.Pow

/-!
The acceleration along a bound two-body motion has two derivatives, and the second is at most `52 μ² / lo⁵`.
-/

namespace Jerk

open Real

variable {F : Type*} [NormedAddCommGroup F] [InnerProductSpace ℝ F]

theorem norm_deriv {R : ℝ → F} {v : F} {s : ℝ} (h : HasDerivAt R v s) (h0 : 0 < ‖R s‖) :
    HasDerivAt (fun t => ‖R t‖) (inner ℝ (R s) v / ‖R s‖) s := by
  have h1 := h.norm_sq.sqrt (by positivity)
  have e : (fun t => √(‖R t‖ ^ 2)) = fun t => ‖R t‖ := by
    funext t; exact Real.sqrt_sq (norm_nonneg _)
  rw [e, Real.sqrt_sq (norm_nonneg _)] at h1
  refine h1.congr_deriv ?_
  field_simp

theorem jerk {R V : ℝ → F} {mu lo : ℝ} (hmu : 0 < mu) (hlo : 0 < lo) (hR : ∀ s, HasDerivAt R (V s) s)
    (hV : ∀ s, HasDerivAt V (-(mu / ‖R s‖ ^ 3) • R s) s) (hr : ∀ s, lo ≤ ‖R s‖)
    (hb : ∀ s, ‖V s‖ ^ 2 / 2 ≤ mu / ‖R s‖) :
    ∃ γ' γ'' : ℝ → F, ∀ s, HasDerivAt (fun s => -(mu / ‖R s‖ ^ 3) • R s) (γ' s) s ∧ HasDerivAt γ' (γ'' s) s ∧
      ‖-(mu / ‖R s‖ ^ 3) • R s‖ ≤ mu / lo ^ 2 ∧ ‖γ'' s‖ ≤ 52 * mu ^ 2 / lo ^ 5 := by
  have n0 : ∀ s, 0 < ‖R s‖ := fun s => hlo.trans_le (hr s)
  obtain ⟨c, hc⟩ : ∃ c : ℝ → ℝ, c = fun s => inner ℝ (R s) (V s) := ⟨_, rfl⟩
  obtain ⟨c', hc'⟩ : ∃ c' : ℝ → ℝ, c' = fun s => inner ℝ (R s) (-(mu / ‖R s‖ ^ 3) • R s) + inner ℝ (V s) (V s) := ⟨_, rfl⟩
  have dc : ∀ s, HasDerivAt c (c' s) s := fun s => by rw [hc, hc']; exact (hR s).inner ℝ (hV s)
  have dn : ∀ s, HasDerivAt (fun t => ‖R t‖) (c s / ‖R s‖) s := fun s => by rw [hc]; exact norm_deriv (hR s) (n0 s)
  obtain ⟨q', hq'⟩ : ∃ q' : ℝ → ℝ, q' = fun s => 3 * mu * c s / ‖R s‖ ^ 5 := ⟨_, rfl⟩
  obtain ⟨q'', hq''⟩ : ∃ q'' : ℝ → ℝ, q'' = fun s => 3 * mu * c' s / ‖R s‖ ^ 5 - 15 * mu * c s ^ 2 / ‖R s‖ ^ 7 := ⟨_, rfl⟩
  have dq : ∀ s, HasDerivAt (fun t => -(mu / ‖R t‖ ^ 3)) (q' s) s := fun s => by
    have h := ((hasDerivAt_const s mu).div ((dn s).pow 3) (pow_pos (n0 s) 3).ne').neg
    refine h.congr_deriv ?_
    have := (n0 s).ne'
    rw [hq']
    simp only [Pi.pow_apply]
    field_simp
    push_cast
    ring
  have dq' : ∀ s, HasDerivAt q' (q'' s) s := fun s => by
    have h := ((dc s).const_mul (3 * mu)).div ((dn s).pow 5) (pow_pos (n0 s) 5).ne'
    rw [hq']
    refine h.congr_deriv ?_
    have := (n0 s).ne'
    rw [hq'']
    simp only [Pi.pow_apply]
    field_simp
    push_cast
    ring
  refine ⟨fun s => -(mu / ‖R s‖ ^ 3) • V s + q' s • R s,
    fun s => (-(mu / ‖R s‖ ^ 3) • (-(mu / ‖R s‖ ^ 3) • R s) + q' s • V s) + (q' s • V s + q'' s • R s), fun s =>
    ⟨(dq s).smul (hR s), ((dq s).smul (hV s)).add ((dq' s).smul (hR s)), ?_, ?_⟩⟩
  · have := n0 s
    rw [norm_smul, norm_neg, Real.norm_of_nonneg (by positivity)]
    have e : mu / ‖R s‖ ^ 3 * ‖R s‖ = mu / ‖R s‖ ^ 2 := by field_simp
    rw [e]
    have := hr s
    gcongr
  · obtain ⟨n, hn⟩ : ∃ n, n = ‖R s‖ := ⟨_, rfl⟩
    obtain ⟨ν, hν⟩ : ∃ ν, ν = ‖V s‖ := ⟨_, rfl⟩
    have hn0 : 0 < n := by rw [hn]; exact n0 s
    have hν0 : 0 ≤ ν := by rw [hν]; exact norm_nonneg _
    have hbs := hb s
    have hrs := hr s
    rw [← hν, ← hn] at hbs
    rw [← hn] at hrs
    have cb : |c s| ≤ n * ν := by rw [hc, hn, hν]; exact abs_real_inner_le_norm _ _
    have cb' : |c' s| ≤ mu / n + ν ^ 2 := by
      rw [hc']
      refine (abs_add_le _ _).trans (add_le_add ?_ ?_)
      · rw [inner_smul_right, real_inner_self_eq_norm_sq, ← hn, abs_mul, abs_neg, abs_of_pos (by positivity),
          abs_of_pos (by positivity)]
        apply le_of_eq; field_simp
      · rw [real_inner_self_eq_norm_sq, ← hν, abs_of_nonneg (by positivity)]
    have b1 : |q' s| ≤ 3 * mu * ν / n ^ 4 := by
      rw [hq']
      simp only
      rw [← hn, abs_div, abs_mul, abs_of_pos (by positivity : 0 < 3 * mu), abs_of_pos (by positivity : 0 < n ^ 5)]
      calc 3 * mu * |c s| / n ^ 5 ≤ 3 * mu * (n * ν) / n ^ 5 := by gcongr
        _ = _ := by field_simp
    have b2 : |q'' s| ≤ 3 * mu * (mu / n + ν ^ 2) / n ^ 5 + 15 * mu * ν ^ 2 / n ^ 5 := by
      rw [hq'']
      simp only
      rw [← hn]
      refine (abs_sub _ _).trans (add_le_add ?_ ?_)
      · rw [abs_div, abs_mul, abs_of_pos (by positivity : 0 < 3 * mu), abs_of_pos (by positivity : 0 < n ^ 5)]
        gcongr
      · rw [abs_div, abs_mul, abs_of_pos (by positivity : 0 < 15 * mu), abs_of_pos (by positivity : 0 < n ^ 7), abs_pow]
        calc 15 * mu * |c s| ^ 2 / n ^ 7 ≤ 15 * mu * (n * ν) ^ 2 / n ^ 7 := by gcongr
          _ = _ := by field_simp
    have t1 : ‖-(mu / ‖R s‖ ^ 3) • (-(mu / ‖R s‖ ^ 3) • R s)‖ ≤ mu ^ 2 / n ^ 5 := by
      rw [norm_smul, norm_smul, norm_neg, ← hn, Real.norm_of_nonneg (by positivity)]
      apply le_of_eq; field_simp
    have t2 : ‖q' s • V s‖ ≤ 3 * mu * ν / n ^ 4 * ν := by
      rw [norm_smul, ← hν]; exact mul_le_mul_of_nonneg_right b1 hν0
    have t3 : ‖q'' s • R s‖ ≤ (3 * mu * (mu / n + ν ^ 2) / n ^ 5 + 15 * mu * ν ^ 2 / n ^ 5) * n := by
      rw [norm_smul, ← hn]; exact mul_le_mul_of_nonneg_right b2 hn0.le
    refine (norm_add_le_of_le (norm_add_le_of_le t1 t2) (norm_add_le_of_le t2 t3)).trans ?_
    have e : mu ^ 2 / n ^ 5 + 3 * mu * ν / n ^ 4 * ν + (3 * mu * ν / n ^ 4 * ν +
        (3 * mu * (mu / n + ν ^ 2) / n ^ 5 + 15 * mu * ν ^ 2 / n ^ 5) * n) = mu / n ^ 4 * (48 * (ν ^ 2 / 2) + 4 * (mu / n)) := by
      field_simp; ring
    rw [e]
    calc mu / n ^ 4 * (48 * (ν ^ 2 / 2) + 4 * (mu / n)) ≤ mu / n ^ 4 * (48 * (mu / n) + 4 * (mu / n)) := by gcongr
      _ = 52 * mu ^ 2 / n ^ 5 := by field_simp; ring
      _ ≤ 52 * mu ^ 2 / lo ^ 5 := by gcongr

end Jerk
