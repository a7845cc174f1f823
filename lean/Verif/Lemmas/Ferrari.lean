import Verif.Lemmas.Py

/-!
# Ferrari's solution of the quartic of the ITRF to geodetic conversion

With `u ≥ 0`, `β > 0` and `1 - u² + β ≥ 0` the quartic `x⁴ + 2ux³ + x² - 2βux - βu²` has at most one
positive root, and the closed form used by the code is that root.
-/

namespace Openspace

open Real

/-- the quartic -/
def quartic (u β x : ℝ) : ℝ := x ^ 4 + 2 * u * x ^ 3 + x ^ 2 - 2 * β * u * x - β * u ^ 2

/-- the cubic resolvent: with `Q = (√(P+1)+√P)^(2/3)`, `t = (1+Q+1/Q)/6` solves `2t³ - t² = P/27` -/
theorem resolvent {P : ℝ} (hP : 0 ≤ P) :
    let Q := (√(P + 1) + √P) ^ ((2 : ℝ) / 3)
    let t := (1 + Q + 1 / Q) / 6
    0 < Q ∧ 1 / 2 ≤ t ∧ 2 * t ^ 3 - t ^ 2 = P / 27 := by
  intro Q t
  have h1 : 0 < √(P + 1) := Real.sqrt_pos.mpr (by linarith)
  have h0 : 0 ≤ √P := Real.sqrt_nonneg _
  have s1 : √(P + 1) ^ 2 = P + 1 := Real.sq_sqrt (by linarith)
  have s0 : √P ^ 2 = P := Real.sq_sqrt hP
  have hb : 0 < √(P + 1) + √P := by linarith
  have hQ : 0 < Q := Real.rpow_pos_of_pos hb _
  have hQ3 : Q ^ 3 = (√(P + 1) + √P) ^ 2 := by
    have : Q ^ 3 = ((√(P + 1) + √P) ^ ((2 : ℝ) / 3)) ^ ((3 : ℕ) : ℝ) := by
      rw [Real.rpow_natCast]
    rw [this, ← Real.rpow_mul hb.le]
    norm_num
  have hinv : (√(P + 1) + √P) ^ 2 * (√(P + 1) - √P) ^ 2 = 1 := by
    have : (√(P + 1) + √P) * (√(P + 1) - √P) = 1 := by linear_combination s1 - s0
    rw [← mul_pow, this, one_pow]
  obtain ⟨R, hR⟩ : ∃ R, R = 1 / Q := ⟨_, rfl⟩
  have hQR : Q * R = 1 := by rw [hR]; field_simp
  have hR3 : R ^ 3 = (√(P + 1) - √P) ^ 2 := by
    have : Q ^ 3 * R ^ 3 = Q ^ 3 * (√(P + 1) - √P) ^ 2 := by
      rw [← mul_pow, hQR, one_pow, hQ3, hinv]
    exact mul_left_cancel₀ (pow_ne_zero 3 hQ.ne') this
  have ht : t = (1 + Q + R) / 6 := by rw [hR]
  have hRpos : 0 < R := by rw [hR]; positivity
  refine ⟨hQ, ?_, ?_⟩
  · rw [ht]; nlinarith [sq_nonneg (Q - R)]
  · have hsum : Q ^ 3 + R ^ 3 = 4 * P + 2 := by
      rw [hQ3, hR3]; nlinarith [s1, s0]
    rw [ht]
    have : (Q + R) ^ 3 = Q ^ 3 + R ^ 3 + 3 * (Q + R) := by
      linear_combination 3 * (Q + R) * hQR
    linear_combination (1 / 108) * this + (1 / 108) * hsum

/-- Ferrari's factorisation, and the closed form is the only positive root -/
theorem ferrari {u β t c m w base : ℝ} (hu : 0 ≤ u) (hβ : 0 < β) (ht : 1 / 2 ≤ t)
    (hres : 2 * t ^ 3 - t ^ 2 = β * u ^ 2 * (1 - u ^ 2 + β))
    (hc : c = √(u ^ 2 - 1 + 2 * t)) (hm : m = √(t ^ 2 + β * u ^ 2)) (hw : w = (c - u) / 2)
    (hbase : base = m - u * w - t / 2 - 1 / 4) :
    0 ≤ base ∧ 0 ≤ w + √base ∧ (0 < u → 0 < w + √base) ∧ quartic u β (w + √base) = 0 ∧
      ∀ y, 0 < y → quartic u β y = 0 → y = w + √base := by
  have c0 : 0 ≤ c := hc ▸ Real.sqrt_nonneg _
  have m0 : 0 ≤ m := hm ▸ Real.sqrt_nonneg _
  have c2 : c ^ 2 = u ^ 2 - 1 + 2 * t := by rw [hc, Real.sq_sqrt]; nlinarith
  have m2 : m ^ 2 = t ^ 2 + β * u ^ 2 := by rw [hm, Real.sq_sqrt]; positivity
  have hcm : c * m = u * (t + β) := by
    have h2 : (c * m) ^ 2 = (u * (t + β)) ^ 2 := by
      rw [mul_pow, c2, m2]; linear_combination hres
    have ha : 0 ≤ c * m := mul_nonneg c0 m0
    have hb : 0 ≤ u * (t + β) := mul_nonneg hu (by linarith)
    exact (sq_eq_sq₀ ha hb).mp h2
  have fact : ∀ y, quartic u β y = (y ^ 2 + u * y + t - (c * y + m)) * (y ^ 2 + u * y + t + (c * y + m)) := by
    intro y; unfold quartic
    linear_combination y ^ 2 * c2 + m2 + 2 * y * hcm
  have hmt : t ≤ m := by
    rw [hm]; apply Real.le_sqrt_of_sq_le; nlinarith [mul_nonneg hβ.le (sq_nonneg u)]
  have hb2 : base = w ^ 2 - t + m := by rw [hbase, hw]; linear_combination -(1 / 4) * c2
  have hb0 : 0 ≤ base := by rw [hb2]; nlinarith [sq_nonneg w]
  have first : ∀ y, y ^ 2 + u * y + t - (c * y + m) = (y - w) ^ 2 - base := by
    intro y; rw [hb2, hw]; ring
  have sb := Real.sq_sqrt hb0
  have sbn := Real.sqrt_nonneg base
  have hwb : |w| ≤ √base := by
    apply Real.abs_le_sqrt; rw [hb2]; linarith
  have hx0 : 0 ≤ w + √base := by linarith [neg_le_of_abs_le hwb]
  refine ⟨hb0, hx0, ?_, ?_, ?_⟩
  · intro hup
    have hlt : t < m := by
      rw [hm]; apply Real.lt_sqrt_of_sq_lt; nlinarith [mul_pos hβ (pow_pos hup 2)]
    have : |w| < √base := by
      apply Real.lt_sqrt_of_sq_lt; rw [sq_abs, hb2]; linarith
    linarith [neg_lt_of_abs_lt this]
  · rw [fact, first]; rw [show (w + √base - w) ^ 2 - base = 0 by rw [add_sub_cancel_left, sb, sub_self], zero_mul]
  · intro y hy hq
    rw [fact] at hq
    have h2 : y ^ 2 + u * y + t + (c * y + m) ≠ 0 := by positivity
    have h1 := (mul_eq_zero.mp hq).resolve_right h2
    rw [first] at h1
    have h3 : (y - w - √base) * (y - w + √base) = 0 := by linear_combination h1 - sb
    rcases mul_eq_zero.mp h3 with h | h
    · linarith
    · exfalso
      linarith [le_of_abs_le hwb]

end Openspace
