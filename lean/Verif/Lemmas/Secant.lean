import Verif.Props.GaussTime
import Verif.Lemmas.Taylor
import Mathlib.Analysis.Real.Pi.Bounds

/-!
# The secant iteration of the Gauss method for moderate transfers
-/

namespace Openspace

open Real

namespace Gauss

/-- `W` as a function of half the difference of the eccentric anomalies -/
noncomputable def X (g : ℝ) : ℝ := (2 * g - sin (2 * g)) / sin g ^ 3

section bounds

variable {g : ℝ} (h0 : 0 < g) (h1 : g ≤ 18 / 25)
include h0 h1

theorem g_sin_pos : 0 < sin g := sin_pos_of_pos_of_lt_pi h0 (by linarith [pi_gt_three])

omit h1 in
theorem sin_lo : g * (1 - g ^ 2 / 6) ≤ sin g := by linarith [sin_ge3 h0.le, show g * (1 - g ^ 2 / 6) = g - g ^ 3 / 6 by ring]

theorem g_sq : g ^ 2 ≤ 26 / 50 := by nlinarith

omit h1 in
theorem two_sin_hi : 2 * g - sin (2 * g) ≤ g ^ 3 * (4 / 3 * (1 - g ^ 2 / 5 + 2 * g ^ 4 / 105)) := by
  have := sin_ge7 (x := 2 * g) (by linarith)
  linarith [show g ^ 3 * (4 / 3 * (1 - g ^ 2 / 5 + 2 * g ^ 4 / 105)) =
    2 * g - (2 * g - (2 * g) ^ 3 / 6 + (2 * g) ^ 5 / 120 - (2 * g) ^ 7 / 5040) by ring]

omit h1 in
theorem two_sin_lo : g ^ 3 * (4 / 3 * (1 - g ^ 2 / 5)) ≤ 2 * g - sin (2 * g) := by
  have := sin_le5 (x := 2 * g) (by linarith)
  linarith [show g ^ 3 * (4 / 3 * (1 - g ^ 2 / 5)) =
    2 * g - (2 * g - (2 * g) ^ 3 / 6 + (2 * g) ^ 5 / 120) by ring]

theorem sin_cube_lo : g ^ 3 * (1 - g ^ 2 / 6) ^ 3 ≤ sin g ^ 3 := by
  have hu := g_sq h0 h1
  have : 0 ≤ 1 - g ^ 2 / 6 := by linarith
  rw [← mul_pow]
  exact pow_le_pow_left₀ (by positivity) (sin_lo h0) 3

theorem X_bound1 : 2 * g - sin (2 * g) ≤ 8 / 5 * sin g ^ 3 := by
  refine (two_sin_hi h0).trans (le_trans ?_ (mul_le_mul_of_nonneg_left (sin_cube_lo h0 h1) (by norm_num)))
  have hu := g_sq h0 h1
  obtain ⟨u, hu'⟩ : ∃ u, u = g ^ 2 := ⟨_, rfl⟩
  have hu0 : 0 ≤ u := by rw [hu']; positivity
  rw [show g ^ 4 = u ^ 2 by rw [hu']; ring, ← hu', show 8 / 5 * (g ^ 3 * (1 - u / 6) ^ 3) = g ^ 3 * (8 / 5 * (1 - u / 6) ^ 3) by ring]
  rw [← hu'] at hu
  apply mul_le_mul_of_nonneg_left _ (by positivity)
  nlinarith [mul_nonneg hu0 hu0, mul_nonneg hu0 (mul_nonneg hu0 hu0), mul_nonneg hu0 (sub_nonneg.mpr hu),
    mul_nonneg (mul_nonneg hu0 hu0) (sub_nonneg.mpr hu)]

theorem X_bound2 : 3 * cos g * (2 * g - sin (2 * g)) ≤ 4 * sin g ^ 3 := by
  have hu := g_sq h0 h1
  have hc := cos_le4 h0.le
  have ht := two_sin_hi h0
  have ht0 : 0 ≤ 2 * g - sin (2 * g) := by linarith [sin_le1 (x := 2 * g) (by linarith)]
  obtain ⟨u, hu'⟩ : ∃ u, u = g ^ 2 := ⟨_, rfl⟩
  have hu0 : 0 ≤ u := by rw [hu']; positivity
  have e4 : g ^ 4 = u ^ 2 := by rw [hu']; ring
  have hs := sin_cube_lo h0 h1
  rw [e4, ← hu'] at hc ht
  rw [← hu'] at hs hu
  have hc0 : 0 ≤ 1 - u / 2 + u ^ 2 / 24 := by nlinarith
  calc 3 * cos g * (2 * g - sin (2 * g)) ≤ 3 * (1 - u / 2 + u ^ 2 / 24) * (2 * g - sin (2 * g)) := by
        apply mul_le_mul_of_nonneg_right _ ht0; linarith
    _ ≤ 3 * (1 - u / 2 + u ^ 2 / 24) * (g ^ 3 * (4 / 3 * (1 - u / 5 + 2 * u ^ 2 / 105))) :=
        mul_le_mul_of_nonneg_left ht (by positivity)
    _ = g ^ 3 * (4 * ((1 - u / 2 + u ^ 2 / 24) * (1 - u / 5 + 2 * u ^ 2 / 105))) := by ring
    _ ≤ g ^ 3 * (4 * (1 - u / 6) ^ 3) := by
        apply mul_le_mul_of_nonneg_left _ (by positivity)
        nlinarith [mul_nonneg hu0 hu0, mul_nonneg hu0 (mul_nonneg hu0 hu0), mul_nonneg hu0 (sub_nonneg.mpr hu),
          mul_nonneg (mul_nonneg hu0 hu0) (sub_nonneg.mpr hu),
          mul_nonneg (mul_nonneg hu0 (mul_nonneg hu0 hu0)) (sub_nonneg.mpr hu)]
    _ ≤ 4 * sin g ^ 3 := by linarith

theorem X_bound3 : 4 * sin g ^ 3 - 3 * cos g * (2 * g - sin (2 * g)) ≤ 3 / 2 * sin g ^ 5 := by
  have hu := g_sq h0 h1
  have hc := cos_ge2 g
  have ht := two_sin_lo h0
  have hlo := sin_lo h0
  have hs := sin_le5 h0.le
  have hsp := g_sin_pos h0 h1
  have ht0 : 0 ≤ 2 * g - sin (2 * g) := by linarith [sin_le1 (x := 2 * g) (by linarith)]
  obtain ⟨u, hu'⟩ : ∃ u, u = g ^ 2 := ⟨_, rfl⟩
  have hu0 : 0 ≤ u := by rw [hu']; positivity
  rw [show g - g ^ 3 / 6 + g ^ 5 / 120 = g * (1 - u / 6 + u ^ 2 / 120) by rw [hu']; ring] at hs
  rw [← hu'] at hc ht hlo hu
  have hc0 : 0 ≤ 1 - u / 2 := by linarith
  have h6 : 0 ≤ 1 - u / 6 := by linarith
  have h3 : sin g ^ 3 ≤ (g * (1 - u / 6 + u ^ 2 / 120)) ^ 3 := pow_le_pow_left₀ hsp.le hs 3
  have h5 : (g * (1 - u / 6)) ^ 5 ≤ sin g ^ 5 := pow_le_pow_left₀ (by positivity) hlo 5
  have hA : 3 * (1 - u / 2) * (g ^ 3 * (4 / 3 * (1 - u / 5))) ≤ 3 * cos g * (2 * g - sin (2 * g)) := by
    have : 0 ≤ g ^ 3 * (4 / 3 * (1 - u / 5)) := by
      have : 0 ≤ 1 - u / 5 := by linarith
      positivity
    calc _ ≤ 3 * cos g * (g ^ 3 * (4 / 3 * (1 - u / 5))) := mul_le_mul_of_nonneg_right (by linarith) this
      _ ≤ _ := mul_le_mul_of_nonneg_left ht (by linarith)
  have hpoly : 4 * (1 - u / 6 + u ^ 2 / 120) ^ 3 - 4 * (1 - u / 2) * (1 - u / 5) ≤ 3 / 2 * u * (1 - u / 6) ^ 5 := by
    have hv := sub_nonneg.mpr hu
    have b1 : (1 - u / 6 + u ^ 2 / 120) ^ 3 ≤ 1 - u / 2 + u ^ 2 * (13 / 120) := by
      nlinarith [mul_nonneg hu0 hu0, pow_nonneg hu0 3, mul_nonneg (pow_nonneg hu0 3) hv, mul_nonneg (pow_nonneg hu0 4) hv,
        mul_nonneg (pow_nonneg hu0 5) hv, mul_nonneg (pow_nonneg hu0 2) hv]
    have b2 : 1 - 5 / 6 * u ≤ (1 - u / 6) ^ 5 := by
      have := one_add_mul_le_pow (a := -(u / 6)) (by linarith) 5
      norm_num at this
      linarith [show (1 - u / 6) ^ 5 = (1 + -(u / 6)) ^ 5 by ring]
    nlinarith [mul_nonneg hu0 hv, mul_le_mul_of_nonneg_left b2 hu0, mul_nonneg hu0 hu0]
  have hg3 : 0 ≤ g ^ 3 := by positivity
  have := mul_le_mul_of_nonneg_left hpoly hg3
  have e1 : (g * (1 - u / 6 + u ^ 2 / 120)) ^ 3 = g ^ 3 * (1 - u / 6 + u ^ 2 / 120) ^ 3 := by ring
  have e2 : (g * (1 - u / 6)) ^ 5 = g ^ 3 * (u * (1 - u / 6) ^ 5) := by rw [hu']; ring
  rw [e1] at h3
  rw [e2] at h5
  nlinarith

end bounds

theorem X_hasDeriv {g : ℝ} (hs : sin g ≠ 0) :
    HasDerivAt X ((4 * sin g ^ 3 - 3 * cos g * (2 * g - sin (2 * g))) / sin g ^ 4) g := by
  have h1 : HasDerivAt (fun g : ℝ => 2 * g - sin (2 * g)) (2 - cos (2 * g) * 2) g := by
    have h2 : HasDerivAt (fun g : ℝ => 2 * g) 2 g := by simpa using (hasDerivAt_id g).const_mul 2
    exact h2.sub h2.sin
  have h3 := h1.div ((hasDerivAt_sin g).pow 3) (pow_ne_zero 3 hs)
  refine h3.congr_deriv ?_
  have hc : cos (2 * g) = 1 - 2 * sin g ^ 2 := by
    rw [cos_two_mul]; linear_combination 2 * sin_sq_add_cos_sq g
  rw [hc]
  simp only [Pi.pow_apply]
  field_simp
  push_cast
  ring

/-- `X` grows, at most three times as fast as `sin² (g / 2)` -/
theorem X_mono {g g' : ℝ} (h0 : 0 < g) (hg : g ≤ g') (h1 : g' ≤ 18 / 25) :
    X g ≤ X g' ∧ X g' - X g ≤ 3 * (sin (g' / 2) ^ 2 - sin (g / 2) ^ 2) := by
  have hd : ∀ x ∈ Set.Icc g g', 0 < sin x := fun x hx =>
    g_sin_pos (lt_of_lt_of_le h0 hx.1) (hx.2.trans h1)
  have hΩ : ∀ x, HasDerivAt (fun x : ℝ => 3 / 2 * (1 - cos x) - X x)
      (3 / 2 * sin x - (4 * sin x ^ 3 - 3 * cos x * (2 * x - sin (2 * x))) / sin x ^ 4) x ∨ sin x = 0 := by
    intro x
    by_cases hs : sin x = 0
    · exact .inr hs
    left
    have := (((hasDerivAt_cos x).const_sub 1).const_mul (3 / 2)).sub (X_hasDeriv hs)
    exact this.congr_deriv (by ring)
  have hcos : ∀ x : ℝ, sin (x / 2) ^ 2 = (1 - cos x) / 2 := by
    intro x
    have := cos_two_mul (x / 2)
    rw [show 2 * (x / 2) = x by ring] at this
    linear_combination this / 2 + sin_sq_add_cos_sq (x / 2)
  constructor
  · have : MonotoneOn X (Set.Icc g g') := by
      apply monotoneOn_of_deriv_nonneg (convex_Icc g g')
      · exact fun x hx => (X_hasDeriv (hd x hx).ne').continuousAt.continuousWithinAt
      · exact fun x hx => (X_hasDeriv (hd x (interior_subset hx)).ne').differentiableAt.differentiableWithinAt
      · intro x hx
        have hx' := interior_subset hx
        rw [(X_hasDeriv (hd x hx').ne').deriv]
        have := X_bound2 (lt_of_lt_of_le h0 hx'.1) (hx'.2.trans h1)
        have hs := hd x hx'
        exact div_nonneg (by linarith) (by positivity)
    exact this (Set.left_mem_Icc.mpr hg) (Set.right_mem_Icc.mpr hg) hg
  · have : MonotoneOn (fun x : ℝ => 3 / 2 * (1 - cos x) - X x) (Set.Icc g g') := by
      apply monotoneOn_of_deriv_nonneg (convex_Icc g g')
      · exact fun x hx => ((hΩ x).resolve_right (hd x hx).ne').continuousAt.continuousWithinAt
      · exact fun x hx => ((hΩ x).resolve_right (hd x (interior_subset hx)).ne').differentiableAt.differentiableWithinAt
      · intro x hx
        have hx' := interior_subset hx
        have hs := hd x hx'
        rw [((hΩ x).resolve_right hs.ne').deriv]
        have := X_bound3 (lt_of_lt_of_le h0 hx'.1) (hx'.2.trans h1)
        rw [sub_nonneg, div_le_iff₀ (by positivity)]
        linarith [show 3 / 2 * sin x * sin x ^ 4 = 3 / 2 * sin x ^ 5 by ring]
    have := this (Set.left_mem_Icc.mpr hg) (Set.right_mem_Icc.mpr hg) hg
    simp only at this
    rw [hcos, hcos]
    linarith

/-! ## The function whose root is sought -/

/-- what `f_of_nu` computes -/
noncomputable def F (m l n : ℝ) : ℝ := 1 - n + m / n ^ 2 * X (2 * arcsin √(m / n ^ 2 - l))

section regime

variable {m l : ℝ} (hm : m ≤ 1 / 10) (hl : 0 ≤ l) (hlm : 25 * l < 16 * m)
include hm hl hlm

omit hm in
theorem m_pos : 0 < m := by linarith

theorem omega_mem {n : ℝ} (h0 : 9 / 10 ≤ n) (h1 : n ≤ 5 / 4) : 0 < m / n ^ 2 - l ∧ m / n ^ 2 - l ≤ 10 / 81 := by
  have hmp := m_pos hl hlm
  have hn2 : n ^ 2 ≤ 25 / 16 := by nlinarith
  have hn3 : 81 / 100 ≤ n ^ 2 := by nlinarith
  have hnp : 0 < n ^ 2 := by positivity
  constructor
  · rw [sub_pos, lt_div_iff₀ hnp]
    nlinarith
  · have : m / n ^ 2 ≤ 10 / 81 := by rw [div_le_iff₀ hnp]; nlinarith
    linarith

theorem angle_mem {n : ℝ} (h0 : 9 / 10 ≤ n) (h1 : n ≤ 5 / 4) :
    0 < 2 * arcsin √(m / n ^ 2 - l) ∧ 2 * arcsin √(m / n ^ 2 - l) ≤ 18 / 25 ∧
    sin (2 * arcsin √(m / n ^ 2 - l) / 2) ^ 2 = m / n ^ 2 - l := by
  obtain ⟨hw0, hw1⟩ := omega_mem hm hl hlm h0 h1
  have hs0 := sqrt_pos.mpr hw0
  have hs1 : √(m / n ^ 2 - l) ≤ sin (9 / 25) := by
    have := sin_ge3 (x := 9 / 25) (by norm_num)
    rw [sqrt_le_left (by norm_num at this ⊢; linarith)]
    norm_num at this ⊢
    nlinarith
  have hs2 := sin_le_one (9 / 25)
  refine ⟨by have := arcsin_pos.mpr hs0; linarith, ?_, ?_⟩
  · have : arcsin √(m / n ^ 2 - l) ≤ 9 / 25 := by
      rw [arcsin_le_iff_le_sin ⟨by linarith, by linarith⟩ ⟨by linarith [pi_gt_three], by linarith [pi_gt_three]⟩]
      exact hs1
    linarith
  · rw [mul_div_cancel_left₀ _ two_ne_zero, sin_arcsin (by linarith) (by linarith), sq_sqrt hw0.le]

theorem fOfNu_eq {n : ℝ} (h0 : 9 / 10 ≤ n) (h1 : n ≤ 5 / 4) : fOfNu n m l = .ok (F m l n) := by
  obtain ⟨g0, g1, g2⟩ := angle_mem hm hl hlm h0 h1
  have hn : n ≠ 0 := by linarith
  have e : pyDiv m (n * n) = .ok (m / n ^ 2) := by rw [pyDiv_ok (mul_ne_zero hn hn), sq n]
  simp only [fOfNu, e, ok_bind]
  rw [← g2, wOfOmega_half g0 (by linarith [pi_gt_three])]
  simp only [F, X, ok_bind, pure_eq_ok]
  congr 4
  ring

theorem X_mem {n : ℝ} (h0 : 9 / 10 ≤ n) (h1 : n ≤ 5 / 4) :
    0 ≤ X (2 * arcsin √(m / n ^ 2 - l)) ∧ X (2 * arcsin √(m / n ^ 2 - l)) ≤ 8 / 5 := by
  obtain ⟨g0, g1, -⟩ := angle_mem hm hl hlm h0 h1
  have hs := g_sin_pos g0 g1
  constructor
  · exact div_nonneg (by linarith [sin_le1 (x := 2 * (2 * arcsin √(m / n ^ 2 - l))) (by linarith)]) (by positivity)
  · rw [X, div_le_iff₀ (by positivity)]
    exact X_bound1 g0 g1

/-- the slope of every chord lies between -8/5 and -1 -/
theorem F_slope {a b : ℝ} (ha : 9 / 10 ≤ a) (hab : a ≤ b) (hb : b ≤ 5 / 4) :
    b - a ≤ F m l a - F m l b ∧ F m l a - F m l b ≤ 8 / 5 * (b - a) := by
  obtain ⟨ga0, ga1, ga2⟩ := angle_mem hm hl hlm ha (hab.trans hb)
  obtain ⟨gb0, gb1, gb2⟩ := angle_mem hm hl hlm (ha.trans hab) hb
  obtain ⟨xa0, xa1⟩ := X_mem hm hl hlm ha (hab.trans hb)
  obtain ⟨xb0, xb1⟩ := X_mem hm hl hlm (ha.trans hab) hb
  have hmp := m_pos hl hlm
  have hap : 0 < a := by linarith
  have hbp : 0 < b := by linarith
  have hx : m / b ^ 2 ≤ m / a ^ 2 := div_le_div_of_nonneg_left hmp.le (by positivity) (by gcongr)
  have hg : 2 * arcsin √(m / b ^ 2 - l) ≤ 2 * arcsin √(m / a ^ 2 - l) := by
    have := monotone_arcsin (sqrt_le_sqrt (sub_le_sub_right hx l)); linarith
  obtain ⟨h1, h2⟩ := X_mono gb0 hg ga1
  rw [ga2, gb2] at h2
  have hxb0 : 0 ≤ m / b ^ 2 := by positivity
  have hxb : m / b ^ 2 ≤ 10 / 81 := by
    have h9 : 81 / 100 ≤ b ^ 2 := by nlinarith
    rw [div_le_iff₀ (by positivity)]; nlinarith
  have hdx : m / a ^ 2 - m / b ^ 2 ≤ 200 / 729 * (b - a) := by
    have e : m / a ^ 2 - m / b ^ 2 = m * (1 / (a * b ^ 2) + 1 / (a ^ 2 * b)) * (b - a) := by field_simp; ring
    rw [e]
    apply mul_le_mul_of_nonneg_right _ (by linarith)
    have hb9 : 9 / 10 ≤ b := ha.trans hab
    have k1 : 1 / (a * b ^ 2) ≤ 1000 / 729 := by
      rw [div_le_div_iff₀ (by positivity) (by norm_num)]
      nlinarith [mul_le_mul hb9 hb9 (by norm_num) hbp.le, mul_le_mul ha (mul_le_mul hb9 hb9 (by norm_num) hbp.le) (by norm_num) hap.le]
    have k2 : 1 / (a ^ 2 * b) ≤ 1000 / 729 := by
      rw [div_le_div_iff₀ (by positivity) (by norm_num)]
      nlinarith [mul_le_mul ha ha (by norm_num) hap.le, mul_le_mul hb9 (mul_le_mul ha ha (by norm_num) hap.le) (by norm_num) hbp.le]
    calc m * (1 / (a * b ^ 2) + 1 / (a ^ 2 * b)) ≤ 1 / 10 * (1000 / 729 + 1000 / 729) := by
          apply mul_le_mul hm (by linarith) (by positivity) (by norm_num)
      _ = 200 / 729 := by norm_num
  simp only [F]
  generalize X (2 * arcsin √(m / a ^ 2 - l)) = Xa at *
  generalize X (2 * arcsin √(m / b ^ 2 - l)) = Xb at *
  generalize m / a ^ 2 = x at *
  generalize m / b ^ 2 = y at *
  constructor
  · have : y * Xb ≤ x * Xa := mul_le_mul hx h1 xb0 (by linarith)
    linarith
  · have e : x * Xa - y * Xb = (x - y) * Xa + y * (Xa - Xb) := by ring
    have h3 : (x - y) * Xa ≤ (x - y) * (8 / 5) := mul_le_mul_of_nonneg_left xa1 (by linarith)
    have h4 : y * (Xa - Xb) ≤ 10 / 81 * (3 * (x - y)) := by
      apply mul_le_mul hxb (by linarith) (by linarith) (by norm_num)
    nlinarith

theorem F_root : ∃ r, 1 ≤ r ∧ r ≤ 113 / 100 ∧ F m l r = 0 := by
  have hcont : ContinuousOn (F m l) (Set.Icc 1 (113 / 100)) := by
    have : LipschitzOnWith (8 / 5) (F m l) (Set.Icc 1 (113 / 100)) := by
      apply LipschitzOnWith.of_dist_le_mul
      intro x hx y hy
      rw [dist_eq, dist_eq]
      have e : ((8 / 5 : NNReal) : ℝ) = 8 / 5 := by norm_num
      rw [e]
      rcases le_total x y with h | h
      · obtain ⟨h1, h2⟩ := F_slope hm hl hlm (a := x) (b := y) (by linarith [hx.1]) h (by linarith [hy.2])
        rw [abs_of_nonneg (by linarith), abs_of_nonpos (by linarith)]; linarith
      · obtain ⟨h1, h2⟩ := F_slope hm hl hlm (a := y) (b := x) (by linarith [hy.1]) h (by linarith [hx.2])
        rw [abs_of_nonpos (by linarith), abs_of_nonneg (by linarith)]; linarith
    exact this.continuousOn
  have hmp := m_pos hl hlm
  have h1 : 0 ≤ F m l 1 := by
    have := (X_mem hm hl hlm (n := 1) (by norm_num) (by norm_num)).1
    simp only [F] at *
    have : 0 ≤ m / 1 ^ 2 * X (2 * arcsin √(m / 1 ^ 2 - l)) := by positivity
    linarith
  have h2 : F m l (113 / 100) ≤ 0 := by
    have := (X_mem hm hl hlm (n := 113 / 100) (by norm_num) (by norm_num)).2
    have h0 := (X_mem hm hl hlm (n := 113 / 100) (by norm_num) (by norm_num)).1
    simp only [F] at *
    have : m / (113 / 100) ^ 2 * X (2 * arcsin √(m / (113 / 100) ^ 2 - l)) ≤ (8 / 100) * (8 / 5) := by
      apply mul_le_mul _ this h0 (by norm_num)
      rw [div_le_iff₀ (by norm_num)]; linarith
    linarith
  obtain ⟨r, hr, hr0⟩ := intermediate_value_Icc' (by norm_num) hcont ⟨h2, h1⟩
  exact ⟨r, hr.1, hr.2, hr0⟩

/-- one secant step brings the iterate closer to the root by 3/5 -/
theorem secant_contract {a b r : ℝ} (ha : 9 / 10 ≤ a ∧ a ≤ 5 / 4) (hb : 9 / 10 ≤ b ∧ b ≤ 5 / 4) (hab : a ≠ b)
    (hr : 9 / 10 ≤ r ∧ r ≤ 5 / 4) (h0 : F m l r = 0) :
    ∃ c, secantStep m l a b = .ok c ∧ |c - r| ≤ 3 / 5 * |b - r| := by
  -- slopes
  have slope : ∀ x y : ℝ, (9 / 10 ≤ x ∧ x ≤ 5 / 4) → (9 / 10 ≤ y ∧ y ≤ 5 / 4) →
      ∃ s, 1 ≤ s ∧ s ≤ 8 / 5 ∧ F m l y - F m l x = -s * (y - x) := by
    intro x y hx hy
    rcases lt_trichotomy x y with h | h | h
    · obtain ⟨h1, h2⟩ := F_slope hm hl hlm hx.1 h.le hy.2
      have hp : 0 < y - x := by linarith
      refine ⟨(F m l x - F m l y) / (y - x), (le_div_iff₀ hp).mpr (by linarith), (div_le_iff₀ hp).mpr h2, ?_⟩
      field_simp; ring
    · exact ⟨1, le_rfl, by norm_num, by rw [h]; ring⟩
    · obtain ⟨h1, h2⟩ := F_slope hm hl hlm hy.1 h.le hx.2
      have hp : 0 < x - y := by linarith
      refine ⟨(F m l y - F m l x) / (x - y), (le_div_iff₀ hp).mpr (by linarith), (div_le_iff₀ hp).mpr h2, ?_⟩
      field_simp; ring
  obtain ⟨s, hs1, hs2, hs⟩ := slope a b ha hb
  obtain ⟨t, ht1, ht2, ht⟩ := slope r b hr hb
  rw [h0, sub_zero] at ht
  have hne : F m l b - F m l a ≠ 0 := by
    rw [hs]
    exact mul_ne_zero (by linarith) (sub_ne_zero.mpr (Ne.symm hab))
  refine ⟨_, secantStep_eq_ok.mpr ⟨_, _, fOfNu_eq hm hl hlm hb.1 hb.2, fOfNu_eq hm hl hlm ha.1 ha.2, hne, rfl⟩, ?_⟩
  rw [hs, ht]
  have hba : b - a ≠ 0 := sub_ne_zero.mpr (Ne.symm hab)
  have hsne : s ≠ 0 := by linarith
  have e : b - -t * (b - r) * (b - a) / (-s * (b - a)) - r = (1 - t / s) * (b - r) := by
    field_simp
    ring
  rw [e, abs_mul]
  apply mul_le_mul_of_nonneg_right _ (abs_nonneg _)
  have hsp : 0 < s := by linarith
  have k1 : t / s ≤ 8 / 5 := by rw [div_le_iff₀ hsp]; nlinarith
  have k2 : 5 / 8 ≤ t / s := by rw [le_div_iff₀ hsp]; nlinarith
  rw [abs_le]; constructor <;> linarith

/-- the loop ends, close to the root -/
theorem solveNu_converges {r : ℝ} (hr : 1 ≤ r ∧ r ≤ 113 / 100) (h0 : F m l r = 0) (N : ℕ) :
    ∀ {a b : ℝ}, (9 / 10 ≤ a ∧ a ≤ 5 / 4) → |b - r| ≤ 14 / 100 → (9 / 10 ≤ b ∧ b ≤ 5 / 4) → a ≠ b →
      8 / 5 * (|b - r| * (3 / 5) ^ N) < 1e-12 → ∃ n, solveNu m l (N + 1) a b = .ok n ∧ |n - r| ≤ 3 / 2 * 1e-12 := by
  obtain ⟨hr1, hr2⟩ := hr
  induction N with
  | zero =>
    intro a b ha hbr hb hab h
    obtain ⟨c, hc, hcr⟩ := secant_contract hm hl hlm ha hb hab ⟨by linarith, by linarith⟩ h0
    have hcb : |c - b| < 1e-12 := by
      have : |c - b| ≤ |c - r| + |b - r| := by
        have := abs_sub_le c r b; rwa [abs_sub_comm r b] at this
      rw [pow_zero, mul_one] at h
      linarith
    refine ⟨c, ?_, ?_⟩
    · simp only [solveNu, hc, ok_bind]
      exact if_pos (show pyAbs (c - b) < NU_TOLERANCE from hcb)
    · rw [pow_zero, mul_one] at h
      have := abs_nonneg (b - r)
      linarith
  | succ N ih =>
    intro a b ha hbr hb hab h
    obtain ⟨c, hc, hcr⟩ := secant_contract hm hl hlm ha hb hab ⟨by linarith, by linarith⟩ h0
    have hcr' : |c - r| ≤ 84 / 1000 := by linarith
    obtain ⟨hc1, hc2⟩ := abs_le.mp hcr'
    by_cases hcb : |c - b| < 1e-12
    · refine ⟨c, ?_, ?_⟩
      · rw [solveNu]
        simp only [hc, ok_bind]
        exact if_pos (show pyAbs (c - b) < NU_TOLERANCE from hcb)
      · have : |b - r| ≤ |c - b| + |c - r| := by
          have := abs_sub_le b c r; rwa [abs_sub_comm b c] at this
        linarith
    · obtain ⟨n, hn, hnr⟩ := ih hb (by linarith) (show 9 / 10 ≤ c ∧ c ≤ 5 / 4 from ⟨by linarith, by linarith⟩)
        (by rintro rfl; apply hcb; rw [sub_self, abs_zero]; norm_num)
        (by
          have hp : (0 : ℝ) ≤ (3 / 5) ^ N := by positivity
          have := mul_le_mul_of_nonneg_right hcr hp
          have e : 3 / 5 * |b - r| * (3 / 5) ^ N = |b - r| * (3 / 5) ^ (N + 1) := by rw [pow_succ]; ring
          linarith)
      refine ⟨n, ?_, hnr⟩
      rw [solveNu]
      simp only [hc, ok_bind]
      rw [if_neg (show ¬ pyAbs (c - b) < NU_TOLERANCE from hcb)]
      exact hn

theorem start_mem : 1 ≤ Spec.gaussStart m l ∧ Spec.gaussStart m l ≤ 1134 / 1000 := by
  have hmp := m_pos hl hlm
  have hq0 : 0 ≤ m / (l + 5 / 6) := by positivity
  have hq1 : m / (l + 5 / 6) ≤ 12 / 100 := by rw [div_le_iff₀ (by positivity)]; linarith
  have h1 : 1 ≤ √(1 + (44 / 9) * (m / (l + 5 / 6))) := by
    rw [one_le_sqrt]; linarith
  have h2 : √(1 + (44 / 9) * (m / (l + 5 / 6))) ≤ 1.2946 := by
    rw [sqrt_le_left (by norm_num)]; norm_num; linarith
  rw [Spec.gaussStart]
  constructor
  · linarith
  · norm_num at h2; linarith

/-- the whole iteration -/
theorem iteration (fuel : ℕ) (hf : 60 ≤ fuel) :
    ∃ r n, 1 ≤ r ∧ r ≤ 113 / 100 ∧ fOfNu r m l = .ok 0 ∧
      solveNu m l fuel (Spec.gaussStart m l + 0.1) (Spec.gaussStart m l) = .ok n ∧ |n - r| ≤ 3 / 2 * 1e-12 ∧
      ∃ y, fOfNu n m l = .ok y ∧ |y| ≤ 24 / 10 * 1e-12 := by
  obtain ⟨r, hr0, hr1, hr⟩ := F_root hm hl hlm
  obtain ⟨hs0, hs1⟩ := start_mem hm hl hlm
  have habs : |Spec.gaussStart m l - r| ≤ 14 / 100 := by rw [abs_le]; constructor <;> linarith
  obtain ⟨n, hn, hnr⟩ := solveNu_converges hm hl hlm ⟨hr0, hr1⟩ hr 59 (a := Spec.gaussStart m l + 0.1) (b := Spec.gaussStart m l)
    ⟨by norm_num; linarith, by norm_num; linarith⟩ habs ⟨by linarith, by linarith⟩ (by norm_num)
    (by
      have : |Spec.gaussStart m l - r| * (3 / 5) ^ 59 ≤ 14 / 100 * (3 / 5) ^ 59 :=
        mul_le_mul_of_nonneg_right habs (by positivity)
      norm_num at this ⊢
      linarith)
  refine ⟨r, n, hr0, hr1, by rw [fOfNu_eq hm hl hlm (by linarith) (by linarith), hr], ?_, hnr, ?_⟩
  · rw [← hn]
    exact C58_fuel hf (by rw [hn]; simp)
  · norm_num at hnr
    obtain ⟨k1, k2⟩ := abs_le.mp hnr
    refine ⟨_, fOfNu_eq hm hl hlm (by linarith) (by linarith), ?_⟩
    rcases le_total n r with h | h
    · obtain ⟨h1, h2⟩ := F_slope hm hl hlm (a := n) (b := r) (by linarith) h (by linarith)
      rw [hr] at h1 h2
      norm_num
      rw [abs_le]; constructor <;> linarith
    · obtain ⟨h1, h2⟩ := F_slope hm hl hlm (a := r) (b := n) (by linarith) h (by linarith)
      rw [hr] at h1 h2
      norm_num
      rw [abs_le]; constructor <;> linarith

end regime

end Gauss

end Openspace
