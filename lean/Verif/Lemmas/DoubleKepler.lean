import Verif.Lemmas.Double
import Verif.Lemmas.KeplerRounded
import Verif.Spec.Libm

/-! # Rounding errors of the solver of Kepler's equation -/

namespace Openspace.F64

open Real

/-- the relative error of a rounding -/
@[irreducible] noncomputable def u : ℝ := 2⁻¹ ^ 53

theorem u_pos : 0 < u := by unfold u; positivity

theorem u_small : u ≤ 1.2e-16 := by norm_num [u]

theorem rnd_u (x : ℝ) : |rnd x - x| ≤ u * |x| := by unfold u; exact rnd_near x

/-- the value of the loop body where it does not raise -/
noncomputable def keplerValue (lib : Libm) (ma e E : ℝ) : ℝ :=
  rnd (E + rnd (rnd (rnd (ma - E) + rnd (e * lib.sin E)) / rnd (1 - rnd (e * lib.cos E))))

section
variable {lib : Libm} (hlib : Spec.Accurate lib) {e : ℝ} (he : 0 ≤ e) (he' : e ≤ 9 / 10)
include hlib he he'

omit hlib in
theorem product_error {s s' : ℝ} (h : |s' - s| ≤ 1 / 2 ^ 52) (hs : |s| ≤ 1) : |rnd (e * s') - e * s| ≤ 2.8 * u := by
  have hu := u_pos
  have hu' := u_small
  have h2 : (1 : ℝ) / 2 ^ 52 = 2 * u := by norm_num [u]
  rw [h2] at h
  have h1 := rnd_u (e * s')
  have h3 : |e * s'| ≤ 9 / 10 * (1 + 2 * u) := by
    rw [abs_mul, abs_of_nonneg he]
    have : |s'| ≤ 1 + 2 * u := by
      have := abs_sub_abs_le_abs_sub s' s
      linarith
    have h0 := abs_nonneg s'
    nlinarith
  have h4 : |e * s' - e * s| ≤ 9 / 10 * (2 * u) := by
    rw [← mul_sub, abs_mul, abs_of_nonneg he]
    have h0 := abs_nonneg (s' - s)
    nlinarith
  have h5 : rnd (e * s') - e * s = (rnd (e * s') - e * s') + (e * s' - e * s) := by ring
  rw [h5]
  refine (abs_add_le _ _).trans ?_
  have h6 : u * |e * s'| ≤ u * (9 / 10 * (1 + 2 * u)) := by gcongr
  norm_num at hu' ⊢
  nlinarith

theorem den_error (E : ℝ) : |rnd (1 - rnd (e * lib.cos E)) - (1 - e * cos E)| ≤ 4.8 * u ∧
    0.099 ≤ rnd (1 - rnd (e * lib.cos E)) := by
  have hu := u_pos
  have hu' := u_small
  have h1 := product_error he he' (hlib.cos E) (abs_cos_le_one E)
  obtain ⟨q, hq⟩ : ∃ q, q = rnd (e * lib.cos E) := ⟨_, rfl⟩
  rw [← hq] at h1 ⊢
  have h2 := rnd_u (1 - q)
  obtain ⟨D, hD⟩ : ∃ D, D = rnd (1 - q) := ⟨_, rfl⟩
  rw [← hD] at h2 ⊢
  have c1 := neg_one_le_cos E
  have c2 := cos_le_one E
  have hec1 : -(9 / 10) ≤ e * cos E := by nlinarith
  have hec2 : e * cos E ≤ 9 / 10 := by nlinarith
  obtain ⟨k, hk⟩ : ∃ k, k = e * cos E := ⟨_, rfl⟩
  rw [← hk] at h1 hec1 hec2 ⊢
  have h3 : |1 - q| ≤ 19 / 10 + 2.8 * u := by
    rw [abs_le] at h1 ⊢
    norm_num at h1 hu' ⊢
    constructor <;> linarith [h1.1, h1.2]
  have h4 : u * |1 - q| ≤ 2 * u := by
    have : u * |1 - q| ≤ u * (19 / 10 + 2.8 * u) := by gcongr
    norm_num at hu' this ⊢
    nlinarith
  have h5 : |D - (1 - k)| ≤ 4.8 * u := by
    rw [abs_le] at h1 h2 ⊢
    norm_num at h1 ⊢
    constructor <;> linarith [h1.1, h1.2, h2.1, h2.2]
  refine ⟨h5, ?_⟩
  rw [abs_le] at h5
  norm_num at h5 hu' ⊢
  linarith [h5.1]

theorem num_error {M E : ℝ} (hx : |M - E| ≤ 5.5) :
    |rnd (rnd (M - E) + rnd (e * lib.sin E)) - (M - E + e * sin E)| ≤ 8.4 * u + u * |M - E + e * sin E| := by
  have hu := u_pos
  have hu' := u_small
  have h1 := product_error he he' (hlib.sin E) (abs_sin_le_one E)
  obtain ⟨p, hp⟩ : ∃ p, p = rnd (e * lib.sin E) := ⟨_, rfl⟩
  rw [← hp] at h1 ⊢
  have h2 := rnd_u (M - E)
  obtain ⟨t, ht⟩ : ∃ t, t = rnd (M - E) := ⟨_, rfl⟩
  rw [← ht] at h2 ⊢
  have h3 := rnd_u (t + p)
  have h4 : u * |M - E| ≤ u * 5.5 := by gcongr
  obtain ⟨n0, hn0⟩ : ∃ n0, n0 = M - E + e * sin E := ⟨_, rfl⟩
  have h5 : |t + p - n0| ≤ 8.3 * u := by
    have : t + p - n0 = (t - (M - E)) + (p - e * sin E) := by rw [hn0]; ring
    rw [this]
    refine (abs_add_le _ _).trans ?_
    norm_num at h1 h4 ⊢
    linarith
  rw [← hn0]
  have h6 : |t + p| ≤ |n0| + 8.3 * u := by
    have := abs_sub_abs_le_abs_sub (t + p) n0
    linarith
  have h7 : u * |t + p| ≤ u * (|n0| + 8.3 * u) := by gcongr
  have h8 : rnd (t + p) - n0 = (rnd (t + p) - (t + p)) + (t + p - n0) := by ring
  rw [h8]
  refine (abs_add_le _ _).trans ?_
  norm_num at h5 h6 h7 hu' ⊢
  nlinarith

/-- the rounding error of one step -/
theorem kepler_noise {M E : ℝ} (hx : |M - E| ≤ 5.5) (hE : |E| ≤ 7) :
    |keplerValue lib M e E - newton e M E| ≤ 100 * u + 80 * u * |newton e M E - E| := by
  have hu := u_pos
  have hu' := u_small
  have h1 := num_error hlib he he' hx
  obtain ⟨h2, h3⟩ := den_error hlib he he' E
  unfold keplerValue
  obtain ⟨num, hnum⟩ : ∃ num, num = rnd (rnd (M - E) + rnd (e * lib.sin E)) := ⟨_, rfl⟩
  obtain ⟨den, hden⟩ : ∃ den, den = rnd (1 - rnd (e * lib.cos E)) := ⟨_, rfl⟩
  rw [← hnum] at h1 ⊢
  rw [← hden] at h2 h3 ⊢
  have hp := kepler_deriv_pos he (by linarith : e < 1) E
  have hup : 1 - e * cos E ≤ 19 / 10 := by nlinarith [neg_one_le_cos E]
  obtain ⟨d, hd⟩ : ∃ d, d = (M - E + e * sin E) / (1 - e * cos E) := ⟨_, rfl⟩
  have hn0 : M - E + e * sin E = d * (1 - e * cos E) := by rw [hd]; field_simp
  have hN : newton e M E = E + d := by rw [hd]; rfl
  rw [hn0] at h1
  rw [hN]
  obtain ⟨D, hD⟩ : ∃ D, D = 1 - e * cos E := ⟨_, rfl⟩
  rw [← hD] at h1 h2 hp hup
  rw [show E + d - E = d by ring]
  have hd0 := abs_nonneg d
  have hden0 : 0 < den := by norm_num at h3; linarith
  have h1' : |num - d * D| ≤ 8.4 * u + 1.9 * u * |d| := by
    refine h1.trans ?_
    rw [abs_mul, abs_of_pos hp]
    have : u * (|d| * D) ≤ u * (|d| * (19 / 10)) := by gcongr
    norm_num at this ⊢
    linarith
  have h4 : |num / den - d| ≤ 85 * u + 68 * u * |d| := by
    have : num / den - d = ((num - d * D) - d * (den - D)) / den := by field_simp; ring
    rw [this, abs_div, abs_of_pos hden0, div_le_iff₀ hden0]
    refine (abs_sub _ _).trans ?_
    rw [abs_mul]
    have g1 : |d| * |den - D| ≤ |d| * (4.8 * u) := by gcongr
    have g2 : (85 * u + 68 * u * |d|) * 0.099 ≤ (85 * u + 68 * u * |d|) * den := by gcongr
    have g3 : 0 ≤ u * |d| := by positivity
    norm_num at h1' g1 g2 ⊢
    linarith
  obtain ⟨w0, hw0⟩ : ∃ w0, w0 = num / den := ⟨_, rfl⟩
  rw [← hw0] at h4 ⊢
  have h5 := rnd_u w0
  obtain ⟨w, hw⟩ : ∃ w, w = rnd w0 := ⟨_, rfl⟩
  rw [← hw] at h5 ⊢
  have h6 := rnd_u (E + w)
  have h7 : |w0| ≤ |d| + (85 * u + 68 * u * |d|) := by
    have := abs_sub_abs_le_abs_sub w0 d
    linarith
  have k1 : 0 ≤ u * |d| := by positivity
  have k2 : u * u ≤ u * (1 / 1000) := by
    have : u ≤ 1 / 1000 := by norm_num at hu'; linarith
    gcongr
  have k3 : u * (u * |d|) ≤ 1 / 1000 * (u * |d|) := by
    have : u ≤ 1 / 1000 := by norm_num at hu'; linarith
    gcongr
  have h8 : |w - w0| ≤ u + 1.1 * (u * |d|) := by
    have : u * |w0| ≤ u * (|d| + (85 * u + 68 * u * |d|)) := by gcongr
    norm_num at this ⊢
    nlinarith
  have h9 : |w - d| ≤ 86 * u + 69.1 * (u * |d|) := by
    have : w - d = (w - w0) + (w0 - d) := by ring
    rw [this]
    refine (abs_add_le _ _).trans ?_
    norm_num at h8 ⊢
    linarith
  have h10 : |E + w| ≤ 7 + |d| + (86 * u + 69.1 * (u * |d|)) := by
    have : E + w = E + d + (w - d) := by ring
    rw [this]
    refine (abs_add_le _ _).trans ?_
    have := abs_add_le E d
    linarith
  have h11 : u * |E + w| ≤ u * (7 + |d| + (86 * u + 69.1 * (u * |d|))) := by gcongr
  have h12 : rnd (E + w) - (E + d) = (rnd (E + w) - (E + w)) + (w - d) := by ring
  rw [h12]
  refine (abs_add_le _ _).trans ?_
  norm_num at h9 h11 ⊢
  nlinarith

theorem keplerStep_value (M E : ℝ) : keplerStep lib M e E = .ok (keplerValue lib M e E) := by
  have h := (den_error hlib he he' E).2
  have : rnd (1 - rnd (e * lib.cos E)) ≠ 0 := by
    norm_num at h
    linarith
  simp only [keplerStep, pyDiv_ok this, ok_bind, keplerValue]; rfl

/-- what the loop returns -/
theorem keplerLoop_ok {M E₀ E : ℝ} {fuel : ℕ} (h : keplerLoop lib M e fuel E₀ = .ok E) :
    ∃ n, E = (keplerValue lib M e)^[n + 1] E₀ ∧
      |rnd ((keplerValue lib M e)^[n + 1] E₀ - (keplerValue lib M e)^[n] E₀)| < tolerance := by
  induction fuel generalizing E₀ with
  | zero => simp [keplerLoop] at h
  | succ k ih =>
    rw [keplerLoop, keplerStep_value hlib he he', ok_bind] at h
    split at h
    · rename_i hc
      simp only [pure_eq_ok, Except.ok.injEq] at h
      exact ⟨0, by simpa using h.symm, by simpa using hc⟩
    · obtain ⟨n, h1, h2⟩ := ih h
      exact ⟨n + 1, by rw [h1]; rfl, by simpa [Function.iterate_succ_apply] using h2⟩

/-- the loop returns as soon as the fuel covers one stopping index -/
theorem keplerLoop_returns {M E₀ : ℝ} {n : ℕ}
    (h : |rnd ((keplerValue lib M e)^[n + 1] E₀ - (keplerValue lib M e)^[n] E₀)| < tolerance) :
    ∃ E, ∀ fuel, n + 1 ≤ fuel → keplerLoop lib M e fuel E₀ = .ok E := by
  induction n generalizing E₀ with
  | zero =>
    refine ⟨keplerValue lib M e E₀, fun fuel hf => ?_⟩
    obtain ⟨k, rfl⟩ : ∃ k, fuel = k + 1 := ⟨fuel - 1, by omega⟩
    rw [keplerLoop, keplerStep_value hlib he he', ok_bind, if_pos]
    · rfl
    · simpa using h
  | succ n ih =>
    by_cases hc : |rnd (keplerValue lib M e E₀ - E₀)| < tolerance
    · refine ⟨keplerValue lib M e E₀, fun fuel hf => ?_⟩
      obtain ⟨k, rfl⟩ : ∃ k, fuel = k + 1 := ⟨fuel - 1, by omega⟩
      rw [keplerLoop, keplerStep_value hlib he he', ok_bind, if_pos hc]
      rfl
    · obtain ⟨E, hE⟩ := ih (E₀ := keplerValue lib M e E₀) (by
        simpa [Function.iterate_succ_apply] using h)
      refine ⟨E, fun fuel hf => ?_⟩
      obtain ⟨k, rfl⟩ : ∃ k, fuel = k + 1 := ⟨fuel - 1, by omega⟩
      rw [keplerLoop, keplerStep_value hlib he he', ok_bind, if_neg hc]
      exact hE k (by omega)

/-- the iterates stay near the mean anomaly, and successive ones come close: up to a reflection and a turn the mean
anomaly is between 0 and `pi` -/
theorem rounded_case {σ c M E₀ : ℝ} (hσ : σ = 1 ∨ σ = -1) (hc : c = 0 ∨ c = 2 * π) (h0 : 0 ≤ c + σ * M)
    (h1 : c + σ * M ≤ π + 1e-6) (hE₀ : |E₀ - (M + σ * e)| ≤ 1e-9) :
    (∀ k, |(keplerValue lib M e)^[k] E₀| ≤ 7 ∧ |M - (keplerValue lib M e)^[k] E₀| ≤ 5.5) ∧
      ∃ n, |(keplerValue lib M e)^[n + 1] E₀ - (keplerValue lib M e)^[n] E₀| ≤ 4.5e-13 := by
  have hu := u_pos
  have hu' := u_small
  have hpi := pi_gt_d2
  have hpi' := pi_lt_d2
  norm_num at hpi hpi'
  have hσ2 : σ * σ = 1 := by rcases hσ with rfl | rfl <;> norm_num
  have hσa : ∀ x, |σ * x| = |x| := by
    intro x; rcases hσ with rfl | rfl <;> simp
  have hsin : ∀ x, sin (c + σ * x) = σ * sin x := by
    intro x
    rcases hσ with rfl | rfl <;> rcases hc with rfl | rfl
    · simp
    · rw [one_mul, add_comm, sin_add_two_pi, one_mul]
    · simp
    · rw [add_comm, sin_add_two_pi, neg_one_mul, sin_neg, neg_one_mul]
  have hcos : ∀ x, cos (c + σ * x) = cos x := by
    intro x
    rcases hσ with rfl | rfl <;> rcases hc with rfl | rfl
    · simp
    · rw [one_mul, add_comm, cos_add_two_pi]
    · simp
    · rw [add_comm, cos_add_two_pi, neg_one_mul, cos_neg]
  have hN : ∀ x, newton e (c + σ * M) (c + σ * x) = c + σ * newton e M x := by
    intro x
    unfold newton
    rw [hsin, hcos]; ring
  obtain ⟨V, hV⟩ : ∃ V, V = keplerValue lib M e := ⟨_, rfl⟩
  rw [← hV]
  have hiter : ∀ k, (fun y => c + σ * V (σ * (y - c)))^[k] (c + σ * E₀) = c + σ * V^[k] E₀ := by
    intro k
    induction k with
    | zero => rfl
    | succ k ih =>
      rw [Function.iterate_succ_apply', Function.iterate_succ_apply', ih]
      congr 3
      linear_combination (V^[k] E₀) * hσ2
  have hrange : ∀ y, -(1 / 2) ≤ y → y ≤ 5 → |σ * (y - c)| ≤ 7 ∧ |M - σ * (y - c)| ≤ 5.5 := by
    intro y y1 y2
    norm_num at h1
    constructor
    · rw [hσa, abs_le]
      rcases hc with rfl | rfl <;> constructor <;> linarith
    · have : M - σ * (y - c) = σ * (c + σ * M - y) := by linear_combination (-M) * hσ2
      rw [this, hσa, abs_le]
      norm_num
      constructor <;> linarith
  obtain ⟨r1, n, r2⟩ := perturbed_core he (by linarith) (M := c + σ * M) (a := 100 * u) (b := 80 * u) (a₁ := 1e-9)
    (S := fun y => c + σ * V (σ * (y - c))) (E₀ := c + σ * E₀) (by linarith)
    (by norm_num at hu' ⊢; linarith) (by norm_num at hu' ⊢; nlinarith) (by norm_num) (by norm_num)
    (by norm_num; nlinarith) (by
      intro y y1 y2
      obtain ⟨z1, z2⟩ := hrange y y1 y2
      have hn := kepler_noise hlib he he' z2 z1
      rw [← hV] at hn
      obtain ⟨x, hx⟩ : ∃ x, x = σ * (y - c) := ⟨_, rfl⟩
      have hy : y = c + σ * x := by rw [hx]; linear_combination (c - y) * hσ2
      rw [← hx] at hn z1 z2
      have e1 : c + σ * V (σ * (y - c)) - newton e (c + σ * M) y = σ * (V x - newton e M x) := by
        rw [← hx, hy, hN]; ring
      have e2 : newton e (c + σ * M) y - y = σ * (newton e M x - x) := by rw [hy, hN]; ring
      rw [e1, e2, hσa, hσa]
      refine ⟨hn, hn.trans ?_⟩
      have hd : |newton e M x - x| ≤ 64 := by
        have e3 : newton e M x - x = (M - x + e * sin x) / (1 - e * cos x) := by unfold newton; ring
        have hp := kepler_deriv_pos he (by linarith : e < 1) x
        have hge := kepler_deriv_ge he (by linarith : e < 1) x
        rw [e3, abs_div, abs_of_pos hp, div_le_iff₀ hp]
        have e4 : |M - x + e * sin x| ≤ 6.4 := by
          refine (abs_add_le _ _).trans ?_
          rw [abs_mul, abs_of_nonneg he]
          have := abs_sin_le_one x
          have := abs_nonneg (sin x)
          norm_num at z2 ⊢
          nlinarith
        norm_num at e4
        nlinarith
      have : u * |newton e M x - x| ≤ u * 64 := by gcongr
      norm_num at hu' ⊢
      nlinarith)
    h0 h1 (by
      have : c + σ * E₀ - (c + σ * M + e) = σ * (E₀ - (M + σ * e)) := by linear_combination e * hσ2
      rw [this, hσa]; exact hE₀)
  constructor
  · intro k
    have := r1 k
    rw [hiter] at this
    have h := hrange _ this.1 this.2
    have e1 : σ * (c + σ * V^[k] E₀ - c) = V^[k] E₀ := by linear_combination (V^[k] E₀) * hσ2
    rwa [e1] at h
  · refine ⟨n, ?_⟩
    rw [hiter, hiter] at r2
    have e1 : c + σ * V^[n + 1] E₀ - (c + σ * V^[n] E₀) = σ * (V^[n + 1] E₀ - V^[n] E₀) := by ring
    rw [e1, hσa] at r2
    refine r2.trans ?_
    rw [div_le_iff₀ (by linarith)]
    norm_num at hu' ⊢
    linarith

omit hlib he he' in
theorem pi_near : |pi - π| ≤ 4 * u := by
  have h := rnd_u π
  have hpi' := pi_lt_four
  rw [abs_of_pos pi_pos] at h
  have := u_pos
  refine h.trans ?_
  nlinarith

/-- every mean anomaly within a turn of zero is in one of the cases -/
theorem rounded_all {M : ℝ} (hM : |M| ≤ 2 * π) :
    (∀ k, |(keplerValue lib M e)^[k] (keplerStart M e)| ≤ 7 ∧
      |M - (keplerValue lib M e)^[k] (keplerStart M e)| ≤ 5.5) ∧
      ∃ n, |(keplerValue lib M e)^[n + 1] (keplerStart M e) - (keplerValue lib M e)^[n] (keplerStart M e)| ≤ 4.5e-13 := by
  have hu := u_pos
  have hu' := u_small
  have hpi := pi_gt_d2
  have hpi' := pi_lt_d2
  norm_num at hpi hpi' hu'
  have hp := abs_le.mp pi_near
  obtain ⟨m1, m2⟩ := abs_le.mp hM
  have near : ∀ x, |x| ≤ 10 → |rnd x - x| ≤ 1e-9 := by
    intro x hx
    refine (rnd_u x).trans ?_
    norm_num
    nlinarith [abs_nonneg x]
  have minus : |M - e| ≤ 10 := by rw [abs_le]; constructor <;> linarith
  have plus : |M + e| ≤ 10 := by rw [abs_le]; constructor <;> linarith
  by_cases h1 : M > pi
  · have hs : keplerStart M e = rnd (M - e) := by unfold keplerStart; rw [if_pos (Or.inr h1)]
    rw [hs]
    refine rounded_case hlib he he' (σ := -1) (c := 2 * π) (Or.inr rfl) (Or.inr rfl) (by linarith) (by norm_num; linarith) ?_
    rw [show M + -1 * e = M - e by ring]
    exact near _ minus
  by_cases h2 : 0 ≤ M
  · have hs : keplerStart M e = rnd (M + e) := by
      unfold keplerStart; rw [if_neg]; rintro (h | h) <;> linarith
    rw [hs]
    refine rounded_case hlib he he' (σ := 1) (c := 0) (Or.inl rfl) (Or.inl rfl) (by linarith) (by norm_num; linarith) ?_
    rw [one_mul]
    exact near _ plus
  by_cases h3 : M > -pi
  · have hs : keplerStart M e = rnd (M - e) := by
      unfold keplerStart; rw [if_pos (Or.inl ⟨h3, by linarith⟩)]
    rw [hs]
    refine rounded_case hlib he he' (σ := -1) (c := 0) (Or.inr rfl) (Or.inl rfl) (by linarith) (by norm_num; linarith) ?_
    rw [show M + -1 * e = M - e by ring]
    exact near _ minus
  · have hs : keplerStart M e = rnd (M + e) := by
      unfold keplerStart; rw [if_neg]; rintro (h | h) <;> linarith
    rw [hs]
    refine rounded_case hlib he he' (σ := 1) (c := 2 * π) (Or.inl rfl) (Or.inr rfl) (by linarith) (by norm_num; linarith) ?_
    rw [one_mul]
    exact near _ plus

omit hlib he he' in
theorem stops_of_le {x : ℝ} (h : |x| ≤ 4.5e-13) : |rnd x| < tolerance := by
  have hu := u_pos
  have hu' := u_small
  have h1 := rnd_u x
  have h2 := rnd_u 1e-12
  rw [abs_of_pos (by norm_num : (0 : ℝ) < 1e-12)] at h2
  have h3 : |rnd x| ≤ |x| + u * |x| := by
    have := abs_sub_abs_le_abs_sub (rnd x) x
    linarith
  have h4 := (abs_le.mp h2).1
  have h5 : u * |x| ≤ u * 4.5e-13 := by gcongr
  unfold tolerance
  norm_num at h h2 h4 h5 hu' ⊢
  linarith

omit hlib he he' in
theorem le_of_stops {x : ℝ} (h : |rnd x| < tolerance) : |x| ≤ 1.1e-12 := by
  have hu := u_pos
  have hu' := u_small
  have h1 := rnd_u x
  have h2 := rnd_u 1e-12
  rw [abs_of_pos (by norm_num : (0 : ℝ) < 1e-12)] at h2
  have h3 : |x| ≤ |rnd x| + u * |x| := by
    have := abs_sub_abs_le_abs_sub x (rnd x)
    rw [abs_sub_comm] at this
    linarith
  have h4 := (abs_le.mp h2).2
  unfold tolerance at h
  norm_num at h h2 h4 hu' ⊢
  nlinarith [abs_nonneg x]

/-- when the loop ends Kepler's equation holds up to rounding errors -/
theorem rounded_residual {M E : ℝ} (hx : |M - E| ≤ 5.5) (hE : |E| ≤ 7)
    (h : |rnd (keplerValue lib M e E - E)| < tolerance) : |kepler e (keplerValue lib M e E) - M| ≤ 2.5e-14 := by
  have hu := u_pos
  have hu' := u_small
  have h1 := le_of_stops h
  have h2 := kepler_noise hlib he he' hx hE
  obtain ⟨d, hd⟩ : ∃ d, d = |newton e M E - E| := ⟨_, rfl⟩
  have hd0 : 0 ≤ d := by rw [hd]; exact abs_nonneg _
  have h3 : d ≤ 1.1e-12 + (100 * u + 80 * u * d) := by
    have e1 : newton e M E - E = -(keplerValue lib M e E - newton e M E) + (keplerValue lib M e E - E) := by ring
    have := abs_add_le (-(keplerValue lib M e E - newton e M E)) (keplerValue lib M e E - E)
    rw [← e1, abs_neg, ← hd] at this
    rw [← hd] at h2
    linarith
  have h4 : d ≤ 1.2e-12 := by
    norm_num at h3 hu' ⊢
    nlinarith
  have h5 := perturbed_residual he (by linarith : e < 1) h2
  rw [← sq_abs, ← hd] at h5
  refine h5.trans ?_
  have h6 : d ^ 2 ≤ (1.2e-12) ^ 2 := by gcongr
  have h7 : u * d ≤ u * 1.2e-12 := by gcongr
  have h8 : e * d ^ 2 ≤ 1 * (1.2e-12) ^ 2 := mul_le_mul (by linarith) h6 (sq_nonneg d) (by norm_num)
  norm_num at h7 h8 hu' ⊢
  linarith

end

end Openspace.F64
