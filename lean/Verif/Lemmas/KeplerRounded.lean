import Verif.Lemmas.KeplerCycle

/-!
# Newton's method for Kepler's equation with perturbed iterates

`S` is one step of the method with an error, which is at most `a + b |step|` and at most `a₁`.
-/

namespace Openspace

open Real

section
variable {e : ℝ} (he : 0 ≤ e) (he' : e < 1)
include he he'

theorem kepler_lipschitz (x y : ℝ) : |kepler e x - kepler e y| ≤ 2 * |x - y| := by
  have h1 : |sin x - sin y| ≤ |x - y| := by
    have := abs_sin_sub_sin_le x y
    simpa using this
  have : kepler e x - kepler e y = (x - y) - e * (sin x - sin y) := by unfold kepler; ring
  rw [this]
  refine (abs_sub _ _).trans ?_
  rw [abs_mul, abs_of_nonneg he]
  nlinarith [abs_nonneg (sin x - sin y)]

/-- the residual after a perturbed step -/
theorem perturbed_residual {M E E' η : ℝ} (h : |E' - newton e M E| ≤ η) :
    |kepler e E' - M| ≤ e * (newton e M E - E) ^ 2 / 2 + 2 * η := by
  have h1 := newton_residual he he' M E
  have h2 := kepler_lipschitz he he' E' (newton e M E)
  have h3 : kepler e E' - M = (kepler e E' - kepler e (newton e M E)) + (kepler e (newton e M E) - M) := by ring
  rw [h3]
  refine (abs_add_le _ _).trans ?_
  linarith

/-- close to the root residuals decrease to the level of the perturbation -/
theorem perturbed_end {M a b r₀ : ℝ} {S : ℝ → ℝ} {E₀ : ℝ} (ha : 0 < a) (hr₀ : r₀ = (1 - e) ^ 2 / 8)
    (hb : b ≤ (1 - e) / 32) (har : 16 / 7 * a ≤ r₀)
    (hS : ∀ E, |kepler e E - M| ≤ r₀ → |S E - newton e M E| ≤ a + b * |newton e M E - E|)
    (h0 : |kepler e E₀ - M| ≤ r₀) :
    (∀ k, |kepler e (S^[k] E₀) - M| ≤ r₀) ∧
      ∃ n, |S^[n + 1] E₀ - S^[n] E₀| ≤ 7 / 2 * a / (1 - e) := by
  have he1 : 0 < 1 - e := by linarith
  have step : ∀ E, |kepler e E - M| ≤ r₀ → |kepler e (S E) - M| ≤ |kepler e E - M| / 8 + 2 * a := by
    intro E hE
    have h1 := perturbed_residual he he' (hS E hE)
    have h2 := newton_step_le he he' M E
    obtain ⟨ρ, hρ⟩ : ∃ ρ, ρ = |kepler e E - M| := ⟨_, rfl⟩
    obtain ⟨d, hd⟩ : ∃ d, d = |newton e M E - E| := ⟨_, rfl⟩
    rw [← sq_abs, ← hd] at h1
    rw [← hd, ← hρ, le_div_iff₀ he1] at h2
    rw [← hρ] at hE ⊢
    have hd0 : 0 ≤ d := by rw [hd]; exact abs_nonneg _
    have hρ0 : 0 ≤ ρ := by rw [hρ]; exact abs_nonneg _
    have h3 : d * (1 - e) ≤ (1 - e) ^ 2 / 8 := by linarith
    have h4 : d ≤ (1 - e) / 8 := by
      by_contra hc
      push Not at hc
      nlinarith
    have h5 : d * d ≤ d * ((1 - e) / 8) := mul_le_mul_of_nonneg_left h4 hd0
    have h6 : e * d ^ 2 ≤ d ^ 2 := by nlinarith [sq_nonneg d]
    have h7 : b * d ≤ (1 - e) / 32 * d := mul_le_mul_of_nonneg_right hb hd0
    nlinarith
  have key : ∀ k, |kepler e (S^[k] E₀) - M| ≤ r₀ ∧ |kepler e (S^[k] E₀) - M| ≤ r₀ * (1 / 8) ^ k + 16 / 7 * a := by
    intro k
    induction k with
    | zero => exact ⟨h0, by simp only [Function.iterate_zero, id, pow_zero]; linarith⟩
    | succ k ih =>
      rw [Function.iterate_succ_apply']
      have h1 := step _ ih.1
      refine ⟨by linarith [ih.1], h1.trans ?_⟩
      rw [pow_succ]
      linarith [ih.2]
  refine ⟨fun k => (key k).1, ?_⟩
  obtain ⟨n, hn⟩ := exists_pow_lt_of_lt_one (show 0 < a / 100 / (r₀ + 1) by
    have : 0 < r₀ + 1 := by linarith
    positivity) (show (1 / 8 : ℝ) < 1 by norm_num)
  have hr0 : 0 < r₀ := by linarith
  rw [lt_div_iff₀ (by linarith)] at hn
  refine ⟨n, ?_⟩
  rw [Function.iterate_succ_apply']
  obtain ⟨E, hE⟩ : ∃ E, E = S^[n] E₀ := ⟨_, rfl⟩
  have hk := (key n).2
  have hk1 := (key n).1
  rw [← hE] at hk hk1 ⊢
  have h1 := hS E hk1
  have h2 := newton_step_le he he' M E
  have h3 : |kepler e E - M| ≤ 23 / 10 * a := by
    have : r₀ * (1 / 8) ^ n ≤ (1 / 8) ^ n * (r₀ + 1) := by
      have : (0 : ℝ) ≤ (1 / 8) ^ n := by positivity
      nlinarith
    linarith
  obtain ⟨d, hd⟩ : ∃ d, d = |newton e M E - E| := ⟨_, rfl⟩
  rw [← hd] at h1 h2
  rw [le_div_iff₀ he1] at h2
  have hd0 : 0 ≤ d := by rw [hd]; exact abs_nonneg _
  have h4 : |S E - E| ≤ a + b * d + d := by
    have : S E - E = (S E - newton e M E) + (newton e M E - E) := by ring
    rw [this]
    refine (abs_add_le _ _).trans ?_
    rw [← hd]; linarith
  refine h4.trans ?_
  rw [le_div_iff₀ he1]
  have h5 : b * d ≤ 1 / 32 * d := mul_le_mul_of_nonneg_right (by linarith) hd0
  have h6 : a * (1 - e) ≤ a := by nlinarith
  nlinarith

/-- on the convex half turn perturbed iterates approach the root from above, or jump just below it -/
theorem perturbed_convex {M Es a₁ r₀ : ℝ} {S : ℝ → ℝ} (hroot : kepler e Es = M) (h0 : 0 ≤ Es) (ha : 0 ≤ a₁)
    (hr₀ : 0 < r₀) (har : 8 * a₁ ≤ r₀)
    (hS : ∀ E, Es - a₁ ≤ E → E ≤ π → |S E - newton e M E| ≤ a₁) :
    ∀ (m : ℕ) (E₀ : ℝ), Es - a₁ ≤ E₀ → E₀ ≤ π → E₀ ≤ Es + m * (r₀ / 4) →
      ∃ n, |kepler e (S^[n] E₀) - M| ≤ r₀ ∧ ∀ k ≤ n, Es - a₁ ≤ S^[k] E₀ ∧ S^[k] E₀ ≤ π := by
  have below : ∀ E₀, Es - a₁ ≤ E₀ → E₀ ≤ Es → |kepler e E₀ - M| ≤ r₀ := by
    intro E₀ h1 h2
    have := kepler_lipschitz he he' E₀ Es
    rw [hroot] at this
    have h3 : |E₀ - Es| ≤ a₁ := by rw [abs_le]; constructor <;> linarith
    linarith
  intro m
  induction m with
  | zero =>
    intro E₀ h1 h2 h3
    refine ⟨0, below E₀ h1 (by simpa using h3), fun k hk => ?_⟩
    obtain rfl : k = 0 := by omega
    exact ⟨h1, h2⟩
  | succ m ih =>
    intro E₀ h1 h2 h3
    by_cases hdone : |kepler e E₀ - M| ≤ r₀
    · refine ⟨0, hdone, fun k hk => ?_⟩
      obtain rfl : k = 0 := by omega
      exact ⟨h1, h2⟩
    · have hEs : Es ≤ E₀ := by
        by_contra hc
        push Not at hc
        exact hdone (below E₀ h1 hc.le)
      obtain ⟨m1, m2⟩ := newton_monotone he he' hroot h0 hEs h2
      have hn := abs_le.mp (hS E₀ h1 h2)
      have hp := kepler_deriv_pos he he' E₀
      have hres : r₀ < kepler e E₀ - M := by
        have := (kepler_strictMono he he').monotone hEs
        rw [hroot] at this
        rw [abs_of_nonneg (by linarith)] at hdone
        linarith
      have hdec : newton e M E₀ ≤ E₀ - r₀ / 2 := by
        have e1 : newton e M E₀ - E₀ = -((kepler e E₀ - M) / (1 - e * cos E₀)) := by unfold newton kepler; ring
        have e2 : r₀ / 2 ≤ (kepler e E₀ - M) / (1 - e * cos E₀) := by
          rw [le_div_iff₀ hp]
          have : 1 - e * cos E₀ ≤ 2 := by nlinarith [neg_one_le_cos E₀]
          nlinarith
        linarith
      push_cast at h3
      obtain ⟨n, i1, i2⟩ := ih (S E₀) (by linarith [hn.1]) (by linarith [hn.2]) (by linarith [hn.2])
      refine ⟨n + 1, i1, fun k hk => ?_⟩
      rcases k with _ | k
      · exact ⟨h1, h2⟩
      · exact i2 k (by omega)

/-- around apogee perturbed iterates approach the root -/
theorem perturbed_contract {M Es a₁ r₀ : ℝ} {S : ℝ → ℝ} (hroot : kepler e Es = M) (hE1 : π - 1 - 1e-5 ≤ Es)
    (hE2 : Es ≤ π + 1e-5) (ha' : a₁ ≤ 1e-5) (hr₀ : 0 < r₀) (har : 8 * a₁ ≤ r₀)
    (hS : ∀ E, π / 2 ≤ E → E ≤ 3 * π / 2 → |S E - newton e M E| ≤ a₁) {E₀ : ℝ}
    (h1 : π / 2 ≤ E₀) (h2 : E₀ ≤ 3 * π / 2) (h3 : |E₀ - Es| ≤ 1 + 2e-5) :
    ∃ n, |kepler e (S^[n] E₀) - M| ≤ r₀ ∧ ∀ k ≤ n, π / 2 ≤ S^[k] E₀ ∧ S^[k] E₀ ≤ 3 * π / 2 := by
  have hpi := pi_gt_d2
  have hpi' := pi_lt_d2
  norm_num at hE1 hE2 ha' h3 hpi hpi'
  have range : ∀ E, |E - Es| ≤ 51 / 100 → π / 2 ≤ E ∧ E ≤ 3 * π / 2 := by
    intro E hE
    rw [abs_le] at hE
    constructor <;> linarith [hE.1, hE.2]
  have near : ∀ E, π / 2 ≤ E → E ≤ 3 * π / 2 → |S E - Es| ≤ |E - Es| ^ 2 / 2 + a₁ := by
    intro E h1 h2
    have c1 := newton_contract he he' hroot h1 h2
    have c2 := hS E h1 h2
    have : S E - Es = (S E - newton e M E) + (newton e M E - Es) := by ring
    rw [this, sq_abs]
    refine (abs_add_le _ _).trans ?_
    linarith
  have main : ∀ (m : ℕ) (E₀ : ℝ), |E₀ - Es| ≤ 51 / 100 → |E₀ - Es| ≤ r₀ / 2 * (4 / 3) ^ m →
      ∃ n, |kepler e (S^[n] E₀) - M| ≤ r₀ ∧ ∀ k ≤ n, π / 2 ≤ S^[k] E₀ ∧ S^[k] E₀ ≤ 3 * π / 2 := by
    intro m
    induction m with
    | zero =>
      intro E₀ h1 h2
      refine ⟨0, ?_, fun k hk => ?_⟩
      · have := kepler_lipschitz he he' E₀ Es
        rw [hroot] at this
        simp only [Function.iterate_zero, id]
        linarith
      · obtain rfl : k = 0 := by omega
        exact range _ h1
    | succ m ih =>
      intro E₀ h1 h2
      by_cases hdone : |E₀ - Es| ≤ r₀ / 2
      · refine ⟨0, ?_, fun k hk => ?_⟩
        · have := kepler_lipschitz he he' E₀ Es
          rw [hroot] at this
          simp only [Function.iterate_zero, id]
          linarith
        · obtain rfl : k = 0 := by omega
          exact range _ h1
      · push Not at hdone
        obtain ⟨r1, r2⟩ := range _ h1
        have hn := near E₀ r1 r2
        have hx : 0 ≤ |E₀ - Es| := abs_nonneg _
        have hlt : |S E₀ - Es| ≤ 3 / 4 * |E₀ - Es| := by nlinarith
        obtain ⟨n, i1, i2⟩ := ih (S E₀) (by linarith) (by
          rw [pow_succ] at h2; linarith)
        refine ⟨n + 1, i1, fun k hk => ?_⟩
        rcases k with _ | k
        · exact ⟨r1, r2⟩
        · exact i2 k (by omega)
  have hfirst : |S E₀ - Es| ≤ 51 / 100 := by
    have := near E₀ h1 h2
    have hx : 0 ≤ |E₀ - Es| := abs_nonneg _
    nlinarith
  obtain ⟨m, hm⟩ := pow_unbounded_of_one_lt (2 / r₀) (show (1 : ℝ) < 4 / 3 by norm_num)
  obtain ⟨n, i1, i2⟩ := main m (S E₀) hfirst (by
    rw [div_lt_iff₀ hr₀] at hm
    linarith)
  refine ⟨n + 1, i1, fun k hk => ?_⟩
  rcases k with _ | k
  · exact ⟨h1, h2⟩
  · exact i2 k (by omega)

/-- the case `0 ≤ M ≤ pi` (and a little beyond) -/
theorem perturbed_core {M a b a₁ E₀ : ℝ} {S : ℝ → ℝ} (ha : 0 < a) (hb : b ≤ (1 - e) / 32)
    (har : 16 / 7 * a ≤ (1 - e) ^ 2 / 8) (ha₁ : 0 ≤ a₁) (ha₁' : a₁ ≤ 1e-6) (har₁ : 8 * a₁ ≤ (1 - e) ^ 2 / 8)
    (hS : ∀ E, -(1 / 2) ≤ E → E ≤ 5 →
      |S E - newton e M E| ≤ a + b * |newton e M E - E| ∧ |S E - newton e M E| ≤ a₁)
    (hM : 0 ≤ M) (hM' : M ≤ π + 1e-6)
    (h : |E₀ - (M + e)| ≤ a₁) :
    (∀ k, -(1 / 2) ≤ S^[k] E₀ ∧ S^[k] E₀ ≤ 5) ∧
      ∃ n, |S^[n + 1] E₀ - S^[n] E₀| ≤ 7 / 2 * a / (1 - e) := by
  have hpi := pi_gt_d2
  have hpi' := pi_lt_d2
  norm_num at hpi hpi' ha₁' hM'
  obtain ⟨Es, hroot, hl, hu⟩ := kepler_exists he he' M
  have hmono := kepler_strictMono he he'
  have k0 : kepler e 0 = 0 := by simp [kepler]
  have hEs0 : 0 ≤ Es := by
    by_contra hc
    push Not at hc
    have := hmono hc
    rw [hroot, k0] at this; linarith
  have hsq1 : (1 - e) ^ 2 ≤ 1 := by nlinarith
  have hr0 : 0 < (1 - e) ^ 2 / 8 := by
    have : 0 < 1 - e := by linarith
    positivity
  -- the last phase
  have final : Es ≤ 4 → ∀ n, |kepler e (S^[n] E₀) - M| ≤ (1 - e) ^ 2 / 8 →
      (∀ k ≤ n, -(1 / 2) ≤ S^[k] E₀ ∧ S^[k] E₀ ≤ 5) →
      (∀ k, -(1 / 2) ≤ S^[k] E₀ ∧ S^[k] E₀ ≤ 5) ∧ ∃ n, |S^[n + 1] E₀ - S^[n] E₀| ≤ 7 / 2 * a / (1 - e) := by
    intro hEs4 n hn hle
    have hrange : ∀ E, |kepler e E - M| ≤ (1 - e) ^ 2 / 8 → -(1 / 2) ≤ E ∧ E ≤ 5 := by
      intro E hE
      have := kepler_expand he he' E Es
      rw [hroot] at this
      have h1 : |E - Es| ≤ 1 / 8 := by
        by_contra hc
        push Not at hc
        nlinarith
      rw [abs_le] at h1
      constructor <;> linarith [h1.1, h1.2]
    obtain ⟨e1, n', e2⟩ := perturbed_end he he' (M := M) (S := S) (E₀ := S^[n] E₀) ha rfl hb har
      (fun E hE => (hS E (hrange E hE).1 (hrange E hE).2).1) hn
    constructor
    · intro k
      rcases le_total k n with h | h
      · exact hle k h
      · obtain ⟨j, rfl⟩ : ∃ j, k = j + n := ⟨k - n, by omega⟩
        have := hrange _ (e1 j)
        rwa [← Function.iterate_add_apply] at this
    · refine ⟨n' + n, ?_⟩
      rwa [← Function.iterate_add_apply, ← Function.iterate_add_apply, show n' + 1 + n = n' + n + 1 by ring] at e2
  -- the apogee case
  have apogee : π - 1 - 1e-5 ≤ Es → Es ≤ π + 1e-5 → π / 2 ≤ E₀ → E₀ ≤ 3 * π / 2 → |E₀ - Es| ≤ 1 + 2e-5 →
      (∀ k, -(1 / 2) ≤ S^[k] E₀ ∧ S^[k] E₀ ≤ 5) ∧ ∃ n, |S^[n + 1] E₀ - S^[n] E₀| ≤ 7 / 2 * a / (1 - e) := by
    intro b1 b2 b3 b4 b5
    obtain ⟨n, c1, c2⟩ := perturbed_contract he he' (S := S) hroot b1 b2 (by norm_num; linarith) hr0 har₁
      (fun E h1 h2 => (hS E (by linarith) (by linarith)).2) b3 b4 b5
    norm_num at b2
    exact final (by linarith) n c1 (fun k hk => ⟨by linarith [(c2 k hk).1], by linarith [(c2 k hk).2]⟩)
  have hEsM : M ≤ π → M ≤ Es ∧ Es ≤ π := by
    intro h
    have kpi : kepler e π = π := by simp [kepler]
    have h2 : Es ≤ π := by
      by_contra hc
      push Not at hc
      have := hmono hc
      rw [hroot, kpi] at this; linarith
    have := sin_nonneg_of_nonneg_of_le_pi hEs0 h2
    unfold kepler at hroot
    exact ⟨by nlinarith, h2⟩
  have hEsπ : π ≤ M → π ≤ Es ∧ Es ≤ M := by
    intro h
    have kpi : kepler e π = π := by simp [kepler]
    have h1 : π ≤ Es := by
      by_contra hc
      push Not at hc
      have := hmono hc
      rw [hroot, kpi] at this; linarith
    have h3 : Es ≤ 2 * π := by linarith
    have := sin_nonpos_of_nonpos_of_neg_pi_le (x := Es - 2 * π) (by linarith) (by linarith)
    rw [sin_sub_two_pi] at this
    unfold kepler at hroot
    exact ⟨h1, by nlinarith⟩
  rw [abs_le] at h
  by_cases hc : M + e + 1e-6 ≤ π
  · norm_num at hc
    obtain ⟨g1, g2⟩ := hEsM (by linarith)
    obtain ⟨m, hm⟩ := exists_nat_gt ((E₀ - Es) / ((1 - e) ^ 2 / 8 / 4))
    rw [div_lt_iff₀ (by linarith)] at hm
    obtain ⟨n, c1, c2⟩ := perturbed_convex he he' (S := S) hroot hEs0 ha₁ hr0 har₁
      (fun E h1 h2 => (hS E (by linarith) (by linarith)).2) m E₀ (by linarith [h.1]) (by linarith [h.2]) (by linarith)
    exact final (by linarith) n c1 (fun k hk => ⟨by linarith [(c2 k hk).1], by linarith [(c2 k hk).2]⟩)
  · push Not at hc
    norm_num at hc
    rcases le_total M π with hMp | hMp
    · obtain ⟨g1, g2⟩ := hEsM hMp
      apply apogee
      · norm_num; linarith
      · norm_num; linarith
      · linarith [h.1]
      · linarith [h.2]
      · rw [abs_le]; norm_num; constructor <;> linarith [h.1, h.2]
    · obtain ⟨g1, g2⟩ := hEsπ hMp
      apply apogee
      · norm_num; linarith
      · norm_num; linarith
      · linarith [h.1]
      · linarith [h.2]
      · rw [abs_le]; norm_num; constructor <;> linarith [h.1, h.2]

end

end Openspace
