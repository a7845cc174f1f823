import Verif.Lemmas.Kepler

/-!
# Properties C16–C18: the solver of Kepler's equation

`eaFromMaE fuel M e` is `EA.from_ma_e(M, e)` run for at most `fuel` iterations of its
`while` loop.  Kepler's equation is `E - e sin E = M`.
-/

namespace Openspace

open Real

/-! ## C16 -/

/-- whatever the solver returns solves Kepler's equation to 5e-25, modulo full turns, and is
within 5e-25 / (1 - e) of the exact solution, which exists and is unique -/
theorem C16_solution (fuel : ℕ) (M e E : ℝ) (he : 0 ≤ e) (he' : e < 1)
    (h : eaFromMaE fuel M e = .ok E) :
    ∃ k : ℤ, |E - e * sin E - (M + 2 * π * k)| ≤ 5e-25 ∧
      ∃! Es : ℝ, Es - e * sin Es = M + 2 * π * k ∧ |E - Es| ≤ 5e-25 / (1 - e) := by
  rw [eaFromMaE, bind_eq_ok] at h
  obtain ⟨x, hx, hE⟩ := h
  simp only [pure_eq_ok, Except.ok.injEq] at hE
  obtain ⟨n, h1, h2⟩ := keplerLoop_ok he he' hx
  obtain ⟨k, hk⟩ := exists_wrapNeg x
  have hres := newton_residual he he' M ((newton e M)^[n] (keplerStart M e))
  rw [← Function.iterate_succ_apply' (newton e M)] at hres
  rw [← h1] at hres h2
  have hsq : (x - (newton e M)^[n] (keplerStart M e)) ^ 2 ≤ (1e-12) ^ 2 := by
    rw [← sq_abs]
    have : |x - (newton e M)^[n] (keplerStart M e)| ≤ 1e-12 := h2.le
    gcongr
  have hb : |kepler e x - M| ≤ 5e-25 := by
    refine hres.trans ?_
    have := mul_le_mul he'.le hsq (sq_nonneg _) zero_le_one
    norm_num at this ⊢
    linarith
  have hE' : E = x + 2 * π * k := by rw [← hE, hk]
  have hr : |E - e * sin E - (M + 2 * π * k)| ≤ 5e-25 := by
    rw [hE', sin_turn]
    have : x + 2 * π * k - e * sin x - (M + 2 * π * k) = kepler e x - M := by
      unfold kepler; ring
    rwa [this]
  refine ⟨k, hr, ?_⟩
  obtain ⟨Es, hEs, _, _⟩ := kepler_exists he he' (M + 2 * π * k)
  refine ⟨Es, ⟨hEs, ?_⟩, ?_⟩
  · have := kepler_expand he he' E Es
    rw [hEs] at this
    rw [le_div_iff₀ (by linarith)]
    unfold kepler at this
    linarith
  · rintro y ⟨hy, _⟩
    exact kepler_injective he he' (by rw [hEs]; exact hy)

/-! ## C17 -/

/-- the loop ends, without an exception, for every mean anomaly within a turn of zero: with
enough fuel the result does not depend on the fuel -/
theorem C17_terminates (M e : ℝ) (he : 0 ≤ e) (he' : e < 1) (h1 : -(2 * π) ≤ M) (h2 : M ≤ 2 * π) :
    ∃ E n, ∀ fuel, n ≤ fuel → eaFromMaE fuel M e = .ok E := by
  obtain ⟨⟨n, hn⟩, _, _⟩ := newton_all he he' h1 h2
  obtain ⟨E, hE⟩ := keplerLoop_returns he he' hn
  refine ⟨wrapNeg E, n + 1, fun fuel hf => ?_⟩
  rw [eaFromMaE, hE fuel hf]; rfl

/-- and no exception other than non-termination is possible at all -/
theorem C17_no_exception (fuel : ℕ) (M e : ℝ) (he : 0 ≤ e) (he' : e < 1) (err : PyErr)
    (h : eaFromMaE fuel M e = .error err) : err = .outOfFuel := by
  have key : ∀ fuel E0, keplerLoop M e fuel E0 = .error err → err = .outOfFuel := by
    intro fuel
    induction fuel with
    | zero => intro E0 h; simp [keplerLoop] at h; exact h.symm
    | succ k ih =>
      intro E0 h
      rw [keplerLoop, keplerStep_ok he he', ok_bind] at h
      split at h
      · simp at h
      · exact ih _ h
  rw [eaFromMaE, bind_eq_error] at h
  rcases h with h | ⟨a, _, h⟩
  · exact key _ _ h
  · simp at h

/-! ## C18 -/

/-- the returned angle is normalised -/
theorem C18_range (fuel : ℕ) (M e E : ℝ) (he : 0 ≤ e) (he' : e < 1) (h1 : -(2 * π) < M) (h2 : M < 2 * π)
    (h : eaFromMaE fuel M e = .ok E) : 0 ≤ E ∧ E < 2 * π := by
  obtain ⟨_, b1, b2⟩ := newton_all he he' h1.le h2.le
  rw [eaFromMaE, bind_eq_ok] at h
  obtain ⟨x, hx, hE⟩ := h
  simp only [pure_eq_ok, Except.ok.injEq] at hE
  obtain ⟨n, h3, _⟩ := keplerLoop_ok he he' hx
  rw [← hE]
  by_cases hM : 0 ≤ M
  · have := b1 hM h2 (n + 1)
    rw [← h3] at this
    rw [wrapNeg_of_nonneg this.1]; exact this
  · push Not at hM
    have := b2 hM h1 (n + 1)
    rw [← h3] at this
    rw [wrapNeg_of_neg this.2]
    constructor <;> linarith [this.1, this.2]

/-- solving for the mean anomaly of `E0` gives `E0` back, modulo a turn, up to the tolerance -/
theorem C18_inverse (E0 e : ℝ) (he : 0 ≤ e) (he' : e < 1) (h1 : -(2 * π) ≤ E0) (h2 : E0 < 2 * π) :
    ∃ E n, (∀ fuel, n ≤ fuel → eaFromMaE fuel (maFromEaE E0 e) e = .ok E) ∧ 0 ≤ E ∧ E < 2 * π ∧
      ∃ k : ℤ, |E - (E0 + 2 * π * k)| ≤ 5e-25 / (1 - e) := by
  have hmono := kepler_strictMono he he'
  have k0 : kepler e (-(2 * π)) = -(2 * π) := by simp [kepler]
  have k2 : kepler e (2 * π) = 2 * π := by simp [kepler]
  have hM0 : -(2 * π) ≤ kepler e E0 := by rw [← k0]; exact hmono.monotone h1
  have hM2 : kepler e E0 < 2 * π := by
    have := hmono h2; rwa [k2] at this
  have hma : maFromEaE E0 e = wrapNeg (kepler e E0) := rfl
  have w0 := wrapNeg_nonneg hM0
  have w1 := wrapNeg_lt hM2
  obtain ⟨k1, hk1⟩ := exists_wrapNeg (kepler e E0)
  rw [hma]
  obtain ⟨E, n, hE⟩ := C17_terminates (wrapNeg (kepler e E0)) e he he' (by linarith [pi_pos]) w1.le
  have hr := C18_range n _ e E he he' (by linarith [pi_pos]) w1 (hE n le_rfl)
  obtain ⟨k, _, Es, ⟨hEs, hEs2⟩, _⟩ := C16_solution n _ e E he he' (hE n le_rfl)
  have : Es = E0 + 2 * π * (k1 + k : ℤ) := by
    apply kepler_injective he he'
    rw [hk1] at hEs
    unfold kepler at hEs ⊢
    rw [hEs, sin_turn]; push_cast; ring
  exact ⟨E, n, hE, hr.1, hr.2, _, by rw [← this]; exact hEs2⟩

example : ∃ E n, ∀ fuel, n ≤ fuel → eaFromMaE fuel 3 0.99 = .ok E := by
  have := pi_gt_three
  exact C17_terminates 3 0.99 (by norm_num) (by norm_num) (by linarith) (by linarith)

end Openspace
