import Verif.Lemmas.KeplerCycle
import Verif.Props.Kepler
import Verif.Model.Elements

/-!
# Property C100: the solver of Kepler's equation ends for every mean anomaly

`eaFromMaE fuel M e` is `EA.from_ma_e(M, e)` run for at most `fuel` iterations of its `while` loop.
C17 has the mean anomalies within a turn of zero.  Beyond them the property is false.
-/

namespace Openspace

open Real

/-- below an eccentricity of one half the solver ends for every mean anomaly -/
theorem C100_round_partial (M e : ℝ) (he : 0 ≤ e) (he' : e < 1 / 2) :
    ∃ E n, ∀ fuel, n ≤ fuel → eaFromMaE fuel M e = .ok E := by
  have h1 : e < 1 := by linarith
  obtain ⟨n, hn⟩ := newton_stops_small he h1 he' M
  obtain ⟨E, hE⟩ := keplerLoop_returns he h1 hn
  refine ⟨wrapNeg E, n + 1, fun fuel hf => ?_⟩
  rw [eaFromMaE, hE fuel hf]; rfl

/-- for every elliptic eccentricity it ends in the second half of every turn, counted away from zero -/
theorem C100_half_partial (M e : ℝ) (k : ℕ) (he : 0 ≤ e) (he' : e < 1)
    (h : 2 * π * k + π < |M| ∧ |M| ≤ 2 * π * k + 2 * π) :
    ∃ E n, ∀ fuel, n ≤ fuel → eaFromMaE fuel M e = .ok E := by
  obtain ⟨n, hn⟩ := newton_stops_half he he' k (M := M) (by
    rcases abs_cases M with ⟨h1, h2⟩ | ⟨h1, h2⟩
    · left; rwa [← h1]
    · right; rw [h1] at h; constructor <;> linarith [h.1, h.2])
  obtain ⟨E, hE⟩ := keplerLoop_returns he he' hn
  refine ⟨wrapNeg E, n + 1, fun fuel hf => ?_⟩
  rw [eaFromMaE, hE fuel hf]; rfl

/-- There is a whole neighbourhood of mean anomalies (a bit above `2 pi + 0.86`) and elliptic eccentricities
(between 0.86 and 0.89) for which the loop never ends: no amount of fuel is enough.  Rounding does not help:
if every iterate is off by up to `ε` from what the loop body prescribes, successive iterates still stay at least
a radian apart. -/
theorem C100_violated : ∃ e₀ M₀ ε : ℝ, 0 < ε ∧ 0.86 < e₀ ∧ e₀ < 0.89 ∧ M₀ = 2 * π + e₀ ∧
    ∀ e M : ℝ, |e - e₀| ≤ ε → |M - M₀| ≤ ε →
      (∀ fuel, eaFromMaE fuel M e = .error .outOfFuel) ∧
      (∀ E : ℕ → ℝ, |E 0 - (M - e)| ≤ ε →
        (∀ k, |E (k + 1) - (E k + (M - E k + e * sin (E k)) / (1 - e * cos (E k)))| ≤ ε) →
        ∀ k, 1 ≤ |E (k + 1) - E k|) ∧
      (∀ (el : ClassicalElements) (fuel : ℕ) (st : State), el.mean_anomaly = M → el.eccentricity = e →
        el.toIjk fuel ≠ .ok st) := by
  obtain ⟨e₀, M₀, ε, h1, h2, h3, h4, h5, H⟩ := cycle_attracts
  refine ⟨e₀, M₀, ε, h1, by norm_num at h3 ⊢; exact h3, by norm_num at h4 ⊢; exact h4, h5, fun e M he hM => ?_⟩
  have hpi := pi_gt_three
  obtain ⟨a1, a2⟩ := abs_le.mp he
  obtain ⟨b1, b2⟩ := abs_le.mp hM
  have hs : keplerStart M e = M - e := by
    unfold keplerStart pyPi; rw [if_pos (Or.inr (by linarith))]
  have stuck : ∀ fuel, eaFromMaE fuel M e = .error .outOfFuel := by
    intro fuel
    rcases hr : eaFromMaE fuel M e with err | E
    · rw [C17_no_exception fuel M e (by linarith) (by linarith) err hr]
    · exfalso
      rw [eaFromMaE, bind_eq_ok] at hr
      obtain ⟨x, hx, -⟩ := hr
      obtain ⟨n, -, hn⟩ := keplerLoop_ok (by linarith) (by linarith) hx
      have := H e M he hM (fun k => (newton e M)^[k] (keplerStart M e)) (by simp [hs, h1.le])
        (fun k => by simp [Function.iterate_succ_apply', h1.le]) n
      have ht : EA_TOLERANCE < 1 := by norm_num [EA_TOLERANCE]
      exact absurd (this.trans_lt hn) (not_lt.mpr ht.le)
  refine ⟨stuck, fun E h0 hE => H e M he hM E h0 hE, fun el fuel st hm hee hst => ?_⟩
  simp only [ClassicalElements.toIjk, bind_eq_ok, ClassicalElements.eccentricAnomaly, hm, hee, stuck] at hst
  obtain ⟨p, -, ea, hea, -⟩ := hst
  exact absurd hea (by simp)

/-- a mean anomaly of a thousand turns and a bit, on a round orbit -/
example : ∃ E n, ∀ fuel, n ≤ fuel → eaFromMaE fuel 6284 0.1 = .ok E :=
  C100_round_partial _ _ (by norm_num) (by norm_num)

/-- a mean anomaly of one turn and three quarters, on an eccentric orbit -/
example : ∃ E n, ∀ fuel, n ≤ fuel → eaFromMaE fuel 11 0.88 = .ok E := by
  have h1 := pi_gt_d2
  have h2 := pi_lt_d2
  refine C100_half_partial _ _ 1 (by norm_num) (by norm_num) ?_
  rw [abs_of_pos (by norm_num)]
  push_cast
  constructor <;> linarith

end Openspace
