import Verif.Lemmas.RKOrder
import Mathlib.Analysis.Calculus.FDeriv.Extend

/-!
# Runge-Kutta steps over a jump of the field

The field is smooth before and after a time `t0`, with a jump at `t0`.  A step that stays on one side has the local
error of a smooth field; one over the jump has an error of the order of its size.
-/

namespace Openspace.RKOrder

set_option linter.unusedSectionVars false

open Filter Asymptotics Topology
open scoped ContDiff

variable {E : Type} [NormedAddCommGroup E] [NormedSpace ℝ E] [CompleteSpace E]

variable {t0 : ℝ}

theorem solution_exists_at {f : ℝ × E → E} {y0 : E} (hf : ContDiffAt ℝ 1 f (t0, y0)) :
    ∃ y : ℝ → E, y t0 = y0 ∧ ∀ᶠ s in 𝓝 t0, HasDerivAt y (f (s, y s)) s := by
  obtain ⟨z, hz0, hz⟩ := solution_exists (f := fun u : ℝ × E => f (t0 + u.1, u.2)) (y0 := y0) (by
    refine ContDiffAt.comp (g := f) _ (by simpa using hf) (by fun_prop))
  refine ⟨fun s => z (s - t0), by simpa using hz0, ?_⟩
  have hc : Tendsto (fun s : ℝ => s - t0) (𝓝 t0) (𝓝 0) := by
    have : Continuous fun s : ℝ => s - t0 := by fun_prop
    simpa using this.tendsto t0
  filter_upwards [hc.eventually hz] with s hs
  have := hs.scomp s ((hasDerivAt_id s).sub_const t0)
  simpa [Function.comp_def] using this

/-- a solution up to `t0` can be continued past it -/
theorem continue_right {g : ℝ × E → E} {y : ℝ → E} (hg : ContDiffAt ℝ 1 g (t0, y t0)) (hc : ContinuousAt y t0)
    (hy : ∀ᶠ s in 𝓝[<] t0, HasDerivAt y (g (s, y s)) s) :
    ∃ z : ℝ → E, (∀ s ≤ t0, z s = y s) ∧ ∀ᶠ s in 𝓝 t0, HasDerivAt z (g (s, z s)) s := by
  obtain ⟨x, hx0, hx⟩ := solution_exists_at hg
  obtain ⟨z, hz⟩ : ∃ z : ℝ → E, z = fun s => if s ≤ t0 then y s else x s := ⟨_, rfl⟩
  have z1 : ∀ s ≤ t0, z s = y s := fun s hs => by rw [hz]; exact if_pos hs
  have z2 : ∀ s, t0 ≤ s → z s = x s := fun s hs => by
    rcases hs.eq_or_lt with rfl | h
    · rw [z1 _ le_rfl, hx0]
    · rw [hz]; exact if_neg (not_le.mpr h)
  refine ⟨z, z1, ?_⟩
  have hyc : ContinuousAt (fun s => g (s, y s)) t0 :=
    ContinuousAt.comp (f := fun s => (s, y s)) (g := g) hg.continuousAt (continuousAt_id.prodMk hc)
  -- at `t0`
  have hat : HasDerivAt z (g (t0, y t0)) t0 := by
    have hl : HasDerivWithinAt z (g (t0, y t0)) (Set.Iic t0) t0 := by
      have h1 : HasDerivWithinAt y (g (t0, y t0)) (Set.Iic t0) t0 := by
        obtain ⟨l, hl, hlt⟩ := (mem_nhdsLT_iff_exists_Ioo_subset).mp hy
        refine hasDerivWithinAt_Iic_of_tendsto_deriv (s := Set.Ioo l t0)
          (fun s hs => (hlt hs).differentiableAt.differentiableWithinAt) hc.continuousWithinAt
          (Ioo_mem_nhdsLT hl) ?_
        refine (hyc.tendsto.mono_left nhdsWithin_le_nhds).congr' ?_
        filter_upwards [hy] with s hs using hs.deriv.symm
      exact h1.congr (fun s hs => z1 s hs) (z1 _ le_rfl)
    have hr : HasDerivWithinAt z (g (t0, y t0)) (Set.Ici t0) t0 := by
      have := hx.self_of_nhds.hasDerivWithinAt (s := Set.Ici t0)
      rw [hx0] at this
      exact this.congr (fun s hs => z2 s hs) (z2 _ le_rfl)
    have := hl.union hr
    rwa [Set.Iic_union_Ici, hasDerivWithinAt_univ] at this
  rw [eventually_nhdsWithin_iff] at hy
  filter_upwards [hy, hx] with s h1 h2
  rcases lt_trichotomy s t0 with h | h | h
  · rw [z1 s h.le]
    exact (h1 h).congr_of_eventuallyEq (by filter_upwards [Iio_mem_nhds h] with u hu using z1 u (le_of_lt hu))
  · rw [h, z1 _ le_rfl]; exact hat
  · rw [z2 s h.le]
    exact h2.congr_of_eventuallyEq (by filter_upwards [Ioi_mem_nhds h] with u hu using z2 u (le_of_lt hu))

/-- a solution from `t0` on can be continued before it -/
theorem continue_left {g : ℝ × E → E} {y : ℝ → E} (hg : ContDiffAt ℝ 1 g (t0, y t0)) (hc : ContinuousAt y t0)
    (hy : ∀ᶠ s in 𝓝[>] t0, HasDerivAt y (g (s, y s)) s) :
    ∃ z : ℝ → E, (∀ s, t0 ≤ s → z s = y s) ∧ ∀ᶠ s in 𝓝 t0, HasDerivAt z (g (s, z s)) s := by
  obtain ⟨x, hx0, hx⟩ := solution_exists_at hg
  obtain ⟨z, hz⟩ : ∃ z : ℝ → E, z = fun s => if t0 ≤ s then y s else x s := ⟨_, rfl⟩
  have z1 : ∀ s, t0 ≤ s → z s = y s := fun s hs => by rw [hz]; exact if_pos hs
  have z2 : ∀ s ≤ t0, z s = x s := fun s hs => by
    rcases hs.eq_or_lt with rfl | h
    · rw [z1 _ le_rfl, hx0]
    · rw [hz]; exact if_neg (not_le.mpr h)
  refine ⟨z, z1, ?_⟩
  have hyc : ContinuousAt (fun s => g (s, y s)) t0 :=
    ContinuousAt.comp (f := fun s => (s, y s)) (g := g) hg.continuousAt (continuousAt_id.prodMk hc)
  have hat : HasDerivAt z (g (t0, y t0)) t0 := by
    have hr : HasDerivWithinAt z (g (t0, y t0)) (Set.Ici t0) t0 := by
      have h1 : HasDerivWithinAt y (g (t0, y t0)) (Set.Ici t0) t0 := by
        obtain ⟨l, hl, hlt⟩ := (mem_nhdsGT_iff_exists_Ioo_subset).mp hy
        refine hasDerivWithinAt_Ici_of_tendsto_deriv (s := Set.Ioo t0 l)
          (fun s hs => (hlt hs).differentiableAt.differentiableWithinAt) hc.continuousWithinAt
          (Ioo_mem_nhdsGT hl) ?_
        refine (hyc.tendsto.mono_left nhdsWithin_le_nhds).congr' ?_
        filter_upwards [hy] with s hs using hs.deriv.symm
      exact h1.congr (fun s hs => z1 s hs) (z1 _ le_rfl)
    have hl : HasDerivWithinAt z (g (t0, y t0)) (Set.Iic t0) t0 := by
      have := hx.self_of_nhds.hasDerivWithinAt (s := Set.Iic t0)
      rw [hx0] at this
      exact this.congr (fun s hs => z2 s hs) (z2 _ le_rfl)
    have := hl.union hr
    rwa [Set.Iic_union_Ici, hasDerivWithinAt_univ] at this
  rw [eventually_nhdsWithin_iff] at hy
  filter_upwards [hy, hx] with s h1 h2
  rcases lt_trichotomy t0 s with h | h | h
  · rw [z1 s h.le]
    exact (h1 h).congr_of_eventuallyEq (by filter_upwards [Ioi_mem_nhds h] with u hu using z1 u (le_of_lt hu))
  · rw [← h, z1 _ le_rfl]; exact hat
  · rw [z2 s h.le]
    exact h2.congr_of_eventuallyEq (by filter_upwards [Iio_mem_nhds h] with u hu using z2 u (le_of_lt hu))

/-- a step that meets only points where two fields agree is the same for both -/
theorem Stages.agree {f g : ℝ × E → E} {P Q : ℝ × E → Prop} {t h : ℝ} {Y : E} (hs : Stages Q g t h Y)
    (hQ : ∀ u, Q u → u.1 = t ∨ u.1 = t + h / 2 ∨ u.1 = t + h → P u ∧ f u = g u) :
    Stages P f t h Y ∧ Spec.rk4 (fun s y => f (s, y)) t h Y = Spec.rk4 (fun s y => g (s, y)) t h Y := by
  obtain ⟨q1, q2, q3, q4⟩ := hs
  obtain ⟨p1, e1⟩ := hQ _ q1 (.inl rfl)
  obtain ⟨p2, e2⟩ := hQ _ q2 (.inr (.inl rfl))
  obtain ⟨p3, e3⟩ := hQ _ q3 (.inr (.inl rfl))
  obtain ⟨p4, e4⟩ := hQ _ q4 (.inr (.inr rfl))
  refine ⟨⟨p1, ?_, ?_, ?_⟩, ?_⟩
  · rw [e1]; exact p2
  · rw [e1, e2]; exact p3
  · rw [e1, e2, e3]; exact p4
  · simp only [Spec.rk4, e1, e2, e3, e4]

/-- where the field is bounded, a short step stays near its start -/
theorem stages_bounded {f : ℝ × E → E} {P : ℝ × E → Prop} {y0 : E} {ρ M : ℝ} (hM : 0 ≤ M)
    (hb : ∀ s x, |s - t0| < ρ → ‖x - y0‖ < ρ → P (s, x) ∧ ‖f (s, x)‖ ≤ M) {t h : ℝ} {Y : E}
    (ht : |t - t0| + |h| < ρ) (hY : ‖Y - y0‖ + |h| * M < ρ) :
    Stages P f t h Y ∧ ‖Spec.rk4 (fun s y => f (s, y)) t h Y - Y‖ ≤ |h| * M := by
  have hh := abs_nonneg h
  have t1 : |t - t0| < ρ := by linarith
  have t2 : |t + h / 2 - t0| < ρ := by
    have := abs_add_le (t - t0) (h / 2)
    rw [abs_div, abs_two] at this
    rw [show t + h / 2 - t0 = t - t0 + h / 2 by ring]; linarith
  have t3 : |t + h - t0| < ρ := by
    have := abs_add_le (t - t0) h
    rw [show t + h - t0 = t - t0 + h by ring]; linarith
  have move : ∀ (c : ℝ) (k : E), |c| ≤ |h| → ‖k‖ ≤ M → ‖Y + c • k - y0‖ < ρ := by
    intro c k hc hk
    have h1 : ‖Y + c • k - y0‖ ≤ ‖Y - y0‖ + ‖c • k‖ := by
      rw [show Y + c • k - y0 = (Y - y0) + c • k by abel]; exact norm_add_le _ _
    have h2 : ‖c • k‖ ≤ |h| * M := by
      rw [norm_smul, Real.norm_eq_abs]; gcongr
    linarith
  have hhalf : |h / 2| ≤ |h| := by rw [abs_div, abs_two]; linarith
  obtain ⟨p1, b1⟩ := hb t Y t1 (by have : 0 ≤ |h| * M := by positivity
                                   linarith)
  obtain ⟨p2, b2⟩ := hb _ _ t2 (move (h / 2) _ hhalf b1)
  obtain ⟨p3, b3⟩ := hb _ _ t2 (move (h / 2) _ hhalf b2)
  obtain ⟨p4, b4⟩ := hb _ _ t3 (move h _ le_rfl b3)
  refine ⟨⟨p1, p2, p3, p4⟩, ?_⟩
  simp only [Spec.rk4, add_sub_cancel_left]
  rw [norm_smul, Real.norm_eq_abs, abs_div, show |(6 : ℝ)| = 6 by norm_num]
  have tri : ∀ a b c d : E, ‖a‖ ≤ M → ‖b‖ ≤ M → ‖c‖ ≤ M → ‖d‖ ≤ M →
      ‖a + (2 : ℝ) • b + (2 : ℝ) • c + d‖ ≤ 6 * M := by
    intro a b c d ha hb hc hd
    have h1 := norm_add_le (a + (2 : ℝ) • b + (2 : ℝ) • c) d
    have h2 := norm_add_le (a + (2 : ℝ) • b) ((2 : ℝ) • c)
    have h3 := norm_add_le a ((2 : ℝ) • b)
    rw [norm_smul, Real.norm_eq_abs, abs_two] at h2 h3
    linarith
  have := mul_le_mul_of_nonneg_left (tri _ _ _ _ b1 b2 b3 b4) (by positivity : 0 ≤ |h| / 6)
  linarith

/-- one step near a time at which the field jumps -/
theorem jump_at {f gL gR : ℝ × E → E} {y : ℝ → E} (hL : ContDiffAt ℝ ∞ gL (t0, y t0))
    (hR : ContDiffAt ℝ ∞ gR (t0, y t0)) (hc : ContinuousAt y t0)
    (hy : ∀ᶠ s in 𝓝[≠] t0, HasDerivAt y (f (s, y s)) s) {P : ℝ × E → Prop}
    (hP : ∀ᶠ u in 𝓝 ((t0, y t0) : ℝ × E), P u ∧ (u.1 < t0 → f u = gL u) ∧ (t0 ≤ u.1 → f u = gR u)) :
    ∃ C r : ℝ, 0 ≤ C ∧ 0 < r ∧ ∀ t, dist t t0 < r → ∀ h, |h| < r → ∀ Y, ‖Y - y t‖ < r →
      Stages P f t h Y ∧
      ((t < t0 ↔ t + h < t0) → ‖Spec.rk4 (fun s y => f (s, y)) t h Y - y (t + h)‖ ≤
        (1 + C * |h|) * ‖Y - y t‖ + C * |h| ^ 5) ∧
      (¬ (t < t0 ↔ t + h < t0) → ‖Spec.rk4 (fun s y => f (s, y)) t h Y - y (t + h)‖ ≤ ‖Y - y t‖ + C * |h|) := by
  have hq : ContinuousAt (fun s => (s, y s)) t0 := continuousAt_id.prodMk hc
  have hq' := hq.tendsto.eventually hP
  rw [eventually_nhdsWithin_iff] at hy
  -- the solution on both sides
  obtain ⟨yL, l1, l2⟩ := continue_right (hL.of_le (by exact_mod_cast le_top)) hc (by
    rw [eventually_nhdsWithin_iff]
    filter_upwards [hy, hq'] with s h1 h2 h3
    rw [← h2.2.1 h3]; exact h1 (ne_of_lt h3))
  obtain ⟨yR, r1, r2⟩ := continue_left (hR.of_le (by exact_mod_cast le_top)) hc (by
    rw [eventually_nhdsWithin_iff]
    filter_upwards [hy, hq'] with s h1 h2 h3
    rw [← h2.2.2 (le_of_lt h3)]; exact h1 (ne_of_gt h3))
  have lt0 := l1 t0 le_rfl
  have rt0 := r1 t0 le_rfl
  obtain ⟨CL, sL, hCL, hsL, uL⟩ := uniform_at (t0 := t0) (f := gL) (y := yL) (by rw [lt0]; exact hL) l2
    (by rw [lt0]; exact hP)
  obtain ⟨CR, sR, hCR, hsR, uR⟩ := uniform_at (t0 := t0) (f := gR) (y := yR) (by rw [rt0]; exact hR) r2
    (by rw [rt0]; exact hP)
  -- bounds
  obtain ⟨M, hM⟩ : ∃ M, M = max (‖gL (t0, y t0)‖ + 1) (‖gR (t0, y t0)‖ + 1) := ⟨_, rfl⟩
  have hM0 : 0 ≤ M := by rw [hM]; exact le_max_of_le_left (by positivity)
  have bdd : ∀ᶠ u in 𝓝 ((t0, y t0) : ℝ × E), P u ∧ ‖f u‖ ≤ M := by
    filter_upwards [hP, hL.continuousAt.norm.eventually (gt_mem_nhds (lt_add_one _)),
      hR.continuousAt.norm.eventually (gt_mem_nhds (lt_add_one _))] with u h1 h2 h3
    refine ⟨h1.1, ?_⟩
    rcases lt_or_ge u.1 t0 with h | h
    · rw [h1.2.1 h, hM]; exact le_max_of_le_left h2.le
    · rw [h1.2.2 h, hM]; exact le_max_of_le_right h3.le
  obtain ⟨ρ, hρ, hball⟩ := Metric.eventually_nhds_iff_ball.mp bdd
  have hball' : ∀ s x, |s - t0| < ρ → ‖x - y t0‖ < ρ → P (s, x) ∧ ‖f (s, x)‖ ≤ M := fun s x h1 h2 =>
    hball (s, x) (by
      rw [Metric.mem_ball, Prod.dist_eq, max_lt_iff]
      exact ⟨by rw [Real.dist_eq]; exact h1, by rw [dist_eq_norm]; exact h2⟩)
  -- the motion near `t0`
  obtain ⟨B, hB0, hB⟩ : ∃ B, 0 ≤ B ∧ ∀ᶠ s in 𝓝 t0, ‖y s - y t0‖ ≤ B * |s - t0| := by
    obtain ⟨b1, hb1, e1⟩ := l2.self_of_nhds.isBigO_sub.exists_nonneg
    obtain ⟨b2, hb2, e2⟩ := r2.self_of_nhds.isBigO_sub.exists_nonneg
    refine ⟨max b1 b2, le_max_of_le_left hb1, ?_⟩
    filter_upwards [e1.bound, e2.bound] with s h1 h2
    rw [Real.norm_eq_abs] at h1 h2
    rcases le_total s t0 with h | h
    · rw [l1 s h, lt0] at h1
      exact h1.trans (by gcongr; exact le_max_left _ _)
    · rw [r1 s h, rt0] at h2
      exact h2.trans (by gcongr; exact le_max_right _ _)
  obtain ⟨δ, hδ, hmot⟩ := Metric.eventually_nhds_iff_ball.mp hB
  obtain ⟨C, hC⟩ : ∃ C, C = max (max CL CR) (M + 2 * B) := ⟨_, rfl⟩
  have c1 : CL ≤ C := by rw [hC]; exact (le_max_left _ _).trans (le_max_left _ _)
  have c2 : CR ≤ C := by rw [hC]; exact (le_max_right _ _).trans (le_max_left _ _)
  have c3 : M + 2 * B ≤ C := by rw [hC]; exact le_max_right _ _
  obtain ⟨r, hr⟩ : ∃ r, r = min (min (min sL sR) (δ / 2)) (ρ / (M + B + 3)) := ⟨_, rfl⟩
  have r0 : 0 < r := by
    rw [hr]; exact lt_min (lt_min (lt_min hsL hsR) (by linarith)) (by positivity)
  have a1 : r ≤ sL := by rw [hr]; exact (min_le_left _ _).trans ((min_le_left _ _).trans (min_le_left _ _))
  have a2 : r ≤ sR := by rw [hr]; exact (min_le_left _ _).trans ((min_le_left _ _).trans (min_le_right _ _))
  have a3 : r ≤ δ / 2 := by rw [hr]; exact (min_le_left _ _).trans (min_le_right _ _)
  have a4 : r * (M + B + 3) ≤ ρ := by
    rw [← le_div_iff₀ (by positivity), hr]; exact min_le_right _ _
  refine ⟨C, r, hCL.trans c1, r0, fun t ht h hh Y hY => ?_⟩
  have ht' : |t - t0| < r := by rw [← Real.dist_eq]; exact ht
  have m1 := hmot t (by rw [Metric.mem_ball]; linarith)
  have m2 := hmot (t + h) (by
    rw [Metric.mem_ball, Real.dist_eq]
    have := abs_add_le (t - t0) h
    rw [show t + h - t0 = t - t0 + h by ring]; linarith)
  have hYt : ‖Y - y t0‖ ≤ ‖Y - y t‖ + ‖y t - y t0‖ := by
    rw [show Y - y t0 = (Y - y t) + (y t - y t0) by abel]; exact norm_add_le _ _
  obtain ⟨st, near⟩ := stages_bounded hM0 hball' (t := t) (h := h) (Y := Y)
    (by nlinarith) (by nlinarith [mul_le_mul_of_nonneg_right hh.le hM0, mul_le_mul_of_nonneg_left ht'.le hB0])
  refine ⟨st, fun side => ?_, fun side => ?_⟩
  · rcases lt_or_ge t t0 with h0 | h0
    · have h1 := side.mp h0
      have := uL t (ht.trans_le a1) h (hh.trans_le a1) Y (by rw [l1 t h0.le]; exact hY.trans_le a1)
      rw [l1 t h0.le, l1 _ h1.le] at this
      obtain ⟨-, e⟩ := this.1.agree (P := P) (f := f) (fun u hu hx => ⟨hu.1, hu.2.1 (by
        rcases hx with e | e | e <;> rw [e] <;> linarith)⟩)
      rw [e]
      refine this.2.trans ?_
      gcongr
    · have h1 : t0 ≤ t + h := not_lt.mp (mt side.mpr (not_lt.mpr h0))
      have := uR t (ht.trans_le a2) h (hh.trans_le a2) Y (by rw [r1 t h0]; exact hY.trans_le a2)
      rw [r1 t h0, r1 _ h1] at this
      obtain ⟨-, e⟩ := this.1.agree (P := P) (f := f) (fun u hu hx => ⟨hu.1, hu.2.2 (by
        rcases hx with e | e | e <;> rw [e] <;> linarith)⟩)
      rw [e]
      refine this.2.trans ?_
      gcongr
  · have hbt : |t - t0| ≤ |h| ∧ |t + h - t0| ≤ |h| := by
      rcases lt_or_ge t t0 with h0 | h0
      · have h1 : t0 ≤ t + h := not_lt.mp fun h1 => side ⟨fun _ => h1, fun _ => h0⟩
        have h2 : 0 < h := by linarith
        rw [abs_of_pos h2, abs_of_neg (by linarith), abs_of_nonneg (by linarith)]
        constructor <;> linarith
      · have h1 : t + h < t0 := by
          by_contra h1
          exact side ⟨fun h2 => absurd h2 (not_lt.mpr h0), fun h2 => absurd h2 h1⟩
        have h2 : h < 0 := by linarith
        rw [abs_of_neg h2, abs_of_nonneg (by linarith), abs_of_neg (by linarith)]
        constructor <;> linarith
    have tri : ‖Spec.rk4 (fun s y => f (s, y)) t h Y - y (t + h)‖ ≤
        ‖Spec.rk4 (fun s y => f (s, y)) t h Y - Y‖ + ‖Y - y t‖ + ‖y t - y t0‖ + ‖y (t + h) - y t0‖ := by
      rw [show Spec.rk4 (fun s y => f (s, y)) t h Y - y (t + h) =
        (Spec.rk4 (fun s y => f (s, y)) t h Y - Y) + (Y - y t) + (y t - y t0) - (y (t + h) - y t0) by abel]
      exact (norm_sub_le _ _).trans (add_le_add (norm_add₃_le) le_rfl)
    have e1 : B * |t - t0| ≤ B * |h| := mul_le_mul_of_nonneg_left hbt.1 hB0
    have e2 : B * |t + h - t0| ≤ B * |h| := mul_le_mul_of_nonneg_left hbt.2 hB0
    have e3 : (M + 2 * B) * |h| ≤ C * |h| := by gcongr
    linarith

/-- one constant for all times of a compact set, for a field that jumps where the whole number `D` does -/
theorem uniform_days {f : ℝ × E → E} {y : ℝ → E} {D : ℝ → ℤ} {K : Set ℝ} (hK : IsCompact K) {P : ℝ × E → Prop}
    (hloc : ∀ t0 ∈ K, (ContDiffAt ℝ ∞ f (t0, y t0) ∧ (∀ᶠ s in 𝓝 t0, HasDerivAt y (f (s, y s)) s) ∧
        ∀ᶠ u in 𝓝 ((t0, y t0) : ℝ × E), P u) ∨
      ((∀ᶠ s in 𝓝 t0, (s < t0 → D s = D t0 - 1) ∧ (t0 ≤ s → D s = D t0)) ∧ ContinuousAt y t0 ∧
        (∀ᶠ s in 𝓝[≠] t0, HasDerivAt y (f (s, y s)) s) ∧ ∃ gL gR : ℝ × E → E, ContDiffAt ℝ ∞ gL (t0, y t0) ∧
          ContDiffAt ℝ ∞ gR (t0, y t0) ∧ ∀ᶠ u in 𝓝 ((t0, y t0) : ℝ × E), P u ∧ (u.1 < t0 → f u = gL u) ∧
            (t0 ≤ u.1 → f u = gR u))) :
    ∃ C r : ℝ, 0 ≤ C ∧ 0 < r ∧ ∀ t ∈ K, ∀ h, |h| < r → ∀ Y, ‖Y - y t‖ < r →
      Stages P f t h Y ∧ ‖Spec.rk4 (fun s y => f (s, y)) t h Y - y (t + h)‖ ≤
        (1 + C * |h|) * ‖Y - y t‖ + C * |h| ^ 5 + C * |h| * |((D (t + h) - D t : ℤ) : ℝ)| := by
  refine hK.induction_on (p := fun S => ∃ C r : ℝ, 0 ≤ C ∧ 0 < r ∧ ∀ t ∈ S, ∀ h, |h| < r → ∀ Y, ‖Y - y t‖ < r →
      Stages P f t h Y ∧ ‖Spec.rk4 (fun s y => f (s, y)) t h Y - y (t + h)‖ ≤
        (1 + C * |h|) * ‖Y - y t‖ + C * |h| ^ 5 + C * |h| * |((D (t + h) - D t : ℤ) : ℝ)|)
    ⟨0, 1, le_rfl, one_pos, by simp⟩ ?_ ?_ ?_
  · rintro s t hst ⟨C, r, hC, hr, h⟩
    exact ⟨C, r, hC, hr, fun u hu => h u (hst hu)⟩
  · rintro s t ⟨C, r, hC, hr, h⟩ ⟨C', r', hC', hr', h'⟩
    refine ⟨max C C', min r r', le_max_of_le_left hC, lt_min hr hr', fun u hu x hx Y hY => ?_⟩
    rcases hu with hu | hu
    · obtain ⟨a, b⟩ := h u hu x (hx.trans_le (min_le_left _ _)) Y (hY.trans_le (min_le_left _ _))
      refine ⟨a, b.trans ?_⟩
      gcongr <;> exact le_max_left _ _
    · obtain ⟨a, b⟩ := h' u hu x (hx.trans_le (min_le_right _ _)) Y (hY.trans_le (min_le_right _ _))
      refine ⟨a, b.trans ?_⟩
      gcongr <;> exact le_max_right _ _
  · intro t0 ht0
    rcases hloc t0 ht0 with ⟨h1, h2, h3⟩ | ⟨hD, hc, hy, gL, gR, hL, hR, hP⟩
    · obtain ⟨C, r, hC, hr, H⟩ := uniform_at h1 h2 h3
      refine ⟨_, mem_nhdsWithin_of_mem_nhds (Metric.ball_mem_nhds t0 hr), C, r, hC, hr, fun t ht h hh Y hY => ?_⟩
      obtain ⟨a, b⟩ := H t ht h hh Y hY
      refine ⟨a, b.trans ?_⟩
      have : 0 ≤ C * |h| * |((D (t + h) - D t : ℤ) : ℝ)| := by positivity
      linarith
    · obtain ⟨C, r, hC, hr, H⟩ := jump_at hL hR hc hy hP
      obtain ⟨d, hd, hball⟩ := Metric.eventually_nhds_iff_ball.mp hD
      refine ⟨_, mem_nhdsWithin_of_mem_nhds (Metric.ball_mem_nhds t0 (lt_min hr (half_pos hd))), C, min r (d / 2), hC,
        lt_min hr (half_pos hd), fun t ht h hh Y hY => ?_⟩
      rw [Metric.mem_ball, lt_min_iff] at ht
      rw [lt_min_iff] at hh
      obtain ⟨a, b, c⟩ := H t ht.1 h hh.1 Y (hY.trans_le (min_le_left _ _))
      refine ⟨a, ?_⟩
      obtain ⟨d1, d2⟩ := hball t (by rw [Metric.mem_ball]; linarith [ht.2])
      obtain ⟨d3, d4⟩ := hball (t + h) (by
        rw [Metric.mem_ball, Real.dist_eq]
        have := abs_add_le (t - t0) h
        have h5 := ht.2
        rw [Real.dist_eq] at h5
        rw [show t + h - t0 = t - t0 + h by ring]; linarith [hh.2])
      have pos : 0 ≤ C * |h| * |((D (t + h) - D t : ℤ) : ℝ)| := by positivity
      by_cases side : t < t0 ↔ t + h < t0
      · exact (b side).trans (by linarith)
      · refine (c side).trans ?_
        have one : |((D (t + h) - D t : ℤ) : ℝ)| = 1 := by
          rcases lt_or_ge t t0 with h0 | h0
          · have h1 : t0 ≤ t + h := not_lt.mp fun h1 => side ⟨fun _ => h1, fun _ => h0⟩
            rw [d1 h0, d4 h1]; norm_num
          · have h1 : t + h < t0 := by
              by_contra h1
              exact side ⟨fun h2 => absurd h2 (not_lt.mpr h0), fun h2 => absurd h2 h1⟩
            rw [d2 h0, d3 h1]; norm_num
        rw [one]
        have e1 : 0 ≤ C * |h| * ‖Y - y t‖ := by positivity
        have e2 : 0 ≤ C * |h| ^ 5 := by positivity
        linarith

end Openspace.RKOrder
