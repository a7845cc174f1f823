import Verif.Lemmas.RKJump

/-!
# Solutions that start near a point exist for a common time
-/

namespace Openspace

open Filter Topology

variable {E : Type*} [NormedAddCommGroup E] [NormedSpace ℝ E] [CompleteSpace E]

/-- through every point near `(s0, x0)` there is a solution, for a time `δ` that does not depend on the point, and it
stays in a given neighbourhood -/
theorem solve_near {g : ℝ × E → E} {s0 : ℝ} {x0 : E} (hg : ContDiffAt ℝ 1 g (s0, x0)) {V : Set (ℝ × E)}
    (hV : V ∈ 𝓝 (s0, x0)) :
    ∃ δ > 0, ∀ᶠ u : ℝ × E in 𝓝 (s0, x0), ∃ z : ℝ → E, z u.1 = u.2 ∧ ∀ t ∈ Set.Ioo (u.1 - δ) (u.1 + δ),
      (t, z t) ∈ V ∧ HasDerivAt z (g (t, z t)) t := by
  classical
  obtain ⟨G, hG⟩ : ∃ G : ℝ × E → ℝ × E, G = fun u => ((1 : ℝ), g u) := ⟨_, rfl⟩
  have sG : ContDiffAt ℝ 1 G (s0, x0) := by rw [hG]; exact contDiffAt_const.prodMk hg
  obtain ⟨M, hM⟩ : ∃ M, M = ‖G (s0, x0)‖ + 1 := ⟨_, rfl⟩
  have hM0 : 0 < M := by rw [hM]; positivity
  have hbd : ∀ᶠ u in 𝓝 ((s0, x0) : ℝ × E), ‖G u‖ ≤ M := by
    filter_upwards [sG.continuousAt.norm.eventually (gt_mem_nhds (show ‖G (s0, x0)‖ < M by rw [hM]; linarith))] with u hu
    exact hu.le
  obtain ⟨ρ, hρ, hball⟩ := Metric.eventually_nhds_iff_ball.mp (hbd.and hV)
  obtain ⟨H, hH⟩ : ∃ H : ℝ × E → ℝ × E, H = fun u => if u ∈ Metric.ball (s0, x0) ρ then G u else 0 := ⟨_, rfl⟩
  have H1 : ∀ u ∈ Metric.ball ((s0, x0) : ℝ × E) ρ, H u = G u := fun u hu => by rw [hH]; exact if_pos hu
  have H2 : ∀ u, ‖H u‖ ≤ M := fun u => by
    by_cases hu : u ∈ Metric.ball ((s0, x0) : ℝ × E) ρ
    · rw [H1 u hu]; exact (hball u hu).1
    · rw [hH]; simp only [if_neg hu, norm_zero]; exact hM0.le
  have sH : ContDiffAt ℝ 1 H (s0, x0) := sG.congr_of_eventuallyEq (by
    filter_upwards [Metric.ball_mem_nhds _ hρ] with u hu
    exact H1 u hu)
  obtain ⟨r, hr, e, he, hsol⟩ := sH.exists_forall_mem_closedBall_exists_eq_forall_mem_Ioo_hasDerivAt 0
  obtain ⟨δ, hδ⟩ : ∃ δ, δ = min e (ρ / (2 * M)) := ⟨_, rfl⟩
  have δ0 : 0 < δ := by rw [hδ]; exact lt_min he (by positivity)
  have δ1 : δ ≤ e := by rw [hδ]; exact min_le_left _ _
  have δ2 : M * δ ≤ ρ / 2 := by
    have : δ ≤ ρ / (2 * M) := by rw [hδ]; exact min_le_right _ _
    rw [le_div_iff₀ (by positivity)] at this
    linarith
  refine ⟨δ, δ0, ?_⟩
  filter_upwards [Metric.closedBall_mem_nhds _ hr, Metric.ball_mem_nhds _ (half_pos hρ)] with u hu hu'
  obtain ⟨α, α0, hα⟩ := hsol u hu
  rw [zero_sub, zero_add] at hα
  have h0 : (0 : ℝ) ∈ Set.Ioo (-δ) δ := ⟨by linarith, δ0⟩
  have dα : ∀ t ∈ Set.Ioo (-δ) δ, HasDerivAt α (H (α t)) t := fun t ht => hα t ⟨by linarith [ht.1], by linarith [ht.2]⟩
  have stay : ∀ t ∈ Set.Ioo (-δ) δ, α t ∈ Metric.ball ((s0, x0) : ℝ × E) ρ := by
    intro t ht
    have := (convex_Ioo (-δ) δ).norm_image_sub_le_of_norm_hasDerivWithin_le (f := α) (f' := fun t => H (α t)) (C := M)
      (fun t ht => (dα t ht).hasDerivWithinAt) (fun t _ => H2 _) h0 ht
    rw [α0, sub_zero, Real.norm_eq_abs] at this
    have ht' : |t| < δ := abs_lt.mpr ht
    rw [Metric.mem_ball] at hu' ⊢
    have t1 := dist_triangle (α t) u (s0, x0)
    rw [dist_eq_norm (α t) u] at t1
    have t2 : M * |t| ≤ M * δ := mul_le_mul_of_nonneg_left ht'.le hM0.le
    linarith
  have dG : ∀ t ∈ Set.Ioo (-δ) δ, HasDerivAt α ((1 : ℝ), g (α t)) t := fun t ht => by
    have := dα t ht
    rw [H1 _ (stay t ht), hG] at this
    exact this
  have d1 : ∀ t ∈ Set.Ioo (-δ) δ, HasDerivAt (fun s => (α s).1) 1 t := fun t ht => (dG t ht).fst
  have d2 : ∀ t ∈ Set.Ioo (-δ) δ, HasDerivAt (fun s => (α s).2) (g (α t)) t := fun t ht => (dG t ht).snd
  have first : ∀ t ∈ Set.Ioo (-δ) δ, (α t).1 = u.1 + t := by
    intro t ht
    have := (convex_Ioo (-δ) δ).norm_image_sub_le_of_norm_hasDerivWithin_le (f := fun s => (α s).1 - s)
      (f' := fun _ => 0) (C := 0)
      (fun s hs => (((d1 s hs).sub (hasDerivAt_id s)).congr_deriv (by simp)).hasDerivWithinAt) (by simp) h0 ht
    rw [α0, zero_mul, norm_le_zero_iff] at this
    simp only [sub_zero] at this
    linarith
  refine ⟨fun t => (α (t - u.1)).2, by simp only [sub_self, α0], fun t ht => ?_⟩
  have ht' : t - u.1 ∈ Set.Ioo (-δ) δ := ⟨by linarith [ht.1], by linarith [ht.2]⟩
  have e1 : ((t, (α (t - u.1)).2) : ℝ × E) = α (t - u.1) := by
    refine Prod.ext ?_ rfl
    show t = (α (t - u.1)).1
    rw [first _ ht']; ring
  show (t, (α (t - u.1)).2) ∈ V ∧ HasDerivAt (fun t => (α (t - u.1)).2) (g (t, (α (t - u.1)).2)) t
  rw [e1]
  refine ⟨(hball _ (stay _ ht')).2, ?_⟩
  have := (d2 _ ht').scomp t ((hasDerivAt_id t).sub_const u.1)
  simpa [Function.comp_def] using this

end Openspace
