import Verif.Spec.RungeKutta
import Mathlib.Analysis.Calculus.MeanValue
import Mathlib.Analysis.Calculus.ContDiff.Basic
import Mathlib.Analysis.Calculus.ContDiff.RCLike
import Mathlib.Analysis.Calculus.IteratedDeriv.Defs
import Mathlib.Analysis.Asymptotics.Lemmas
import Mathlib.Analysis.Calculus.Deriv.Pow
import Mathlib.Analysis.ODE.ExistUnique
import Mathlib.Tactic.Module

/-!
# Local error of the classical Runge-Kutta step

For a field of class C² and a solution of class C⁵, one step of size `h` is within `O(h⁵)` of the solution, uniformly
in the time at which the step begins.
-/

namespace Openspace.RKOrder

set_option linter.unusedSectionVars false

open Filter Asymptotics Topology

variable {E F : Type} [NormedAddCommGroup E] [NormedSpace ℝ E] [NormedAddCommGroup F] [NormedSpace ℝ F]

variable {t0 : ℝ}

/-- of order `h^k` as `h` tends to zero, uniformly for times near `t0` -/
abbrev Ord (t0 : ℝ) (k : ℕ) (g : ℝ × ℝ → E) : Prop := g =O[𝓝 (0, t0)] fun u : ℝ × ℝ => u.1 ^ k

theorem tendsto_step : Tendsto (fun u : ℝ × ℝ => u.1) (𝓝 (0, t0)) (𝓝 0) := continuous_fst.tendsto _

theorem Ord.congr {k : ℕ} {g g' : ℝ × ℝ → E} (h : Ord t0 k g) (e : ∀ u, g u = g' u) : Ord t0 k g' :=
  h.congr_left e

theorem Ord.mono {k l : ℕ} {g : ℝ × ℝ → E} (h : Ord t0 k g) (hl : l ≤ k) : Ord t0 l g :=
  h.trans <| by
    rcases hl.eq_or_lt with rfl | hl
    · exact isBigO_refl _ _
    · exact ((isLittleO_pow_pow hl).isBigO).comp_tendsto tendsto_step

theorem Ord.half {k : ℕ} {g : ℝ × ℝ → E} (h : Ord t0 k g) : Ord t0 k fun u => g (u.1 / 2, u.2) := by
  have ht : Tendsto (fun u : ℝ × ℝ => (u.1 / 2, u.2)) (𝓝 (0, t0)) (𝓝 (0, t0)) := by
    have : Continuous fun u : ℝ × ℝ => (u.1 / 2, u.2) := by fun_prop
    simpa using this.tendsto (0, t0)
  refine (h.comp_tendsto ht).trans ?_
  refine IsBigO.of_bound 1 (Eventually.of_forall fun u => ?_)
  simp only [Function.comp_apply, norm_pow, Real.norm_eq_abs, one_mul, abs_div, abs_of_pos (by norm_num : (0:ℝ) < 2)]
  exact pow_le_pow_left₀ (by positivity) (by linarith [abs_nonneg u.1]) k

theorem Ord.pow_smul {k : ℕ} {g : ℝ × ℝ → E} (h : Ord t0 k g) (c : ℝ) (j : ℕ) :
    Ord t0 (k + j) fun u => (c * u.1 ^ j) • g u := by
  have h1 : (fun u : ℝ × ℝ => c * u.1 ^ j) =O[𝓝 (0, t0)] fun u : ℝ × ℝ => u.1 ^ j :=
    (isBigO_refl _ _).const_mul_left c
  refine (h1.smul h).congr_right fun u => ?_
  simp only [smul_eq_mul]; ring

/-- a power of the step size times something bounded -/
theorem Ord.power {v : ℝ × ℝ → E} (h : Ord t0 0 v) (c : ℝ) (j : ℕ) : Ord t0 j fun u => (c * u.1 ^ j) • v u := by
  simpa only [zero_add] using h.pow_smul c j

theorem Ord.of_continuousAt {v : ℝ × ℝ → E} (h : ContinuousAt v (0, t0)) : Ord t0 0 v :=
  (h.tendsto.isBigO_one ℝ).congr_right fun s => (pow_zero s.1).symm

theorem Ord.integrate {k : ℕ} {g g' : ℝ × ℝ → E}
    (hd : ∀ᶠ u in 𝓝 ((0, t0) : ℝ × ℝ), HasDerivAt (fun s => g (s, u.2)) (g' u) u.1) (h0 : ∀ t, g (0, t) = 0)
    (hb : Ord t0 k g') : Ord t0 (k + 1) g := by
  obtain ⟨C, hC, hb⟩ := hb.exists_pos
  rw [IsBigOWith] at hb
  obtain ⟨e, he, hball⟩ := Metric.eventually_nhds_iff_ball.mp (hd.and hb)
  refine IsBigO.of_bound C ?_
  filter_upwards [Metric.ball_mem_nhds ((0, t0) : ℝ × ℝ) he] with u hu
  obtain ⟨x, t⟩ := u
  have hsub : ∀ s ∈ Metric.closedBall (0 : ℝ) |x|, (s, t) ∈ Metric.ball ((0, t0) : ℝ × ℝ) e := fun s hs => by
    rw [Metric.mem_closedBall, dist_zero_right, Real.norm_eq_abs] at hs
    rw [Metric.mem_ball, Prod.dist_eq, max_lt_iff] at hu ⊢
    simp only [dist_zero_right, Real.norm_eq_abs] at hu ⊢
    exact ⟨by linarith [hu.1], hu.2⟩
  have := (convex_closedBall (0 : ℝ) |x|).norm_image_sub_le_of_norm_hasDerivWithin_le (f := fun s => g (s, t))
    (f' := fun s => g' (s, t)) (C := C * |x| ^ k) (x := 0) (y := x)
    (fun s hs => (hball (s, t) (hsub s hs)).1.hasDerivWithinAt)
    (fun s hs => by
      refine (hball (s, t) (hsub s hs)).2.trans ?_
      rw [Metric.mem_closedBall, dist_zero_right] at hs
      rw [norm_pow]
      gcongr)
    (by simp) (by simp)
  rw [h0, sub_zero, sub_zero, Real.norm_eq_abs] at this
  rw [norm_pow, Real.norm_eq_abs, pow_succ]
  linarith

/-- second-order Taylor bound between two moving points -/
theorem taylor_two {ι : Type} {l : Filter ι} {f : F → E} {x : F} (hf : ContDiffAt ℝ 2 f x) {p q : ι → F}
    (hp : Tendsto p l (𝓝 x)) (hq : Tendsto q l (𝓝 x)) :
    (fun h => f (p h) - f (q h) - fderiv ℝ f (q h) (p h - q h)) =O[l] fun h => ‖p h - q h‖ ^ 2 := by
  have h1 : ContDiffAt ℝ 1 (fderiv ℝ f) x := hf.fderiv_right (m := 1) (by norm_num)
  obtain ⟨K, s, hs, hK⟩ := h1.exists_lipschitzOnWith
  have hdf : ∀ᶠ y in 𝓝 x, DifferentiableAt ℝ f y := by
    have := hf.eventually (by simp)
    filter_upwards [this] with y hy using hy.differentiableAt (by norm_num)
  obtain ⟨e, he, hball⟩ := Metric.eventually_nhds_iff_ball.mp (hdf.and hs)
  refine IsBigO.of_bound K ?_
  filter_upwards [hp (Metric.ball_mem_nhds x he), hq (Metric.ball_mem_nhds x he)] with h h2 h3
  have seg : segment ℝ (q h) (p h) ⊆ Metric.ball x e := (convex_ball x e).segment_subset h3 h2
  have := (convex_segment (q h) (p h)).norm_image_sub_le_of_norm_hasFDerivWithin_le' (f := f)
    (f' := fun y => fderiv ℝ f y) (φ := fderiv ℝ f (q h)) (C := K * ‖p h - q h‖)
    (fun y hy => (hball y (seg hy)).1.hasFDerivAt.hasFDerivWithinAt)
    (fun y hy => by
      have := hK.dist_le_mul y (hball y (seg hy)).2 (q h) (hball _ h3).2
      rw [dist_eq_norm, dist_eq_norm] at this
      refine this.trans ?_
      gcongr
      exact norm_sub_le_of_mem_segment hy)
    (left_mem_segment ℝ _ _) (right_mem_segment ℝ _ _)
  simp only [norm_pow, norm_norm]
  calc _ ≤ K * ‖p h - q h‖ * ‖p h - q h‖ := this
    _ = _ := by ring

theorem fderiv_near {ι : Type} {l : Filter ι} {f : F → E} {x : F} (hf : ContDiffAt ℝ 2 f x) {p q : ι → F}
    (hp : Tendsto p l (𝓝 x)) (hq : Tendsto q l (𝓝 x)) :
    (fun h => fderiv ℝ f (p h) - fderiv ℝ f (q h)) =O[l] fun h => p h - q h := by
  have h1 : ContDiffAt ℝ 1 (fderiv ℝ f) x := hf.fderiv_right (m := 1) (by norm_num)
  obtain ⟨K, s, hs, hK⟩ := h1.exists_lipschitzOnWith
  refine IsBigO.of_bound K ?_
  filter_upwards [hp hs, hq hs] with h h2 h3
  have := hK.dist_le_mul _ h2 _ h3
  rwa [dist_eq_norm, dist_eq_norm] at this

theorem Ord.tendsto {k : ℕ} {g : ℝ × ℝ → E} (h : Ord t0 (k + 1) g) : Tendsto g (𝓝 (0, t0)) (𝓝 0) :=
  h.trans_tendsto (by
    have : Continuous fun u : ℝ × ℝ => u.1 ^ (k + 1) := by fun_prop
    simpa using this.tendsto (0, t0))

theorem Ord.apply {a b : ℕ} {J : ℝ × ℝ → F →L[ℝ] E} {v : ℝ × ℝ → F} (hJ : Ord t0 a J) (hv : Ord t0 b v) :
    Ord t0 (a + b) fun h => J h (v h) := by
  have h1 : (fun h => J h (v h)) =O[𝓝 (0, t0)] fun h => ‖J h‖ * ‖v h‖ :=
    IsBigO.of_bound 1 (Eventually.of_forall fun h => by
      rw [one_mul, norm_mul, norm_norm, norm_norm]; exact (J h).le_opNorm _)
  refine h1.trans ((hJ.norm_left.mul hv.norm_left).congr_right fun h => ?_)
  rw [pow_add]

/-- a fixed linear map keeps the order -/
theorem Ord.map {b : ℕ} (J : F →L[ℝ] E) {v : ℝ × ℝ → F} (hv : Ord t0 b v) : Ord t0 b fun h => J (v h) := by
  simpa only [zero_add] using (Ord.of_continuousAt (v := fun _ => J) continuousAt_const).apply hv

/-- the second component of a pair whose first component vanishes -/
theorem Ord.snd {b : ℕ} {v : ℝ × ℝ → E} (hv : Ord t0 b v) : Ord t0 b fun h => ((0 : ℝ), v h) :=
  hv.map (ContinuousLinearMap.inr ℝ ℝ E)

/-- Taylor expansions of a function with five derivatives and of its derivative; `D k (h, t)` is the `k`-th
derivative at `t + h` -/
theorem taylor {D : ℕ → ℝ × ℝ → E}
    (hD : ∀ k < 5, ∀ᶠ u in 𝓝 ((0, t0) : ℝ × ℝ), HasDerivAt (fun s => D k (s, u.2)) (D (k + 1) u) u.1)
    (h5 : Ord t0 0 (D 5)) :
    Ord t0 4 (fun u => D 1 u - (D 1 (0, u.2) + u.1 • D 2 (0, u.2) + (u.1 ^ 2 / 2) • D 3 (0, u.2) +
      (u.1 ^ 3 / 6) • D 4 (0, u.2))) ∧
    Ord t0 5 (fun u => D 0 u - (D 0 (0, u.2) + u.1 • D 1 (0, u.2) + (u.1 ^ 2 / 2) • D 2 (0, u.2) +
      (u.1 ^ 3 / 6) • D 3 (0, u.2) + (u.1 ^ 4 / 24) • D 4 (0, u.2))) := by
  have t4 : Ord t0 1 fun u => D 4 u - D 4 (0, u.2) := by
    refine Ord.integrate (g' := D 5) ?_ (by simp) h5
    filter_upwards [hD 4 (by norm_num)] with s hs using hs.sub_const _
  have i1 : ∀ s : ℝ, HasDerivAt (fun h : ℝ => h) 1 s := hasDerivAt_id'
  have i2 : ∀ s : ℝ, HasDerivAt (fun h : ℝ => h ^ 2 / 2) s s := fun s => by
    simpa using ((hasDerivAt_pow 2 s).div_const 2)
  have i3 : ∀ s : ℝ, HasDerivAt (fun h : ℝ => h ^ 3 / 6) (s ^ 2 / 2) s := fun s => by
    refine ((hasDerivAt_pow 3 s).div_const 6).congr_deriv ?_; push_cast; ring
  have i4 : ∀ s : ℝ, HasDerivAt (fun h : ℝ => h ^ 4 / 24) (s ^ 3 / 6) s := fun s => by
    refine ((hasDerivAt_pow 4 s).div_const 24).congr_deriv ?_; push_cast; ring
  have t3 : Ord t0 2 fun u => D 3 u - (D 3 (0, u.2) + u.1 • D 4 (0, u.2)) := by
    refine Ord.integrate (g' := fun u => D 4 u - D 4 (0, u.2)) ?_ (by simp) t4
    filter_upwards [hD 3 (by norm_num)] with u hs
    refine (hs.sub (((i1 u.1).smul_const (D 4 (0, u.2))).const_add (D 3 (0, u.2)))).congr_deriv ?_
    simp
  have t2 : Ord t0 3 fun u => D 2 u - (D 2 (0, u.2) + u.1 • D 3 (0, u.2) + (u.1 ^ 2 / 2) • D 4 (0, u.2)) := by
    refine Ord.integrate (g' := fun u => D 3 u - (D 3 (0, u.2) + u.1 • D 4 (0, u.2))) ?_ (by simp) t3
    filter_upwards [hD 2 (by norm_num)] with u hs
    refine (hs.sub ((((i1 u.1).smul_const (D 3 (0, u.2))).const_add (D 2 (0, u.2))).add
      ((i2 u.1).smul_const (D 4 (0, u.2))))).congr_deriv ?_
    simp
  have t1 : Ord t0 4 fun u => D 1 u - (D 1 (0, u.2) + u.1 • D 2 (0, u.2) + (u.1 ^ 2 / 2) • D 3 (0, u.2) +
      (u.1 ^ 3 / 6) • D 4 (0, u.2)) := by
    refine Ord.integrate (g' := fun u => D 2 u - (D 2 (0, u.2) + u.1 • D 3 (0, u.2) +
      (u.1 ^ 2 / 2) • D 4 (0, u.2))) ?_ (by simp) t2
    filter_upwards [hD 1 (by norm_num)] with u hs
    refine (hs.sub (((((i1 u.1).smul_const (D 2 (0, u.2))).const_add (D 1 (0, u.2))).add
      ((i2 u.1).smul_const (D 3 (0, u.2)))).add ((i3 u.1).smul_const (D 4 (0, u.2))))).congr_deriv ?_
    simp
  refine ⟨t1, Ord.integrate (g' := fun u => D 1 u - (D 1 (0, u.2) + u.1 • D 2 (0, u.2) +
    (u.1 ^ 2 / 2) • D 3 (0, u.2) + (u.1 ^ 3 / 6) • D 4 (0, u.2))) ?_ (by simp) t1⟩
  filter_upwards [hD 0 (by norm_num)] with u hs
  refine (hs.sub ((((((i1 u.1).smul_const (D 1 (0, u.2))).const_add (D 0 (0, u.2))).add
    ((i2 u.1).smul_const (D 2 (0, u.2)))).add ((i3 u.1).smul_const (D 3 (0, u.2)))).add
    ((i4 u.1).smul_const (D 4 (0, u.2))))).congr_deriv ?_
  simp

/-- the field at a point near the solution, to the order of the square of the distance -/
theorem stage {f : ℝ × E → E} {x : ℝ × E} {q : ℝ × ℝ → ℝ × E} {d : ℝ × ℝ → E} {m : ℕ}
    (hf : ContDiffAt ℝ 2 f x) (hq : Tendsto q (𝓝 (0, t0)) (𝓝 x)) (hd : Ord t0 (m + 1) d) :
    Ord t0 (2 * (m + 1)) fun u => f ((q u).1, (q u).2 + d u) - f (q u) - fderiv ℝ f (q u) ((0 : ℝ), d u) := by
  have hp : Tendsto (fun u => q u + (0, d u)) (𝓝 (0, t0)) (𝓝 x) := by
    have h0 : x = x + ((0 : ℝ), (0 : E)) := by ext <;> simp
    rw [h0]
    exact hq.add (tendsto_const_nhds.prodMk_nhds hd.tendsto)
  have h1 := taylor_two hf hp hq
  have h2 : (fun u => ‖q u + (0, d u) - q u‖ ^ 2) =O[𝓝 (0, t0)] fun u : ℝ × ℝ => u.1 ^ (2 * (m + 1)) := by
    have := (hd.snd.norm_left).pow 2
    refine (this.congr_left fun h => by simp).congr_right fun h => by ring
  refine (h1.trans h2).congr_left fun u => ?_
  have : ((q u).1, (q u).2 + d u) = q u + (0, d u) := by ext <;> simp
  rw [this, add_sub_cancel_left]

/-- one classical Runge-Kutta step is within `O(h⁵)` of the solution through the same point; `D k (h, t)` is the
`k`-th derivative of the solution at `t + h` -/
theorem local_error {f : ℝ × E → E} {D : ℕ → ℝ × ℝ → E} (hf : ContDiffAt ℝ 2 f (t0, D 0 (0, t0)))
    (hD : ∀ k < 5, ∀ᶠ u in 𝓝 ((0, t0) : ℝ × ℝ), HasDerivAt (fun s => D k (s, u.2)) (D (k + 1) u) u.1)
    (hc : ∀ k, ContinuousAt (D k) (0, t0)) (hode : ∀ u, D 1 u = f (u.2 + u.1, D 0 u)) :
    Ord t0 5 fun u => Spec.rk4 (fun s y => f (s, y)) u.2 u.1 (D 0 (0, u.2)) - D 0 u := by
  obtain ⟨T1, T0⟩ := taylor hD (Ord.of_continuousAt (hc 5))
  have hstart : Tendsto (fun u : ℝ × ℝ => ((0 : ℝ), u.2)) (𝓝 (0, t0)) (𝓝 (0, t0)) := by
    have : Continuous fun u : ℝ × ℝ => ((0 : ℝ), u.2) := by fun_prop
    simpa using this.tendsto (0, t0)
  have hhalf : Tendsto (fun u : ℝ × ℝ => (u.1 / 2, u.2)) (𝓝 (0, t0)) (𝓝 (0, t0)) := by
    have : Continuous fun u : ℝ × ℝ => (u.1 / 2, u.2) := by fun_prop
    simpa using this.tendsto (0, t0)
  obtain ⟨Z, hZ⟩ : ∃ Z : ℕ → ℝ × ℝ → E, Z = fun k u => D k (0, u.2) := ⟨_, rfl⟩
  have bZ : ∀ k, Ord t0 0 (Z k) := fun k => by
    rw [hZ]
    exact (((hc k).tendsto.comp hstart).isBigO_one ℝ).congr_right fun s => (pow_zero s.1).symm
  have T1m := T1.half
  have T0m := T0.half
  have d1 : ∀ u : ℝ × ℝ, f (u.2, Z 0 u) = Z 1 u := fun u => by
    have := (hode (0, u.2)).symm
    simpa [hZ] using this
  simp only [show ∀ k (u : ℝ × ℝ), D k (0, u.2) = Z k u from fun k u => by rw [hZ]] at T1 T0 T1m T0m ⊢
  obtain ⟨Y1, hY1⟩ : ∃ Y1 : ℝ × ℝ → E, Y1 = fun u => D 1 (u.1 / 2, u.2) := ⟨_, rfl⟩
  obtain ⟨Y0, hY0⟩ : ∃ Y0 : ℝ × ℝ → E, Y0 = fun u => D 0 (u.1 / 2, u.2) := ⟨_, rfl⟩
  have zeta : ∀ k (u : ℝ × ℝ), Z k (u.1 / 2, u.2) = Z k u := fun k u => by rw [hZ]
  simp only [show ∀ u : ℝ × ℝ, D 1 (u.1 / 2, u.2) = Y1 u from fun u => by rw [hY1],
    show ∀ u : ℝ × ℝ, D 0 (u.1 / 2, u.2) = Y0 u from fun u => by rw [hY0]] at T1m T0m
  have odem : ∀ u : ℝ × ℝ, Y1 u = f (u.2 + u.1 / 2, Y0 u) := fun u => by
    rw [hY1, hY0]; exact hode (u.1 / 2, u.2)
  have z1 : Ord t0 1 fun u : ℝ × ℝ => u.1 := (isBigO_refl _ _).congr_right fun h => (pow_one h.1).symm
  have zm : Ord t0 1 fun u : ℝ × ℝ => u.1 / 2 := z1.half
  have y1 : Ord t0 1 fun u => D 0 u - Z 0 u := by
    refine Ord.congr ((((((T0.mono (l := 1) (by norm_num)).add ((bZ 1).power 1 1)).add
      (((bZ 2).power (1 / 2) 2).mono (by norm_num))).add
      (((bZ 3).power (1 / 6) 3).mono (by norm_num))).add
      (((bZ 4).power (1 / 24) 4).mono (by norm_num)))) fun u => ?_
    module
  have ym : Ord t0 1 fun u => Y0 u - Z 0 u := by
    refine y1.half.congr fun u => ?_
    rw [zeta, hY0]
  -- the points of the solution tend to the base point
  have q0 : Tendsto (fun u : ℝ × ℝ => (u.2, Z 0 u)) (𝓝 (0, t0)) (𝓝 (t0, D 0 (0, t0))) := by
    refine (continuous_snd.tendsto (0, t0)).prodMk_nhds ?_
    rw [hZ]; exact (hc 0).tendsto.comp hstart
  have qm : Tendsto (fun u : ℝ × ℝ => (u.2 + u.1 / 2, Y0 u)) (𝓝 (0, t0)) (𝓝 (t0, D 0 (0, t0))) := by
    refine Tendsto.prodMk_nhds ?_ ?_
    · have : Continuous fun u : ℝ × ℝ => u.2 + u.1 / 2 := by fun_prop
      simpa using this.tendsto (0, t0)
    · rw [hY0]; exact (hc 0).tendsto.comp hhalf
  have q1 : Tendsto (fun u : ℝ × ℝ => (u.2 + u.1, D 0 u)) (𝓝 (0, t0)) (𝓝 (t0, D 0 (0, t0))) := by
    refine Tendsto.prodMk_nhds ?_ (hc 0).tendsto
    have : Continuous fun u : ℝ × ℝ => u.2 + u.1 := by fun_prop
    simpa using this.tendsto (0, t0)
  obtain ⟨J0, hJ0⟩ : ∃ J, J = fun u : ℝ × ℝ => fderiv ℝ f (u.2, Z 0 u) := ⟨_, rfl⟩
  obtain ⟨Jm, hJm⟩ : ∃ J, J = fun u : ℝ × ℝ => fderiv ℝ f (u.2 + u.1 / 2, Y0 u) := ⟨_, rfl⟩
  obtain ⟨J1, hJ1⟩ : ∃ J, J = fun u : ℝ × ℝ => fderiv ℝ f (u.2 + u.1, D 0 u) := ⟨_, rfl⟩
  have b0 : Ord t0 0 J0 := by
    rw [hJ0]
    have h1 : ContDiffAt ℝ 1 (fderiv ℝ f) (t0, D 0 (0, t0)) := hf.fderiv_right (m := 1) (by norm_num)
    exact ((h1.continuousAt.tendsto.comp q0).isBigO_one ℝ).congr_right fun s => (pow_zero s.1).symm
  have jm : Ord t0 1 fun u => Jm u - J0 u := by
    rw [hJm, hJ0]
    refine (fderiv_near hf qm q0).trans
      (((zm.map (ContinuousLinearMap.inl ℝ ℝ E)).add ym.snd).congr_left fun u => ?_)
    simp
  have j1 : Ord t0 1 fun u => J1 u - J0 u := by
    rw [hJ1, hJ0]
    refine (fderiv_near hf q1 q0).trans
      (((z1.map (ContinuousLinearMap.inl ℝ ℝ E)).add y1.snd).congr_left fun u => ?_)
    simp
  -- applying the derivative along the solution
  have app0 : ∀ {b : ℕ} {v : ℝ × ℝ → E}, Ord t0 b v → Ord t0 b fun u => J0 u ((0 : ℝ), v u) := fun {b v} hv => by
    simpa only [zero_add] using b0.apply hv.snd
  have app : ∀ {J : ℝ × ℝ → ℝ × E →L[ℝ] E} {b : ℕ} {v : ℝ × ℝ → E}, Ord t0 1 (fun u => J u - J0 u) → Ord t0 b v →
      Ord t0 b fun u => J u ((0 : ℝ), v u) := fun {J b v} hJ hv => by
    refine ((app0 hv).add ((hJ.apply hv.snd).mono (by omega))).congr_left fun h => ?_
    simp
  -- the four slopes
  obtain ⟨k2, hk2⟩ : ∃ k : ℝ × ℝ → E, k = fun u => f (u.2 + u.1 / 2, Z 0 u + (u.1 / 2) • Z 1 u) := ⟨_, rfl⟩
  obtain ⟨k3, hk3⟩ : ∃ k : ℝ × ℝ → E, k = fun u => f (u.2 + u.1 / 2, Z 0 u + (u.1 / 2) • k2 u) := ⟨_, rfl⟩
  obtain ⟨k4, hk4⟩ : ∃ k : ℝ × ℝ → E, k = fun u => f (u.2 + u.1, Z 0 u + u.1 • k3 u) := ⟨_, rfl⟩
  obtain ⟨e2, he2⟩ : ∃ e : ℝ × ℝ → E, e = fun u => Z 0 u + (u.1 / 2) • Z 1 u - Y0 u := ⟨_, rfl⟩
  obtain ⟨e3, he3⟩ : ∃ e : ℝ × ℝ → E, e = fun u => Z 0 u + (u.1 / 2) • k2 u - Y0 u := ⟨_, rfl⟩
  obtain ⟨e4, he4⟩ : ∃ e : ℝ × ℝ → E, e = fun u => Z 0 u + u.1 • k3 u - D 0 u := ⟨_, rfl⟩
  -- the second slope
  have o2 : Ord t0 2 e2 := by
    refine Ord.congr (((((T0m.mono (l := 2) (by norm_num)).neg_left).add ((bZ 2).power (-1 / 8) 2)).add
      (((bZ 3).power (-1 / 48) 3).mono (by norm_num))).add
      (((bZ 4).power (-1 / 384) 4).mono (by norm_num))) fun h => ?_
    rw [he2]; dsimp only; module
  have s2 : Ord t0 4 fun u => k2 u - Y1 u - Jm u ((0 : ℝ), e2 u) := by
    refine (stage hf qm (m := 1) o2).congr_left fun h => ?_
    simp only [hk2, hJm, he2, add_sub_cancel, odem]
  have r2 : Ord t0 2 fun u => k2 u - Y1 u :=
    ((s2.mono (l := 2) (by norm_num)).add (app jm o2)).congr_left fun h => by abel
  -- the third slope
  have p23 : Ord t0 3 fun u => e2 u + e3 u := by
    refine Ord.congr (((((((r2.pow_smul (1 / 2) 1).add ((T1m.pow_smul (1 / 2) 1).mono (by norm_num)))).add
      ((T0m.mono (l := 3) (by norm_num)).const_smul_left (-2 : ℝ))).add
      ((bZ 3).power (1 / 16 - 1 / 24) 3)).add
      (((bZ 4).power (1 / 96 - 1 / 192) 4).mono (by norm_num)))) fun h => ?_
    rw [he2, he3]; simp only [Pi.smul_apply]; module
  have o3 : Ord t0 2 e3 := ((p23.mono (l := 2) (by norm_num)).sub o2).congr_left fun h => by abel
  have s3 : Ord t0 4 fun u => k3 u - Y1 u - Jm u ((0 : ℝ), e3 u) := by
    refine (stage hf qm (m := 1) o3).congr_left fun h => ?_
    simp only [hk3, hJm, he3, add_sub_cancel, odem]
  have r3 : Ord t0 2 fun u => k3 u - Y1 u :=
    ((s3.mono (l := 2) (by norm_num)).add (app jm o3)).congr_left fun h => by abel
  have s23 : Ord t0 4 fun u => k2 u + k3 u - (2 : ℝ) • Y1 u - Jm u ((0 : ℝ), e2 u + e3 u) :=
    (s2.add s3).congr_left fun h => by
      have : (((0 : ℝ), e2 h + e3 h) : ℝ × E) = (0, e2 h) + (0, e3 h) := by simp
      rw [this, map_add]; module
  have r23 : Ord t0 3 fun u => k2 u + k3 u - (2 : ℝ) • Y1 u :=
    ((s23.mono (l := 3) (by norm_num)).add (app jm p23)).congr_left fun h => by abel
  -- the fourth slope
  have o4 : Ord t0 3 e4 := by
    refine Ord.congr ((((((r3.pow_smul 1 1).add ((T1m.pow_smul 1 1).mono (by norm_num))).sub
      (T0.mono (l := 3) (by norm_num))).add ((bZ 3).power (1 / 8 - 1 / 6) 3)).add
      (((bZ 4).power (1 / 48 - 1 / 24) 4).mono (by norm_num)))) fun h => ?_
    rw [he4]; dsimp only; module
  have s4 : Ord t0 4 fun u => k4 u - D 1 u - J1 u ((0 : ℝ), e4 u) := by
    refine ((stage hf q1 (m := 2) o4).mono (by norm_num)).congr_left fun h => ?_
    simp only [hk4, hJ1, he4, add_sub_cancel, hode]
  -- the first-order effects of the three displacements cancel
  have p234 : Ord t0 4 fun u => (2 : ℝ) • (e2 u + e3 u) + e4 u := by
    refine Ord.congr ((((((r23.pow_smul 1 1).add (((T1m.pow_smul 2 1).mono (by norm_num)))).sub
      ((T0m.mono (l := 4) (by norm_num)).const_smul_left (4 : ℝ))).sub (T0.mono (l := 4) (by norm_num)))).add
      ((bZ 4).power (2 / 48 - 4 / 384 - 1 / 24) 4)) fun h => ?_
    rw [he2, he3, he4]; simp only [Pi.smul_apply]; module
  have slopes : Ord t0 4 fun u => (Z 1 u + (2 : ℝ) • k2 u + (2 : ℝ) • k3 u + k4 u) -
      (Z 1 u + (4 : ℝ) • Y1 u + D 1 u) := by
    refine Ord.congr ((((s23.const_smul_left (2 : ℝ)).add s4).add (app0 p234)).add
      ((((jm.apply p23.snd).const_smul_left (2 : ℝ))).add (j1.apply o4.snd))) fun h => ?_
    have a : (((0 : ℝ), (2 : ℝ) • (e2 h + e3 h) + e4 h) : ℝ × E) =
      (2 : ℝ) • ((0 : ℝ), e2 h + e3 h) + ((0 : ℝ), e4 h) := by simp
    simp only [Pi.smul_apply, a, map_add, map_smul, sub_apply]
    module
  -- Simpson's rule
  have simpson : Ord t0 5 fun u => Z 0 u + (u.1 / 6) • (Z 1 u + (4 : ℝ) • Y1 u + D 1 u) - D 0 u := by
    refine Ord.congr (((T1m.pow_smul (4 / 6) 1).add (T1.pow_smul (1 / 6) 1)).sub T0) fun h => ?_
    module
  refine ((slopes.pow_smul (1 / 6) 1).add simpson).congr_left fun u => ?_
  have : Spec.rk4 (fun s y => f (s, y)) u.2 u.1 (Z 0 u) =
      Z 0 u + (u.1 / 6) • (Z 1 u + (2 : ℝ) • k2 u + (2 : ℝ) • k3 u + k4 u) := by
    simp only [Spec.rk4, d1, hk4, hk3, hk2]
  rw [this]
  module

open scoped ContDiff

/-- the repeated derivatives of a solution, as functions of time and state -/
noncomputable def fields (f : ℝ × E → E) : ℕ → ℝ × E → E
  | 0 => f
  | k + 1 => fun u => fderiv ℝ (fields f k) u (1, f u)

theorem fields_smooth {f : ℝ × E → E} {x : ℝ × E} (hf : ContDiffAt ℝ ∞ f x) (k : ℕ) :
    ContDiffAt ℝ ∞ (fields f k) x := by
  induction k with
  | zero => exact hf
  | succ k ih =>
    exact (ih.fderiv_right (m := ∞) (by simp)).clm_apply (contDiffAt_const.prodMk hf)

/-- for a smooth field, one classical Runge-Kutta step is within `O(h⁵)` of every solution through the same point,
uniformly in the time at which it begins -/
theorem solution_error {f : ℝ × E → E} {y : ℝ → E} (hf : ContDiffAt ℝ ∞ f (t0, y t0))
    (hy : ∀ᶠ s in 𝓝 t0, HasDerivAt y (f (s, y s)) s) :
    Ord t0 5 fun u => Spec.rk4 (fun s y => f (s, y)) u.2 u.1 (y u.2) - y (u.2 + u.1) := by
  obtain ⟨D, hDe⟩ : ∃ D : ℕ → ℝ × ℝ → E, D = fun k => match k with
    | 0 => fun u => y (u.2 + u.1)
    | k + 1 => fun u => fields f k (u.2 + u.1, y (u.2 + u.1)) := ⟨_, rfl⟩
  have hc : ContinuousAt y t0 := hy.self_of_nhds.continuousAt
  have ha : Tendsto (fun u : ℝ × ℝ => u.2 + u.1) (𝓝 (0, t0)) (𝓝 t0) := by
    have : Continuous fun u : ℝ × ℝ => u.2 + u.1 := by fun_prop
    simpa using this.tendsto (0, t0)
  have hq : Tendsto (fun s => ((s, y s) : ℝ × E)) (𝓝 t0) (𝓝 (t0, y t0)) := tendsto_id.prodMk_nhds hc.tendsto
  have hD0 : D 0 (0, t0) = y t0 := by rw [hDe]; simp
  have := local_error (f := f) (t0 := t0) (D := D)
    (by rw [hD0]; exact hf.of_le (WithTop.coe_le_coe.mpr (le_top : (2 : ℕ∞) ≤ ⊤))) ?_ ?_ ?_
  · refine this.congr fun u => ?_
    rw [hDe]; simp
  · intro k _
    rw [hDe]
    cases k with
    | zero =>
      filter_upwards [ha.eventually hy] with u hu
      exact hu.comp_const_add u.2 u.1
    | succ k =>
      have hdf : ∀ᶠ u in 𝓝 ((t0, y t0) : ℝ × E), DifferentiableAt ℝ (fields f k) u := by
        have := ((fields_smooth hf k).of_le (m := 1) (by exact_mod_cast le_top)).eventually (by simp)
        filter_upwards [this] with u hu using hu.differentiableAt (by norm_num)
      filter_upwards [ha.eventually (hq.eventually hdf), ha.eventually hy] with u h1 h2
      exact (h1.hasFDerivAt.comp_hasDerivAt (u.2 + u.1) ((hasDerivAt_id _).prodMk h2)).comp_const_add u.2 u.1
  · intro k
    rw [hDe]
    cases k with
    | zero =>
      have : Tendsto (fun u : ℝ × ℝ => y (u.2 + u.1)) (𝓝 (0, t0)) (𝓝 (y t0)) := hc.tendsto.comp ha
      rw [ContinuousAt]; simpa using this
    | succ k =>
      have : Tendsto (fun u : ℝ × ℝ => fields f k (u.2 + u.1, y (u.2 + u.1))) (𝓝 (0, t0))
        (𝓝 (fields f k (t0, y t0))) := (fields_smooth hf k).continuousAt.tendsto.comp (hq.comp ha)
      rw [ContinuousAt]; simpa using this
  · rw [hDe]; exact fun u => by simp [fields]

/-- a smooth field has a solution through every point -/
theorem solution_exists [CompleteSpace E] {f : ℝ × E → E} {y0 : E} (hf : ContDiffAt ℝ 1 f (0, y0)) :
    ∃ y : ℝ → E, y 0 = y0 ∧ ∀ᶠ s in 𝓝 0, HasDerivAt y (f (s, y s)) s := by
  have hv : ContDiffAt ℝ 1 (fun u : ℝ × E => ((1 : ℝ), f u)) (0, y0) := contDiffAt_const.prodMk hf
  obtain ⟨z, hz0, e, he, hz⟩ := hv.exists_forall_mem_closedBall_exists_eq_forall_mem_Ioo_hasDerivAt₀ 0
  rw [zero_sub, zero_add] at hz
  have h1 : ∀ s ∈ Set.Ioo (-e) e, HasDerivAt (fun s => (z s).1) 1 s := fun s hs => (hz s hs).fst
  have h2 : ∀ s ∈ Set.Ioo (-e) e, HasDerivAt (fun s => (z s).2) (f (z s)) s := fun s hs => (hz s hs).snd
  have h3 : ∀ s ∈ Set.Ioo (-e) e, (z s).1 = s := by
    intro s hs
    have h0 : (0 : ℝ) ∈ Set.Ioo (-e) e := ⟨by linarith, he⟩
    have := (convex_Ioo (-e) e).norm_image_sub_le_of_norm_hasDerivWithin_le (f := fun s => (z s).1 - s)
      (f' := fun _ => 0) (C := 0)
      (fun s hs => (((h1 s hs).sub (hasDerivAt_id s)).congr_deriv (by simp)).hasDerivWithinAt) (by simp) h0 hs
    rw [hz0, zero_mul, norm_le_zero_iff] at this
    simp only [sub_zero] at this
    linarith
  refine ⟨fun s => (z s).2, by simp only [hz0], ?_⟩
  filter_upwards [Ioo_mem_nhds (by linarith : -e < 0) he] with s hs
  have h4 : ((s, (z s).2) : ℝ × E) = z s := Prod.ext (h3 s hs).symm rfl
  rw [h4]
  exact h2 s hs

/-- the condition holds at the four points where a step evaluates the field -/
def Stages (P : ℝ × E → Prop) (f : ℝ × E → E) (t h : ℝ) (Y : E) : Prop :=
  P (t, Y) ∧ P (t + h / 2, Y + (h / 2) • f (t, Y)) ∧
    P (t + h / 2, Y + (h / 2) • f (t + h / 2, Y + (h / 2) • f (t, Y))) ∧
    P (t + h, Y + h • f (t + h / 2, Y + (h / 2) • f (t + h / 2, Y + (h / 2) • f (t, Y))))

/-- near a regular point, short steps evaluate the field only where a condition holds nearby, and depend on the
starting point with a constant close to one -/
theorem step_near {f : ℝ × E → E} {y0 : E} (hf : ContDiffAt ℝ 1 f (t0, y0)) {P : ℝ × E → Prop}
    (hP : ∀ᶠ u in 𝓝 ((t0, y0) : ℝ × E), P u) :
    ∃ L : ℝ, 0 ≤ L ∧ ∃ S ∈ 𝓝 ((0, t0, y0) : ℝ × ℝ × E), (∀ w ∈ S, Stages P f w.2.1 w.1 w.2.2) ∧
      ∀ h t Y Y', (h, t, Y) ∈ S → (h, t, Y') ∈ S →
        ‖Spec.rk4 (fun s y => f (s, y)) t h Y - Spec.rk4 (fun s y => f (s, y)) t h Y'‖ ≤ (1 + L * |h|) * ‖Y - Y'‖ := by
  -- the four points and slopes as functions of the step size, the time and the state
  obtain ⟨k1, hk1⟩ : ∃ k : ℝ × ℝ × E → E, k = fun w => f (w.2.1, w.2.2) := ⟨_, rfl⟩
  obtain ⟨p2, hp2⟩ : ∃ p : ℝ × ℝ × E → ℝ × E, p = fun w => (w.2.1 + w.1 / 2, w.2.2 + (w.1 / 2) • k1 w) := ⟨_, rfl⟩
  obtain ⟨k2, hk2⟩ : ∃ k : ℝ × ℝ × E → E, k = fun w => f (p2 w) := ⟨_, rfl⟩
  obtain ⟨p3, hp3⟩ : ∃ p : ℝ × ℝ × E → ℝ × E, p = fun w => (w.2.1 + w.1 / 2, w.2.2 + (w.1 / 2) • k2 w) := ⟨_, rfl⟩
  obtain ⟨k3, hk3⟩ : ∃ k : ℝ × ℝ × E → E, k = fun w => f (p3 w) := ⟨_, rfl⟩
  obtain ⟨p4, hp4⟩ : ∃ p : ℝ × ℝ × E → ℝ × E, p = fun w => (w.2.1 + w.1, w.2.2 + w.1 • k3 w) := ⟨_, rfl⟩
  obtain ⟨k4, hk4⟩ : ∃ k : ℝ × ℝ × E → E, k = fun w => f (p4 w) := ⟨_, rfl⟩
  have v2 : p2 (0, t0, y0) = (t0, y0) := by rw [hp2]; simp
  have v3 : p3 (0, t0, y0) = (t0, y0) := by rw [hp3]; simp
  have v4 : p4 (0, t0, y0) = (t0, y0) := by rw [hp4]; simp
  have c1 : ContDiffAt ℝ 1 k1 (0, t0, y0) := by
    rw [hk1]; exact ContDiffAt.comp (g := f) (0, t0, y0) hf contDiffAt_snd
  have c2 : ContDiffAt ℝ 1 p2 (0, t0, y0) := by rw [hp2]; fun_prop
  have d2 : ContDiffAt ℝ 1 k2 (0, t0, y0) := by
    rw [hk2]
    exact ContDiffAt.comp (g := f) (0, t0, y0) (by rw [v2]; exact hf) c2
  have c3 : ContDiffAt ℝ 1 p3 (0, t0, y0) := by rw [hp3]; fun_prop
  have d3 : ContDiffAt ℝ 1 k3 (0, t0, y0) := by
    rw [hk3]
    exact ContDiffAt.comp (g := f) (0, t0, y0) (by rw [v3]; exact hf) c3
  have c4 : ContDiffAt ℝ 1 p4 (0, t0, y0) := by rw [hp4]; fun_prop
  have d4 : ContDiffAt ℝ 1 k4 (0, t0, y0) := by
    rw [hk4]
    exact ContDiffAt.comp (g := f) (0, t0, y0) (by rw [v4]; exact hf) c4
  obtain ⟨q, hq⟩ : ∃ q : ℝ × ℝ × E → E,
    q = fun w => (1 / 6 : ℝ) • (k1 w + (2 : ℝ) • k2 w + (2 : ℝ) • k3 w + k4 w) := ⟨_, rfl⟩
  have cq : ContDiffAt ℝ 1 q (0, t0, y0) := by rw [hq]; fun_prop
  obtain ⟨K, s, hs, hK⟩ := cq.exists_lipschitzOnWith
  have e1 : ∀ᶠ w in 𝓝 ((0, t0, y0) : ℝ × ℝ × E), P w.2 := (continuous_snd.tendsto (0, t0, y0)).eventually hP
  have e2 : ∀ᶠ w in 𝓝 ((0, t0, y0) : ℝ × ℝ × E), P (p2 w) := by
    have := c2.continuousAt.tendsto; rw [v2] at this; exact this.eventually hP
  have e3 : ∀ᶠ w in 𝓝 ((0, t0, y0) : ℝ × ℝ × E), P (p3 w) := by
    have := c3.continuousAt.tendsto; rw [v3] at this; exact this.eventually hP
  have e4 : ∀ᶠ w in 𝓝 ((0, t0, y0) : ℝ × ℝ × E), P (p4 w) := by
    have := c4.continuousAt.tendsto; rw [v4] at this; exact this.eventually hP
  refine ⟨K, K.2, _, inter_mem hs (e1.and (e2.and (e3.and e4))), ?_, ?_⟩
  · rintro w ⟨-, a1, a2, a3, a4⟩
    simp only [hk1, hk2, hk3, hp2, hp3, hp4] at a1 a2 a3 a4
    exact ⟨a1, a2, a3, a4⟩
  · intro h t Y Y' hY hY'
    have rk : ∀ Y, Spec.rk4 (fun s y => f (s, y)) t h Y = Y + h • q (h, t, Y) := fun Y => by
      simp only [Spec.rk4, hq, hk1, hk2, hk3, hk4, hp2, hp3, hp4]
      module
    have hl := hK.dist_le_mul _ hY.1 _ hY'.1
    have hd : dist ((h, t, Y) : ℝ × ℝ × E) (h, t, Y') = ‖Y - Y'‖ := by
      simp [dist_eq_norm]
    rw [hd, dist_eq_norm] at hl
    have : Y + h • q (h, t, Y) - (Y' + h • q (h, t, Y')) = (Y - Y') + h • (q (h, t, Y) - q (h, t, Y')) := by module
    rw [rk, rk, this]
    refine (norm_add_le _ _).trans ?_
    rw [norm_smul, Real.norm_eq_abs]
    have := mul_le_mul_of_nonneg_left hl (abs_nonneg h)
    linarith

/-- for steps that begin near a solution: one constant near one time -/
theorem uniform_at {f : ℝ × E → E} {y : ℝ → E} (hf : ContDiffAt ℝ ∞ f (t0, y t0))
    (hy : ∀ᶠ s' in 𝓝 t0, HasDerivAt y (f (s', y s')) s')
    {P : ℝ × E → Prop} (hP : ∀ᶠ u in 𝓝 ((t0, y t0) : ℝ × E), P u) :
    ∃ C r : ℝ, 0 ≤ C ∧ 0 < r ∧ ∀ t, dist t t0 < r → ∀ h, |h| < r → ∀ Y, ‖Y - y t‖ < r →
      Stages P f t h Y ∧
      ‖Spec.rk4 (fun s y => f (s, y)) t h Y - y (t + h)‖ ≤ (1 + C * |h|) * ‖Y - y t‖ + C * |h| ^ 5 := by
  have hf1 : ContDiffAt ℝ 1 f (t0, y t0) := hf.of_le (by exact_mod_cast le_top)
  obtain ⟨L, hL, S, hS, hst, hlip⟩ := step_near hf1 hP
  obtain ⟨C, hC, herr⟩ := (solution_error hf hy).exists_pos
  rw [IsBigOWith] at herr
  obtain ⟨e, he, hball⟩ := Metric.eventually_nhds_iff_ball.mp herr
  obtain ⟨d, hd, hS⟩ := Metric.mem_nhds_iff.mp hS
  have hc : ContinuousAt y t0 := hy.self_of_nhds.continuousAt
  obtain ⟨c, hc0, hyc⟩ := Metric.continuousAt_iff.mp hc (d / 2) (by linarith)
  obtain ⟨r, hr⟩ : ∃ r, r = min (min e (d / 2)) c := ⟨_, rfl⟩
  have hr0 : 0 < r := by rw [hr]; exact lt_min (lt_min he (by linarith)) hc0
  have r1 : r ≤ e := by rw [hr]; exact (min_le_left _ _).trans (min_le_left _ _)
  have r2 : r ≤ d / 2 := by rw [hr]; exact (min_le_left _ _).trans (min_le_right _ _)
  have r3 : r ≤ c := by rw [hr]; exact min_le_right _ _
  refine ⟨max C L, r, le_max_of_le_left hC.le, hr0, fun t ht h hh Y hY => ?_⟩
  have hyt := hyc (ht.trans_le r3)
  have mem : ∀ Z, ‖Z - y t‖ < r → (h, t, Z) ∈ S := fun Z hZ => hS (by
    rw [Metric.mem_ball, Prod.dist_eq, Prod.dist_eq, max_lt_iff, max_lt_iff]
    refine ⟨?_, ?_, ?_⟩
    · simp only [dist_zero_right, Real.norm_eq_abs]; linarith
    · show dist t t0 < d; linarith
    · show dist Z (y t0) < d
      rw [← dist_eq_norm] at hZ
      linarith [dist_triangle Z (y t) (y t0)])
  refine ⟨hst _ (mem Y hY), ?_⟩
  have l1 := hlip h t Y (y t) (mem Y hY) (mem _ (by simpa using hr0))
  have l2 := hball (h, t) (by
    rw [Metric.mem_ball, Prod.dist_eq, max_lt_iff]
    exact ⟨by simp only [dist_zero_right, Real.norm_eq_abs]; linarith, by show dist t t0 < e; linarith⟩)
  simp only [norm_pow, Real.norm_eq_abs] at l2
  have := norm_sub_le_norm_sub_add_norm_sub (Spec.rk4 (fun s y => f (s, y)) t h Y)
    (Spec.rk4 (fun s y => f (s, y)) t h (y t)) (y (t + h))
  calc _ ≤ (1 + L * |h|) * ‖Y - y t‖ + C * |h| ^ 5 := by linarith
    _ ≤ _ := by
      gcongr
      · exact le_max_right _ _
      · exact le_max_left _ _

/-- for steps that begin near a solution: one constant for all times of a bounded interval -/
theorem uniform {f : ℝ × E → E} {y : ℝ → E} {K : Set ℝ} (hK : IsCompact K)
    (hf : ∀ s ∈ K, ContDiffAt ℝ ∞ f (s, y s)) (hy : ∀ s ∈ K, ∀ᶠ s' in 𝓝 s, HasDerivAt y (f (s', y s')) s')
    {P : ℝ × E → Prop} (hP : ∀ s ∈ K, ∀ᶠ u in 𝓝 ((s, y s) : ℝ × E), P u) :
    ∃ C r : ℝ, 0 ≤ C ∧ 0 < r ∧ ∀ t ∈ K, ∀ h, |h| < r → ∀ Y, ‖Y - y t‖ < r →
      Stages P f t h Y ∧
      ‖Spec.rk4 (fun s y => f (s, y)) t h Y - y (t + h)‖ ≤ (1 + C * |h|) * ‖Y - y t‖ + C * |h| ^ 5 := by
  refine hK.induction_on (p := fun S => ∃ C r : ℝ, 0 ≤ C ∧ 0 < r ∧ ∀ t ∈ S, ∀ h, |h| < r → ∀ Y, ‖Y - y t‖ < r →
      Stages P f t h Y ∧
      ‖Spec.rk4 (fun s y => f (s, y)) t h Y - y (t + h)‖ ≤ (1 + C * |h|) * ‖Y - y t‖ + C * |h| ^ 5)
    ⟨0, 1, le_rfl, one_pos, by simp⟩ ?_ ?_ ?_
  · rintro s t hst ⟨C, r, hC, hr, h⟩
    exact ⟨C, r, hC, hr, fun u hu => h u (hst hu)⟩
  · rintro s t ⟨C, r, hC, hr, h⟩ ⟨C', r', hC', hr', h'⟩
    refine ⟨max C C', min r r', le_max_of_le_left hC, lt_min hr hr', fun u hu x hx Y hY => ?_⟩
    rcases hu with hu | hu
    · obtain ⟨a, b⟩ := h u hu x (hx.trans_le (min_le_left _ _)) Y (hY.trans_le (min_le_left _ _))
      refine ⟨a, b.trans ?_⟩
      gcongr <;> exact le_max_left _ _
    · obtain ⟨a, b⟩ := h' u hu x (hx.trans_le (min_le_right _ _)) Y (hY.trans_le (min_le_right _ _))
      refine ⟨a, b.trans ?_⟩
      gcongr <;> exact le_max_right _ _
  · intro t0 ht0
    obtain ⟨C, r, hC, hr, h⟩ := uniform_at (hf t0 ht0) (hy t0 ht0) (hP t0 ht0)
    exact ⟨_, mem_nhdsWithin_of_mem_nhds (Metric.ball_mem_nhds t0 hr), C, r, hC, hr, fun t ht => h t ht⟩

/-- the growth of the error over many steps -/
theorem gronwall {C h : ℝ} (hC : 0 ≤ C) (hh : 0 ≤ h) {e : ℕ → ℝ} {N : ℕ} (h0 : e 0 = 0)
    (hs : ∀ n < N, e n ≤ C * n * h ^ 5 * Real.exp (C * n * h) → e (n + 1) ≤ (1 + C * h) * e n + C * h ^ 5) :
    ∀ n ≤ N, e n ≤ C * n * h ^ 5 * Real.exp (C * n * h) := by
  intro n
  induction n with
  | zero => intro _; simp [h0]
  | succ n ih =>
    intro hn
    have hi := ih (by omega)
    have h1 := hs n (by omega) hi
    have h2 : 1 + C * h ≤ Real.exp (C * h) := by linarith [Real.add_one_le_exp (C * h)]
    have h3 : Real.exp (C * (n + 1 : ℕ) * h) = Real.exp (C * h) * Real.exp (C * n * h) := by
      rw [← Real.exp_add]; congr 1; push_cast; ring
    have h4 : 1 ≤ Real.exp (C * (n + 1 : ℕ) * h) := Real.one_le_exp (by positivity)
    have h5 : 0 ≤ 1 + C * h := by positivity
    calc e (n + 1) ≤ (1 + C * h) * e n + C * h ^ 5 := h1
      _ ≤ (1 + C * h) * (C * n * h ^ 5 * Real.exp (C * n * h)) + C * h ^ 5 := by gcongr
      _ ≤ Real.exp (C * h) * (C * n * h ^ 5 * Real.exp (C * n * h)) + C * h ^ 5 * Real.exp (C * (n + 1 : ℕ) * h) := by
        refine add_le_add (by gcongr) (le_mul_of_one_le_right (by positivity) h4)
      _ = _ := by rw [h3]; push_cast; ring

/-- many steps of a fixed size follow a solution to the fourth order of the step size -/
theorem global_error {f : ℝ × E → E} {y : ℝ → E} {T : ℝ}
    (hf : ∀ s ∈ Set.uIcc 0 T, ContDiffAt ℝ ∞ f (s, y s))
    (hy : ∀ s ∈ Set.uIcc 0 T, ∀ᶠ s' in 𝓝 s, HasDerivAt y (f (s', y s')) s')
    {P : ℝ × E → Prop} (hP : ∀ s ∈ Set.uIcc 0 T, ∀ᶠ u in 𝓝 ((s, y s) : ℝ × E), P u) :
    ∃ (C : ℝ) (N0 : ℕ), 0 < N0 ∧ ∀ N, N0 ≤ N → ∀ Y : ℕ → E, Y 0 = y 0 →
      (∀ n, Y (n + 1) = Spec.rk4 (fun s y => f (s, y)) (n * (T / N)) (T / N) (Y n)) →
      ∀ n ≤ N, ‖Y n - y (n * (T / N))‖ ≤ C * |T / N| ^ 4 ∧ Stages P f (n * (T / N)) (T / N) (Y n) := by
  obtain ⟨C, r, hC, hr, hu⟩ := uniform isCompact_uIcc hf hy hP
  obtain ⟨B, hB⟩ : ∃ B, B = C * |T| * Real.exp (C * |T|) := ⟨_, rfl⟩
  have hB0 : 0 ≤ B := by rw [hB]; positivity
  obtain ⟨m, hm⟩ : ∃ m, m = min (min r 1) (r / (B + 1)) := ⟨_, rfl⟩
  have hm0 : 0 < m := by rw [hm]; exact lt_min (lt_min hr one_pos) (by positivity)
  obtain ⟨M, hM⟩ := exists_nat_gt (|T| / m)
  refine ⟨B, M + 1, by omega, fun N hN Y hY0 hY => ?_⟩
  have hNpos : (0 : ℝ) < N := by exact_mod_cast (by omega : 0 < N)
  have hN' : (M : ℝ) < N := by exact_mod_cast (by omega : M < N)
  obtain ⟨h, hh⟩ : ∃ h, h = T / N := ⟨_, rfl⟩
  rw [← hh] at hY ⊢
  have habs : |h| * N = |T| := by rw [hh, abs_div, abs_of_pos hNpos]; field_simp
  have hlt : |h| < m := by
    rw [div_lt_iff₀ hm0] at hM
    have : |h| * N < m * N := by rw [habs]; nlinarith
    exact lt_of_mul_lt_mul_right this hNpos.le
  have l1 : |h| < r := hlt.trans_le (by rw [hm]; exact (min_le_left _ _).trans (min_le_left _ _))
  have l2 : |h| < 1 := hlt.trans_le (by rw [hm]; exact (min_le_left _ _).trans (min_le_right _ _))
  have l3 : |h| * (B + 1) < r := by
    rw [← lt_div_iff₀ (by positivity)]
    exact hlt.trans_le (by rw [hm]; exact min_le_right _ _)
  have hmem : ∀ n ≤ N, (n : ℝ) * h ∈ Set.uIcc 0 T := by
    intro n hn
    have hn' : (n : ℝ) / N ≤ 1 := by rw [div_le_one hNpos]; exact_mod_cast hn
    have : (n : ℝ) * h = (n / N) * T := by rw [hh]; ring
    rw [this]
    have hn0 : 0 ≤ (n : ℝ) / N := by positivity
    rw [Set.mem_uIcc]
    rcases le_total 0 T with hT | hT
    · exact .inl ⟨by positivity, by nlinarith⟩
    · exact .inr ⟨by nlinarith, by nlinarith⟩
  have hgood : ∀ n ≤ N, C * n * |h| ^ 5 * Real.exp (C * n * |h|) ≤ B * |h| ^ 4 := by
    intro n hn
    have hn' : (n : ℝ) ≤ N := by exact_mod_cast hn
    have h1 : n * |h| ≤ |T| := by rw [← habs]; nlinarith [abs_nonneg h]
    have h2 : Real.exp (C * n * |h|) ≤ Real.exp (C * |T|) := by
      rw [Real.exp_le_exp, mul_assoc]; gcongr
    calc C * n * |h| ^ 5 * Real.exp (C * n * |h|) = C * (n * |h|) * Real.exp (C * n * |h|) * |h| ^ 4 := by ring
      _ ≤ C * |T| * Real.exp (C * |T|) * |h| ^ 4 := by gcongr
      _ = B * |h| ^ 4 := by rw [hB]
  have hsmall : B * |h| ^ 4 < r := by
    have : |h| ^ 4 ≤ |h| := by
      have := pow_le_pow_of_le_one (abs_nonneg h) l2.le (show 1 ≤ 4 by norm_num)
      simpa using this
    nlinarith [abs_nonneg h]
  have hg := gronwall hC (abs_nonneg h) (e := fun n => ‖Y n - y (n * h)‖) (N := N) (by simp [hY0]) (by
    intro n hn hb
    have := (hu (n * h) (hmem n (by omega)) h l1 (Y n) ((hb.trans (hgood n (by omega))).trans_lt hsmall)).2
    have e : ((n + 1 : ℕ) : ℝ) * h = n * h + h := by push_cast; ring
    simp only [e, hY n]
    exact this)
  intro n hn
  have hb := (hg n hn).trans (hgood n hn)
  exact ⟨hb, (hu (n * h) (hmem n hn) h l1 (Y n) (hb.trans_lt hsmall)).1⟩

end Openspace.RKOrder
