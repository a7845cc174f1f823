import Verif.Lemmas.Angles
import Mathlib.Analysis.SpecialFunctions.Trigonometric.Deriv
import Mathlib.Analysis.SpecialFunctions.Trigonometric.Bounds
import Mathlib.Analysis.Calculus.MeanValue
import Mathlib.Analysis.Calculus.Deriv.MeanValue
import Mathlib.Topology.Order.IntermediateValue
import Mathlib.Topology.Order.MonotoneConvergence
import Mathlib.Analysis.SpecificLimits.Basic
import Mathlib.Analysis.Real.Pi.Bounds

/-! # Newton's method for Kepler's equation -/

namespace Openspace

open Real

set_option linter.unusedSectionVars false

/-- second-order Taylor bound of the sine -/
theorem sin_taylor2 (x d : ℝ) : |sin (x + d) - sin x - d * cos x| ≤ d ^ 2 / 2 := by
  -- both signs from: `d^2/2 ∓ g d` has derivative with the sign of `d`
  have key : ∀ s : ℝ, |s| ≤ 1 → ∀ d : ℝ, 0 ≤ d ^ 2 / 2 - s * (sin (x + d) - sin x - d * cos x) := by
    intro s hs d
    have hlip : ∀ t : ℝ, |s * (cos (x + t) - cos x)| ≤ |t| := by
      intro t
      rw [abs_mul]
      have h1 : |cos (x + t) - cos x| ≤ |t| := by
        have := abs_cos_sub_cos_le (x + t) x
        simpa using this
      calc |s| * |cos (x + t) - cos x| ≤ 1 * |t| := by gcongr
        _ = |t| := one_mul _
    have hd : ∀ t : ℝ, HasDerivAt (fun t => t ^ 2 / 2 - s * (sin (x + t) - sin x - t * cos x))
        (t - s * (cos (x + t) - cos x)) t := by
      intro t
      have h1 : HasDerivAt (fun t => sin (x + t)) (cos (x + t)) t := by
        simpa using (hasDerivAt_id t).const_add x |>.sin
      have h2 : HasDerivAt (fun t : ℝ => t ^ 2 / 2) t t := by
        have := (hasDerivAt_pow 2 t).div_const 2
        simpa using this
      have h3 : HasDerivAt (fun t => t * cos x) (cos x) t := by
        simpa using (hasDerivAt_id t).mul_const (cos x)
      exact h2.sub (((h1.sub_const (sin x)).sub h3).const_mul s)
    have hcont : Continuous (fun t => t ^ 2 / 2 - s * (sin (x + t) - sin x - t * cos x)) := by
      fun_prop
    rcases le_total 0 d with h | h
    · have := monotoneOn_of_deriv_nonneg (convex_Ici 0) hcont.continuousOn
        (fun t _ => (hd t).differentiableAt.differentiableWithinAt) (by
          intro t ht
          rw [(hd t).deriv]
          rw [interior_Ici] at ht
          have := (abs_le.mp (hlip t)).2
          rw [abs_of_pos ht] at this
          linarith)
      have := this (Set.mem_Ici.mpr le_rfl) (Set.mem_Ici.mpr h) h
      simpa using this
    · have := antitoneOn_of_deriv_nonpos (convex_Iic 0) hcont.continuousOn
        (fun t _ => (hd t).differentiableAt.differentiableWithinAt) (by
          intro t ht
          rw [(hd t).deriv]
          rw [interior_Iic] at ht
          have := (abs_le.mp (hlip t)).1
          rw [abs_of_neg ht] at this
          linarith)
      have := this (Set.mem_Iic.mpr h) (Set.mem_Iic.mpr le_rfl) h
      simpa using this
  have h1 := key 1 (by simp) d
  have h2 := key (-1) (by simp) d
  rw [abs_le]
  constructor <;> linarith

/-- the sine lies below its tangents on `[0, pi]` -/
theorem sin_le_tangent {x y : ℝ} (hx : 0 ≤ x) (hx' : x ≤ π) (hy : 0 ≤ y) (hy' : y ≤ π) :
    sin y ≤ sin x + cos x * (y - x) := by
  rcases lt_trichotomy x y with h | h | h
  · obtain ⟨c, ⟨hc1, hc2⟩, hc⟩ := exists_deriv_eq_slope sin h continuous_sin.continuousOn
      differentiable_sin.differentiableOn
    rw [Real.deriv_sin, eq_div_iff (by linarith)] at hc
    have : cos c ≤ cos x := cos_le_cos_of_nonneg_of_le_pi hx (by linarith) hc1.le
    nlinarith
  · subst h; simp
  · obtain ⟨c, ⟨hc1, hc2⟩, hc⟩ := exists_deriv_eq_slope sin h continuous_sin.continuousOn
      differentiable_sin.differentiableOn
    rw [Real.deriv_sin, eq_div_iff (by linarith)] at hc
    have : cos x ≤ cos c := cos_le_cos_of_nonneg_of_le_pi (by linarith) hx' hc2.le
    nlinarith

/-- the left-hand side of Kepler's equation -/
noncomputable def kepler (e E : ℝ) : ℝ := E - e * sin E

section
variable {e : ℝ} (he : 0 ≤ e) (he' : e < 1)
include he he'

theorem kepler_deriv_pos (E : ℝ) : 0 < 1 - e * cos E := by nlinarith [cos_le_one E]

theorem kepler_deriv_ge (E : ℝ) : 1 - e ≤ 1 - e * cos E := by nlinarith [cos_le_one E]

/-- Kepler's function expands distances by at least `1 - e` -/
theorem kepler_expand (x y : ℝ) : (1 - e) * |x - y| ≤ |kepler e x - kepler e y| := by
  have h1 : |sin x - sin y| ≤ |x - y| := by
    have := abs_sin_sub_sin_le x y
    simpa using this
  have : kepler e x - kepler e y = (x - y) - e * (sin x - sin y) := by unfold kepler; ring
  rw [this]
  have h2 := abs_sub_abs_le_abs_sub (x - y) (e * (sin x - sin y))
  rw [abs_mul, abs_of_nonneg he] at h2
  nlinarith

theorem kepler_injective {x y : ℝ} (h : kepler e x = kepler e y) : x = y := by
  have h1 := kepler_expand he he' x y
  rw [h, sub_self, abs_zero] at h1
  have h2 : |x - y| ≤ 0 := by
    by_contra hc
    push Not at hc
    nlinarith
  exact sub_eq_zero.mp (abs_eq_zero.mp (le_antisymm h2 (abs_nonneg _)))

theorem kepler_strictMono : StrictMono (kepler e) := by
  intro x y hxy
  have h1 : |sin y - sin x| ≤ |y - x| := by
    have := abs_sin_sub_sin_le y x
    simpa using this
  rw [abs_of_pos (sub_pos.mpr hxy)] at h1
  have h2 := (abs_le.mp h1).2
  unfold kepler
  rcases le_or_gt 0 (sin y - sin x) with h | h <;> nlinarith

theorem kepler_exists (M : ℝ) : ∃ E, kepler e E = M ∧ M - e ≤ E ∧ E ≤ M + e := by
  have hc : Continuous (kepler e) := by unfold kepler; fun_prop
  have h1 : kepler e (M - e) ≤ M := by
    unfold kepler; nlinarith [neg_one_le_sin (M - e)]
  have h2 : M ≤ kepler e (M + e) := by
    unfold kepler; nlinarith [sin_le_one (M + e)]
  obtain ⟨E, ⟨hE1, hE2⟩, hE⟩ := intermediate_value_Icc (by linarith : M - e ≤ M + e)
    hc.continuousOn ⟨h1, h2⟩
  exact ⟨E, hE, hE1, hE2⟩

end

/-- one Newton step -/
noncomputable def newton (e M E : ℝ) : ℝ := E + (M - E + e * sin E) / (1 - e * cos E)

section
variable {e : ℝ} (he : 0 ≤ e) (he' : e < 1)
include he he'

theorem keplerStep_ok (M E : ℝ) : keplerStep M e E = .ok (newton e M E) := by
  have := kepler_deriv_pos he he' E
  simp [keplerStep, newton, pyDiv_ok this.ne', pySin, pyCos]

/-- after a Newton step the residual is quadratic in the step -/
theorem newton_residual (M E : ℝ) :
    |kepler e (newton e M E) - M| ≤ e * (newton e M E - E) ^ 2 / 2 := by
  have hp := kepler_deriv_pos he he' E
  set d := newton e M E - E with hd
  have hd' : d * (1 - e * cos E) = M - E + e * sin E := by
    rw [hd, newton]; field_simp; ring
  have hE : newton e M E = E + d := by rw [hd]; ring
  have ht := sin_taylor2 E d
  have : kepler e (newton e M E) - M = -e * (sin (E + d) - sin E - d * cos E) := by
    rw [hE, kepler]; linear_combination hd'
  rw [this, abs_mul, abs_neg, abs_of_nonneg he]
  have := mul_le_mul_of_nonneg_left ht he
  linarith

/-- on the convex half turn Newton's iterates above the root decrease and stay above it -/
theorem newton_monotone {M Es E : ℝ} (hroot : kepler e Es = M) (h0 : 0 ≤ Es) (h1 : Es ≤ E) (h2 : E ≤ π) :
    Es ≤ newton e M E ∧ newton e M E ≤ E := by
  have hp := kepler_deriv_pos he he' E
  have ht := sin_le_tangent (x := E) (y := Es) (by linarith) h2 h0 (by linarith)
  have hm := (kepler_strictMono he he').monotone h1
  rw [hroot] at hm
  unfold kepler at hroot hm
  constructor
  · have : Es - E ≤ (M - E + e * sin E) / (1 - e * cos E) := by
      rw [le_div_iff₀ hp]
      nlinarith [mul_le_mul_of_nonneg_left ht he]
    unfold newton; linarith
  · have : (M - E + e * sin E) / (1 - e * cos E) ≤ 0 :=
      div_nonpos_of_nonpos_of_nonneg (by linarith) hp.le
    unfold newton; linarith

/-- where the derivative is at least one (the half turn around apogee) Newton's method
contracts -/
theorem newton_contract {M Es E : ℝ} (hroot : kepler e Es = M) (h1 : π / 2 ≤ E) (h2 : E ≤ 3 * π / 2) :
    |newton e M E - Es| ≤ (E - Es) ^ 2 / 2 := by
  have hc : cos E ≤ 0 := cos_nonpos_of_pi_div_two_le_of_le h1 (by linarith)
  have hp : 1 ≤ 1 - e * cos E := by nlinarith
  have ht := sin_taylor2 E (Es - E)
  have hd : (newton e M E - Es) * (1 - e * cos E)
      = -(e * (sin (E + (Es - E)) - sin E - (Es - E) * cos E)) := by
    have hp' : (1 - e * cos E) ≠ 0 := by linarith
    unfold newton kepler at *
    field_simp
    rw [show E + (Es - E) = Es by ring]
    linear_combination -hroot
  have h3 : |newton e M E - Es| * (1 - e * cos E) ≤ e * ((Es - E) ^ 2 / 2) := by
    rw [← abs_of_pos (by linarith : 0 < 1 - e * cos E), ← abs_mul, hd, abs_neg, abs_mul,
      abs_of_nonneg he]
    exact mul_le_mul_of_nonneg_left ht he
  have h4 : (Es - E) ^ 2 = (E - Es) ^ 2 := by ring
  rw [h4] at h3
  nlinarith [abs_nonneg (newton e M E - Es), sq_nonneg (E - Es)]

end

theorem newton_mirror (e M E : ℝ) : newton e (-M) (-E) = -newton e M E := by
  unfold newton; rw [sin_neg, cos_neg]; ring

theorem newton_mirror' (e M E : ℝ) : newton e (2 * π - M) (2 * π - E) = 2 * π - newton e M E := by
  unfold newton; rw [sin_two_pi_sub, cos_two_pi_sub]; ring

theorem newton_iterate_mirror (e M E : ℝ) (n : ℕ) :
    (newton e (-M))^[n] (-E) = -((newton e M)^[n] E) := by
  induction n with
  | zero => rfl
  | succ n ih => rw [Function.iterate_succ_apply', ih, newton_mirror, Function.iterate_succ_apply']

theorem newton_iterate_mirror' (e M E : ℝ) (n : ℕ) :
    (newton e (2 * π - M))^[n] (2 * π - E) = 2 * π - (newton e M)^[n] E := by
  induction n with
  | zero => rfl
  | succ n ih => rw [Function.iterate_succ_apply', ih, newton_mirror', Function.iterate_succ_apply']

/-- iterates from `E0` come within the tolerance of each other -/
def NewtonStops (e M E0 : ℝ) : Prop :=
  ∃ n, |(newton e M)^[n + 1] E0 - (newton e M)^[n] E0| < EA_TOLERANCE

theorem tol_pos : 0 < EA_TOLERANCE := by norm_num [EA_TOLERANCE]

section
variable {e : ℝ} (he : 0 ≤ e) (he' : e < 1)
include he he'

theorem newton_stops_convex {M Es E0 : ℝ} (hroot : kepler e Es = M) (h0 : 0 ≤ Es) (h1 : Es ≤ E0)
    (h2 : E0 ≤ π) :
    (∀ n, Es ≤ (newton e M)^[n] E0 ∧ (newton e M)^[n] E0 ≤ π) ∧ NewtonStops e M E0 := by
  have inv : ∀ n, Es ≤ (newton e M)^[n] E0 ∧ (newton e M)^[n] E0 ≤ π := by
    intro n
    induction n with
    | zero => exact ⟨h1, h2⟩
    | succ n ih =>
      rw [Function.iterate_succ_apply']
      have := newton_monotone he he' hroot h0 ih.1 ih.2
      exact ⟨this.1, by linarith [this.2, ih.2]⟩
  refine ⟨inv, ?_⟩
  have anti : Antitone (fun n => (newton e M)^[n] E0) := by
    apply antitone_nat_of_succ_le
    intro n
    rw [Function.iterate_succ_apply']
    exact (newton_monotone he he' hroot h0 (inv n).1 (inv n).2).2
  have hb : BddBelow (Set.range fun n => (newton e M)^[n] E0) :=
    ⟨Es, by rintro _ ⟨n, rfl⟩; exact (inv n).1⟩
  have hlim := tendsto_atTop_ciInf anti hb
  have hlim' := hlim.comp (Filter.tendsto_add_atTop_nat 1)
  have hdiff := hlim'.sub hlim
  rw [sub_self] at hdiff
  have := (Metric.tendsto_atTop.mp hdiff) EA_TOLERANCE tol_pos
  obtain ⟨N, hN⟩ := this
  refine ⟨N, ?_⟩
  have := hN N le_rfl
  rw [Real.dist_eq, sub_zero] at this
  exact this

theorem newton_stops_contract {M Es E0 : ℝ} (hroot : kepler e Es = M) (hE1 : π - 1 ≤ Es) (hE2 : Es ≤ π)
    (h1 : π / 2 ≤ E0) (h2 : E0 ≤ 3 * π / 2) (h3 : |E0 - Es| ≤ 1) :
    (∀ n, π / 2 ≤ (newton e M)^[n] E0 ∧ (newton e M)^[n] E0 ≤ 3 * π / 2) ∧ NewtonStops e M E0 := by
  have hpi := pi_gt_three
  have inv : ∀ n, π / 2 ≤ (newton e M)^[n] E0 ∧ (newton e M)^[n] E0 ≤ 3 * π / 2 ∧
      |(newton e M)^[n] E0 - Es| ≤ (1 / 2) ^ n := by
    intro n
    induction n with
    | zero => exact ⟨h1, h2, by simpa using h3⟩
    | succ n ih =>
      rw [Function.iterate_succ_apply']
      obtain ⟨i1, i2, i3⟩ := ih
      have hc := newton_contract he he' hroot i1 i2
      have hle : ((1 : ℝ) / 2) ^ n ≤ 1 := pow_le_one₀ (by norm_num) (by norm_num)
      have hsq : ((newton e M)^[n] E0 - Es) ^ 2 ≤ ((1 : ℝ) / 2) ^ n * 1 := by
        rw [← sq_abs, sq]
        exact mul_le_mul i3 (by linarith) (abs_nonneg _) (by positivity)
      have hd : |newton e M ((newton e M)^[n] E0) - Es| ≤ (1 / 2) ^ (n + 1) := by
        rw [pow_succ]; linarith
      have hd1 : (1 / 2 : ℝ) ^ (n + 1) ≤ 1 / 2 := by rw [pow_succ]; linarith
      have := abs_le.mp (hd.trans hd1)
      exact ⟨by linarith, by linarith, hd⟩
  refine ⟨fun n => ⟨(inv n).1, (inv n).2.1⟩, ?_⟩
  have hlim : Filter.Tendsto (fun n : ℕ => ((1 : ℝ) / 2) ^ n) Filter.atTop (nhds 0) :=
    tendsto_pow_atTop_nhds_zero_of_lt_one (by norm_num) (by norm_num)
  obtain ⟨N, hN⟩ := (Metric.tendsto_atTop.mp hlim) (EA_TOLERANCE / 2) (by have := tol_pos; linarith)
  have h := hN N le_rfl
  rw [Real.dist_eq, sub_zero, abs_of_nonneg (by positivity)] at h
  refine ⟨N, ?_⟩
  have a1 := (inv N).2.2
  have a2 := (inv (N + 1)).2.2
  have a3 : ((1 : ℝ) / 2) ^ (N + 1) ≤ (1 / 2) ^ N := by
    rw [pow_succ]; have : (0 : ℝ) ≤ (1 / 2) ^ N := by positivity
    linarith
  calc |(newton e M)^[N + 1] E0 - (newton e M)^[N] E0|
      = |((newton e M)^[N + 1] E0 - Es) - ((newton e M)^[N] E0 - Es)| := by congr 1; ring
    _ ≤ |(newton e M)^[N + 1] E0 - Es| + |(newton e M)^[N] E0 - Es| := abs_sub _ _
    _ < EA_TOLERANCE := by linarith

/-- the case `0 ≤ M ≤ pi` -/
theorem newton_core {M E0 : ℝ} (hM : 0 ≤ M) (hM' : M ≤ π) (hE0 : E0 = M + e ∨ (M = π ∧ E0 = π - e)) :
    (∀ n, (M ≤ (newton e M)^[n] E0 ∨ 1 ≤ (newton e M)^[n] E0) ∧ (newton e M)^[n] E0 ≤ 3 * π / 2) ∧
      NewtonStops e M E0 := by
  have hpi := pi_gt_three
  obtain ⟨Es, hroot, hl, hu⟩ := kepler_exists he he' M
  have hmono := kepler_strictMono he he'
  have k0 : kepler e 0 = 0 := by simp [kepler]
  have kpi : kepler e π = π := by simp [kepler]
  have hEs0 : 0 ≤ Es := by
    by_contra hc
    push Not at hc
    have := hmono hc
    rw [hroot, k0] at this; linarith
  have hEspi : Es ≤ π := by
    by_contra hc
    push Not at hc
    have := hmono hc
    rw [hroot, kpi] at this; linarith
  have hMEs : M ≤ Es := by
    have := sin_nonneg_of_nonneg_of_le_pi hEs0 hEspi
    unfold kepler at hroot; nlinarith
  have close : π / 2 ≤ E0 → E0 ≤ 3 * π / 2 → |E0 - Es| ≤ 1 → π - 1 ≤ Es →
    (∀ n, (M ≤ (newton e M)^[n] E0 ∨ 1 ≤ (newton e M)^[n] E0) ∧ (newton e M)^[n] E0 ≤ 3 * π / 2) ∧
      NewtonStops e M E0 := by
    intro a1 a2 a3 a4
    obtain ⟨b1, b2⟩ := newton_stops_contract he he' hroot a4 hEspi a1 a2 a3
    refine ⟨fun n => ⟨Or.inr ?_, (b1 n).2⟩, b2⟩
    linarith [(b1 n).1]
  rcases hE0 with h | ⟨h, h'⟩
  · by_cases hc : M + e ≤ π
    · obtain ⟨b1, b2⟩ := newton_stops_convex he he' hroot hEs0 (E0 := E0) (by linarith) (by linarith)
      refine ⟨fun n => ⟨Or.inl ?_, ?_⟩, b2⟩
      · linarith [(b1 n).1]
      · linarith [(b1 n).2]
    · push Not at hc
      apply close
      · linarith
      · linarith
      · rw [abs_le]; constructor <;> linarith
      · linarith
  · have hEs : Es = π := kepler_injective he he' (by rw [hroot, kpi, h])
    apply close
    · linarith
    · linarith
    · rw [abs_le]; constructor <;> linarith
    · linarith

/-- all starting values the solver uses for `-2 pi ≤ M ≤ 2 pi`: Newton's method stops; its
iterates are negative for negative `M` and not negative for non-negative `M` -/
theorem newton_all {M : ℝ} (h1 : -(2 * π) ≤ M) (h2 : M ≤ 2 * π) :
    NewtonStops e M (keplerStart M e) ∧
    (0 ≤ M → M < 2 * π → ∀ n, 0 ≤ (newton e M)^[n] (keplerStart M e) ∧
      (newton e M)^[n] (keplerStart M e) < 2 * π) ∧
    (M < 0 → -(2 * π) < M → ∀ n, -(2 * π) < (newton e M)^[n] (keplerStart M e) ∧
      (newton e M)^[n] (keplerStart M e) < 0) := by
  have hpi := pi_gt_three
  have core := fun {M E0 : ℝ} => newton_core (e := e) (M := M) (E0 := E0) he he'
  -- 0 ≤ M ≤ 2 pi, allowing the mirrored start at M = pi
  have nonneg : ∀ M E0 : ℝ, 0 ≤ M → M ≤ 2 * π →
      ((M ≤ π ∧ E0 = M + e) ∨ (M = π ∧ E0 = π - e) ∨ (π < M ∧ E0 = M - e)) →
      NewtonStops e M E0 ∧ (0 ≤ M → M < 2 * π → ∀ n, 0 ≤ (newton e M)^[n] E0 ∧ (newton e M)^[n] E0 < 2 * π ∧
        (0 < M → 0 < (newton e M)^[n] E0)) := by
    intro M E0 a1 a2 a3
    rcases a3 with ⟨a4, a5⟩ | ⟨a4, a5⟩ | ⟨a4, a5⟩
    · obtain ⟨b1, b2⟩ := core a1 a4 (Or.inl a5)
      refine ⟨b2, fun _ _ n => ?_⟩
      obtain ⟨c1, c2⟩ := b1 n
      rcases c1 with c1 | c1
      · exact ⟨by linarith, by linarith, fun _ => by linarith⟩
      · exact ⟨by linarith, by linarith, fun _ => by linarith⟩
    · obtain ⟨b1, b2⟩ := core a1 (by linarith) (Or.inr ⟨a4, a5⟩)
      refine ⟨b2, fun _ _ n => ?_⟩
      obtain ⟨c1, c2⟩ := b1 n
      rcases c1 with c1 | c1
      · exact ⟨by linarith, by linarith, fun _ => by linarith⟩
      · exact ⟨by linarith, by linarith, fun _ => by linarith⟩
    · obtain ⟨b1, b2⟩ := core (M := 2 * π - M) (E0 := 2 * π - E0) (by linarith) (by linarith)
        (Or.inl (by linarith))
      constructor
      · obtain ⟨n, hn⟩ := b2
        refine ⟨n, ?_⟩
        rw [newton_iterate_mirror', newton_iterate_mirror'] at hn
        rw [← abs_neg]
        convert hn using 2
        ring
      · intro _ d1 n
        obtain ⟨c1, c2⟩ := b1 n
        rw [newton_iterate_mirror'] at c1 c2
        rcases c1 with c1 | c1
        · exact ⟨by linarith, by linarith, fun _ => by linarith⟩
        · exact ⟨by linarith, by linarith, fun _ => by linarith⟩
  by_cases hM : 0 ≤ M
  · have hs : (M ≤ π ∧ keplerStart M e = M + e) ∨ (M = π ∧ keplerStart M e = π - e) ∨
        (π < M ∧ keplerStart M e = M - e) := by
      unfold keplerStart pyPi
      by_cases h : π < M
      · right; right; exact ⟨h, by simp [h]⟩
      · left
        refine ⟨not_lt.mp h, ?_⟩
        rw [if_neg]
        push Not
        exact ⟨fun _ => hM, not_lt.mp h⟩
    obtain ⟨b1, b2⟩ := nonneg M _ hM h2 hs
    exact ⟨b1, fun a1 a2 n => ⟨(b2 a1 a2 n).1, (b2 a1 a2 n).2.1⟩, fun h => absurd hM (not_le.mpr h)⟩
  · push Not at hM
    have hs : (-M ≤ π ∧ -keplerStart M e = -M + e) ∨ (-M = π ∧ -keplerStart M e = π - e) ∨
        (π < -M ∧ -keplerStart M e = -M - e) := by
      unfold keplerStart pyPi
      rcases lt_trichotomy (-π) M with h | h | h
      · left
        refine ⟨by linarith, ?_⟩
        rw [if_pos (Or.inl ⟨h, hM⟩)]; ring
      · right; left
        refine ⟨by linarith, ?_⟩
        rw [if_neg]
        · rw [← h]; ring
        · rintro (h3 | h3) <;> linarith
      · right; right
        refine ⟨by linarith, ?_⟩
        rw [if_neg]
        · ring
        · rintro (h3 | h3) <;> linarith
    obtain ⟨b1, b2⟩ := nonneg (-M) _ (by linarith) (by linarith) hs
    refine ⟨?_, fun h => absurd hM (not_lt.mpr h), fun _ h3 n => ?_⟩
    · obtain ⟨n, hn⟩ := b1
      refine ⟨n, ?_⟩
      rw [newton_iterate_mirror, newton_iterate_mirror] at hn
      rw [← abs_neg]
      convert hn using 2
      ring
    · have := b2 (by linarith) (by linarith) n
      rw [newton_iterate_mirror] at this
      exact ⟨by linarith [this.2.1], by linarith [this.2.2 (by linarith)]⟩

/-- what the loop returns: an iterate which is within the tolerance of its predecessor -/
theorem keplerLoop_ok {M E0 E : ℝ} {fuel : ℕ} (h : keplerLoop M e fuel E0 = .ok E) :
    ∃ n, E = (newton e M)^[n + 1] E0 ∧
      |(newton e M)^[n + 1] E0 - (newton e M)^[n] E0| < EA_TOLERANCE := by
  induction fuel generalizing E0 with
  | zero => simp [keplerLoop] at h
  | succ k ih =>
    rw [keplerLoop, keplerStep_ok he he', ok_bind] at h
    split at h
    · rename_i hc
      simp only [pure_eq_ok, Except.ok.injEq] at h
      exact ⟨0, by simpa using h.symm, by simpa [pyAbs] using hc⟩
    · obtain ⟨n, h1, h2⟩ := ih h
      exact ⟨n + 1, by rw [h1]; rfl, by simpa [Function.iterate_succ_apply] using h2⟩

/-- the loop returns as soon as the fuel covers one stopping index -/
theorem keplerLoop_returns {M E0 : ℝ} {n : ℕ}
    (h : |(newton e M)^[n + 1] E0 - (newton e M)^[n] E0| < EA_TOLERANCE) :
    ∃ E, ∀ fuel, n + 1 ≤ fuel → keplerLoop M e fuel E0 = .ok E := by
  induction n generalizing E0 with
  | zero =>
    refine ⟨newton e M E0, fun fuel hf => ?_⟩
    obtain ⟨k, rfl⟩ : ∃ k, fuel = k + 1 := ⟨fuel - 1, by omega⟩
    rw [keplerLoop, keplerStep_ok he he', ok_bind, if_pos]
    · rfl
    · simpa [pyAbs] using h
  | succ n ih =>
    by_cases hc : |newton e M E0 - E0| < EA_TOLERANCE
    · refine ⟨newton e M E0, fun fuel hf => ?_⟩
      obtain ⟨k, rfl⟩ : ∃ k, fuel = k + 1 := ⟨fuel - 1, by omega⟩
      rw [keplerLoop, keplerStep_ok he he', ok_bind, pyAbs, if_pos hc]
      rfl
    · obtain ⟨E, hE⟩ := ih (E0 := newton e M E0) (by simpa [Function.iterate_succ_apply] using h)
      refine ⟨E, fun fuel hf => ?_⟩
      obtain ⟨k, rfl⟩ : ∃ k, fuel = k + 1 := ⟨fuel - 1, by omega⟩
      rw [keplerLoop, keplerStep_ok he he', ok_bind, pyAbs, if_neg hc]
      exact hE k (by omega)

end

end Openspace
