import Verif.Model.DoubleIod
import Verif.Lemmas.DoubleFormulas
import Verif.Lemmas.Secant
import Verif.Spec.Ulp
import Verif.Props.DoubleSpherical

/-!
The secant iteration of Gauss's method in double precision
-/

namespace Openspace

open Real

namespace F64

theorem arcsin_lipschitz {x y : ℝ} (hx : 0 ≤ x) (hy : 0 ≤ y) (hx1 : x ≤ 2 / 5) (hy1 : y ≤ 2 / 5) :
    |arcsin x - arcsin y| ≤ 1.1 * |x - y| := by
  have top : ∀ z : ℝ, 0 ≤ z → z ≤ 2 / 5 → 0 ≤ arcsin z ∧ arcsin z ≤ 0.42 ∧ sin (arcsin z) = z := by
    intro z hz hz1
    refine ⟨arcsin_nonneg.mpr hz, ?_, sin_arcsin (by linarith) (by linarith)⟩
    rw [arcsin_le_iff_le_sin ⟨by linarith, by linarith⟩ ⟨by linarith [pi_gt_three], by linarith [pi_gt_three]⟩]
    have := sin_ge3 (x := 0.42) (by norm_num)
    norm_num at this ⊢; linarith
  have mono : MonotoneOn (fun z : ℝ => 1.1 * sin z - z) (Set.Icc 0 0.42) := by
    apply monotoneOn_of_deriv_nonneg (convex_Icc _ _)
    · fun_prop
    · fun_prop
    · intro z hz
      rw [interior_Icc] at hz
      have hd : HasDerivAt (fun z : ℝ => 1.1 * sin z - z) (1.1 * cos z - 1) z :=
        ((hasDerivAt_sin z).const_mul 1.1).sub (hasDerivAt_id z)
      rw [hd.deriv]
      have h1 := one_sub_sq_div_two_le_cos (x := z)
      have : z ^ 2 ≤ 0.42 ^ 2 := by
        have := hz.1; have := hz.2
        gcongr
      norm_num at this ⊢; linarith
  wlog h : y ≤ x generalizing x y
  · rw [abs_sub_comm, abs_sub_comm x]
    exact this hy hx hy1 hx1 (le_of_not_ge h)
  obtain ⟨a1, a2, a3⟩ := top x hx hx1
  obtain ⟨b1, b2, b3⟩ := top y hy hy1
  have hm := monotone_arcsin h
  have := mono ⟨b1, b2⟩ ⟨a1, a2⟩ hm
  simp only [a3, b3] at this
  rw [abs_of_nonneg (by linarith), abs_of_nonneg (by linarith)]
  linarith

theorem sin_sq_sub (x y : ℝ) : |sin (x / 2) ^ 2 - sin (y / 2) ^ 2| ≤ |x - y| / 2 := by
  have e : sin (x / 2) ^ 2 - sin (y / 2) ^ 2 = sin (x / 2 - y / 2) * sin (x / 2 + y / 2) := by
    rw [sin_sub, sin_add]
    have h1 := sin_sq_add_cos_sq (x / 2)
    have h2 := sin_sq_add_cos_sq (y / 2)
    linear_combination (-sin (x / 2) ^ 2) * h2 + sin (y / 2) ^ 2 * h1
  rw [e, abs_mul]
  have i2 : |sin (x / 2 - y / 2)| ≤ |x - y| / 2 := by
    have := sin_lipschitz (x / 2 - y / 2) 0
    rw [sin_zero, sub_zero, sub_zero] at this
    rwa [← abs_two (α := ℝ), ← abs_div, abs_two, sub_div]
  calc _ ≤ |x - y| / 2 * 1 := by
        gcongr
        exact abs_sin_le_one _
    _ = _ := mul_one _

/-- the rounded angle of `w_of_omega` -/
theorem omega_angle {lib : Libm} (hlib : Spec.UlpAccurate lib) {w ω k : ℝ} (hk0 : 0 ≤ k) (hk : k ≤ 36) (h : Near w ω k) (h0 : 0 < ω)
    (h1 : ω ≤ 0.121) : ∃ s a, sqrt w = .ok s ∧ asin lib s = .ok a ∧ 0 < rnd (2 * a) ∧ rnd (2 * a) ≤ 18 / 25 ∧
      1.998 * √ω ≤ rnd (2 * a) ∧ |Gauss.X (rnd (2 * a)) - Gauss.X (2 * arcsin √ω)| ≤ 53 * u := by
  have hu := u_pos
  have hu' := u_tiny
  have us : u ≤ 1e-12 := hu'.trans (by norm_num)
  have w0 := h.nonneg h0.le (by linarith)
  obtain ⟨s, e1, s0, n1⟩ := h.sqrtr h0.le w0 hk0 (by linarith)
  have r0 : 0 < √ω := Real.sqrt_pos.mpr h0
  have r1 : √ω ≤ 0.348 := by rw [Real.sqrt_le_left (by norm_num)]; norm_num at h1 ⊢; linarith
  have n1' := n1
  unfold Near at n1'
  rw [abs_of_pos r0] at n1'
  have b1 : (k + 1.001) * u * √ω ≤ 1e-9 := by
    calc (k + 1.001) * u * √ω ≤ 38 * 1e-12 * 1 := by gcongr <;> linarith
      _ ≤ 1e-9 := by norm_num
  have s1 : s ≤ 0.349 := by
    have := (_root_.abs_le.mp n1').2
    norm_num at b1 this r1 ⊢; linarith
  have c1 := arcsin_lipschitz s0 r0.le (by norm_num at s1 ⊢; linarith) (by norm_num at r1 ⊢; linarith)
  have c2 := hlib.asin s (by rw [abs_of_nonneg s0]; norm_num at s1 ⊢; linarith)
  rw [show (1 : ℝ) / 2 ^ 52 = 2 * u by unfold u; norm_num, abs_of_nonneg (arcsin_nonneg.mpr s0)] at c2
  obtain ⟨α, hα⟩ : ∃ α, α = arcsin √ω := ⟨_, rfl⟩
  have α0 : 0 < α := by rw [hα]; exact arcsin_pos.mpr r0
  have sα : sin α = √ω := by rw [hα]; exact sin_arcsin (by linarith) (by norm_num at r1; linarith)
  have rα : √ω ≤ α := by rw [← sα]; exact sin_le α0.le
  have α1 : α ≤ 0.3565 := by
    rw [hα, arcsin_le_iff_le_sin ⟨by linarith, by norm_num at r1; linarith⟩ ⟨by linarith [pi_gt_three], by linarith [pi_gt_three]⟩]
    have := sin_ge3 (x := 0.3565) (by norm_num)
    norm_num at this r1 ⊢; linarith
  rw [← hα] at c1
  have c3 : |arcsin s - α| ≤ 1.1 * ((k + 1.001) * u) * α := by
    refine c1.trans ?_
    have : (k + 1.001) * u * √ω ≤ (k + 1.001) * u * α := by gcongr
    linarith
  have c4 : |lib.asin s - α| ≤ (1.1 * (k + 1.001) + 2.01) * u * α := by
    have t1 := abs_sub_le (lib.asin s) (arcsin s) α
    have t2 : arcsin s ≤ 1.001 * α := by
      have := (_root_.abs_le.mp c3).2
      have : 1.1 * ((k + 1.001) * u) * α ≤ 0.001 * α := by
        gcongr
        calc 1.1 * ((k + 1.001) * u) ≤ 1.1 * (38 * 1e-12) := by gcongr; linarith
          _ ≤ 0.001 := by norm_num
      linarith
    have t3 : 2 * u * arcsin s ≤ 2 * u * (1.001 * α) := by gcongr
    have t4 : 0 ≤ u * α := by positivity
    linarith
  have n2 : Near (lib.asin s) α (1.1 * (k + 1.001) + 2.01) := by
    unfold Near; rw [abs_of_pos α0]; exact c4
  have n3 := ((Near.refl 2).mulr n2 le_rfl (by linarith) (by norm_num) (by linarith)).mono (l := 44.2) (by linarith)
  refine ⟨s, lib.asin s, e1, if_neg (by
      rintro (h | h)
      · linarith
      · norm_num at s1; linarith), ?_⟩
  obtain ⟨g', hg'⟩ : ∃ g', g' = rnd (2 * lib.asin s) := ⟨_, rfl⟩
  obtain ⟨g, hg⟩ : ∃ g, g = 2 * α := ⟨_, rfl⟩
  rw [← hα, ← hg, ← hg']
  rw [← hg', ← hg] at n3
  have g0 : 0 < g := by linarith
  have gle : g ≤ 0.713 := by linarith
  unfold Near at n3
  rw [abs_of_pos g0] at n3
  have d1 : 44.2 * u * g ≤ 1e-9 * g := by gcongr; norm_num at us ⊢; linarith
  have g'lo : 0.999 * g ≤ g' := by
    have := (_root_.abs_le.mp n3).1
    norm_num at d1 this ⊢; linarith
  have g'0 : 0 < g' := by linarith
  have g'hi : g' ≤ 18 / 25 := by
    have := (_root_.abs_le.mp n3).2
    norm_num at d1 this gle ⊢; linarith
  refine ⟨g'0, g'hi, by linarith, ?_⟩
  have k1 := sin_sq_sub g' g
  have k2 : |Gauss.X g' - Gauss.X g| ≤ 3 * |sin (g' / 2) ^ 2 - sin (g / 2) ^ 2| := by
    rcases le_total g g' with h | h
    · obtain ⟨m1, m2⟩ := Gauss.X_mono g0 h g'hi
      rw [abs_of_nonneg (by linarith)]
      exact m2.trans (by gcongr; exact le_abs_self _)
    · obtain ⟨m1, m2⟩ := Gauss.X_mono g'0 h (by norm_num at gle ⊢; linarith)
      rw [abs_of_nonpos (by linarith), neg_sub, abs_sub_comm (sin (g' / 2) ^ 2)]
      exact m2.trans (by gcongr; exact le_abs_self _)
  have k3 : 44.2 * u * g ≤ 44.2 * u * 0.713 := by gcongr
  norm_num at k3 n3 ⊢; linarith

/-- the numerator of `w_of_omega` -/
theorem omega_num {lib : Libm} (hlib : Spec.UlpAccurate lib) {g : ℝ} (g0 : 0 < g) :
    |rnd (rnd (2 * g) - lib.sin (rnd (2 * g))) - (2 * g - sin (2 * g))| ≤ 8.02 * u * g + 1.001 * u * (2 * g - sin (2 * g)) := by
  have hu := u_pos
  have hu' := u_tiny
  have us : u ≤ 1e-12 := hu'.trans (by norm_num)
  obtain ⟨t, ht⟩ : ∃ t, t = rnd (2 * g) := ⟨_, rfl⟩
  have f1 := rnd_u (2 * g)
  rw [← ht]
  rw [← ht, abs_of_pos (show 0 < 2 * g by linarith)] at f1
  have f2 := hlib.sin t
  rw [show (1 : ℝ) / 2 ^ 52 = 2 * u by unfold u; norm_num] at f2
  have f3 := sin_lipschitz t (2 * g)
  have ug : u * g ≤ 1e-12 * g := by gcongr
  have ug0 : 0 < u * g := by positivity
  have f4 : |sin t| ≤ 2.001 * g := by
    have a1 := sin_lipschitz t 0
    rw [sin_zero, sub_zero, sub_zero] at a1
    have a2 := abs_sub_abs_le_abs_sub t (2 * g)
    rw [abs_of_pos (show 0 < 2 * g by linarith)] at a2
    norm_num at ug ⊢; linarith
  obtain ⟨N, hN⟩ : ∃ N, N = 2 * g - sin (2 * g) := ⟨_, rfl⟩
  have N0 : 0 ≤ N := by rw [hN]; linarith [sin_le1 (x := 2 * g) (by linarith)]
  rw [← hN]
  have f5 : |t - lib.sin t - N| ≤ 8.01 * u * g := by
    have e : t - lib.sin t - N = (t - 2 * g) - (lib.sin t - sin t) - (sin t - sin (2 * g)) := by rw [hN]; ring
    rw [e]
    have a1 := abs_sub ((t - 2 * g) - (lib.sin t - sin t)) (sin t - sin (2 * g))
    have a2 := abs_sub (t - 2 * g) (lib.sin t - sin t)
    have a3 : 2 * u * |sin t| ≤ 2 * u * (2.001 * g) := by gcongr
    linarith
  have f6 := rabs f5 (M := 1.001 * N + 8.02 * 1e-12 * g) (by
    rw [abs_of_nonneg N0]
    norm_num at ug ⊢; linarith)
  have : 8.02 * 1e-12 * g * u ≤ 0.01 * u * g := by
    have : 0 ≤ u * g := by positivity
    norm_num; linarith
  linarith

/-- the quotient of `w_of_omega` -/
theorem omega_quotient {lib : Libm} (hlib : Spec.UlpAccurate lib) {g : ℝ} (g0 : 0 < g) (g1 : g ≤ 18 / 25) :
    ∃ z, div (rnd (rnd (2 * g) - lib.sin (rnd (2 * g)))) (rnd (rnd (lib.sin g * lib.sin g) * lib.sin g)) = .ok z ∧
      |z - Gauss.X g| ≤ (10.57 * (1 / g ^ 2) + 16.1) * u := by
  have hu := u_pos
  have hu' := u_tiny
  have us : u ≤ 1e-12 := hu'.trans (by norm_num)
  have f7 := omega_num hlib g0
  obtain ⟨M, hM⟩ : ∃ M, M = rnd (rnd (2 * g) - lib.sin (rnd (2 * g))) := ⟨_, rfl⟩
  rw [← hM] at f7 ⊢
  obtain ⟨N, hN⟩ : ∃ N, N = 2 * g - sin (2 * g) := ⟨_, rfl⟩
  have N0 : 0 ≤ N := by rw [hN]; linarith [sin_le1 (x := 2 * g) (by linarith)]
  rw [← hN] at f7
  have sg0 := Gauss.g_sin_pos g0 g1
  have s2 := hlib.sin g
  rw [show (1 : ℝ) / 2 ^ 52 = 2 * u by unfold u; norm_num] at s2
  have m1 : Near (lib.sin g) (sin g) 2 := s2
  have m2 := (m1.mulr m1 (by norm_num) (by norm_num) (by norm_num) (by norm_num)).mulr m1 (by norm_num) (by norm_num) (by norm_num) (by norm_num)
  have S0 : 0 < sin g * sin g * sin g := by positivity
  obtain ⟨S, hS⟩ : ∃ S, S = sin g * sin g * sin g := ⟨_, rfl⟩
  rw [← hS] at m2 S0
  obtain ⟨D, hD⟩ : ∃ D, D = rnd (rnd (lib.sin g * lib.sin g) * lib.sin g) := ⟨_, rfl⟩
  rw [← hD] at m2 ⊢
  have XE : Gauss.X g = N / S := by rw [Gauss.X, hN, hS]; congr 1; ring
  have X1 : N / S ≤ 8 / 5 := by
    rw [div_le_iff₀ S0, hN, hS]
    have := Gauss.X_bound1 g0 g1
    linarith [show sin g ^ 3 = sin g * sin g * sin g by ring]
  obtain ⟨z, ez, zE, -⟩ := (Near.refl M).divr m2 S0.ne' le_rfl (by norm_num) (by norm_num) (by norm_num)
  refine ⟨z, ez, ?_⟩
  rw [XE, zE]
  have m3 := (near_inv' m2 S0.ne' (by norm_num) (by norm_num)).2
  have D0 : 0 < 1 / S := by positivity
  have m4 : |1 / D - 1 / S| ≤ 8.01 * u * (1 / S) := by
    unfold Near at m3
    rw [abs_of_pos D0] at m3
    have : 0 ≤ u * (1 / S) := by positivity
    linarith
  have m5 : |1 / D| ≤ 1.001 * (1 / S) := by
    have := abs_sub_abs_le_abs_sub (1 / D) (1 / S)
    rw [abs_of_pos D0] at this
    have : 8.01 * u * (1 / S) ≤ 0.001 * (1 / S) := by gcongr; norm_num at us ⊢; linarith
    linarith
  have XN : 0 ≤ N / S := by positivity
  have gS : 0 < g / S := by positivity
  have q1 : |M / D - N / S| ≤ 8.03 * u * (g / S) + 9.02 * u * (N / S) := by
    have e : M / D - N / S = (M - N) * (1 / D) + N * (1 / D - 1 / S) := by ring
    rw [e]
    refine (abs_add_le _ _).trans ?_
    rw [abs_mul, abs_mul, abs_of_nonneg N0]
    have a1 : |M - N| * |1 / D| ≤ (8.02 * u * g + 1.001 * u * N) * (1.001 * (1 / S)) := by gcongr
    have a2 : N * |1 / D - 1 / S| ≤ N * (8.01 * u * (1 / S)) := by gcongr
    have e1 : (8.02 * u * g + 1.001 * u * N) * (1.001 * (1 / S)) = 8.02 * 1.001 * (u * (g / S)) + 1.001 * 1.001 * (u * (N / S)) := by ring
    have e2 : N * (8.01 * u * (1 / S)) = 8.01 * (u * (N / S)) := by ring
    have p1 : 0 ≤ u * (g / S) := by positivity
    have p2 : 0 ≤ u * (N / S) := by positivity
    linarith
  have gS1 : g / S ≤ 1.3132 * (1 / g ^ 2) := by
    have a1 := Gauss.sin_lo g0
    have a2 := Gauss.g_sq g0 g1
    have a3 : 0.9133 * g ≤ sin g := by
      have : g * 0.9133 ≤ g * (1 - g ^ 2 / 6) := by gcongr; norm_num; linarith
      linarith
    have a6 : (0.9133 * g) ^ 3 ≤ S := by
      rw [hS, show sin g * sin g * sin g = sin g ^ 3 by ring]
      gcongr
    rw [mul_one_div, div_le_div_iff₀ S0 (by positivity)]
    have : (0 : ℝ) < g ^ 3 := by positivity
    calc g * g ^ 2 = 1 * g ^ 3 := by ring
      _ ≤ 1.3132 * 0.9133 ^ 3 * g ^ 3 := by gcongr; norm_num
      _ = 1.3132 * (0.9133 * g) ^ 3 := by ring
      _ ≤ 1.3132 * S := by gcongr
  have v0 : 0 < 1 / g ^ 2 := by positivity
  obtain ⟨v, hv⟩ : ∃ v, v = 1 / g ^ 2 := ⟨_, rfl⟩
  rw [← hv] at gS1 v0 ⊢
  have gSu : u * (g / S) ≤ u * (1.3132 * v) := by gcongr
  have Xu : u * (N / S) ≤ u * (8 / 5) := by gcongr
  have uv : u * v ≤ 1e-12 * v := by gcongr
  have uv0 : 0 < u * v := by positivity
  have q2 : |M / D - N / S| ≤ 10.546 * (u * v) + 14.44 * u := by linarith
  have q3 := rabs q2 (M := 1.6001 + 0.001 * v) (by
    rw [abs_of_nonneg XN]
    have : u ≤ 0.000001 := us.trans (by norm_num)
    norm_num at uv ⊢
    linarith)
  have q5 : (1.6001 + 0.001 * v) * u = 1.6001 * u + 0.001 * (u * v) := by ring
  have q6 : (10.57 * v + 16.1) * u = 10.57 * (u * v) + 16.1 * u := by ring
  rw [q6]
  linarith

/-- what `w_of_omega` computes -/
theorem wOfOmega_near {lib : Libm} (hlib : Spec.UlpAccurate lib) {w ω k : ℝ} (hk0 : 0 ≤ k) (hk : k ≤ 36) (h : Near w ω k) (h0 : 0 < ω)
    (h1 : ω ≤ 0.121) : ∃ z, wOfOmega lib w = .ok z ∧ |z - Gauss.X (2 * arcsin √ω)| ≤ (2.65 * (1 / ω) + 70) * u := by
  have hu := u_pos
  obtain ⟨s, a, e1, e2, g0, g1, g2, g3⟩ := omega_angle hlib hk0 hk h h0 h1
  obtain ⟨g, hg⟩ : ∃ g, g = rnd (2 * a) := ⟨_, rfl⟩
  rw [← hg] at g0 g1 g2 g3
  obtain ⟨z, e3, hz⟩ := omega_quotient hlib g0 g1
  refine ⟨z, ?_, ?_⟩
  · simp only [wOfOmega, e1, ok_bind, e2, ← hg]
    exact e3
  have b1 : (1.998 * √ω) ^ 2 ≤ g ^ 2 := by gcongr
  rw [mul_pow, Real.sq_sqrt h0.le] at b1
  have b2 : 1 / g ^ 2 ≤ 0.2506 * (1 / ω) := by
    rw [mul_one_div, div_le_div_iff₀ (by positivity) h0]
    norm_num at b1 ⊢; linarith
  have b3 : (10.57 * (1 / g ^ 2) + 16.1) * u ≤ (10.57 * (0.2506 * (1 / ω)) + 16.1) * u := by gcongr
  have b4 := abs_sub_le z (Gauss.X g) (Gauss.X (2 * arcsin √ω))
  have b5 : 0 ≤ 1 / ω * u := by positivity
  linarith

section regime

variable {lib : Libm} (hlib : Spec.UlpAccurate lib) {m l : ℝ} (hm0 : 0 < m) (hm : m ≤ 1 / 10) (hl : 0 ≤ l) (hlm : 5 * l ≤ 3 * m)
include hlib hm0 hm hl hlm

/-- what `f_of_nu` computes -/
theorem fOfNu_near {n : ℝ} (h0 : 0.91 ≤ n) (h1 : n ≤ 5 / 4) : ∃ y, fOfNu lib n m l = .ok y ∧ |y - Gauss.F m l n| ≤ 53 * u := by
  have hu := u_pos
  have hu' := u_tiny
  have us : u ≤ 1e-12 := hu'.trans (by norm_num)
  have n2 : 0.8281 ≤ n ^ 2 := by
    calc (0.8281 : ℝ) = 0.91 ^ 2 := by norm_num
      _ ≤ n ^ 2 := by gcongr
  have n3 : n ^ 2 ≤ 25 / 16 := by
    calc n ^ 2 ≤ (5 / 4) ^ 2 := by gcongr
      _ = 25 / 16 := by norm_num
  have np : 0 < n ^ 2 := by positivity
  obtain ⟨mn, e1, -, k1⟩ := (Near.refl m).divr (near_rnd (n * n)) (by rw [← sq]; exact np.ne') le_rfl (by norm_num) (by norm_num) (by norm_num)
  rw [← sq] at k1
  obtain ⟨x, hx⟩ : ∃ x, x = m / n ^ 2 := ⟨_, rfl⟩
  rw [← hx] at k1
  have x0 : 0 < x := by rw [hx]; positivity
  have x1 : x ≤ 0.121 := by
    rw [hx, div_le_iff₀ np]; norm_num at n2 ⊢; linarith
  have x2 : 0.64 * m ≤ x := by rw [hx, le_div_iff₀ np]; nlinarith
  have w0 : x ≤ 16 * (x - l) := by linarith
  have wp : 0 < x - l := by linarith
  unfold Near at k1
  rw [abs_of_pos x0] at k1
  have k2 : Near (mn - l) (x - l) 32.1 := by
    unfold Near
    rw [abs_of_pos wp, show mn - l - (x - l) = mn - x by ring]
    refine k1.trans ?_
    have : u * x ≤ u * (16 * (x - l)) := by gcongr
    have : 0 < u * (x - l) := by positivity
    linarith
  obtain ⟨z, e2, hz⟩ := wOfOmega_near hlib (by norm_num) (by norm_num) (k2.round' (by norm_num) (by norm_num)) wp (by linarith)
  refine ⟨_, by simp only [fOfNu, e1, ok_bind, e2]; rfl, ?_⟩
  have X0 := Gauss.X_mem hm hl (by linarith : 25 * l < 16 * m) (n := n) (by linarith) h1
  rw [Gauss.F]
  rw [← hx] at X0 ⊢
  obtain ⟨X, hX⟩ : ∃ X, X = Gauss.X (2 * arcsin √(x - l)) := ⟨_, rfl⟩
  rw [← hX] at X0 hz ⊢
  obtain ⟨ω, hω⟩ : ∃ ω, ω = x - l := ⟨_, rfl⟩
  rw [← hω] at hz wp w0
  have v1 : x * (1 / ω) ≤ 16 := by rw [mul_one_div, div_le_iff₀ wp]; linarith
  have mnle : |mn| ≤ 1.001 * x := by
    have := abs_sub_abs_le_abs_sub mn x
    rw [abs_of_pos x0] at this
    have : (0 + 1 + 1.003) * u * x ≤ 0.001 * x := by gcongr; norm_num at us ⊢; linarith
    linarith
  have ux : u * x ≤ u * 0.121 := by gcongr
  have p1 : |mn * z - x * X| ≤ 51.5 * u := by
    rw [show mn * z - x * X = mn * (z - X) + (mn - x) * X by ring]
    refine (abs_add_le _ _).trans ?_
    rw [abs_mul, abs_mul, abs_of_nonneg X0.1]
    have a1 : |mn| * |z - X| ≤ 1.001 * x * ((2.65 * (1 / ω) + 70) * u) := by gcongr
    have a2 : |mn - x| * X ≤ (0 + 1 + 1.003) * u * x * (8 / 5) := by
      have := X0.2
      have := X0.1
      gcongr
    have a3 : 1.001 * x * ((2.65 * (1 / ω) + 70) * u) = 1.001 * 2.65 * (x * (1 / ω) * u) + 70.07 * (u * x) := by ring
    have a4 : x * (1 / ω) * u ≤ 16 * u := by gcongr
    linarith
  have xX : x * X ≤ 0.121 * (8 / 5) := by
    have := X0.2
    have := X0.1
    gcongr
  have xX0 : 0 ≤ x * X := mul_nonneg x0.le X0.1
  have us' : u ≤ 0.00001 := us.trans (by norm_num)
  have p2 := rabs p1 (M := 0.2) (by rw [abs_of_nonneg xX0]; norm_num at xX ⊢; linarith)
  have p3 := rnd_u (1 - n)
  have n1 : |1 - n| ≤ 1 / 4 := by rw [_root_.abs_le]; constructor <;> linarith
  have p4 : |rnd (1 - n) + rnd (mn * z) - (1 - n + x * X)| ≤ 51.96 * u := by
    rw [show rnd (1 - n) + rnd (mn * z) - (1 - n + x * X) = (rnd (1 - n) - (1 - n)) + (rnd (mn * z) - x * X) by ring]
    refine (abs_add_le _ _).trans ?_
    have : u * |1 - n| ≤ u * (1 / 4) := by gcongr
    linarith
  have p5 := rabs p4 (M := 0.45) (by
    have := abs_add_le (1 - n) (x * X)
    rw [abs_of_nonneg xX0] at this
    norm_num at xX ⊢; linarith)
  linarith

omit hlib hm0 hm hl hlm in
/-- one pass of the loop, with the values of `f_of_nu` known to `53 u` -/
theorem secant_core {a b r s t f0 f1 : ℝ} (hr : 1 ≤ r ∧ r ≤ 113 / 100) (hbr : |b - r| ≤ 14 / 100) (hab : 0.999e-12 ≤ |b - a|)
    (hs : 1 ≤ s ∧ s ≤ 8 / 5) (ht : 1 ≤ t ∧ t ≤ 8 / 5) (h1 : |f1 - -s * (b - r)| ≤ 53 * u)
    (h2 : |f1 - f0 - -t * (b - a)| ≤ 106 * u) :
    ∃ q, div (rnd (f1 * rnd (b - a))) (rnd (f1 - f0)) = .ok q ∧ |rnd (b - q) - r| ≤ 0.621 * |b - r| + 56 * u := by
  have hu := u_pos
  have hu' := u_tiny
  have us : u ≤ 0.00001 := hu'.trans (by norm_num)
  have hba : b - a ≠ 0 := by
    intro h; rw [h, abs_zero] at hab; norm_num at hab
  obtain ⟨D, hD⟩ : ∃ D, D = rnd (f1 - f0) := ⟨_, rfl⟩
  obtain ⟨t', ht'⟩ : ∃ t', t' = -D / (b - a) := ⟨_, rfl⟩
  have DE : D = -t' * (b - a) := by rw [ht']; field_simp
  have d1 : |D - -t * (b - a)| ≤ 0.0128 * |b - a| := by
    have e1 : 106 * u ≤ 0.01276 * |b - a| := by
      calc 106 * u ≤ 106 * (12 / 10 ^ 17) := by gcongr
        _ ≤ 0.01276 * 0.999e-12 := by norm_num
        _ ≤ _ := by gcongr
    have e2 := rabs h2 (M := 1.62 * |b - a|) (by
      rw [abs_mul, abs_neg, abs_of_pos (show 0 < t by linarith)]
      have : t * |b - a| ≤ 8 / 5 * |b - a| := by gcongr; exact ht.2
      have := abs_nonneg (b - a)
      linarith)
    rw [← hD] at e2
    have e3 : 1.62 * |b - a| * u ≤ 1.62 * |b - a| * 0.00001 := by gcongr
    have := abs_nonneg (b - a)
    linarith
  have d2 : |t' - t| ≤ 0.0128 := by
    have hp : 0 < |b - a| := abs_pos.mpr hba
    rw [DE, show -t' * (b - a) - -t * (b - a) = -((t' - t) * (b - a)) by ring, abs_neg, abs_mul] at d1
    exact le_of_mul_le_mul_right d1 hp
  obtain ⟨t1, t2⟩ := _root_.abs_le.mp d2
  have tp : 0 < t' := by linarith [ht.1]
  have hD0 : D ≠ 0 := by
    rw [DE]; exact mul_ne_zero (by linarith) hba
  have n1 := (Near.refl f1).mulr (near_rnd (b - a)) le_rfl (by norm_num) (by norm_num) (by norm_num)
  obtain ⟨q, e, -, n2⟩ := n1.divr (Near.refl D) hD0 (by norm_num) (by norm_num) (by norm_num) (by norm_num)
  rw [← hD]
  refine ⟨q, e, ?_⟩
  have vE : f1 * (b - a) / D = -(f1 * (1 / t')) := by
    rw [DE]; field_simp
  rw [vE] at n2
  obtain ⟨v, hv⟩ : ∃ v, v = 1 / t' := ⟨_, rfl⟩
  have v0 : 0.62 ≤ v := by rw [hv, le_div_iff₀ tp]; linarith [ht.2]
  have v1 : v ≤ 1.013 := by rw [hv, div_le_iff₀ tp]; linarith [ht.1]
  rw [← hv] at n2
  unfold Near at n2
  rw [abs_neg, abs_mul, abs_of_pos (show 0 < v by linarith)] at n2
  have f2 : |f1| ≤ 0.23 := by
    have a1 := abs_sub_abs_le_abs_sub f1 (-s * (b - r))
    have a2 : |-s * (b - r)| ≤ 8 / 5 * (14 / 100) := by
      rw [abs_mul, abs_neg, abs_of_pos (show 0 < s by linarith)]
      gcongr; exact hs.2
    linarith
  have n3 : |q - -(f1 * v)| ≤ 0.9 * u := by
    refine n2.trans ?_
    have a1 : |f1| * v ≤ 0.23 * 1.013 := by gcongr
    have a2 : u * (|f1| * v) ≤ u * (0.23 * 1.013) := by gcongr
    linarith
  have sv : |1 - s * v| ≤ 0.621 := by
    rw [_root_.abs_le]
    have a1 : s * v ≤ 8 / 5 * 1.013 := by
      have := hs.2
      gcongr
    have a2 : 1 * 0.62 ≤ s * v := by
      have := hs.1
      gcongr
    constructor <;> linarith
  have p1 : |b - q - r| ≤ 0.621 * |b - r| + 54.6 * u := by
    rw [show b - q - r = (b - r) * (1 - s * v) + ((f1 - -s * (b - r)) * v - (q - -(f1 * v))) by ring]
    refine (abs_add_le _ _).trans ?_
    have a1 := abs_sub ((f1 - -s * (b - r)) * v) (q - -(f1 * v))
    rw [abs_mul, abs_of_pos (show 0 < v by linarith)] at a1
    rw [abs_mul]
    have a2 : |b - r| * |1 - s * v| ≤ |b - r| * 0.621 := by gcongr
    have a3 : |f1 - -s * (b - r)| * v ≤ 53 * u * 1.013 := by gcongr
    linarith
  have p2 := rabs (x := r) p1 (M := 1.25) (by
    rw [abs_of_pos (by linarith)]
    linarith)
  linarith

/-- one pass of the loop of `solve_nu` -/
theorem secantStep_near {a b r : ℝ} (ha : 0.91 ≤ a ∧ a ≤ 5 / 4) (hb : 0.91 ≤ b ∧ b ≤ 5 / 4) (hr : 1 ≤ r ∧ r ≤ 113 / 100)
    (h0 : Gauss.F m l r = 0) (hbr : |b - r| ≤ 14 / 100) (hab : 0.999e-12 ≤ |b - a|) :
    ∃ c, secantStep lib m l a b = .ok c ∧ |c - r| ≤ 0.621 * |b - r| + 56 * u := by
  have hlm' : 25 * l < 16 * m := by linarith
  have slope : ∀ x y : ℝ, (9 / 10 ≤ x ∧ x ≤ 5 / 4) → (9 / 10 ≤ y ∧ y ≤ 5 / 4) →
      ∃ s, (1 ≤ s ∧ s ≤ 8 / 5) ∧ Gauss.F m l y - Gauss.F m l x = -s * (y - x) := by
    intro x y hx hy
    rcases eq_or_ne x y with rfl | hne
    · exact ⟨1, by norm_num, by ring⟩
    refine ⟨(Gauss.F m l x - Gauss.F m l y) / (y - x), ?_, ?_⟩
    · rcases lt_or_gt_of_ne hne with h | h
      · obtain ⟨k1, k2⟩ := Gauss.F_slope hm hl hlm' hx.1 h.le hy.2
        have : 0 < y - x := by linarith
        exact ⟨by rw [le_div_iff₀ this]; linarith, by rw [div_le_iff₀ this]; linarith⟩
      · obtain ⟨k1, k2⟩ := Gauss.F_slope hm hl hlm' hy.1 h.le hx.2
        have : 0 < x - y := by linarith
        rw [← neg_sub x y, ← neg_sub (Gauss.F m l y), neg_div_neg_eq]
        exact ⟨by rw [le_div_iff₀ this]; linarith, by rw [div_le_iff₀ this]; linarith⟩
    · have : y - x ≠ 0 := sub_ne_zero.mpr hne.symm
      field_simp; ring
  have w : ∀ {x : ℝ}, 0.91 ≤ x → 9 / 10 ≤ x := fun h => le_trans (by norm_num) h
  obtain ⟨s, hs, es⟩ := slope r b ⟨by linarith, by linarith⟩ ⟨w hb.1, hb.2⟩
  obtain ⟨t, ht, et⟩ := slope a b ⟨w ha.1, ha.2⟩ ⟨w hb.1, hb.2⟩
  obtain ⟨f1, e1, k1⟩ := fOfNu_near hlib hm0 hm hl hlm hb.1 hb.2
  obtain ⟨f0, e0, k0⟩ := fOfNu_near hlib hm0 hm hl hlm ha.1 ha.2
  rw [h0, sub_zero] at es
  obtain ⟨q, eq, hq⟩ := secant_core hr hbr hab hs ht (f1 := f1) (f0 := f0) (by rw [← es]; exact k1) (by
    rw [← et, show f1 - f0 - (Gauss.F m l b - Gauss.F m l a) = (f1 - Gauss.F m l b) - (f0 - Gauss.F m l a) by ring]
    have := abs_sub (f1 - Gauss.F m l b) (f0 - Gauss.F m l a)
    linarith)
  exact ⟨_, by simp only [secantStep, e1, ok_bind, e0, eq]; rfl, hq⟩

/-- the loop of `solve_nu` ends near the root -/
theorem solveNu_near {r : ℝ} (hr : 1 ≤ r ∧ r ≤ 113 / 100) (h0 : Gauss.F m l r = 0) (N : ℕ) :
    ∀ {a b : ℝ} {fuel : ℕ}, N + 1 ≤ fuel → (0.91 ≤ a ∧ a ≤ 5 / 4) → (0.91 ≤ b ∧ b ≤ 5 / 4) → |b - r| ≤ 14 / 100 →
      0.999e-12 ≤ |b - a| → (|b - r| - 150 * u) * 0.621 ^ N ≤ 5e-13 →
      ∃ n, solveNu lib m l fuel a b = .ok n ∧ |n - r| ≤ 1.7e-12 := by
  have hu := u_pos
  have hu' := u_tiny
  have tol := rnd_u 1e-12
  rw [abs_of_pos (show (0 : ℝ) < 1e-12 by norm_num)] at tol
  rw [show rnd 1e-12 = nuTolerance from rfl] at tol
  have tol2 := _root_.abs_le.mp tol
  have u1 : 56 * u ≤ 1e-14 := by
    calc 56 * u ≤ 56 * (12 / 10 ^ 17) := by gcongr
      _ ≤ 1e-14 := by norm_num
  have u2 : u * 1e-12 ≤ 1e-17 := by
    calc u * 1e-12 ≤ 12 / 10 ^ 17 * 1e-12 := by gcongr
      _ ≤ 1e-17 := by norm_num
  have close : ∀ {x : ℝ}, |rnd x| < nuTolerance → |x| ≤ 1.001e-12 := by
    intro x h
    have a1 := rnd_u x
    have a2 := abs_sub_abs_le_abs_sub x (rnd x)
    rw [abs_sub_comm] at a2
    have a3 : u * |x| ≤ 0.0001 * |x| := by gcongr; exact hu'.trans (by norm_num)
    norm_num at tol2 u2 h a3 ⊢; linarith [tol2.2]
  have far : ∀ {x : ℝ}, ¬ |rnd x| < nuTolerance → 0.999e-12 ≤ |x| := by
    intro x h
    have a1 := rnd_u x
    have a2 := abs_sub_abs_le_abs_sub (rnd x) x
    have a3 : u * |x| ≤ 0.0001 * |x| := by gcongr; exact hu'.trans (by norm_num)
    norm_num at tol2 u2 h a3 ⊢; linarith [tol2.1]
  have small : ∀ {x : ℝ}, |x| ≤ 9.5e-13 → |rnd x| < nuTolerance := by
    intro x h
    have a1 := rnd_u x
    have a2 := abs_sub_abs_le_abs_sub (rnd x) x
    have a3 : u * |x| ≤ 0.0001 * |x| := by gcongr; exact hu'.trans (by norm_num)
    norm_num at tol2 u2 h a3 ⊢; linarith [tol2.1]
  induction N with
  | zero =>
    intro a b fuel hf ha hb hbr hab h
    obtain ⟨fuel, rfl⟩ : ∃ f, fuel = f + 1 := ⟨fuel - 1, by omega⟩
    obtain ⟨c, e, hc⟩ := secantStep_near hlib hm0 hm hl hlm ha hb hr h0 hbr hab
    have b1 := abs_sub_le c r b
    rw [abs_sub_comm r b] at b1
    rw [pow_zero, mul_one] at h
    have h2 : |c - b| ≤ 9.5e-13 := by norm_num at u1 h hc ⊢; linarith
    refine ⟨c, ?_, ?_⟩
    · simp only [solveNu, e, ok_bind]
      rw [if_pos (small h2)]; rfl
    · norm_num at u1 h hc ⊢; linarith
  | succ N ih =>
    intro a b fuel hf ha hb hbr hab h
    obtain ⟨fuel, rfl⟩ : ∃ f, fuel = f + 1 := ⟨fuel - 1, by omega⟩
    obtain ⟨c, e, hc⟩ := secantStep_near hlib hm0 hm hl hlm ha hb hr h0 hbr hab
    by_cases hs : |rnd (c - b)| < nuTolerance
    · refine ⟨c, ?_, ?_⟩
      · simp only [solveNu, e, ok_bind]
        rw [if_pos hs]; rfl
      · have b1 := abs_sub_le b c r
        rw [abs_sub_comm b c] at b1
        have b2 := close hs
        norm_num at u1 hc b2 ⊢; linarith
    · have hcr : |c - r| ≤ 0.0875 := by
        have : 56 * u ≤ 0.0001 := u1.trans (by norm_num)
        linarith
      obtain ⟨c1, c2⟩ := _root_.abs_le.mp hcr
      obtain ⟨n, en, hn⟩ := ih (a := b) (b := c) (fuel := fuel) (by omega) hb ⟨by linarith, by linarith⟩ (by linarith) (far hs) (by
        refine le_trans ?_ h
        rw [pow_succ, mul_comm (0.621 ^ N : ℝ), ← mul_assoc]
        have : (0 : ℝ) ≤ 0.621 ^ N := by positivity
        apply mul_le_mul_of_nonneg_right _ this
        linarith)
      refine ⟨n, ?_, hn⟩
      simp only [solveNu, e, ok_bind]
      rw [if_neg hs]; exact en

end regime

end F64

end Openspace
