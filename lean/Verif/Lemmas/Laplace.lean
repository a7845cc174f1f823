import Verif.Lemmas.Geopotential
import Mathlib.Analysis.InnerProductSpace.Harmonic.Basic
import Mathlib.Analysis.Calculus.ContDiff.Polynomial

/-!
# Spherical harmonics solve Laplace's equation

For every degree and order, off the origin.
-/

namespace Openspace

open Spec Polynomial InnerProductSpace Laplacian

local notation "E3" => EuclideanSpace ℝ (Fin 3)

/-- the derivatives of `(X² - 1)^n` -/
theorem rodrigues_ode (n k : ℕ) :
    (X ^ 2 - 1) * derivative^[k + 2] ((X ^ 2 - 1 : ℝ[X]) ^ n) +
      C (2 * ((k : ℝ) + 1 - n)) * X * derivative^[k + 1] ((X ^ 2 - 1 : ℝ[X]) ^ n) +
      C (((k : ℝ) + 1) * (k - 2 * n)) * derivative^[k] ((X ^ 2 - 1 : ℝ[X]) ^ n) = 0 := by
  induction k with
  | zero =>
    have h0 : (X ^ 2 - 1) * derivative ((X ^ 2 - 1 : ℝ[X]) ^ n) =
        C (2 * (n : ℝ)) * X * (X ^ 2 - 1 : ℝ[X]) ^ n := by
      cases n with
      | zero => simp
      | succ j =>
        rw [derivative_pow]
        simp only [derivative_sub, derivative_X_pow, derivative_one, Nat.add_sub_cancel, map_mul,
          map_natCast, map_ofNat]
        push_cast
        ring
    have h1 := congrArg derivative h0
    simp only [derivative_mul, derivative_sub, derivative_X_pow, derivative_one, derivative_X,
      derivative_C] at h1
    simp only [Function.iterate_succ_apply', Function.iterate_zero_apply]
    simp only [map_mul, map_sub, map_add, map_natCast, map_ofNat, map_one, map_zero] at h1 ⊢
    push_cast at h1 ⊢
    linear_combination h1
  | succ k ih =>
    have h1 := congrArg derivative ih
    simp only [derivative_add, derivative_mul, derivative_sub, derivative_X_pow, derivative_one, derivative_X,
      derivative_C, derivative_zero] at h1
    simp only [Function.iterate_succ_apply'] at h1 ⊢
    simp only [map_mul, map_sub, map_add, map_natCast, map_ofNat, map_one, map_zero] at h1 ⊢
    push_cast at h1 ⊢
    linear_combination h1

/-- the differential equation of the derivatives of the Legendre polynomials -/
theorem legendre_ode (n m : ℕ) (u : ℝ) :
    (1 - u ^ 2) * legendreDeriv n (m + 2) u - 2 * (m + 1) * u * legendreDeriv n (m + 1) u +
      (n - m) * (n + m + 1) * legendreDeriv n m u = 0 := by
  have h := congrArg (eval u) (rodrigues_ode n (m + n))
  have hd : ∀ j, legendreDeriv n j u =
      1 / (2 ^ n * (n.factorial : ℝ)) * (derivative^[j + n] ((X ^ 2 - 1 : ℝ[X]) ^ n)).eval u := by
    intro j
    rw [legendreDeriv, legendre, iterate_derivative_C_mul, eval_mul, eval_C,
      Function.iterate_add_apply]
  rw [hd, hd, hd]
  simp only [eval_add, eval_mul, eval_sub, eval_pow, eval_X, eval_one, eval_C, eval_zero] at h
  rw [show m + 2 + n = m + n + 2 by ring, show m + 1 + n = m + n + 1 by ring]
  push_cast at h
  linear_combination (-(1 / (2 ^ n * (n.factorial : ℝ)))) * h

/-- second derivative of `ρ^(k+1) L(z ρ) W` along a unit vector with third coordinate `d2`: `q` is the
inner product of the vector and the position, `D` and `DD` are the derivatives of `W` -/
def secondVal (k : ℕ) (z ρ L L1 L2 W q d2 D DD : ℝ) : ℝ :=
  -(k + 1) * ((k + 3) * ρ ^ (k + 2) * (-ρ ^ 3 * q) * q * L * W +
      ρ ^ (k + 3) * (L * W + q * (L1 * (d2 * ρ - z * ρ ^ 3 * q)) * W + q * L * D)) +
    (k + 1) * ρ ^ k * (-ρ ^ 3 * q) * L1 * (d2 * ρ - z * ρ ^ 3 * q) * W +
    ρ ^ (k + 1) * (L2 * (d2 * ρ - z * ρ ^ 3 * q) ^ 2 * W +
      L1 * (-2 * d2 * ρ ^ 3 * q + 3 * z * ρ ^ 5 * q ^ 2 - z * ρ ^ 3) * W +
      L1 * (d2 * ρ - z * ρ ^ 3 * q) * D) +
    (k + 1) * ρ ^ k * (-ρ ^ 3 * q) * L * D +
    ρ ^ (k + 1) * (L1 * (d2 * ρ - z * ρ ^ 3 * q) * D + L * DD)

/-- the algebra of the Laplacian of `ρ^(k+1) L(z ρ) W` -/
theorem laplace_algebra (k m : ℕ) (n x y z ρ L L1 L2 W Wx Wy Wxx Wyy : ℝ) (hk : (k : ℝ) = n + m)
    (h : ρ ^ 2 * (x ^ 2 + y ^ 2 + z ^ 2) = 1) (hE : x * Wx + y * Wy = m * W) (hH : Wxx + Wyy = 0)
    (hL : (1 - (z * ρ) ^ 2) * L2 - 2 * (m + 1) * (z * ρ) * L1 + (n - m) * (n + m + 1) * L = 0) :
    secondVal k z ρ L L1 L2 W x 0 Wx Wxx + secondVal k z ρ L L1 L2 W y 0 Wy Wyy +
      secondVal k z ρ L L1 L2 W z 1 0 0 = 0 := by
  unfold secondVal
  have hn : n = k - m := by linarith
  subst hn
  linear_combination
    ((k + 1) * (k + 3) * ρ ^ (k + 3) * L * W + 2 * (k + 1) * ρ ^ (k + 3) * L1 * W * (z * ρ) +
      ρ ^ (k + 1) * L2 * W * z ^ 2 * ρ ^ 4 + ρ ^ (k + 1) * L1 * W * 3 * z * ρ ^ 3) * h +
    (-2 * (k + 1) * ρ ^ (k + 3) * L - 2 * ρ ^ (k + 1) * L1 * z * ρ ^ 3) * hE +
    ρ ^ (k + 1) * L * hH + ρ ^ (k + 3) * W * hL

/-- the horizontal factor -/
noncomputable def hor (c s : ℝ) (m : ℕ) (x : E3) : ℝ := c * cpow m (x 0) (x 1) + s * spow m (x 0) (x 1)

theorem hasFDerivAt_hor (c s : ℝ) (m : ℕ) (x : E3) :
    ∃ D : E3 →L[ℝ] ℝ, HasFDerivAt (hor c s m) D x ∧
      ∀ v : E3, D v = m * (hor c s (m - 1) x * v 0 + hor s (-c) (m - 1) x * v 1) := by
  obtain ⟨Dc, hc, hcv⟩ := hasFDerivAt_cpow m x
  obtain ⟨Ds, hs, hsv⟩ := hasFDerivAt_spow m x
  refine ⟨_, (hc.const_mul c).add (hs.const_mul s), fun v => ?_⟩
  simp only [add_apply, smul_apply, smul_eq_mul, hcv, hsv, hor]
  ring

theorem hor_euler (c s : ℝ) (m : ℕ) (x : E3) :
    x 0 * (m * hor c s (m - 1) x) + x 1 * (m * hor s (-c) (m - 1) x) = m * hor c s m x := by
  cases m with
  | zero => simp
  | succ j =>
    simp only [hor, Nat.add_sub_cancel, cpow_succ, spow_succ]
    ring

/-- the directional derivative of a harmonic -/
noncomputable def slope (mu R c s : ℝ) (n m : ℕ) (v x : E3) : ℝ :=
  mu * R ^ n * (‖x‖⁻¹ ^ (n + m) * (
        -(n + m + 1) * ‖x‖⁻¹ ^ 3 * inner ℝ x v * legendreDeriv n m (x 2 * ‖x‖⁻¹) * hor c s m x +
        ‖x‖⁻¹ * (legendreDeriv n (m + 1) (x 2 * ‖x‖⁻¹) *
          (v 2 * ‖x‖⁻¹ - x 2 * ‖x‖⁻¹ ^ 3 * inner ℝ x v)) * hor c s m x +
        ‖x‖⁻¹ * legendreDeriv n m (x 2 * ‖x‖⁻¹) *
          (m * (hor c s (m - 1) x * v 0 + hor s (-c) (m - 1) x * v 1))))

theorem fderiv_harmonic (mu R c s : ℝ) (n m : ℕ) {x : E3} (hx : x ≠ 0) (v : E3) :
    fderiv ℝ (harmonic mu R c s n m) x v = slope mu R c s n m v x := by
  obtain ⟨D, hD, hv⟩ := hasFDerivAt_harmonic mu R c s n m hx
  rw [hD.fderiv, hv, slope]
  simp only [hor]
  ring

theorem hasFDerivAt_slope (mu R c s : ℝ) (n m : ℕ) {x : E3} (hx : x ≠ 0) (v : E3) (hv : inner ℝ v v = (1 : ℝ)) :
    ∃ D : E3 →L[ℝ] ℝ, HasFDerivAt (slope mu R c s n m v) D x ∧
      D v = mu * R ^ n * secondVal (n + m) (x 2) ‖x‖⁻¹ (legendreDeriv n m (x 2 * ‖x‖⁻¹))
        (legendreDeriv n (m + 1) (x 2 * ‖x‖⁻¹)) (legendreDeriv n (m + 2) (x 2 * ‖x‖⁻¹)) (hor c s m x)
        (inner ℝ x v) (v 2) (m * (hor c s (m - 1) x * v 0 + hor s (-c) (m - 1) x * v 1))
        (m * ((m - 1 : ℕ) * (hor c s (m - 1 - 1) x * v 0 + hor s (-c) (m - 1 - 1) x * v 1) * v 0 +
          (m - 1 : ℕ) * (hor s (-c) (m - 1 - 1) x * v 0 + hor (-c) (-s) (m - 1 - 1) x * v 1) * v 1)) := by
  obtain ⟨D0, h0, h0v⟩ := hasFDerivAt_hor c s m x
  obtain ⟨D1, h1, h1v⟩ := hasFDerivAt_hor c s (m - 1) x
  obtain ⟨D2, h2, h2v⟩ := hasFDerivAt_hor s (-c) (m - 1) x
  have hi := hasFDerivAt_inv_norm hx
  have hp := hi.pow (n + m)
  have hp3 := hi.pow 3
  have hu := (hasFDerivAt_coord 2 x).mul hi
  have hL := (hasDerivAt_legendreDeriv n m (x 2 * ‖x‖⁻¹)).comp_hasFDerivAt x hu
  have hL1 := (hasDerivAt_legendreDeriv n (m + 1) (x 2 * ‖x‖⁻¹)).comp_hasFDerivAt x hu
  have hq : HasFDerivAt (fun y : E3 => (inner ℝ y v : ℝ)) (innerSL ℝ v) x := by
    refine ((innerSL ℝ v).hasFDerivAt (x := x)).congr_of_eventuallyEq
      (Filter.Eventually.of_forall fun y => ?_)
    simp [real_inner_comm]
  have hA := (((hp3.const_mul (-((n : ℝ) + m + 1))).mul hq).mul hL).mul h0
  have hu1 := (hi.const_mul (v 2)).sub (((hasFDerivAt_coord 2 x).mul hp3).mul hq)
  have hB := (hi.mul (hL1.mul hu1)).mul h0
  have hC := (hi.mul hL).mul (((h1.mul_const (v 0)).add (h2.mul_const (v 1))).const_mul (m : ℝ))
  have h := (hp.mul ((hA.add hB).add hC)).const_mul (mu * R ^ n)
  refine ⟨_, h.congr_of_eventuallyEq (Filter.Eventually.of_forall fun y => ?_), ?_⟩
  · simp only [slope, Pi.mul_apply, Pi.add_apply, Pi.sub_apply, Function.comp]
  · have hp2 : (EuclideanSpace.proj 2 : E3 →L[ℝ] ℝ) v = v 2 := rfl
    simp only [smul_apply, add_apply, sub_apply, smul_eq_mul, h0v, h1v, h2v, hv,
      innerSL_apply_apply, hp2, Pi.mul_apply, Pi.add_apply, Function.comp, Nat.add_sub_cancel,
      nsmul_eq_mul, secondVal, Pi.sub_apply]
    obtain ⟨k, hk⟩ : ∃ k, k = n + m := ⟨_, rfl⟩
    have hn : (n : ℝ) = k - m := by rw [hk]; push_cast; ring
    rw [← hk, hn]
    generalize legendreDeriv n m (x 2 * ‖x‖⁻¹) = L
    generalize legendreDeriv n (m + 1) (x 2 * ‖x‖⁻¹) = L1
    generalize legendreDeriv n (m + 1 + 1) (x 2 * ‖x‖⁻¹) = L2
    generalize ‖x‖⁻¹ = ρ
    generalize R ^ n = Q
    clear hk hn h hC hB hu1 hA hq hL1 hL hu hp3 hp hi h0 h1 h2
    cases k with
    | zero => push_cast; ring
    | succ k => push_cast; ring

theorem contDiffAt_harmonic (mu R c s : ℝ) (n m : ℕ) {x : E3} (hx : x ≠ 0) :
    ContDiffAt ℝ 2 (harmonic mu R c s n m) x := by
  have hi : ContDiffAt ℝ 2 (fun y : E3 => ‖y‖⁻¹) x :=
    (contDiffAt_norm ℝ hx).inv (norm_ne_zero_iff.mpr hx)
  have hc : ∀ i : Fin 3, ContDiffAt ℝ 2 (fun y : E3 => y i) x := fun i =>
    (EuclideanSpace.proj i : E3 →L[ℝ] ℝ).contDiff.contDiffAt
  have hw : ContDiffAt ℝ 2 (fun y : E3 => ((y 0 : ℂ) + (y 1 : ℂ) * Complex.I) ^ m) x :=
    ((Complex.ofRealCLM.contDiff.contDiffAt.comp x (hc 0)).add
      ((Complex.ofRealCLM.contDiff.contDiffAt.comp x (hc 1)).mul contDiffAt_const)).pow m
  have hre : ContDiffAt ℝ 2 (fun y : E3 => cpow m (y 0) (y 1)) x :=
    Complex.reCLM.contDiff.contDiffAt.comp x hw
  have him : ContDiffAt ℝ 2 (fun y : E3 => spow m (y 0) (y 1)) x :=
    Complex.imCLM.contDiff.contDiffAt.comp x hw
  have hL : ContDiffAt ℝ 2 (fun y : E3 => legendreDeriv n m (y 2 * ‖y‖⁻¹)) x :=
    ((derivative^[m] (legendre n)).contDiff_aeval 2).contDiffAt.comp x ((hc 2).mul hi) |>.congr_of_eventuallyEq
      (Filter.Eventually.of_forall fun y => by simp [legendreDeriv, Function.comp])
  have h : ContDiffAt ℝ 2 (fun y : E3 => mu * R ^ n * (‖y‖⁻¹ ^ (n + m + 1) *
      legendreDeriv n m (y 2 * ‖y‖⁻¹) * (c * cpow m (y 0) (y 1) + s * spow m (y 0) (y 1)))) x :=
    contDiffAt_const.mul (((hi.pow _).mul hL).mul ((contDiffAt_const.mul hre).add (contDiffAt_const.mul him)))
  exact h.congr_of_eventuallyEq (Filter.Eventually.of_forall fun y => harmonic_eq mu R c s n m y)

theorem iteratedFDeriv_harmonic (mu R c s : ℝ) (n m : ℕ) {x : E3} (hx : x ≠ 0) (v : E3) {D : E3 →L[ℝ] ℝ}
    (hD : HasFDerivAt (slope mu R c s n m v) D x) :
    iteratedFDeriv ℝ 2 (harmonic mu R c s n m) x ![v, v] = D v := by
  rw [iteratedFDeriv_two_apply]
  have hd : DifferentiableAt ℝ (fderiv ℝ (harmonic mu R c s n m)) x :=
    ((contDiffAt_harmonic mu R c s n m hx).fderiv_right (m := 1) (by norm_num)).differentiableAt (by norm_num)
  have h1 := hd.hasFDerivAt.clm_apply (hasFDerivAt_const v x)
  have h2 : HasFDerivAt (fun y => fderiv ℝ (harmonic mu R c s n m) y v) D x := by
    refine hD.congr_of_eventuallyEq ?_
    filter_upwards [isOpen_ne.mem_nhds hx] with y hy
    exact fderiv_harmonic mu R c s n m hy v
  have h3 := congrArg (fun T : E3 →L[ℝ] ℝ => T v) (h1.unique h2)
  simpa using h3

theorem laplacian_harmonic (mu R c s : ℝ) (n m : ℕ) {x : E3} (hx : x ≠ 0) :
    Δ (harmonic mu R c s n m) x = 0 := by
  rw [laplacian_eq_iteratedFDeriv_orthonormalBasis _ (EuclideanSpace.basisFun (Fin 3) ℝ)]
  have hone : ∀ i : Fin 3, inner ℝ (EuclideanSpace.basisFun (Fin 3) ℝ i) (EuclideanSpace.basisFun (Fin 3) ℝ i) = (1 : ℝ) := by
    intro i; simp
  have hval : ∀ i : Fin 3, _ := fun i => hasFDerivAt_slope mu R c s n m hx _ (hone i)
  obtain ⟨D0, h0, e0⟩ := hval 0
  obtain ⟨D1, h1, e1⟩ := hval 1
  obtain ⟨D2, h2, e2⟩ := hval 2
  simp only [Fin.sum_univ_three]
  rw [iteratedFDeriv_harmonic _ _ _ _ _ _ hx _ h0, iteratedFDeriv_harmonic _ _ _ _ _ _ hx _ h1,
    iteratedFDeriv_harmonic _ _ _ _ _ _ hx _ h2, e0, e1, e2]
  have hn : ‖x‖ ≠ 0 := norm_ne_zero_iff.mpr hx
  have hr : ‖x‖⁻¹ ^ 2 * (x 0 ^ 2 + x 1 ^ 2 + x 2 ^ 2) = 1 := by
    have := EuclideanSpace.norm_sq_eq x
    simp only [Fin.sum_univ_three, Real.norm_eq_abs, sq_abs] at this
    rw [← this]; field_simp
  have hin : ∀ i : Fin 3, inner ℝ x (EuclideanSpace.basisFun (Fin 3) ℝ i) = x i := by
    intro i; simp [EuclideanSpace.basisFun_apply, PiLp.inner_apply]
  rw [hin, hin, hin, ← mul_add, ← mul_add]
  have := laplace_algebra (n + m) m n (x 0) (x 1) (x 2) ‖x‖⁻¹ (legendreDeriv n m (x 2 * ‖x‖⁻¹))
    (legendreDeriv n (m + 1) (x 2 * ‖x‖⁻¹)) (legendreDeriv n (m + 2) (x 2 * ‖x‖⁻¹)) (hor c s m x)
    (m * hor c s (m - 1) x) (m * hor s (-c) (m - 1) x) (m * ((m - 1 : ℕ) * hor c s (m - 1 - 1) x))
    (m * ((m - 1 : ℕ) * hor (-c) (-s) (m - 1 - 1) x)) (by push_cast; ring) hr (hor_euler c s m x)
    (by simp only [hor]; ring) (legendre_ode n m _)
  refine mul_eq_zero_of_right _ ?_
  simpa [EuclideanSpace.basisFun_apply] using this

/-- every spherical harmonic solves Laplace's equation off the origin -/
theorem harmonicOnNhd_harmonic (mu R c s : ℝ) (n m : ℕ) :
    HarmonicOnNhd (harmonic mu R c s n m) {0}ᶜ := by
  intro x hx
  have hx : x ≠ 0 := by simpa using hx
  refine ⟨contDiffAt_harmonic mu R c s n m hx, ?_⟩
  filter_upwards [isOpen_ne.mem_nhds hx] with y hy
  exact laplacian_harmonic mu R c s n m hy

theorem HarmonicOnNhd.comp_sub_const {f : E3 → ℝ} (h : HarmonicOnNhd f {0}ᶜ) (a : E3) :
    HarmonicOnNhd (fun x => f (x - a)) {a}ᶜ := by
  have hlap : ∀ y, Δ (fun x => f (x - a)) y = Δ f (y - a) := by
    intro y
    rw [laplacian_eq_iteratedFDeriv_orthonormalBasis _ (EuclideanSpace.basisFun (Fin 3) ℝ),
      laplacian_eq_iteratedFDeriv_orthonormalBasis _ (EuclideanSpace.basisFun (Fin 3) ℝ)]
    simp only [iteratedFDeriv_comp_sub]
  intro x hx
  have hx0 : x - a ∈ ({0}ᶜ : Set E3) := by
    simpa [sub_eq_zero] using hx
  obtain ⟨h1, h2⟩ := h _ hx0
  refine ⟨h1.comp x (contDiffAt_id.sub contDiffAt_const), ?_⟩
  have hcont : Filter.Tendsto (fun y : E3 => y - a) (nhds x) (nhds (x - a)) :=
    (continuous_id.sub continuous_const).continuousAt
  filter_upwards [hcont.eventually h2] with y hy
  rw [hlap]; exact hy

theorem harmonicOnNhd_clm (T : E3 →L[ℝ] ℝ) (s : Set E3) : HarmonicOnNhd (fun x => T x) s := by
  intro x _
  refine ⟨T.contDiff.contDiffAt, Filter.Eventually.of_forall fun y => ?_⟩
  rw [laplacian_eq_iteratedFDeriv_orthonormalBasis _ (EuclideanSpace.basisFun (Fin 3) ℝ)]
  have : fderiv ℝ (fun x => T x) = fun _ => T := by
    funext z; exact T.fderiv
  simp [iteratedFDeriv_two_apply, this]

end Openspace
