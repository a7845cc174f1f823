import Verif.Spec.Geopotential
import Mathlib.Analysis.Calculus.Gradient.Basic
import Mathlib.Analysis.Calculus.FDeriv.Pow
import Mathlib.Analysis.Calculus.Deriv.Polynomial
import Mathlib.Analysis.Calculus.Deriv.Inv
import Mathlib.Analysis.InnerProductSpace.Calculus
import Mathlib.Analysis.SpecialFunctions.Sqrt
import Mathlib.Analysis.Complex.OperatorNorm

/-!
# Derivative of one spherical harmonic
-/

namespace Openspace

open Spec Polynomial

local notation "E3" => EuclideanSpace ℝ (Fin 3)

/-- real part of `(x + i y)^m` -/
noncomputable def cpow (m : ℕ) (a b : ℝ) : ℝ := (((a : ℂ) + (b : ℂ) * Complex.I) ^ m).re

/-- imaginary part of `(x + i y)^m` -/
noncomputable def spow (m : ℕ) (a b : ℝ) : ℝ := (((a : ℂ) + (b : ℂ) * Complex.I) ^ m).im

theorem cpow_succ (m : ℕ) (a b : ℝ) : cpow (m + 1) a b = cpow m a b * a - spow m a b * b := by
  simp [cpow, spow, pow_succ]

theorem spow_succ (m : ℕ) (a b : ℝ) : spow (m + 1) a b = cpow m a b * b + spow m a b * a := by
  simp [cpow, spow, pow_succ]

/-- the harmonic without divisions: powers of the reciprocal distance -/
theorem harmonic_eq (mu R c s : ℝ) (n m : ℕ) (x : E3) :
    harmonic mu R c s n m x = mu * R ^ n * (‖x‖⁻¹ ^ (n + m + 1) *
      legendreDeriv n m (x 2 * ‖x‖⁻¹) * (c * cpow m (x 0) (x 1) + s * spow m (x 0) (x 1))) := by
  have hre : (horizontal m x).re = ‖x‖⁻¹ ^ m * cpow m (x 0) (x 1) := by
    unfold horizontal cpow
    rw [div_eq_mul_inv, mul_pow, ← Complex.ofReal_inv, ← Complex.ofReal_pow, mul_comm,
      Complex.re_ofReal_mul]
  have him : (horizontal m x).im = ‖x‖⁻¹ ^ m * spow m (x 0) (x 1) := by
    unfold horizontal spow
    rw [div_eq_mul_inv, mul_pow, ← Complex.ofReal_inv, ← Complex.ofReal_pow, mul_comm,
      Complex.im_ofReal_mul]
  unfold harmonic
  rw [hre, him, div_eq_mul_inv, div_eq_mul_inv, div_eq_mul_inv, mul_pow]
  ring

theorem hasFDerivAt_inv_norm {x : E3} (hx : x ≠ 0) :
    HasFDerivAt (fun y : E3 => ‖y‖⁻¹) ((-‖x‖⁻¹ ^ 3) • innerSL ℝ x) x := by
  have hn : ‖x‖ ≠ 0 := norm_ne_zero_iff.mpr hx
  have h1 : HasFDerivAt (fun y : E3 => ‖y‖ ^ 2) (2 • innerSL ℝ x) x :=
    (hasStrictFDerivAt_norm_sq x).hasFDerivAt
  have h2 : HasFDerivAt (fun y : E3 => √(‖y‖ ^ 2))
      ((1 / (2 * √(‖x‖ ^ 2))) • (2 • innerSL ℝ x)) x := h1.sqrt (by positivity)
  have h3 : (fun y : E3 => √(‖y‖ ^ 2)) = fun y => ‖y‖ := by
    funext y; exact Real.sqrt_sq (norm_nonneg y)
  rw [h3, Real.sqrt_sq (norm_nonneg x)] at h2
  have h4 := (hasDerivAt_inv hn).comp_hasFDerivAt x h2
  refine h4.congr_fderiv ?_
  ext y
  simp
  field_simp

theorem hasFDerivAt_coord (i : Fin 3) (x : E3) :
    HasFDerivAt (fun y : E3 => y i) (EuclideanSpace.proj i : E3 →L[ℝ] ℝ) x :=
  (EuclideanSpace.proj i : E3 →L[ℝ] ℝ).hasFDerivAt

theorem hasFDerivAt_w (x : E3) :
    HasFDerivAt (fun y : E3 => ((y 0 : ℂ) + (y 1 : ℂ) * Complex.I))
      (Complex.ofRealCLM.comp (EuclideanSpace.proj 0 : E3 →L[ℝ] ℝ) +
        Complex.I • Complex.ofRealCLM.comp (EuclideanSpace.proj 1 : E3 →L[ℝ] ℝ)) x := by
  have h0 := (Complex.ofRealCLM.hasFDerivAt (x := x 0)).comp x (hasFDerivAt_coord 0 x)
  have h1 := (Complex.ofRealCLM.hasFDerivAt (x := x 1)).comp x (hasFDerivAt_coord 1 x)
  have h2 := h0.add (h1.const_smul Complex.I)
  refine h2.congr_of_eventuallyEq (Filter.Eventually.of_forall fun y => ?_)
  simp [mul_comm]

/-- derivative of the real and imaginary parts of `(x + i y)^m` -/
theorem hasFDerivAt_cpow (m : ℕ) (x : E3) :
    ∃ D : E3 →L[ℝ] ℝ, HasFDerivAt (fun y : E3 => cpow m (y 0) (y 1)) D x ∧
      ∀ v : E3, D v = m * (cpow (m - 1) (x 0) (x 1) * v 0 - spow (m - 1) (x 0) (x 1) * v 1) := by
  have h := (hasFDerivAt_w x).pow m
  have h' := (Complex.reCLM.hasFDerivAt).comp x h
  refine ⟨_, h', fun v => ?_⟩
  simp [cpow, spow]
  ring

theorem hasFDerivAt_spow (m : ℕ) (x : E3) :
    ∃ D : E3 →L[ℝ] ℝ, HasFDerivAt (fun y : E3 => spow m (y 0) (y 1)) D x ∧
      ∀ v : E3, D v = m * (spow (m - 1) (x 0) (x 1) * v 0 + cpow (m - 1) (x 0) (x 1) * v 1) := by
  have h := (hasFDerivAt_w x).pow m
  have h' := (Complex.imCLM.hasFDerivAt).comp x h
  refine ⟨_, h', fun v => ?_⟩
  simp [cpow, spow]
  ring

theorem hasDerivAt_legendreDeriv (n m : ℕ) (u : ℝ) :
    HasDerivAt (legendreDeriv n m) (legendreDeriv n (m + 1) u) u := by
  unfold legendreDeriv
  rw [Function.iterate_succ_apply']
  exact (derivative^[m] (legendre n)).hasDerivAt u

/-- derivative of a harmonic in the direction `v`, off the origin -/
theorem hasFDerivAt_harmonic (mu R c s : ℝ) (n m : ℕ) {x : E3} (hx : x ≠ 0) :
    ∃ D : E3 →L[ℝ] ℝ, HasFDerivAt (harmonic mu R c s n m) D x ∧
      ∀ v : E3, D v = mu * R ^ n * ‖x‖⁻¹ ^ (n + m) * (
        -(n + m + 1) * ‖x‖⁻¹ ^ 3 * inner ℝ x v * legendreDeriv n m (x 2 * ‖x‖⁻¹) *
          (c * cpow m (x 0) (x 1) + s * spow m (x 0) (x 1)) +
        ‖x‖⁻¹ * (legendreDeriv n (m + 1) (x 2 * ‖x‖⁻¹) *
          (v 2 * ‖x‖⁻¹ - x 2 * ‖x‖⁻¹ ^ 3 * inner ℝ x v)) *
          (c * cpow m (x 0) (x 1) + s * spow m (x 0) (x 1)) +
        ‖x‖⁻¹ * legendreDeriv n m (x 2 * ‖x‖⁻¹) * (m * (
          c * (cpow (m - 1) (x 0) (x 1) * v 0 - spow (m - 1) (x 0) (x 1) * v 1) +
          s * (spow (m - 1) (x 0) (x 1) * v 0 + cpow (m - 1) (x 0) (x 1) * v 1)))) := by
  obtain ⟨Dc, hc, hcv⟩ := hasFDerivAt_cpow m x
  obtain ⟨Ds, hs, hsv⟩ := hasFDerivAt_spow m x
  have hi := hasFDerivAt_inv_norm hx
  have hp := hi.pow (n + m + 1)
  have hu := (hasFDerivAt_coord 2 x).mul hi
  have hL := (hasDerivAt_legendreDeriv n m (x 2 * ‖x‖⁻¹)).comp_hasFDerivAt x hu
  have hq := (hc.const_mul c).add (hs.const_mul s)
  have h := ((hp.mul hL).mul hq).const_mul (mu * R ^ n)
  refine ⟨_, h.congr_of_eventuallyEq (Filter.Eventually.of_forall fun y => ?_), fun v => ?_⟩
  · rw [harmonic_eq]; rfl
  · have hp2 : (EuclideanSpace.proj 2 : E3 →L[ℝ] ℝ) v = v 2 := rfl
    simp only [smul_apply, add_apply, smul_eq_mul, hcv, hsv,
      innerSL_apply_apply, hp2, Pi.mul_apply, Pi.add_apply, Function.comp, Nat.add_sub_cancel,
      nsmul_eq_mul]
    push_cast
    ring

theorem cpow_polar (m : ℕ) (t l : ℝ) :
    cpow m (t * Real.cos l) (t * Real.sin l) = t ^ m * Real.cos (m * l) ∧
    spow m (t * Real.cos l) (t * Real.sin l) = t ^ m * Real.sin (m * l) := by
  induction m with
  | zero => simp [cpow, spow]
  | succ m ih =>
    rw [cpow_succ, spow_succ, ih.1, ih.2]
    have : ((m + 1 : ℕ) : ℝ) * l = m * l + l := by push_cast; ring
    rw [this, Real.cos_add, Real.sin_add]
    constructor <;> ring

/-- the derivative of a harmonic in spherical coordinates: radial, northward and eastward parts -/
theorem harmonic_spherical_deriv (n m : ℕ) (c s d i C S cl sl l : ℝ) (L L' : ℝ) (v0 v1 v2 : ℝ)
    (hid : i * d = 1) (hC : C ≠ 0) (h1 : S ^ 2 + C ^ 2 = 1) (h2 : sl ^ 2 + cl ^ 2 = 1)
    (hcl : cl = Real.cos l) (hsl : sl = Real.sin l) :
    i ^ (n + m) * (
        -(n + m + 1) * i ^ 3 * (d * (C * cl * v0 + C * sl * v1 + S * v2)) * L *
          (c * cpow m (d * C * cl) (d * C * sl) + s * spow m (d * C * cl) (d * C * sl)) +
        i * (L' * (v2 * i - d * S * i ^ 3 * (d * (C * cl * v0 + C * sl * v1 + S * v2)))) *
          (c * cpow m (d * C * cl) (d * C * sl) + s * spow m (d * C * cl) (d * C * sl)) +
        i * L * (m * (
          c * (cpow (m - 1) (d * C * cl) (d * C * sl) * v0 - spow (m - 1) (d * C * cl) (d * C * sl) * v1) +
          s * (spow (m - 1) (d * C * cl) (d * C * sl) * v0 + cpow (m - 1) (d * C * cl) (d * C * sl) * v1)))) =
    i ^ (n + 2) * (
      -((n + 1) * (C ^ m * L) * (c * Real.cos (m * l) + s * Real.sin (m * l)) *
        (C * cl * v0 + C * sl * v1 + S * v2)) +
      (C ^ (m + 1) * L' - m * (S / C) * (C ^ m * L)) * (c * Real.cos (m * l) + s * Real.sin (m * l)) *
        (-(S * cl) * v0 - S * sl * v1 + C * v2) +
      m * (C ^ m * L) * (s * Real.cos (m * l) - c * Real.sin (m * l)) * ((-sl * v0 + cl * v1) / C)) := by
  have hW : v2 - S * (C * cl * v0 + C * sl * v1 + S * v2) = C * (-(S * cl) * v0 - S * sl * v1 + C * v2) := by
    linear_combination (-v2) * h1
  have hH : (C * cl * v0 + C * sl * v1 + S * v2) * C - S * (-(S * cl) * v0 - S * sl * v1 + C * v2)
      = cl * v0 + sl * v1 := by
    linear_combination (cl * v0 + sl * v1) * h1
  obtain ⟨W, hWe⟩ : ∃ W, W = C * cl * v0 + C * sl * v1 + S * v2 := ⟨_, rfl⟩
  obtain ⟨F, hFe⟩ : ∃ F, F = -(S * cl) * v0 - S * sl * v1 + C * v2 := ⟨_, rfl⟩
  rw [← hWe, ← hFe] at hW hH ⊢
  have hv2 : v2 = S * W + C * F := by linear_combination hW
  have hk : ∀ k : ℕ, i ^ k * d ^ k = 1 := fun k => by rw [← mul_pow, hid, one_pow]
  rcases m with _ | k
  · have e := cpow_polar 0 (d * C) l
    simp only [pow_zero, Nat.cast_zero, zero_mul, Real.cos_zero, Real.sin_zero, mul_one, mul_zero,
      ← hcl, ← hsl] at e
    rw [e.1, e.2]
    simp only [Nat.cast_zero, zero_mul, mul_zero, add_zero, Real.cos_zero, Real.sin_zero, pow_zero,
      zero_add, mul_one, one_mul, sub_zero, pow_one]
    rw [hv2]
    have e1 : i ^ n * (-(↑n + 1) * i ^ 3 * (d * W) * L * c +
        i * (L' * ((S * W + C * F) * i - d * S * i ^ 3 * (d * W))) * c)
        = i ^ (n + 2) * (-(↑n + 1) * (i * d) * W * L * c +
          L' * ((S * W + C * F) - S * (i * d) ^ 2 * W) * c) := by ring
    rw [e1, hid]
    ring
  · have e := cpow_polar (k + 1) (d * C) l
    have e' := cpow_polar k (d * C) l
    rw [← hcl, ← hsl] at e e'
    have hkl : ((k + 1 : ℕ) : ℝ) * l = k * l + l := by push_cast; ring
    rw [Nat.add_sub_cancel, e.1, e.2, e'.1, e'.2, hkl, Real.cos_add, Real.sin_add, ← hcl, ← hsl, hv2]
    obtain ⟨ck, hck⟩ : ∃ x, x = Real.cos (k * l) := ⟨_, rfl⟩
    obtain ⟨sk, hsk⟩ : ∃ x, x = Real.sin (k * l) := ⟨_, rfl⟩
    rw [← hck, ← hsk]
    obtain ⟨Q, hQ⟩ : ∃ Q, Q = c * (ck * cl - sk * sl) + s * (sk * cl + ck * sl) := ⟨_, rfl⟩
    obtain ⟨P, hP⟩ : ∃ P, P = s * (ck * cl - sk * sl) - c * (sk * cl + ck * sl) := ⟨_, rfl⟩
    have hlast : c * (ck * v0 - sk * v1) + s * (sk * v0 + ck * v1)
        = Q * (cl * v0 + sl * v1) + P * (-sl * v0 + cl * v1) := by
      rw [hQ, hP]
      linear_combination (-(c * (ck * v0 - sk * v1) + s * (sk * v0 + ck * v1))) * h2
    have eL : c * ((d * C) ^ (k + 1) * (ck * cl - sk * sl)) + s * ((d * C) ^ (k + 1) * (sk * cl + ck * sl))
        = (d * C) ^ (k + 1) * Q := by rw [hQ]; ring
    have eM : c * ((d * C) ^ k * ck * v0 - (d * C) ^ k * sk * v1) +
        s * ((d * C) ^ k * sk * v0 + (d * C) ^ k * ck * v1)
        = (d * C) ^ k * (Q * (cl * v0 + sl * v1) + P * (-sl * v0 + cl * v1)) := by
      rw [← hlast]; ring
    rw [eL, eM, ← hQ, ← hP, ← hH]
    obtain ⟨G, hG⟩ : ∃ G, G = -sl * v0 + cl * v1 := ⟨_, rfl⟩
    rw [← hG]
    obtain ⟨M, hM⟩ : ∃ M : ℝ, M = ((k + 1 : ℕ) : ℝ) := ⟨_, rfl⟩
    rw [← hM]
    have e1 : i ^ (n + (k + 1)) * (-(↑n + M + 1) * i ^ 3 * (d * W) * L * ((d * C) ^ (k + 1) * Q) +
        i * (L' * ((S * W + C * F) * i - d * S * i ^ 3 * (d * W))) * ((d * C) ^ (k + 1) * Q) +
        i * L * (M * ((d * C) ^ k * (Q * (W * C - S * F) + P * G)))) =
        i ^ (n + 2) * C ^ k * (i ^ k * d ^ k) * (-(↑n + M + 1) * (i * d) ^ 2 * W * L * C * Q +
          L' * (i * d) * ((S * W + C * F) - S * (i * d) ^ 2 * W) * C * Q +
          L * M * (Q * (W * C - S * F) + P * G)) := by ring
    rw [e1, hid, hk]
    have e2 : M * (C ^ (k + 1) * L) * P * (G / C) = M * C ^ k * L * P * G := by
      field_simp
      ring
    have e3 : M * (S / C) * (C ^ (k + 1) * L) = M * S * C ^ k * L := by
      field_simp
      ring
    rw [e2, e3]
    ring

end Openspace
