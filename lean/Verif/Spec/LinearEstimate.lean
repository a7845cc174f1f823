import Mathlib.LinearAlgebra.Matrix.PosDef
import Mathlib.MeasureTheory.Function.L2Space

/-! # Specification of linear estimation from noisy measurements -/

namespace Openspace.Spec

open Matrix MeasureTheory

variable {m n Ω : Type} [Fintype m] [Fintype n] [MeasurableSpace Ω]

/-- The random errors of `N` steps of motion and measurement: the error `e` of what is known initially, the disturbance
`w k` of the motion in step `k` and the error `v k` of the measurement in step `k`.  They have mean zero and covariances
`P0`, `Q` and `R k`, and errors of different kinds or different steps are uncorrelated. -/
structure Noise (μ : Measure Ω) (N : ℕ) (P0 Q : Matrix n n ℝ) (R : ℕ → Matrix m m ℝ) (e : Ω → n → ℝ)
    (w : ℕ → Ω → n → ℝ) (v : ℕ → Ω → m → ℝ) : Prop where
  mem_e : ∀ i, MemLp (fun ω => e ω i) 2 μ
  mem_w : ∀ k < N, ∀ i, MemLp (fun ω => w k ω i) 2 μ
  mem_v : ∀ k < N, ∀ i, MemLp (fun ω => v k ω i) 2 μ
  mean_e : ∀ i, ∫ ω, e ω i ∂μ = 0
  mean_w : ∀ k < N, ∀ i, ∫ ω, w k ω i ∂μ = 0
  mean_v : ∀ k < N, ∀ i, ∫ ω, v k ω i ∂μ = 0
  cov_e : ∀ i j, ∫ ω, e ω i * e ω j ∂μ = P0 i j
  cov_w : ∀ k < N, ∀ i j, ∫ ω, w k ω i * w k ω j ∂μ = Q i j
  cov_v : ∀ k < N, ∀ i j, ∫ ω, v k ω i * v k ω j ∂μ = R k i j
  e_w : ∀ k < N, ∀ i j, ∫ ω, e ω i * w k ω j ∂μ = 0
  e_v : ∀ k < N, ∀ i j, ∫ ω, e ω i * v k ω j ∂μ = 0
  w_w : ∀ k < N, ∀ l < N, k ≠ l → ∀ i j, ∫ ω, w k ω i * w l ω j ∂μ = 0
  v_v : ∀ k < N, ∀ l < N, k ≠ l → ∀ i j, ∫ ω, v k ω i * v l ω j ∂μ = 0
  w_v : ∀ k < N, ∀ l < N, ∀ i j, ∫ ω, w k ω i * v l ω j ∂μ = 0

/-- The true states `X` and the measurements `Z` that these errors lead to: the initial state is the initial estimate up to
its error, each further state is the transition of the last one up to the disturbance, and a measurement sees the state
through `H` up to its error. -/
structure Motion (x0 : n → ℝ) (F : ℕ → Matrix n n ℝ) (H : Matrix m n ℝ) (e : Ω → n → ℝ) (w : ℕ → Ω → n → ℝ)
    (v : ℕ → Ω → m → ℝ) (X : ℕ → Ω → n → ℝ) (Z : ℕ → Ω → m → ℝ) : Prop where
  start : ∀ ω, X 0 ω = x0 - e ω
  step : ∀ k ω, X (k + 1) ω = F k *ᵥ X k ω + w k ω
  measured : ∀ k ω, Z k ω = H *ᵥ X (k + 1) ω + v k ω

end Openspace.Spec
