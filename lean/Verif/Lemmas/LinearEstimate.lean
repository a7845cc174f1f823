import Verif.Lemmas.Kalman
import Verif.Spec.LinearEstimate

/-!
# Mean square errors of linear estimates
-/

namespace Openspace

open Matrix MeasureTheory

set_option linter.unusedSectionVars false

variable {m n Ω : Type} [Fintype m] [Fintype n] [DecidableEq m] [DecidableEq n] [MeasurableSpace Ω] {μ : Measure Ω}
  [IsProbabilityMeasure μ]

theorem quadratic_form (A : Matrix n n ℝ) (c : n → ℝ) : c ⬝ᵥ A *ᵥ c = ∑ i, ∑ j, c i * (c j * A i j) := by
  simp only [dotProduct, mulVec, Finset.mul_sum]
  exact Finset.sum_congr rfl fun i _ => Finset.sum_congr rfl fun j _ => by ring

theorem memLp_dot (c : n → ℝ) {f : Ω → n → ℝ} (hf : ∀ i, MemLp (fun ω => f ω i) 2 μ) :
    MemLp (fun ω => c ⬝ᵥ f ω) 2 μ := by
  simp only [dotProduct]
  exact memLp_finsetSum _ fun i _ => (hf i).const_mul (c i)

theorem integrable_prod {f g : Ω → ℝ} (hf : MemLp f 2 μ) (hg : MemLp g 2 μ) : Integrable (fun ω => f ω * g ω) μ :=
  hf.integrable_mul hg

/-- the mean of the product of a linear form with anything -/
theorem integral_mul_dot {f : Ω → ℝ} (hf : MemLp f 2 μ) (c : n → ℝ) {g : Ω → n → ℝ}
    (hg : ∀ i, MemLp (fun ω => g ω i) 2 μ) :
    ∫ ω, f ω * (c ⬝ᵥ g ω) ∂μ = ∑ i, c i * ∫ ω, f ω * g ω i ∂μ := by
  have h : ∀ ω, f ω * (c ⬝ᵥ g ω) = ∑ i, c i * (f ω * g ω i) := by
    intro ω
    rw [dotProduct, Finset.mul_sum]
    exact Finset.sum_congr rfl fun i _ => by ring
  simp only [h]
  rw [integral_finsetSum _ fun i _ => (integrable_prod hf (hg i)).const_mul (c i)]
  simp only [integral_const_mul]

/-- the mean square of a linear form -/
theorem integral_dot_sq (c : n → ℝ) {g : Ω → n → ℝ} (hg : ∀ i, MemLp (fun ω => g ω i) 2 μ) {A : Matrix n n ℝ}
    (hA : ∀ i j, ∫ ω, g ω i * g ω j ∂μ = A i j) : ∫ ω, (c ⬝ᵥ g ω) ^ 2 ∂μ = c ⬝ᵥ A *ᵥ c := by
  simp only [sq]
  rw [integral_mul_dot (memLp_dot c hg) c hg, quadratic_form]
  refine Finset.sum_congr rfl fun i _ => ?_
  rw [← Finset.mul_sum]
  congr 1
  have h : ∀ ω, c ⬝ᵥ g ω * g ω i = g ω i * (c ⬝ᵥ g ω) := fun ω => mul_comm _ _
  simp only [h]
  rw [integral_mul_dot (hg i) c hg]
  simp only [hA]

/-- what does not depend on the errors of step `k` and later -/
structure Past (μ : Measure Ω) (N k : ℕ) (w : ℕ → Ω → n → ℝ) (v : ℕ → Ω → m → ℝ) (f : Ω → ℝ) : Prop where
  mem : MemLp f 2 μ
  w : ∀ l, k ≤ l → l < N → ∀ i, ∫ ω, f ω * w l ω i ∂μ = 0
  v : ∀ l, k ≤ l → l < N → ∀ i, ∫ ω, f ω * v l ω i ∂μ = 0

namespace Past

variable {N k : ℕ} {P0 Q : Matrix n n ℝ} {R : ℕ → Matrix m m ℝ} {e : Ω → n → ℝ} {w : ℕ → Ω → n → ℝ}
  {v : ℕ → Ω → m → ℝ} {f g : Ω → ℝ}

theorem mono {l : ℕ} (h : Past μ N k w v f) (hkl : k ≤ l) : Past μ N l w v f :=
  ⟨h.mem, fun j hj => h.w j (hkl.trans hj), fun j hj => h.v j (hkl.trans hj)⟩

theorem add (hn : Spec.Noise μ N P0 Q R e w v) (hf : Past μ N k w v f) (hg : Past μ N k w v g) :
    Past μ N k w v fun ω => f ω + g ω := by
  refine ⟨hf.mem.add hg.mem, fun l h1 h2 i => ?_, fun l h1 h2 i => ?_⟩
  · simp only [add_mul]
    rw [integral_add (integrable_prod hf.mem (hn.mem_w l h2 i)) (integrable_prod hg.mem (hn.mem_w l h2 i)),
      hf.w l h1 h2, hg.w l h1 h2, add_zero]
  · simp only [add_mul]
    rw [integral_add (integrable_prod hf.mem (hn.mem_v l h2 i)) (integrable_prod hg.mem (hn.mem_v l h2 i)),
      hf.v l h1 h2, hg.v l h1 h2, add_zero]

theorem smul (c : ℝ) (hf : Past μ N k w v f) : Past μ N k w v fun ω => c * f ω := by
  refine ⟨hf.mem.const_mul c, fun l h1 h2 i => ?_, fun l h1 h2 i => ?_⟩
  · simp only [mul_assoc]
    rw [integral_const_mul, hf.w l h1 h2, mul_zero]
  · simp only [mul_assoc]
    rw [integral_const_mul, hf.v l h1 h2, mul_zero]

theorem const (hn : Spec.Noise μ N P0 Q R e w v) (c : ℝ) : Past μ N k w v fun _ => c := by
  refine ⟨memLp_const c, fun l h1 h2 i => ?_, fun l h1 h2 i => ?_⟩
  · rw [integral_const_mul, hn.mean_w l h2, mul_zero]
  · rw [integral_const_mul, hn.mean_v l h2, mul_zero]

theorem sum {ι : Type} (hn : Spec.Noise μ N P0 Q R e w v) (s : Finset ι) {f : ι → Ω → ℝ}
    (hf : ∀ i ∈ s, Past μ N k w v (f i)) : Past μ N k w v fun ω => ∑ i ∈ s, f i ω := by
  classical
  induction s using Finset.induction_on with
  | empty => simpa using const hn 0
  | insert a s ha ih =>
    simp only [Finset.sum_insert ha]
    exact (hf a (Finset.mem_insert_self a s)).add hn (ih fun i hi => hf i (Finset.mem_insert_of_mem hi))

theorem dot {ι : Type} [Fintype ι] (hn : Spec.Noise μ N P0 Q R e w v) (c : ι → ℝ) {f : Ω → ι → ℝ}
    (hf : ∀ i, Past μ N k w v fun ω => f ω i) : Past μ N k w v fun ω => c ⬝ᵥ f ω := by
  simp only [dotProduct]
  exact sum hn _ fun i _ => (hf i).smul (c i)

theorem initial (hn : Spec.Noise μ N P0 Q R e w v) (i : n) : Past μ N k w v fun ω => e ω i :=
  ⟨hn.mem_e i, fun l _ h2 j => hn.e_w l h2 i j, fun l _ h2 j => hn.e_v l h2 i j⟩

theorem disturbance (hn : Spec.Noise μ N P0 Q R e w v) (hk : k < N) (i : n) : Past μ N (k + 1) w v fun ω => w k ω i :=
  ⟨hn.mem_w k hk i, fun l h1 h2 j => hn.w_w k hk l h2 (by omega) i j, fun l _ h2 j => hn.w_v k hk l h2 i j⟩

theorem error (hn : Spec.Noise μ N P0 Q R e w v) (hk : k < N) (i : m) : Past μ N (k + 1) w v fun ω => v k ω i := by
  refine ⟨hn.mem_v k hk i, fun l h1 h2 j => ?_, fun l h1 h2 j => hn.v_v k hk l h2 (by omega) i j⟩
  rw [← hn.w_v l h2 k hk j i]
  simp only [mul_comm]

variable {x0 : n → ℝ} {F : ℕ → Matrix n n ℝ} {H : Matrix m n ℝ} {X : ℕ → Ω → n → ℝ} {Z : ℕ → Ω → m → ℝ}

theorem state (hn : Spec.Noise μ N P0 Q R e w v) (hm : Spec.Motion x0 F H e w v X Z) :
    ∀ k, k ≤ N → ∀ i, Past μ N k w v fun ω => X k ω i
  | 0, _, i => by
    have h : ∀ ω, X 0 ω i = x0 i + (-1) * e ω i := by
      intro ω
      rw [hm.start, Pi.sub_apply]
      ring
    simp only [h]
    exact (const hn _).add hn ((initial hn i).smul _)
  | k + 1, hk, i => by
    have h : ∀ ω, X (k + 1) ω i = F k i ⬝ᵥ X k ω + w k ω i := fun ω => by rw [hm.step]; rfl
    simp only [h]
    exact (dot hn _ fun j => (state hn hm k (by omega) j).mono (by omega)).add hn (disturbance hn (by omega) i)

theorem measurement (hn : Spec.Noise μ N P0 Q R e w v) (hm : Spec.Motion x0 F H e w v X Z) (hk : k < N) (i : m) :
    Past μ N (k + 1) w v fun ω => Z k ω i := by
  have h : ∀ ω, Z k ω i = H i ⬝ᵥ X (k + 1) ω + v k ω i := fun ω => by rw [hm.measured]; rfl
  simp only [h]
  exact (dot hn _ fun j => state hn hm (k + 1) hk j).add hn (error hn hk i)

/-- the error of a linear estimate of a linear form of the state -/
theorem residual (hn : Spec.Noise μ N P0 Q R e w v) (hm : Spec.Motion x0 F H e w v X Z) (hk : k ≤ N) (a : n → ℝ) (β : ℝ)
    (g : ℕ → m → ℝ) :
    Past μ N k w v fun ω => a ⬝ᵥ X k ω - (β + ∑ j ∈ Finset.range k, g j ⬝ᵥ Z j ω) := by
  have h : ∀ ω, a ⬝ᵥ X k ω - (β + ∑ j ∈ Finset.range k, g j ⬝ᵥ Z j ω) =
      a ⬝ᵥ X k ω + (-1) * (β + ∑ j ∈ Finset.range k, g j ⬝ᵥ Z j ω) := fun ω => by ring
  simp only [h]
  refine (dot hn a fun i => state hn hm k hk i).add hn (((const hn β).add hn (sum hn _ fun j hj => ?_)).smul _)
  have hj' := Finset.mem_range.mp hj
  exact dot hn _ fun i => (measurement hn hm (hj'.trans_le hk) i).mono (by omega)

/-- the errors of a step add to the mean square of anything before it -/
theorem mean_square (hn : Spec.Noise μ N P0 Q R e w v) (hk : k < N) (hf : Past μ N k w v f) (c : n → ℝ) (g : m → ℝ) :
    ∫ ω, (f ω + (c ⬝ᵥ w k ω - g ⬝ᵥ v k ω)) ^ 2 ∂μ = ∫ ω, f ω ^ 2 ∂μ + (c ⬝ᵥ Q *ᵥ c + g ⬝ᵥ R k *ᵥ g) := by
  have hw := memLp_dot c (hn.mem_w k hk)
  have hv := memLp_dot g (hn.mem_v k hk)
  have h : ∀ ω, (f ω + (c ⬝ᵥ w k ω - g ⬝ᵥ v k ω)) ^ 2 = ((f ω ^ 2 + 2 * (f ω * (c ⬝ᵥ w k ω))) + (-2) * (f ω * (g ⬝ᵥ v k ω)))
      + (((c ⬝ᵥ w k ω) ^ 2 + (g ⬝ᵥ v k ω) ^ 2) + (-2) * ((c ⬝ᵥ w k ω) * (g ⬝ᵥ v k ω))) := fun ω => by ring
  simp only [h]
  have i1 := hf.mem.integrable_sq
  have i2 := (integrable_prod hf.mem hw).const_mul 2
  have i3 := (integrable_prod hf.mem hv).const_mul (-2)
  have i4 := hw.integrable_sq
  have i5 := hv.integrable_sq
  have i6 := (integrable_prod hw hv).const_mul (-2)
  have i12 : Integrable (fun ω => f ω ^ 2 + 2 * (f ω * (c ⬝ᵥ w k ω))) μ := i1.add i2
  have i13 : Integrable (fun ω => f ω ^ 2 + 2 * (f ω * (c ⬝ᵥ w k ω)) + (-2) * (f ω * (g ⬝ᵥ v k ω))) μ := i12.add i3
  have i45 : Integrable (fun ω => (c ⬝ᵥ w k ω) ^ 2 + (g ⬝ᵥ v k ω) ^ 2) μ := i4.add i5
  have i46 : Integrable (fun ω => (c ⬝ᵥ w k ω) ^ 2 + (g ⬝ᵥ v k ω) ^ 2 + (-2) * ((c ⬝ᵥ w k ω) * (g ⬝ᵥ v k ω))) μ :=
    i45.add i6
  rw [integral_add i13 i46, integral_add i12 i3, integral_add i1 i2, integral_add i45 i6, integral_add i4 i5, integral_const_mul, integral_const_mul, integral_const_mul,
    integral_mul_dot hf.mem c (hn.mem_w k hk), integral_mul_dot hf.mem g (hn.mem_v k hk),
    integral_mul_dot hw g (hn.mem_v k hk), integral_dot_sq c (hn.mem_w k hk) (hn.cov_w k hk),
    integral_dot_sq g (hn.mem_v k hk) (hn.cov_v k hk)]
  have z1 : ∀ i, ∫ ω, f ω * w k ω i ∂μ = 0 := hf.w k le_rfl hk
  have z2 : ∀ i, ∫ ω, f ω * v k ω i ∂μ = 0 := hf.v k le_rfl hk
  have z3 : ∀ j, ∫ ω, (c ⬝ᵥ w k ω) * v k ω j ∂μ = 0 := by
    intro j
    have : ∀ ω, (c ⬝ᵥ w k ω) * v k ω j = v k ω j * (c ⬝ᵥ w k ω) := fun ω => mul_comm _ _
    simp only [this]
    rw [integral_mul_dot (hn.mem_v k hk j) c (hn.mem_w k hk)]
    refine Finset.sum_eq_zero fun i _ => ?_
    have h3 : ∀ ω, v k ω j * w k ω i = w k ω i * v k ω j := fun ω => mul_comm _ _
    simp only [h3]
    rw [hn.w_v k hk k hk i j, mul_zero]
  simp only [z1, z2, z3, mul_zero, Finset.sum_const_zero, add_zero]

end Past

/-- a step of the motion in the error of a linear estimate -/
theorem residual_step {x0 : n → ℝ} {F : ℕ → Matrix n n ℝ} {H : Matrix m n ℝ} {e : Ω → n → ℝ} {w : ℕ → Ω → n → ℝ}
    {v : ℕ → Ω → m → ℝ} {X : ℕ → Ω → n → ℝ} {Z : ℕ → Ω → m → ℝ} (hm : Spec.Motion x0 F H e w v X Z) (k : ℕ) (a : n → ℝ)
    (β : ℝ) (g : ℕ → m → ℝ) (ω : Ω) :
    a ⬝ᵥ X (k + 1) ω - (β + ∑ j ∈ Finset.range (k + 1), g j ⬝ᵥ Z j ω) =
      ((F k)ᵀ *ᵥ (a - Hᵀ *ᵥ g k)) ⬝ᵥ X k ω - (β + ∑ j ∈ Finset.range k, g j ⬝ᵥ Z j ω) +
        ((a - Hᵀ *ᵥ g k) ⬝ᵥ w k ω - g k ⬝ᵥ v k ω) := by
  have h1 : ∀ (A : Matrix m n ℝ) (y : m → ℝ) (x : n → ℝ), (Aᵀ *ᵥ y) ⬝ᵥ x = y ⬝ᵥ A *ᵥ x := fun A y x => by
    rw [mulVec_transpose, dotProduct_mulVec]
  have h2 : ∀ (A : Matrix n n ℝ) (y : n → ℝ) (x : n → ℝ), (Aᵀ *ᵥ y) ⬝ᵥ x = y ⬝ᵥ A *ᵥ x := fun A y x => by
    rw [mulVec_transpose, dotProduct_mulVec]
  rw [Finset.sum_range_succ, hm.measured, h2, sub_dotProduct, sub_dotProduct, h1, h1, hm.step, dotProduct_add,
    dotProduct_add, mulVec_add, dotProduct_add]
  ring

/-- the update with the optimal gain, seen along one direction -/
theorem update_optimal_direction {P : Matrix n n ℝ} {R : Matrix m m ℝ} {H : Matrix m n ℝ} {K : Matrix n m ℝ}
    (hP : P.PosSemidef) (hR : R.PosSemidef) (hK : K * (H * P * Hᵀ + R) = P * Hᵀ) (a : n → ℝ) (g : m → ℝ) :
    a ⬝ᵥ Spec.updatedCovariance P H R K *ᵥ a ≤
      (a - Hᵀ *ᵥ g) ⬝ᵥ P *ᵥ (a - Hᵀ *ᵥ g) + g ⬝ᵥ R *ᵥ g := by
  have hS : (H * P * Hᵀ + R).PosSemidef := (posSemidef_congr hP H).add hR
  have nonneg : ∀ {k : Type} [Fintype k] {A : Matrix k k ℝ}, A.PosSemidef → ∀ y : k → ℝ, 0 ≤ y ⬝ᵥ A *ᵥ y := by
    intro k _ A hA y
    have := hA.dotProduct_mulVec_nonneg y
    simpa using this
  by_cases ha : a = 0
  · subst ha
    rw [mulVec_zero, dotProduct_zero]
    exact add_nonneg (nonneg hP _) (nonneg hR _)
  · have haa : a ⬝ᵥ a ≠ 0 := by
      rw [Ne, dotProduct_self_eq_zero]
      exact ha
    have hG : ((a ⬝ᵥ a)⁻¹ • vecMulVec a g)ᵀ *ᵥ a = g := by
      rw [transpose_smul, transpose_vecMulVec, smul_mulVec, vecMulVec_mulVec]
      ext i
      simp [haa]
    generalize (a ⬝ᵥ a)⁻¹ • vecMulVec a g = G at hG
    have key := (updated_optimal hP.isHermitian hR.isHermitian hK G).2.2
    have h0 := nonneg (posSemidef_congr hS (G - K)) a
    have e1 : ∀ {k : Type} [Fintype k] (A : Matrix n k ℝ) (B : Matrix k k ℝ), a ⬝ᵥ (A * B * Aᵀ) *ᵥ a =
        (Aᵀ *ᵥ a) ⬝ᵥ B *ᵥ (Aᵀ *ᵥ a) := by
      intro k _ A B
      rw [← mulVec_mulVec, ← mulVec_mulVec, dotProduct_mulVec, ← mulVec_transpose]
    have h1 : a ⬝ᵥ Spec.updatedCovariance P H R G *ᵥ a =
        (a - Hᵀ *ᵥ g) ⬝ᵥ P *ᵥ (a - Hᵀ *ᵥ g) + g ⬝ᵥ R *ᵥ g := by
      rw [Spec.updatedCovariance, add_mulVec, dotProduct_add, e1, e1, hG, transpose_sub, transpose_one, transpose_mul,
        sub_mulVec, one_mulVec, ← mulVec_mulVec, hG]
    rw [← h1, key, add_mulVec, dotProduct_add]
    linarith

end Openspace
