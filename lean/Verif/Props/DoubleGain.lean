import Verif.Lemmas.DoubleInverse
import Verif.Props.DoubleFiltering
import Verif.Props.DoubleHill

/-!
# C157: the gain and the estimate of the navigation filter in double precision
-/

namespace Openspace

open Matrix

namespace F64.Kalman

open RelativeKalman (H HT I attr innovation)

/-! ## products with the observation matrix are exact -/

theorem innovation_exact {p : Mat6} (hp : ∀ i j, rnd (p.toMatrix i j) = p.toMatrix i j) :
    mat36Mul63 H (mat6Mul63 p HT) = H.mul63 (p.mul63 HT) := by
  have h1 := dot6_unit p.row1 (fun l => hp 0 l)
  have h2 := dot6_unit p.row2 (fun l => hp 1 l)
  have h3 := dot6_unit p.row3 (fun l => hp 2 l)
  have h4 := dot6_unit p.row4 (fun l => hp 3 l)
  have h5 := dot6_unit p.row5 (fun l => hp 4 l)
  have h6 := dot6_unit p.row6 (fun l => hp 5 l)
  have e : mat6Mul63 p HT = p.mul63 HT := by
    simp only [mat6Mul63, Mat6.mul63, HT, H, Mat36.transpose, Mat36.column1, Mat36.column2, Mat36.column3, Mat36.column4,
      Mat36.column5, Mat36.column6, Mat63.column1, Mat63.column2, Mat63.column3, h1, h2, h3, h4, h5, h6, Vec6.dot, mul_one,
      mul_zero, add_zero, zero_add]
  rw [e]
  have hc1 : ∀ l, rnd ((p.mul63 HT).column1.toFun l) = (p.mul63 HT).column1.toFun l := by
    intro l
    have : (p.mul63 HT).column1.toFun l = p.toMatrix l 0 := by
      match l with
      | 0 | 1 | 2 | 3 | 4 | 5 => simp [Mat6.mul63, Mat63.column1, Vec6.toFun, HT, H, Mat36.transpose, Mat36.column1,
          Mat36.column2, Mat36.column3, Mat36.column4, Mat36.column5, Mat36.column6, Vec6.dot, Mat6.toMatrix]
    rw [this, hp]
  have hc2 : ∀ l, rnd ((p.mul63 HT).column2.toFun l) = (p.mul63 HT).column2.toFun l := by
    intro l
    have : (p.mul63 HT).column2.toFun l = p.toMatrix l 1 := by
      match l with
      | 0 | 1 | 2 | 3 | 4 | 5 => simp [Mat6.mul63, Mat63.column2, Vec6.toFun, HT, H, Mat36.transpose, Mat36.column1,
          Mat36.column2, Mat36.column3, Mat36.column4, Mat36.column5, Mat36.column6, Vec6.dot, Mat6.toMatrix]
    rw [this, hp]
  have hc3 : ∀ l, rnd ((p.mul63 HT).column3.toFun l) = (p.mul63 HT).column3.toFun l := by
    intro l
    have : (p.mul63 HT).column3.toFun l = p.toMatrix l 2 := by
      match l with
      | 0 | 1 | 2 | 3 | 4 | 5 => simp [Mat6.mul63, Mat63.column3, Vec6.toFun, HT, H, Mat36.transpose, Mat36.column1,
          Mat36.column2, Mat36.column3, Mat36.column4, Mat36.column5, Mat36.column6, Vec6.dot, Mat6.toMatrix]
    rw [this, hp]
  have g1 := dot6_unit _ hc1
  have g2 := dot6_unit _ hc2
  have g3 := dot6_unit _ hc3
  generalize p.mul63 HT = q at *
  simp only [mat36Mul63, Mat36.mul63, H, g1, g2, g3, Vec6.dot, one_mul, zero_mul, add_zero, zero_add]

theorem HT_mul {x : Mat3} (hx : ∀ i j, rnd (x.toMatrix i j) = x.toMatrix i j) : mat63Mul3 HT x = HT.mul3 x := by
  have a1 : rnd x.row1.x = x.row1.x := hx 0 0
  have a2 : rnd x.row1.y = x.row1.y := hx 0 1
  have a3 : rnd x.row1.z = x.row1.z := hx 0 2
  have b1 : rnd x.row2.x = x.row2.x := hx 1 0
  have b2 : rnd x.row2.y = x.row2.y := hx 1 1
  have b3 : rnd x.row2.z = x.row2.z := hx 1 2
  have c1 : rnd x.row3.x = x.row3.x := hx 2 0
  have c2 : rnd x.row3.y = x.row3.y := hx 2 1
  have c3 : rnd x.row3.z = x.row3.z := hx 2 2
  simp [mat63Mul3, Mat63.mul3, HT, H, Mat36.transpose, Mat36.column1, Mat36.column2, Mat36.column3, Mat36.column4,
    Mat36.column5, Mat36.column6, Mat3.column1, Mat3.column2, Mat3.column3, dot, Vec3.dot, rnd_zero, a1, a2, a3, b1, b2, b3,
    c1, c2, c3]

theorem select_rows (X : Matrix (Fin 3) (Fin 3) ℝ) :
    (H.toMatrixᵀ * X).map abs = H.toMatrixᵀ * X.map abs := by
  ext i j
  match i with
  | 0 | 1 | 2 | 3 | 4 | 5 => simp [mul_apply, Fin.sum_univ_three, H, Mat36.toMatrix, Vec6.toFun]

theorem select_columns (p : Matrix (Fin 6) (Fin 6) ℝ) : (p * H.toMatrixᵀ).map abs = p.map abs * H.toMatrixᵀ := by
  ext i j
  match j with
  | 0 | 1 | 2 => simp [mul_apply, Fin.sum_univ_six, H, Mat36.toMatrix, Vec6.toFun]

theorem pick_column {n : Type} (X : Matrix n (Fin 6) ℝ) (i : n) (j : Fin 3) :
    (X * H.toMatrixᵀ) i j = X i (Fin.castLE (by norm_num) j) := by
  match j with
  | 0 | 1 | 2 => simp [mul_apply, Fin.sum_univ_six, H, Mat36.toMatrix, Vec6.toFun]

theorem pick_row {n : Type} (X : Matrix (Fin 6) n ℝ) (j : Fin 3) (i : n) :
    (H.toMatrix * X) j i = X (Fin.castLE (by norm_num) j) i := by
  have := pick_column Xᵀ i j
  rw [← transpose_mul, transpose_apply, transpose_apply] at this
  exact this

/-- the gain of a predicted covariance and a measurement covariance -/
theorem gain_near {p : Mat6} {r : Mat3} (hp : ∀ i j, rnd (p.toMatrix i j) = p.toMatrix i j) {σ : Fin 6 → ℝ} {t : Fin 3 → ℝ}
    {ρ : ℝ} (hσ : ∀ i, 0 < σ i) (ht : ∀ i, 0 < t i) (hρ : 1e-12 ≤ ρ) (hρ1 : ρ ≤ 1)
    (h1 : ∀ i l, |(p.toMatrix * H.toMatrixᵀ) i l| ≤ σ i * t l)
    (h2 : ∀ i j, |(H.toMatrix * p.toMatrix * H.toMatrixᵀ + r.toMatrix) i j| ≤ t i * t j)
    (h3 : ρ * (t 0 * t 1 * t 2) ^ 2 ≤ (H.toMatrix * p.toMatrix * H.toMatrixᵀ + r.toMatrix).det) :
    ∃ inv, inverse (mat3Plus (mat36Mul63 H (mat6Mul63 p HT)) r) = .ok inv ∧
      ∀ i j, |(mat6Mul63 p (mat63Mul3 HT inv)).toMatrix i j -
          (p.toMatrix * H.toMatrixᵀ * (H.toMatrix * p.toMatrix * H.toMatrixᵀ + r.toMatrix)⁻¹) i j| ≤
        451 * u / ρ ^ 2 * (σ i / t j) := by
  have hu := u_tiny
  have hu0 := u_pos
  have hρ0 : 0 < ρ := lt_of_lt_of_le (by norm_num) hρ
  rw [← RelativeKalman.innovation_toMatrix] at h2 h3 ⊢
  have hS : MSc (mat3Plus (mat36Mul63 H (mat6Mul63 p HT)) r).toMatrix (innovation p r).toMatrix 1.001
      (fun i j => t i * t j) := by
    intro i j
    rw [mat3Plus_entry, innovation_exact hp, ← Matrix.add_apply, ← Mat3.plus_toMatrix]
    exact ((Sc.exact (h2 i j)).round le_rfl (by norm_num)).mono (by norm_num)
  obtain ⟨inv, g1, g2, g3⟩ := inverse_sc ht hS hρ hρ1 h3
  refine ⟨inv, g1, fun i j => ?_⟩
  rw [HT_mul g2]
  generalize (innovation p r).toMatrix⁻¹ = S' at *
  have k1 := mat6Mul63_sc (MSc.exact p.toMatrix) (MSc.exact (HT.mul3 inv).toMatrix) le_rfl (by norm_num) le_rfl
    (by norm_num) i j
  rw [Mat63.mul3_toMatrix, RelativeKalman.HT_toMatrix, select_rows, ← Matrix.mul_assoc, ← Matrix.mul_assoc,
    ← select_columns] at k1
  generalize (mat6Mul63 p (HT.mul3 inv)).toMatrix i j = k' at *
  generalize p.toMatrix * H.toMatrixᵀ = G at *
  generalize inv.toMatrix = X at *
  have hσi := hσ i
  have htj := ht j
  obtain ⟨v, hv⟩ : ∃ v, v = u / ρ := ⟨_, rfl⟩
  have hv0 : 0 < v := by rw [hv]; positivity
  have huv : u ≤ v := by rw [hv, le_div_iff₀ hρ0]; nlinarith
  have hv1 : v ≤ 0.00013 := by
    rw [hv, div_le_iff₀ hρ0]
    norm_num at hu hρ ⊢
    linarith
  obtain ⟨q, hq⟩ : ∃ q, q = 1 / ρ * (σ i / t j) := ⟨_, rfl⟩
  have hq0 : 0 < q := by rw [hq]; positivity
  have e0 : 451 * u / ρ ^ 2 * (σ i / t j) = 451 * v * q := by rw [hv, hq]; field_simp
  rw [e0]
  -- one term of the sums
  have term : ∀ l, |G i l| * |X l j - S' l j| ≤ 138 * v * q ∧ |G i l| * |X l j| ≤ 2.02 * q := by
    intro l
    have htl := ht l
    obtain ⟨x1, x2⟩ := g3 l j
    have hG := h1 i l
    have x3 : |X l j| ≤ 2.02 / ρ * (1 / (t l * t j)) := by
      have := abs_sub_abs_le_abs_sub (X l j) (S' l j)
      have e1 : 138 * u / ρ ^ 2 * (1 / (t l * t j)) = 138 * v * (1 / ρ * (1 / (t l * t j))) := by rw [hv]; field_simp
      have e2 : 2 / ρ * (1 / (t l * t j)) = 2 * (1 / ρ * (1 / (t l * t j))) := by ring
      have e3 : 2.02 / ρ * (1 / (t l * t j)) = 2.02 * (1 / ρ * (1 / (t l * t j))) := by ring
      have e4 : 0 < 1 / ρ * (1 / (t l * t j)) := by positivity
      rw [e1] at x1
      rw [e2] at x2
      rw [e3]
      generalize 1 / ρ * (1 / (t l * t j)) = w at *
      nlinarith
    constructor
    · refine (mul_le_mul hG x1 (abs_nonneg _) (by positivity)).trans (le_of_eq ?_)
      rw [hv, hq]; field_simp
    · refine (mul_le_mul hG x3 (abs_nonneg _) (by positivity)).trans (le_of_eq ?_)
      rw [hq]; field_simp
  have d1 : |(G * X) i j - (G * S') i j| ≤ 414 * v * q := by
    rw [← Matrix.sub_apply, ← Matrix.mul_sub, mul_apply]
    refine (Finset.abs_sum_le_sum_abs _ _).trans ?_
    rw [Fin.sum_univ_three, abs_mul, abs_mul, abs_mul]
    simp only [Matrix.sub_apply]
    linarith [(term 0).1, (term 1).1, (term 2).1]
  have d2 : (G.map abs * X.map abs) i j ≤ 6.06 * q := by
    rw [mul_apply, Fin.sum_univ_three]
    simp only [Matrix.map_apply]
    linarith [(term 0).2, (term 1).2, (term 2).2]
  have d3 := k1.1
  have d4 : (0 + 0 + 6.02) * u * (G.map abs * X.map abs) i j ≤ 6.02 * v * (6.06 * q) := by
    rw [show (0 + 0 + 6.02 : ℝ) = 6.02 by norm_num]
    have : 0 ≤ (G.map abs * X.map abs) i j := k1.nonneg
    gcongr
  have d5 := abs_sub_le k' ((G * X) i j) ((G * S') i j)
  have d6 : 0 < v * q := by positivity
  linarith

/-! ## covariances -/

/-- an entry of a covariance is at most the product of the standard deviations -/
theorem covariance_entry {n : Type} [Fintype n] {P : Matrix n n ℝ} (hP : P.PosSemidef) (i j : n) :
    |P i j| ≤ √(P i i) * √(P j j) := by
  have hi : 0 ≤ P i i := hP.diag_nonneg
  have hj : 0 ≤ P j j := hP.diag_nonneg
  have hs := hP.isHermitian.apply i j
  have hd := (hP.submatrix ![i, j]).det_nonneg
  rw [Matrix.det_fin_two] at hd
  simp only [Matrix.submatrix_apply, Matrix.cons_val_zero, Matrix.cons_val_one] at hd
  rw [← Real.sqrt_mul hi]
  apply Real.abs_le_sqrt
  simp only [star_trivial] at hs
  rw [hs] at hd
  nlinarith

/-- the loss of a gain that is not quite the best one -/
theorem loss_le {m n : Type} [Fintype m] {E : Matrix n m ℝ} {S : Matrix m m ℝ} {t : m → ℝ} {δ σ : ℝ} (ht : ∀ i, 0 < t i)
    (hS : ∀ i j, |S i j| ≤ t i * t j) {i : n} (hE : ∀ j, |E i j| ≤ δ * (σ / t j)) :
    (E * S * Eᵀ) i i ≤ (Fintype.card m : ℝ) ^ 2 * (δ ^ 2 * σ ^ 2) := by
  rw [mul_apply]
  have h : ∀ l, (E * S) i l * Eᵀ l i ≤ Fintype.card m * (δ ^ 2 * σ ^ 2) := by
    intro l
    rw [mul_apply, Finset.sum_mul]
    have : ∀ k ∈ Finset.univ, E i k * S k l * Eᵀ l i ≤ δ ^ 2 * σ ^ 2 := by
      intro k _
      rw [transpose_apply]
      refine (le_abs_self _).trans ?_
      rw [abs_mul, abs_mul]
      have hk := ht k
      have hl := ht l
      have h1 : |E i k| * |S k l| * |E i l| ≤ δ * (σ / t k) * (t k * t l) * (δ * (σ / t l)) := by
        have a1 := hE k
        have a2 := hE l
        have a3 := (abs_nonneg _).trans a1
        gcongr
        exact hS k l
      refine h1.trans (le_of_eq ?_)
      field_simp
    refine (Finset.sum_le_card_nsmul _ _ _ this).trans ?_
    rw [nsmul_eq_mul, Finset.card_univ]
  refine (Finset.sum_le_card_nsmul _ _ _ (fun l _ => h l)).trans ?_
  rw [nsmul_eq_mul, Finset.card_univ]
  exact le_of_eq (by ring)

end F64.Kalman

/-! ## C157 -/

/-- The gain in double precision, for a predicted covariance of doubles `P` whose entries need not be quite symmetric.
Let `t` and `σ` be scales of the components of the measurement and of the state, such that `S = H P Hᵀ + R` is at most
`tᵢ tⱼ` and `P Hᵀ` at most `σᵢ tⱼ`.  If the determinant of `S` is at least `ρ` times the product of the squares of the
scales, with `ρ ≥ 10⁻¹²`, then no division by zero occurs, and every entry of the gain agrees with that of `P Hᵀ S⁻¹` to
`451 / ρ²` units of rounding of `σᵢ / tⱼ`. -/
theorem C157_gain (s : RelativeKalman) (P : Mat6) (R : Mat3) (hP : s.p10 = some P) (hR : s.r = some R)
    (hd : ∀ i j, Spec.IsBinary64 (P.toMatrix i j)) (S : Matrix (Fin 3) (Fin 3) ℝ)
    (hS : S = RelativeKalman.H.toMatrix * P.toMatrix * RelativeKalman.H.toMatrixᵀ + R.toMatrix)
    (σ : Fin 6 → ℝ) (t : Fin 3 → ℝ) (ρ : ℝ) (hσ : ∀ i, 0 < σ i) (ht : ∀ i, 0 < t i) (hρ : 1e-12 ≤ ρ) (hρ1 : ρ ≤ 1)
    (h1 : ∀ i j, |(P.toMatrix * RelativeKalman.H.toMatrixᵀ) i j| ≤ σ i * t j) (h2 : ∀ i j, |S i j| ≤ t i * t j)
    (h3 : ρ * (t 0 * t 1 * t 2) ^ 2 ≤ S.det) :
    ∃ K, F64.Kalman.gain s = (.ok (), { s with k := some K }) ∧ (∀ i j, Spec.IsBinary64 (K.toMatrix i j)) ∧
      ∀ i j, |K.toMatrix i j - (P.toMatrix * RelativeKalman.H.toMatrixᵀ * S⁻¹) i j| ≤
        451 * F64.u / ρ ^ 2 * (σ i / t j) := by
  subst hS
  obtain ⟨inv, g1, g2⟩ := F64.Kalman.gain_near (r := R) (fun i j => (F64.isDouble_iff _).mpr (hd i j)) hσ ht hρ hρ1 h1 h2 h3
  refine ⟨_, ?_, fun i j => (F64.isDouble_iff _).mp (F64.Kalman.rounded_mat63 _ _ i j), g2⟩
  simp only [F64.Kalman.gain, PyM.get_bind_apply, hP, hR, RelativeKalman.attr, PyM.lift_ok_bind_apply, g1, PyM.modify_apply]

/-- In particular, when the predicted covariance `P` is positive definite and the measurement covariance `R` positive
semidefinite: the gain agrees with the best one to `451 / ρ²` units of rounding of the ratio of the standard deviations,
`ρ` being at most the determinant of `S` over the product of its diagonal.  The variances that the gain leaves are at least
the smallest ones possible, and exceed them by at most `(1353 u / ρ²)²` of the predicted ones. -/
theorem C157_optimal (s : RelativeKalman) (P : Mat6) (R : Mat3) (hP : s.p10 = some P) (hR : s.r = some R)
    (hd : ∀ i j, Spec.IsBinary64 (P.toMatrix i j)) (hPd : P.toMatrix.PosDef) (hRd : R.toMatrix.PosSemidef)
    (S : Matrix (Fin 3) (Fin 3) ℝ)
    (hS : S = RelativeKalman.H.toMatrix * P.toMatrix * RelativeKalman.H.toMatrixᵀ + R.toMatrix)
    (ρ : ℝ) (hρ : 1e-12 ≤ ρ) (hρ1 : ρ ≤ 1) (h : ρ * (S 0 0 * S 1 1 * S 2 2) ≤ S.det) :
    ∃ K, F64.Kalman.gain s = (.ok (), { s with k := some K }) ∧
      (∀ i j, |K.toMatrix i j - (P.toMatrix * RelativeKalman.H.toMatrixᵀ * S⁻¹) i j| ≤
        451 * F64.u / ρ ^ 2 * (√(P.toMatrix i i) / √(S j j))) ∧
      ∀ i, 0 ≤ Spec.updatedCovariance P.toMatrix RelativeKalman.H.toMatrix R.toMatrix K.toMatrix i i -
          Spec.updatedCovariance P.toMatrix RelativeKalman.H.toMatrix R.toMatrix
            (P.toMatrix * RelativeKalman.H.toMatrixᵀ * S⁻¹) i i ∧
        Spec.updatedCovariance P.toMatrix RelativeKalman.H.toMatrix R.toMatrix K.toMatrix i i -
          Spec.updatedCovariance P.toMatrix RelativeKalman.H.toMatrix R.toMatrix
            (P.toMatrix * RelativeKalman.H.toMatrixᵀ * S⁻¹) i i ≤ (1353 * F64.u / ρ ^ 2) ^ 2 * P.toMatrix i i := by
  have hSd : S.PosDef := by
    rw [hS, ← RelativeKalman.innovation_toMatrix]
    exact RelativeKalman.innovation_posDef hPd hRd
  have hSp : ∀ i, 0 < S i i := fun i => hSd.diag_pos
  have hPp : ∀ i, 0 < P.toMatrix i i := fun i => hPd.diag_pos
  have hS2 : ∀ i j, |S i j| ≤ √(S i i) * √(S j j) := F64.Kalman.covariance_entry hSd.posSemidef
  -- the entries of `P Hᵀ` are entries of `P`
  have hcol : ∀ j : Fin 3, ∃ l : Fin 6, (∀ i, (P.toMatrix * RelativeKalman.H.toMatrixᵀ) i j = P.toMatrix i l) ∧
      S j j = P.toMatrix l l + R.toMatrix j j := by
    intro j
    refine ⟨Fin.castLE (by norm_num) j, fun i => F64.Kalman.pick_column _ i j, ?_⟩
    rw [hS, Matrix.add_apply, F64.Kalman.pick_column, F64.Kalman.pick_row]
  have h1 : ∀ i j, |(P.toMatrix * RelativeKalman.H.toMatrixᵀ) i j| ≤ √(P.toMatrix i i) * √(S j j) := by
    intro i j
    obtain ⟨l, e1, e2⟩ := hcol j
    rw [e1]
    refine (F64.Kalman.covariance_entry hPd.posSemidef i l).trans ?_
    gcongr
    rw [e2]
    linarith [hRd.diag_nonneg (i := j)]
  have hsq : (√(S 0 0) * √(S 1 1) * √(S 2 2)) ^ 2 = S 0 0 * S 1 1 * S 2 2 := by
    rw [mul_pow, mul_pow, Real.sq_sqrt (hSp 0).le, Real.sq_sqrt (hSp 1).le, Real.sq_sqrt (hSp 2).le]
  obtain ⟨K, k1, -, k3⟩ := C157_gain s P R hP hR hd S hS (fun i => √(P.toMatrix i i)) (fun j => √(S j j)) ρ
    (fun i => Real.sqrt_pos.mpr (hPp i)) (fun j => Real.sqrt_pos.mpr (hSp j)) hρ hρ1 h1 hS2 (by rw [hsq]; exact h)
  refine ⟨K, k1, k3, fun i => ?_⟩
  have hopt : P.toMatrix * RelativeKalman.H.toMatrixᵀ * S⁻¹ * (RelativeKalman.H.toMatrix * P.toMatrix *
      RelativeKalman.H.toMatrixᵀ + R.toMatrix) = P.toMatrix * RelativeKalman.H.toMatrixᵀ := by
    rw [← hS, Matrix.mul_assoc, Matrix.nonsing_inv_mul _ (isUnit_iff_ne_zero.mpr hSd.det_pos.ne'), Matrix.mul_one]
  have key := (updated_optimal hPd.isHermitian hRd.isHermitian hopt K.toMatrix).2.2
  rw [key, Matrix.add_apply, add_sub_cancel_left, ← hS]
  constructor
  · exact (posSemidef_congr hSd.posSemidef _).diag_nonneg
  · have := F64.Kalman.loss_le (E := K.toMatrix - P.toMatrix * RelativeKalman.H.toMatrixᵀ * S⁻¹)
      (fun j => Real.sqrt_pos.mpr (hSp j)) hS2 (i := i) (fun j => k3 i j)
    rw [Real.sq_sqrt (hPp i).le] at this
    refine this.trans (le_of_eq ?_)
    rw [Fintype.card_fin]
    push_cast
    ring

/-- The estimate is corrected in double precision, with whatever gain, to 5.1 units of rounding of the predicted component
and of `|K| |z - H x|`; nothing but the estimate and the state of the propagator changes, and the two agree. -/
theorem C157_estimate (s : RelativeKalman) (x : Vec6) (K : Mat63) (z : Vec3) (hx : s.x10 = some x) (hK : s.k = some K)
    (hz : s.z = some z) (hd : ∀ i, Spec.IsBinary64 (x.toFun i)) :
    ∃ y, F64.Kalman.updateState s = (.ok (), { s with
        x00 := y, propagator := { s.propagator with state := State.fromStateVector y } }) ∧
      ∀ i, |y.toFun i - (x.toFun i + (K.toMatrix *ᵥ (z.toFun - RelativeKalman.H.toMatrix *ᵥ x.toFun)) i)| ≤
        5.1 * F64.u * (|x.toFun i| +
          (K.toMatrix.map abs *ᵥ fun j => |z.toFun j - (RelativeKalman.H.toMatrix *ᵥ x.toFun) j|) i) := by
  refine ⟨_, by simp only [F64.Kalman.updateState, PyM.get_bind_apply, hx, hK, hz, RelativeKalman.attr,
    PyM.lift_ok_bind_apply, PyM.modify_apply]; rfl, fun i => ?_⟩
  have hx' := F64.dot6_unit x (fun l => (F64.isDouble_iff _).mpr (hd l))
  have hH : F64.mat36MulVec RelativeKalman.H x = RelativeKalman.H.mulVec x := by
    simp only [F64.mat36MulVec, Mat36.mulVec, RelativeKalman.H, hx', Vec6.dot, one_mul, zero_mul, add_zero, zero_add]
  rw [hH]
  have hi : ∀ l, F64.Sc ((F64.minus z (RelativeKalman.H.mulVec x)).toFun l)
      ((z.toFun - RelativeKalman.H.toMatrix *ᵥ x.toFun) l) 1.001
      |z.toFun l - (RelativeKalman.H.toMatrix *ᵥ x.toFun) l| := by
    intro l
    rw [F64.minus_toFun, Mat36.mulVec_toFun]
    exact ((F64.Sc.exact le_rfl).round le_rfl (by norm_num)).mono (by norm_num)
  have hk := F64.mat63MulVec_sc (F64.MSc.exact K.toMatrix) hi le_rfl (by norm_num) (by norm_num) (by norm_num) i
  have := ((F64.Sc.exact (x := x.toFun i) le_rfl).mono (e' := 0 + 1.001 + 3.02) (by norm_num)).add hk (by norm_num)
    (by norm_num)
  rw [F64.plus6_toFun]
  exact (this.mono (e' := 5.1) (by norm_num)).1

/-! ### a first observation -/

namespace F64.Kalman

open RelativeKalman (H HT I attr diag6)

theorem rnd_one : rnd 1 = 1 := by have := rnd_int 1 (by norm_num); exact_mod_cast this

theorem hillMatrix_zero {n : ℝ} (hn : n ≠ 0) : hillMatrix rounded n 0 = .ok Mat6.identity := by
  have h2 : rnd 2 = 2 := by have := rnd_int 2 (by norm_num); exact_mod_cast this
  have h3 : rnd 3 = 3 := by have := rnd_int 3 (by norm_num); exact_mod_cast this
  have h4 : rnd 4 = 4 := by have := rnd_int 4 (by norm_num); exact_mod_cast this
  have e1 : (4 : ℝ) - 3 = 1 := by norm_num
  simp only [hillMatrix, div_ok hn, ok_bind, pure_eq_ok, rounded, mul_zero, rnd_zero, Real.sin_zero, Real.cos_zero, rnd_one,
    mul_one, sub_self, zero_mul, h3, h4, e1, Mat6.identity]

theorem identity_mul {a b c d e f : ℝ} (ha : rnd a = a) (hb : rnd b = b) (hc : rnd c = c) (hd : rnd d = d) (he : rnd e = e)
    (hf : rnd f = f) : mat6Mul Mat6.identity (mat6Mul (diag6 a b c d e f) Mat6.identity.transpose) = diag6 a b c d e f := by
  simp [mat6Mul, Mat6.identity, Mat6.transpose, Mat6.column1, Mat6.column2, Mat6.column3, Mat6.column4, Mat6.column5,
    Mat6.column6, diag6, dot6, rnd_zero, ha, hb, hc, hd, he, hf]

/-- the first observation, made at the time of the filter, is processed -/
theorem first_process {epoch : Epoch} {p : Hill} (hn : p.n ≠ 0) {ob : SpaceObservation} (ht : ob.observer_state.epoch = epoch)
    {z e : Vec3} (hz : hillMeasurement rounded ob = .ok z) (he : hillErrors rounded ob = .ok e) :
    ∃ s s' P, new rounded epoch p = .ok s ∧ process rounded ob s = (.ok (), s') ∧ s'.p10 = some P ∧ P.toMatrix.PosDef ∧
      (∀ i j, Spec.IsBinary64 (P.toMatrix i j)) ∧ s'.r = some (measurementCovariance e) ∧
      (H.toMatrix * P.toMatrix * H.toMatrixᵀ + (measurementCovariance e).toMatrix).det =
        (H.toMatrix * P.toMatrix * H.toMatrixᵀ + (measurementCovariance e).toMatrix) 0 0 *
        (H.toMatrix * P.toMatrix * H.toMatrixᵀ + (measurementCovariance e).toMatrix) 1 1 *
        (H.toMatrix * P.toMatrix * H.toMatrixᵀ + (measurementCovariance e).toMatrix) 2 2 := by
  obtain ⟨v, hv⟩ : ∃ v, v = rnd (rnd 5e-5) := ⟨_, rfl⟩
  have hv0 : 0 < rnd 5e-5 := rnd_pos (by norm_num)
  have hq0 : 0 < rnd 1e-16 := rnd_pos (by norm_num)
  have hvd : rnd (rnd 5e-5) = rnd 5e-5 := isDouble_rnd _
  have hhalf : rnd 0.5 = 0.5 := by rw [rnd_eq 4503599627370496 (-53)] <;> norm_num [abs_lt]
  obtain ⟨P, hP⟩ : ∃ P, P = diag6 (rnd (0.5 + rnd 1e-16)) (rnd (0.5 + rnd 1e-16)) (rnd (0.5 + rnd 1e-16))
    (rnd (rnd 5e-5 + rnd 1e-16)) (rnd (rnd 5e-5 + rnd 1e-16)) (rnd (rnd 5e-5 + rnd 1e-16)) := ⟨_, rfl⟩
  have h1 : 0 < rnd (0.5 + rnd 1e-16) := rnd_pos (by positivity)
  have h2 : 0 < rnd (rnd 5e-5 + rnd 1e-16) := rnd_pos (by positivity)
  have hPd : P.toMatrix.PosDef := by rw [hP]; exact RelativeKalman.posDef_diag6 h1 h1 h1 h2 h2 h2
  have hPq : P = mat6Plus (diag6 0.5 0.5 0.5 (rnd 5e-5) (rnd 5e-5) (rnd 5e-5))
      (diag6 (rnd 1e-16) (rnd 1e-16) (rnd 1e-16) (rnd 1e-16) (rnd 1e-16) (rnd 1e-16)) := by
    rw [hP]
    simp [mat6Plus, diag6, plus6, rnd_zero]
  have hPr : ∀ i j, rnd (P.toMatrix i j) = P.toMatrix i j := by rw [hPq]; exact rounded_mat6 _ _
  have hRd := measurementCovariance_psd e
  have hdet : (H.toMatrix * P.toMatrix * H.toMatrixᵀ + (measurementCovariance e).toMatrix).det =
        (H.toMatrix * P.toMatrix * H.toMatrixᵀ + (measurementCovariance e).toMatrix) 0 0 *
        (H.toMatrix * P.toMatrix * H.toMatrixᵀ + (measurementCovariance e).toMatrix) 1 1 *
        (H.toMatrix * P.toMatrix * H.toMatrixᵀ + (measurementCovariance e).toMatrix) 2 2 := by
    have hoff : ∀ i j : Fin 3, i ≠ j → (H.toMatrix * P.toMatrix * H.toMatrixᵀ + (measurementCovariance e).toMatrix) i j = 0 := by
      intro i j hij
      rw [Matrix.add_apply, pick_column, pick_row, hP, RelativeKalman.diag6_toMatrix, Matrix.diagonal_apply_ne _ (by
        intro h; exact hij (Fin.castLE_injective _ h)), zero_add]
      match i, j with
      | 0, 0 | 1, 1 | 2, 2 => exact absurd rfl hij
      | 0, 1 | 0, 2 | 1, 0 | 1, 2 | 2, 0 | 2, 1 => simp [measurementCovariance, Mat3.toMatrix, Vec3.toFun]
    rw [Matrix.det_fin_three, hoff 0 1 (by decide), hoff 0 2 (by decide), hoff 1 0 (by decide), hoff 1 2 (by decide),
      hoff 2 0 (by decide), hoff 2 1 (by decide)]
    ring
  -- the gain exists
  obtain ⟨inv, hinv⟩ : ∃ inv, inverse (mat3Plus (mat36Mul63 H (mat6Mul63 P HT)) (measurementCovariance e)) = .ok inv := by
    obtain ⟨g, hg⟩ : ∃ g : RelativeKalman, g = ⟨epoch, p, p.state.vector, none, P, some P, P, P, none, none, 0, 0,
      some (measurementCovariance e)⟩ := ⟨_, rfl⟩
    obtain ⟨K, k1, -⟩ := C157_optimal g P _ (by rw [hg]) (by rw [hg])
      (fun i j => (isDouble_iff _).mp (hPr i j)) hPd hRd _ rfl 1 (by norm_num) le_rfl (by rw [hdet, one_mul])
    rcases hi : inverse (mat3Plus (mat36Mul63 H (mat6Mul63 P HT)) (measurementCovariance e)) with e1 | inv
    · simp [gain, hg, attr, hi] at k1
    · exact ⟨inv, rfl⟩
  have hf := hillMatrix_zero hn
  obtain ⟨s, hs, hs1, hs2, hs3, hs4⟩ : ∃ s, new rounded epoch p = .ok s ∧ s.propagator = p ∧ s.epoch = epoch ∧
      s.p00 = diag6 0.5 0.5 0.5 (rnd 5e-5) (rnd 5e-5) (rnd 5e-5) ∧
      s.q = diag6 (rnd 1e-16) (rnd 1e-16) (rnd 1e-16) (rnd 1e-16) (rnd 1e-16) (rnd 1e-16) :=
    ⟨_, by rw [new, hf]; rfl, rfl, rfl, rfl, rfl⟩
  have hdt : rnd (rnd (ob.observer_state.epoch.value - s.epoch.value) * SECONDS_IN_DAY) = 0 := by
    rw [hs2, ht, sub_self, rnd_zero, zero_mul, rnd_zero]
  have hp : mat6Plus (mat6Mul Mat6.identity (mat6Mul s.p00 Mat6.identity.transpose)) s.q = P := by
    rw [hs3, hs4, identity_mul hhalf hhalf hhalf hvd hvd hvd, hPq]
  rw [← hdt, ← hs1] at hf
  obtain ⟨s', hs'⟩ := process_returns hz he hf (by rw [hp]; exact hinv)
  obtain ⟨z', e', f', inv', g1, g2, g3, p', k', x', x'', g4, -, -, -, -, g5⟩ := process_ok hs'
  rw [he] at g2
  cases g2
  rw [hf] at g3
  cases g3
  rw [hp] at g4
  subst g4
  exact ⟨s, s', p', hs, hs', by rw [g5], hPd, fun i j => (isDouble_iff _).mp (hPr i j), by rw [g5], hdet⟩

theorem rounded_bound {x : ℝ} {n : ℤ} (hn : |n| < 2 ^ 53) (hx : |x| ≤ n) : |rnd x| ≤ n := by
  rw [_root_.abs_le] at hx ⊢
  have h1 := rnd_mono hx.1
  have h2 := rnd_mono hx.2
  have h3 := rnd_int n hn
  have h4 := rnd_int (-n) (by rwa [abs_neg])
  push_cast at h4
  rw [h4] at h1
  rw [h3] at h2
  exact ⟨h1, h2⟩

/-- states near the geosynchronous one are converted to the Hill frame -/
theorem geo_converts {r : Vec3} (hx : |r.x - 42164| ≤ 30) (hy : |r.y| ≤ 30) (hz : |r.z| ≤ 30) :
    ∃ h, F64.gcrfToHcw rounded geoState.position geoState.velocity r geoState.velocity = .ok h := by
  have e1 : geoState.position.magnitude = 42164 :=
    Vec3.magnitude_of_dot (by norm_num) (by simp only [geoState, GCRF.new, State.new, Vec3.copy, Vec3.dot]; norm_num)
  have e2 : geoState.velocity.magnitude = 3.0747 :=
    Vec3.magnitude_of_dot (by norm_num) (by simp only [geoState, GCRF.new, State.new, Vec3.copy, Vec3.dot]; norm_num)
  have e3 : (geoState.position.cross geoState.velocity).magnitude = 42164 * 3.0747 :=
    Vec3.magnitude_of_dot (by norm_num) (by
      simp only [geoState, GCRF.new, State.new, Vec3.copy, Vec3.dot, Vec3.cross]; norm_num)
  rw [_root_.abs_le] at hx hy hz
  have sq : r.magnitude ^ 2 = r.x * r.x + r.y * r.y + r.z * r.z := by rw [Vec3.magnitude_sq_dot]; rfl
  have b1 : 42000 ≤ r.magnitude :=
    abs_le_of_sq_le_sq' (by rw [sq]; nlinarith) (Vec3.magnitude_nonneg _) |>.2
  have b2 : r.magnitude ≤ 43000 := abs_le_of_sq_le_sq' (by rw [sq]; nlinarith) (by norm_num) |>.2
  obtain ⟨h, p, v, h1, h2, -⟩ := C113_to_hcw F64.rounded_accurate.1 F64.rounded_accurate.2 F64.asin_rounded
    geoState (GCRF.new geoState.epoch r geoState.velocity) (Vec3.magnitude_pos.mp (by rw [e1]; norm_num))
    (Vec3.magnitude_pos.mp (by rw [e2]; norm_num)) (by rw [e1, e2, e3]; norm_num)
    (by rw [e1]; simp only [GCRF.new, State.new, Vec3.copy]; linarith)
    (by rw [e1]; simp only [GCRF.new, State.new, Vec3.copy]; linarith) (by
      have : geoState.position.dot r = 42164 * r.x := by
        simp only [geoState, GCRF.new, State.new, Vec3.copy, Vec3.dot]; ring
      rw [e1]; simp only [GCRF.new, State.new, Vec3.copy]; rw [this]; nlinarith)
  exact ⟨_, h2⟩

end F64.Kalman

/-- a new filter processes an observation of a satellite 10 km ahead of a geosynchronous one, whatever angles have been
measured and with whatever angular error; then the hypotheses of `C156_process` and `C157_optimal` hold with `ρ = 1` -/
theorem geo_observation (p : Hill) (hn : p.n ≠ 0) (ra dec err : ℝ) :
    ∃ s s' P R, F64.Kalman.new F64.rounded geoState.epoch p = .ok s ∧
      F64.Kalman.process F64.rounded ⟨geoState, ⟨0, 10, 0⟩, 10, ra, dec, 1, err⟩ s = (.ok (), s') ∧
      s'.p10 = some P ∧ s'.r = some R ∧ P.toMatrix.PosDef ∧ (∀ i j, Spec.IsBinary64 (P.toMatrix i j)) ∧
      R.toMatrix.PosSemidef ∧ ∀ S, S = RelativeKalman.H.toMatrix * P.toMatrix * RelativeKalman.H.toMatrixᵀ + R.toMatrix →
        1 * (S 0 0 * S 1 1 * S 2 2) ≤ S.det := by
  have one : ∀ x : ℝ, |x| ≤ 1 → |F64.rnd x| ≤ 1 := fun x hx => by
    have := F64.Kalman.rounded_bound (n := 1) (by norm_num) (x := x) (by push_cast; exact hx)
    push_cast at this; exact this
  have g0 : geoState.position = ⟨42164, 0, 0⟩ := rfl
  obtain ⟨z, hz⟩ := F64.Kalman.geo_converts (r := F64.plus geoState.position ⟨0, 10, 0⟩)
    (by
      have : F64.rnd 42164 = 42164 := by have := F64.rnd_int 42164 (by norm_num); exact_mod_cast this
      simp [F64.plus, g0, this])
    (by
      have : F64.rnd 10 = 10 := by have := F64.rnd_int 10 (by norm_num); exact_mod_cast this
      simp [F64.plus, g0, this]; norm_num) (by simp [F64.plus, g0, F64.rnd_zero])
  -- the displaced point
  have herr : ∀ c d : ℝ, |c| ≤ 1 → |d| ≤ 10 → |F64.rnd (F64.rnd (c * F64.rnd (10 + 1)) - d)| ≤ 21 := by
    intro c d hc hd
    have e11 : F64.rnd (10 + 1) = 11 := by have := F64.rnd_int 11 (by norm_num); norm_num at this ⊢; exact_mod_cast this
    rw [e11]
    have h1 := F64.Kalman.rounded_bound (n := 11) (by norm_num) (x := c * 11) (by
      rw [abs_mul, abs_of_pos (show (0:ℝ) < 11 by norm_num)]; push_cast; linarith)
    have h2 := F64.Kalman.rounded_bound (n := 21) (by norm_num) (x := F64.rnd (c * 11) - d) (by
      refine (abs_sub _ _).trans ?_
      push_cast at h1 ⊢
      linarith)
    push_cast at h2
    exact h2
  have hmul : ∀ a b : ℝ, |a| ≤ 1 → |b| ≤ 1 → |F64.rnd (a * b)| ≤ 1 := fun a b ha hb =>
    one _ (by rw [abs_mul]; exact mul_le_one₀ ha (abs_nonneg _) hb)
  have hc : ∀ x, |F64.rnd (Real.cos x)| ≤ 1 := fun x => one _ (Real.abs_cos_le_one x)
  have hs : ∀ x, |F64.rnd (Real.sin x)| ≤ 1 := fun x => one _ (Real.abs_sin_le_one x)
  have far : ∀ w : ℝ, |w| ≤ 21 → |F64.rnd (42164 + w) - 42164| ≤ 30 := fun w hw => by
    rw [abs_le] at hw ⊢
    have h1 := F64.rnd_mono (show (42143 : ℝ) ≤ 42164 + w by linarith [hw.1])
    have h2 := F64.rnd_mono (show 42164 + w ≤ (42185 : ℝ) by linarith [hw.2])
    have h3 := F64.rnd_int 42143 (by norm_num)
    have h4 := F64.rnd_int 42185 (by norm_num)
    push_cast at h3 h4
    rw [h3] at h1
    rw [h4] at h2
    exact ⟨by linarith, by linarith⟩
  have near : ∀ w : ℝ, |w| ≤ 21 → |F64.rnd (0 + w)| ≤ 30 := fun w hw => by
    have := F64.Kalman.rounded_bound (n := 21) (by norm_num) (x := 0 + w) (by push_cast; rw [zero_add]; exact hw)
    push_cast at this
    linarith
  obtain ⟨e, he⟩ := F64.Kalman.geo_converts (r := F64.plus geoState.position (F64.minus (F64.toCartesian F64.rounded
      ⟨F64.rnd (10 + 1), F64.rnd (ra + err), F64.rnd (dec + err)⟩) ⟨0, 10, 0⟩))
    (far _ (herr _ 0 (hmul _ _ (hc _) (hc _)) (by norm_num)))
    (near _ (herr _ 10 (hmul _ _ (hc _) (hs _)) (by norm_num)))
    (near _ (herr _ 0 (hs _) (by norm_num)))
  obtain ⟨s, s', P, h1, h2, h3, h4, h5, h6, h7⟩ := F64.Kalman.first_process (epoch := geoState.epoch) hn
    (ob := ⟨geoState, ⟨0, 10, 0⟩, 10, ra, dec, 1, err⟩) rfl (z := z.1) (e := e.1)
    (by simp only [F64.Kalman.hillMeasurement, hz, ok_bind, pure_eq_ok])
    (by simp only [F64.Kalman.hillErrors, he, ok_bind, pure_eq_ok])
  refine ⟨s, s', P, _, h1, h2, h3, h6, h4, h5, F64.Kalman.measurementCovariance_psd _, fun S hS => ?_⟩
  rw [hS, h7, one_mul]

/-- so the covariance stored after this observation is within the bound of `C156_process` of an exact one -/
example (p : Hill) (hn : p.n ≠ 0) (ra dec err : ℝ) : ∃ s s' K R, F64.Kalman.new F64.rounded geoState.epoch p = .ok s ∧
    F64.Kalman.process F64.rounded ⟨geoState, ⟨0, 10, 0⟩, 10, ra, dec, 1, err⟩ s = (.ok (), s') ∧
    s'.k = some K ∧ s'.r = some R ∧
    (Spec.updatedCovariance (s'.f.toMatrix * s.p00.toMatrix * s'.f.toMatrixᵀ + s.q.toMatrix) RelativeKalman.H.toMatrix
      R.toMatrix K.toMatrix).PosSemidef := by
  obtain ⟨s, s', P, R, h1, h2, -⟩ := geo_observation p hn ra dec err
  have e : s.p00.toMatrix.PosSemidef ∧ s.q.toMatrix.PosSemidef := by
    simp only [F64.Kalman.new, F64.Kalman.hillMatrix_zero hn, ok_bind, pure_eq_ok, Except.ok.injEq] at h1
    rw [← h1]
    have hv : 0 < F64.rnd 5e-5 := F64.rnd_pos (by norm_num)
    have hq : 0 < F64.rnd 1e-16 := F64.rnd_pos (by norm_num)
    exact ⟨(RelativeKalman.posDef_diag6 (by norm_num) (by norm_num) (by norm_num) hv hv hv).posSemidef,
      (RelativeKalman.posDef_diag6 hq hq hq hq hq hq).posSemidef⟩
  obtain ⟨-, K, R', k1, k2, k3, -⟩ := C156_process F64.rounded s s' _ h2 e.2 s.p00.toMatrix 0 e.1 (fun i j => by simp)
  exact ⟨s, s', K, R', h1, h2, k1, k2, k3⟩

/-- and the hypotheses of `C156_history` hold for one observation, with weights 1 and suitable bounds -/
example (p : Hill) (hn : p.n ≠ 0) (ra dec err : ℝ) : ∃ (s : ℕ → RelativeKalman) (g p' q : ℝ),
    F64.Kalman.process F64.rounded ⟨geoState, ⟨0, 10, 0⟩, 10, ra, dec, 1, err⟩ (s 0) = (.ok (), s 1) ∧ 0 ≤ p' ∧
    ∀ K R, (s 1).k = some K → (s 1).r = some R →
      (∀ i, (((1 - K.toMatrix * RelativeKalman.H.toMatrix).map abs * (s 1).f.toMatrix.map abs) *ᵥ 1) i ≤ g) ∧
      (∀ i j, |(s 0).p00.toMatrix i j| ≤ p') ∧
      ∀ i j, ((1 - K.toMatrix * RelativeKalman.H.toMatrix).map abs * (s 0).q.toMatrix.map abs *
        ((1 - K.toMatrix * RelativeKalman.H.toMatrix).map abs)ᵀ +
        K.toMatrix.map abs * R.toMatrix.map abs * (K.toMatrix.map abs)ᵀ) i j ≤ q := by
  obtain ⟨s, s', P, R, h1, h2, -⟩ := geo_observation p hn ra dec err
  have fin1 : ∀ f : Fin 6 → ℝ, ∃ c, ∀ i, f i ≤ c := fun f =>
    ⟨∑ i, |f i|, fun i => (le_abs_self _).trans (Finset.single_le_sum (f := fun i => |f i|)
      (fun _ _ => abs_nonneg _) (Finset.mem_univ i))⟩
  have fin2 : ∀ f : Fin 6 → Fin 6 → ℝ, ∃ c, 0 ≤ c ∧ ∀ i j, f i j ≤ c := fun f =>
    ⟨∑ i, ∑ j, |f i j|, Finset.sum_nonneg fun _ _ => Finset.sum_nonneg fun _ _ => abs_nonneg _, fun i j =>
      ((le_abs_self _).trans (Finset.single_le_sum (f := fun j => |f i j|) (fun _ _ => abs_nonneg _)
        (Finset.mem_univ j))).trans (Finset.single_le_sum (f := fun i => ∑ j, |f i j|)
        (fun _ _ => Finset.sum_nonneg fun _ _ => abs_nonneg _) (Finset.mem_univ i))⟩
  obtain ⟨z, e, f, inv, -, -, -, p10, k, x10, x00, -, -, -, -, -, hs⟩ := F64.Kalman.process_ok h2
  obtain ⟨g, hg⟩ := fin1 (((1 - k.toMatrix * RelativeKalman.H.toMatrix).map abs * s'.f.toMatrix.map abs) *ᵥ 1)
  obtain ⟨p', hp0, hp⟩ := fin2 (fun i j => |s.p00.toMatrix i j|)
  obtain ⟨q, -, hq⟩ := fin2 ((1 - k.toMatrix * RelativeKalman.H.toMatrix).map abs * s.q.toMatrix.map abs *
        ((1 - k.toMatrix * RelativeKalman.H.toMatrix).map abs)ᵀ +
        k.toMatrix.map abs * (F64.Kalman.measurementCovariance e).toMatrix.map abs * (k.toMatrix.map abs)ᵀ)
  refine ⟨fun n => if n = 0 then s else s', g, p', q, h2, hp0, fun K R hK hR => ?_⟩
  have hK' : s'.k = some K := hK
  have hR' : s'.r = some R := hR
  have hk : s'.k = some k := by rw [hs]
  have hr : s'.r = some (F64.Kalman.measurementCovariance e) := by rw [hs]
  rw [hk] at hK'
  rw [hr] at hR'
  cases hK'
  cases hR'
  exact ⟨hg, hp, hq⟩

end Openspace
