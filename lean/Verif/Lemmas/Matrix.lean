import Verif.Lemmas.Linalg

/-! # The unrolled matrix products are Mathlib's matrix products -/

namespace Openspace

theorem Vec3.dot_toFun (a b : Vec3) : a.dot b = a.toFun ⬝ᵥ b.toFun := by
  simp [Vec3.toFun, Vec3.dot, dotProduct, Fin.sum_univ_three]

theorem Vec6.dot_toFun (a b : Vec6) : a.dot b = a.toFun ⬝ᵥ b.toFun := by
  simp [Vec6.toFun, Vec6.dot, dotProduct, Fin.sum_univ_six]

theorem Vec6.toFun_injective : Function.Injective Vec6.toFun := by
  intro a b h
  have h0 := congrFun h 0; have h1 := congrFun h 1; have h2 := congrFun h 2
  have h3 := congrFun h 3; have h4 := congrFun h 4; have h5 := congrFun h 5
  simp [Vec6.toFun] at h0 h1 h2 h3 h4 h5
  ext <;> assumption

/-! ### rows and columns as families -/

def Mat3.rows (m : Mat3) : Fin 3 → Vec3 := ![m.row1, m.row2, m.row3]
def Mat3.cols (m : Mat3) : Fin 3 → Vec3 := ![m.column1, m.column2, m.column3]
def Mat36.rows (m : Mat36) : Fin 3 → Vec6 := ![m.row1, m.row2, m.row3]
def Mat36.cols (m : Mat36) : Fin 6 → Vec3 :=
  ![m.column1, m.column2, m.column3, m.column4, m.column5, m.column6]
def Mat63.rows (m : Mat63) : Fin 6 → Vec3 := ![m.row1, m.row2, m.row3, m.row4, m.row5, m.row6]
def Mat63.cols (m : Mat63) : Fin 3 → Vec6 := ![m.column1, m.column2, m.column3]
def Mat6.rows (m : Mat6) : Fin 6 → Vec6 := ![m.row1, m.row2, m.row3, m.row4, m.row5, m.row6]
def Mat6.cols (m : Mat6) : Fin 6 → Vec6 :=
  ![m.column1, m.column2, m.column3, m.column4, m.column5, m.column6]

theorem Mat3.toMatrix_rows (m : Mat3) (i j) : m.toMatrix i j = (m.rows i).toFun j := by
  match i with | 0 | 1 | 2 => rfl
theorem Mat36.toMatrix_rows (m : Mat36) (i j) : m.toMatrix i j = (m.rows i).toFun j := by
  match i with | 0 | 1 | 2 => rfl
theorem Mat63.toMatrix_rows (m : Mat63) (i j) : m.toMatrix i j = (m.rows i).toFun j := by
  match i with | 0 | 1 | 2 | 3 | 4 | 5 => rfl
theorem Mat6.toMatrix_rows (m : Mat6) (i j) : m.toMatrix i j = (m.rows i).toFun j := by
  match i with | 0 | 1 | 2 | 3 | 4 | 5 => rfl

theorem Mat3.toMatrix_cols (m : Mat3) (i j) : m.toMatrix i j = (m.cols j).toFun i := by
  match i, j with
  | 0, 0 | 0, 1 | 0, 2 | 1, 0 | 1, 1 | 1, 2 | 2, 0 | 2, 1 | 2, 2 => rfl
theorem Mat36.toMatrix_cols (m : Mat36) (i j) : m.toMatrix i j = (m.cols j).toFun i := by
  match i with
  | 0 | 1 | 2 => match j with | 0 | 1 | 2 | 3 | 4 | 5 => rfl
theorem Mat63.toMatrix_cols (m : Mat63) (i j) : m.toMatrix i j = (m.cols j).toFun i := by
  match i with
  | 0 | 1 | 2 | 3 | 4 | 5 => match j with | 0 | 1 | 2 => rfl
theorem Mat6.toMatrix_cols (m : Mat6) (i j) : m.toMatrix i j = (m.cols j).toFun i := by
  match i with
  | 0 | 1 | 2 | 3 | 4 | 5 => match j with | 0 | 1 | 2 | 3 | 4 | 5 => rfl

/-! ### products -/

theorem Mat3.mul36_toMatrix (m : Mat3) (k : Mat36) : (m.mul36 k).toMatrix = m.toMatrix * k.toMatrix := by
  have h : ∀ i j, (m.mul36 k).toMatrix i j = (m.rows i).dot (k.cols j) := by
    intro i j
    match i with
    | 0 | 1 | 2 => match j with | 0 | 1 | 2 | 3 | 4 | 5 => rfl
  ext i j
  rw [h, Vec3.dot_toFun, Matrix.mul_apply]
  exact Finset.sum_congr rfl fun l _ => by rw [Mat3.toMatrix_rows, Mat36.toMatrix_cols]

theorem Mat36.mul63_toMatrix (m : Mat36) (k : Mat63) :
    (m.mul63 k).toMatrix = m.toMatrix * k.toMatrix := by
  have h : ∀ i j, (m.mul63 k).toMatrix i j = (m.rows i).dot (k.cols j) := by
    intro i j
    match i with
    | 0 | 1 | 2 => match j with | 0 | 1 | 2 => rfl
  ext i j
  rw [h, Vec6.dot_toFun, Matrix.mul_apply]
  exact Finset.sum_congr rfl fun l _ => by rw [Mat36.toMatrix_rows, Mat63.toMatrix_cols]

theorem Mat63.mul36_toMatrix (m : Mat63) (k : Mat36) :
    (m.mul36 k).toMatrix = m.toMatrix * k.toMatrix := by
  have h : ∀ i j, (m.mul36 k).toMatrix i j = (m.rows i).dot (k.cols j) := by
    intro i j
    match i with
    | 0 | 1 | 2 | 3 | 4 | 5 => match j with | 0 | 1 | 2 | 3 | 4 | 5 => rfl
  ext i j
  rw [h, Vec3.dot_toFun, Matrix.mul_apply]
  exact Finset.sum_congr rfl fun l _ => by rw [Mat63.toMatrix_rows, Mat36.toMatrix_cols]

theorem Mat63.mul3_toMatrix (m : Mat63) (k : Mat3) :
    (m.mul3 k).toMatrix = m.toMatrix * k.toMatrix := by
  have h : ∀ i j, (m.mul3 k).toMatrix i j = (m.rows i).dot (k.cols j) := by
    intro i j
    match i with
    | 0 | 1 | 2 | 3 | 4 | 5 => match j with | 0 | 1 | 2 => rfl
  ext i j
  rw [h, Vec3.dot_toFun, Matrix.mul_apply]
  exact Finset.sum_congr rfl fun l _ => by rw [Mat63.toMatrix_rows, Mat3.toMatrix_cols]

theorem Mat6.mul63_toMatrix (m : Mat6) (k : Mat63) :
    (m.mul63 k).toMatrix = m.toMatrix * k.toMatrix := by
  have h : ∀ i j, (m.mul63 k).toMatrix i j = (m.rows i).dot (k.cols j) := by
    intro i j
    match i with
    | 0 | 1 | 2 | 3 | 4 | 5 => match j with | 0 | 1 | 2 => rfl
  ext i j
  rw [h, Vec6.dot_toFun, Matrix.mul_apply]
  exact Finset.sum_congr rfl fun l _ => by rw [Mat6.toMatrix_rows, Mat63.toMatrix_cols]

theorem Mat6.mul_toMatrix (m : Mat6) (k : Mat6) :
    (m.mul k).toMatrix = m.toMatrix * k.toMatrix := by
  have h : ∀ i j, (m.mul k).toMatrix i j = (m.rows i).dot (k.cols j) := by
    intro i j
    match i with
    | 0 | 1 | 2 | 3 | 4 | 5 => match j with | 0 | 1 | 2 | 3 | 4 | 5 => rfl
  ext i j
  rw [h, Vec6.dot_toFun, Matrix.mul_apply]
  exact Finset.sum_congr rfl fun l _ => by rw [Mat6.toMatrix_rows, Mat6.toMatrix_cols]

/-! ### transposes and matrix-vector products -/

theorem Mat36.transpose_toMatrix (m : Mat36) : m.transpose.toMatrix = m.toMatrix.transpose := by
  ext i j
  rw [Matrix.transpose_apply, Mat36.toMatrix_cols, Mat63.toMatrix_rows]
  match i with | 0 | 1 | 2 | 3 | 4 | 5 => rfl

theorem Mat63.transpose_toMatrix (m : Mat63) : m.transpose.toMatrix = m.toMatrix.transpose := by
  ext i j
  rw [Matrix.transpose_apply, Mat63.toMatrix_cols, Mat36.toMatrix_rows]
  match i with | 0 | 1 | 2 => rfl

theorem Mat6.transpose_toMatrix (m : Mat6) : m.transpose.toMatrix = m.toMatrix.transpose := by
  ext i j
  rw [Matrix.transpose_apply, Mat6.toMatrix_cols, Mat6.toMatrix_rows]
  match i with | 0 | 1 | 2 | 3 | 4 | 5 => rfl

theorem Mat36.mulVec_toFun (m : Mat36) (v : Vec6) :
    (m.mulVec v).toFun = m.toMatrix.mulVec v.toFun := by
  have h : ∀ i, (m.mulVec v).toFun i = (m.rows i).dot v := by
    intro i; match i with | 0 | 1 | 2 => rfl
  ext i
  rw [h, Vec6.dot_toFun, Matrix.mulVec]
  exact Finset.sum_congr rfl fun l _ => congrArg (· * v.toFun l) (Mat36.toMatrix_rows m i l).symm

theorem Mat63.mulVec_toFun (m : Mat63) (v : Vec3) :
    (m.mulVec v).toFun = m.toMatrix.mulVec v.toFun := by
  have h : ∀ i, (m.mulVec v).toFun i = (m.rows i).dot v := by
    intro i; match i with | 0 | 1 | 2 | 3 | 4 | 5 => rfl
  ext i
  rw [h, Vec3.dot_toFun, Matrix.mulVec]
  exact Finset.sum_congr rfl fun l _ => congrArg (· * v.toFun l) (Mat63.toMatrix_rows m i l).symm

theorem Mat6.mulVec_toFun (m : Mat6) (v : Vec6) :
    (m.mulVec v).toFun = m.toMatrix.mulVec v.toFun := by
  have h : ∀ i, (m.mulVec v).toFun i = (m.rows i).dot v := by
    intro i; match i with | 0 | 1 | 2 | 3 | 4 | 5 => rfl
  ext i
  rw [h, Vec6.dot_toFun, Matrix.mulVec]
  exact Finset.sum_congr rfl fun l _ => congrArg (· * v.toFun l) (Mat6.toMatrix_rows m i l).symm

/-! ### sums, identity, diagonal -/

theorem Vec3.plus_toFun (a b : Vec3) : (a.plus b).toFun = a.toFun + b.toFun := by
  simp [Vec3.toFun, Vec3.plus]
theorem Vec3.minus_toFun (a b : Vec3) : (a.minus b).toFun = a.toFun - b.toFun := by
  simp [Vec3.toFun, Vec3.minus]
theorem Vec6.plus_toFun (a b : Vec6) : (a.plus b).toFun = a.toFun + b.toFun := by
  simp [Vec6.toFun, Vec6.plus]
theorem Vec6.minus_toFun (a b : Vec6) : (a.minus b).toFun = a.toFun - b.toFun := by
  simp [Vec6.toFun, Vec6.minus]
theorem Vec3.scaled_toFun (a : Vec3) (k : ℝ) : (a.scaled k).toFun = k • a.toFun := by
  simp [Vec3.toFun, Vec3.scaled, mul_comm]

theorem Mat3.plus_toMatrix (m k : Mat3) : (m.plus k).toMatrix = m.toMatrix + k.toMatrix := by
  have h : ∀ i, (m.plus k).rows i = (m.rows i).plus (k.rows i) := by
    intro i; match i with | 0 | 1 | 2 => rfl
  ext i j
  rw [Mat3.toMatrix_rows, h, Vec3.plus_toFun, Matrix.add_apply, Mat3.toMatrix_rows,
    Mat3.toMatrix_rows, Pi.add_apply]

theorem Mat3.scaled_toMatrix (m : Mat3) (c : ℝ) : (m.scaled c).toMatrix = c • m.toMatrix := by
  have h : ∀ i, (m.scaled c).rows i = (m.rows i).scaled c := by
    intro i; match i with | 0 | 1 | 2 => rfl
  ext i j
  rw [Mat3.toMatrix_rows, h, Vec3.scaled_toFun, Matrix.smul_apply, Mat3.toMatrix_rows,
    Pi.smul_apply]

theorem Mat6.plus_toMatrix (m k : Mat6) : (m.plus k).toMatrix = m.toMatrix + k.toMatrix := by
  have h : ∀ i, (m.plus k).rows i = (m.rows i).plus (k.rows i) := by
    intro i; match i with | 0 | 1 | 2 | 3 | 4 | 5 => rfl
  ext i j
  rw [Mat6.toMatrix_rows, h, Vec6.plus_toFun, Matrix.add_apply, Mat6.toMatrix_rows,
    Mat6.toMatrix_rows, Pi.add_apply]

theorem Mat6.minus_toMatrix (m k : Mat6) : (m.minus k).toMatrix = m.toMatrix - k.toMatrix := by
  have h : ∀ i, (m.minus k).rows i = (m.rows i).minus (k.rows i) := by
    intro i; match i with | 0 | 1 | 2 | 3 | 4 | 5 => rfl
  ext i j
  rw [Mat6.toMatrix_rows, h, Vec6.minus_toFun, Matrix.sub_apply, Mat6.toMatrix_rows,
    Mat6.toMatrix_rows, Pi.sub_apply]

theorem Mat6.diagonal_toFun (m : Mat6) : m.diagonal.toFun = m.toMatrix.diag := by
  ext i; match i with | 0 | 1 | 2 | 3 | 4 | 5 => rfl

theorem Mat6.identity_toMatrix : Mat6.identity.toMatrix = 1 := by
  ext i j
  rw [Matrix.one_apply]
  match i with
  | 0 | 1 | 2 | 3 | 4 | 5 => match j with | 0 | 1 | 2 | 3 | 4 | 5 => simp [Mat6.toMatrix, Mat6.identity, Vec6.toFun]

theorem Mat6.toMatrix_injective : Function.Injective Mat6.toMatrix := by
  intro a b h
  have h' : ∀ i, a.rows i = b.rows i := fun i => Vec6.toFun_injective (by
    ext j; rw [← Mat6.toMatrix_rows, ← Mat6.toMatrix_rows, h])
  have h0 := h' 0; have h1 := h' 1; have h2 := h' 2
  have h3 := h' 3; have h4 := h' 4; have h5 := h' 5
  simp [Mat6.rows] at h0 h1 h2 h3 h4 h5
  rcases a; rcases b; simp_all

end Openspace
