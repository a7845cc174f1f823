import Verif.Spec.Linalg
import Verif.Lemmas.Py
import Mathlib.Geometry.Euclidean.Angle.Unoriented.Basic

/-! # Helper lemmas about vectors and 3×3 matrices -/

namespace Openspace

namespace Vec3

@[simp] theorem copy_eq (v : Vec3) : v.copy = v := rfl

/-- the zero vector -/
def zero : Vec3 := ⟨0, 0, 0⟩

theorem magnitude_nonneg (v : Vec3) : 0 ≤ v.magnitude := Real.sqrt_nonneg _

theorem magnitude_sq (v : Vec3) : v.magnitude ^ 2 = v.x * v.x + v.y * v.y + v.z * v.z :=
  Real.sq_sqrt (by nlinarith [sq_nonneg v.x, sq_nonneg v.y, sq_nonneg v.z])

theorem magnitude_mul_self (v : Vec3) :
    v.magnitude * v.magnitude = v.x * v.x + v.y * v.y + v.z * v.z := by
  rw [← magnitude_sq]; ring

theorem magnitude_sq_dot (v : Vec3) : v.magnitude ^ 2 = v.dot v := magnitude_sq v

theorem magnitude_eq_zero {v : Vec3} : v.magnitude = 0 ↔ v = ⟨0, 0, 0⟩ := by
  constructor
  · intro h
    have h2 := v.magnitude_sq
    rw [h] at h2
    have hx : v.x = 0 := by nlinarith [sq_nonneg v.x, sq_nonneg v.y, sq_nonneg v.z]
    have hy : v.y = 0 := by nlinarith [sq_nonneg v.x, sq_nonneg v.y, sq_nonneg v.z]
    have hz : v.z = 0 := by nlinarith [sq_nonneg v.x, sq_nonneg v.y, sq_nonneg v.z]
    ext <;> simp [hx, hy, hz]
  · rintro rfl
    simp [magnitude, sqrtNN]

theorem magnitude_pos {v : Vec3} : 0 < v.magnitude ↔ v ≠ ⟨0, 0, 0⟩ := by
  rw [ne_eq, ← magnitude_eq_zero]
  exact ⟨fun h => h.ne', fun h => lt_of_le_of_ne v.magnitude_nonneg (Ne.symm h)⟩

theorem magnitude_ne_zero {v : Vec3} : v.magnitude ≠ 0 ↔ v ≠ ⟨0, 0, 0⟩ := not_congr magnitude_eq_zero

theorem eq_of_sq_eq {a b : ℝ} (ha : 0 ≤ a) (hb : 0 ≤ b) (h : a ^ 2 = b ^ 2) : a = b := by
  nlinarith [sq_nonneg (a - b), sq_nonneg (a + b)]

theorem magnitude_of_dot {v : Vec3} {r : ℝ} (hr : 0 ≤ r) (h : v.dot v = r ^ 2) : v.magnitude = r :=
  eq_of_sq_eq v.magnitude_nonneg hr (by rw [magnitude_sq_dot, h])

theorem magnitude_scaled (v : Vec3) (k : ℝ) : (v.scaled k).magnitude = |k| * v.magnitude := by
  apply magnitude_of_dot (by positivity [v.magnitude_nonneg])
  rw [mul_pow, sq_abs, magnitude_sq]
  simp only [dot, scaled]; ring

theorem normalized_ok {v : Vec3} (h : v ≠ ⟨0, 0, 0⟩) :
    v.normalized = .ok (v.scaled (1 / v.magnitude)) := by
  simp [normalized, pyDiv_ok (magnitude_ne_zero.mpr h)]

theorem normalized_zero : (⟨0, 0, 0⟩ : Vec3).normalized = .error .zeroDivision := by
  simp [normalized, magnitude_eq_zero.mpr rfl]

theorem normalized_eq_ok {v u : Vec3} :
    v.normalized = .ok u ↔ v ≠ ⟨0, 0, 0⟩ ∧ u = v.scaled (1 / v.magnitude) := by
  by_cases h : v = ⟨0, 0, 0⟩
  · subst h; simp [normalized_zero]
  · simp [normalized_ok h, h, eq_comm]

theorem normalized_eq_error {v : Vec3} {e : PyErr} :
    v.normalized = .error e ↔ v = ⟨0, 0, 0⟩ ∧ e = .zeroDivision := by
  by_cases h : v = ⟨0, 0, 0⟩
  · subst h; simp [normalized_zero, eq_comm]
  · simp [normalized_ok h, h]

theorem unit_dot {v : Vec3} (h : v ≠ ⟨0, 0, 0⟩) :
    (v.scaled (1 / v.magnitude)).dot (v.scaled (1 / v.magnitude)) = 1 := by
  have hm := magnitude_ne_zero.mpr h
  have h2 := v.magnitude_sq_dot
  have : (v.scaled (1 / v.magnitude)).dot (v.scaled (1 / v.magnitude))
      = v.dot v / v.magnitude ^ 2 := by
    simp only [dot, scaled]; field_simp
  rw [this, ← h2]; field_simp

theorem normalized_dot_self {v u : Vec3} (h : v.normalized = .ok u) : u.dot u = 1 := by
  obtain ⟨h0, rfl⟩ := normalized_eq_ok.mp h
  exact unit_dot h0

theorem magnitude_unit {u : Vec3} (h : u.dot u = 1) : u.magnitude = 1 :=
  magnitude_of_dot zero_le_one (by rw [h]; norm_num)

theorem normalized_of_unit {u : Vec3} (h : u.dot u = 1) : u.normalized = .ok u := by
  have h0 : u ≠ ⟨0, 0, 0⟩ := by rintro rfl; simp [dot] at h
  rw [normalized_ok h0, magnitude_unit h]
  simp [scaled]

/-! ### Algebra -/

theorem dot_comm (a b : Vec3) : a.dot b = b.dot a := by simp only [dot]; ring
theorem dot_cross_left (a b : Vec3) : a.dot (a.cross b) = 0 := by simp only [dot, cross]; ring
theorem dot_cross_right (a b : Vec3) : b.dot (a.cross b) = 0 := by simp only [dot, cross]; ring
theorem cross_dot_left (a b : Vec3) : (a.cross b).dot a = 0 := by simp only [dot, cross]; ring
theorem cross_dot_right (a b : Vec3) : (a.cross b).dot b = 0 := by simp only [dot, cross]; ring

theorem lagrange (a b : Vec3) :
    (a.cross b).dot (a.cross b) = a.dot a * b.dot b - a.dot b ^ 2 := by
  simp only [dot, cross]; ring

theorem dot_scaled_left (a b : Vec3) (k : ℝ) : (a.scaled k).dot b = k * a.dot b := by
  simp only [dot, scaled]; ring
theorem dot_scaled_right (a b : Vec3) (k : ℝ) : a.dot (b.scaled k) = k * a.dot b := by
  simp only [dot, scaled]; ring
theorem dot_plus_left (a b c : Vec3) : (a.plus b).dot c = a.dot c + b.dot c := by
  simp only [dot, plus]; ring
theorem dot_plus_right (a b c : Vec3) : a.dot (b.plus c) = a.dot b + a.dot c := by
  simp only [dot, plus]; ring
theorem dot_minus_left (a b c : Vec3) : (a.minus b).dot c = a.dot c - b.dot c := by
  simp only [dot, minus]; ring
theorem dot_minus_right (a b c : Vec3) : a.dot (b.minus c) = a.dot b - a.dot c := by
  simp only [dot, minus]; ring

theorem dot_self_nonneg (a : Vec3) : 0 ≤ a.dot a := by rw [← magnitude_sq_dot]; positivity

theorem dot_self_eq_zero {a : Vec3} : a.dot a = 0 ↔ a = ⟨0, 0, 0⟩ := by
  rw [← magnitude_sq_dot, ← magnitude_eq_zero]; simp

theorem cauchy (a b : Vec3) : |a.dot b| ≤ a.magnitude * b.magnitude := by
  have h := (a.cross b).dot_self_nonneg
  rw [lagrange, ← magnitude_sq_dot, ← magnitude_sq_dot] at h
  apply abs_le_of_sq_le_sq' _ (mul_nonneg a.magnitude_nonneg b.magnitude_nonneg) |> abs_le.mpr
  nlinarith

theorem cauchy' (a b : Vec3) : |a.dot b / (a.magnitude * b.magnitude)| ≤ 1 := by
  rw [abs_div, abs_of_nonneg (mul_nonneg a.magnitude_nonneg b.magnitude_nonneg)]
  exact div_le_one_of_le₀ (cauchy a b) (mul_nonneg a.magnitude_nonneg b.magnitude_nonneg)

/-- `angle` for non-zero vectors -/
theorem angle_ok {a b : Vec3} (ha : a ≠ ⟨0, 0, 0⟩) (hb : b ≠ ⟨0, 0, 0⟩) :
    a.angle b = .ok (Real.arccos (a.dot b / (a.magnitude * b.magnitude))) := by
  have hab := mul_ne_zero (magnitude_ne_zero.mpr ha) (magnitude_ne_zero.mpr hb)
  have h := abs_le.mp (cauchy' a b)
  simp only [angle, pyDiv_ok hab, ok_bind]
  rw [if_neg (by linarith [h.2] : ¬ _ > (1 : ℝ)), if_neg (by linarith [h.1]), pyAcos_ok h.1 h.2]

theorem angle_eq_ok {a b : Vec3} {t : ℝ} :
    a.angle b = .ok t ↔ (a ≠ ⟨0, 0, 0⟩ ∧ b ≠ ⟨0, 0, 0⟩) ∧
      t = Real.arccos (a.dot b / (a.magnitude * b.magnitude)) := by
  by_cases ha : a = ⟨0, 0, 0⟩
  · subst ha; simp [angle, magnitude_eq_zero.mpr rfl]
  · by_cases hb : b = ⟨0, 0, 0⟩
    · subst hb; simp [angle, magnitude_eq_zero.mpr rfl]
    · simp [angle_ok ha hb, ha, hb, eq_comm]

theorem angle_eq_error {a b : Vec3} {e : PyErr} :
    a.angle b = .error e ↔ (a = ⟨0, 0, 0⟩ ∨ b = ⟨0, 0, 0⟩) ∧ e = .zeroDivision := by
  by_cases ha : a = ⟨0, 0, 0⟩
  · subst ha; simp [angle, magnitude_eq_zero.mpr rfl, eq_comm]
  · by_cases hb : b = ⟨0, 0, 0⟩
    · subst hb; simp [angle, magnitude_eq_zero.mpr rfl, eq_comm]
    · simp [angle_ok ha hb, ha, hb]

theorem inner_toE (a b : Vec3) : inner ℝ a.toE b.toE = a.dot b := by
  simp [toE, toFun, dot, PiLp.inner_apply, Fin.sum_univ_three, mul_comm]

theorem norm_toE (a : Vec3) : ‖a.toE‖ = a.magnitude := by
  rw [EuclideanSpace.norm_eq]
  simp [toE, toFun, magnitude, sqrtNN, Fin.sum_univ_three, sq]

theorem toE_injective : Function.Injective toE := by
  intro a b h
  have h' : a.toFun = b.toFun := by simpa [toE] using h
  have h0 := congrFun h' 0
  have h1 := congrFun h' 1
  have h2 := congrFun h' 2
  ext <;> simp_all [toFun]

end Vec3

namespace Mat3

/-- the entries in elementary form -/
theorem toMatrix_eq (m : Mat3) : m.toMatrix =
    !![m.row1.x, m.row1.y, m.row1.z; m.row2.x, m.row2.y, m.row2.z; m.row3.x, m.row3.y, m.row3.z] := by
  ext i j; fin_cases i <;> fin_cases j <;> rfl

theorem toMatrix_injective : Function.Injective toMatrix := by
  intro a b h
  rw [toMatrix_eq, toMatrix_eq] at h
  have := fun i j => congrFun (congrFun h i) j
  have h00 := this 0 0; have h01 := this 0 1; have h02 := this 0 2
  have h10 := this 1 0; have h11 := this 1 1; have h12 := this 1 2
  have h20 := this 2 0; have h21 := this 2 1; have h22 := this 2 2
  simp at h00 h01 h02 h10 h11 h12 h20 h21 h22
  ext <;> assumption

/-- rows orthonormal and right-handed, in elementary form -/
structure Orth (m : Mat3) : Prop where
  r11 : m.row1.dot m.row1 = 1
  r22 : m.row2.dot m.row2 = 1
  r33 : m.row3.dot m.row3 = 1
  r12 : m.row1.dot m.row2 = 0
  r13 : m.row1.dot m.row3 = 0
  r23 : m.row2.dot m.row3 = 0

theorem Orth.mul_transpose {m : Mat3} (h : m.Orth) : m.toMatrix * m.toMatrix.transpose = 1 := by
  have h11 := h.r11; have h22 := h.r22; have h33 := h.r33
  have h12 := h.r12; have h13 := h.r13; have h23 := h.r23
  simp only [Vec3.dot] at *
  rw [toMatrix_eq]
  ext i j
  fin_cases i <;> fin_cases j <;>
    simp [Matrix.mul_apply, Fin.sum_univ_three] <;> linarith

theorem Orth.transpose_mul {m : Mat3} (h : m.Orth) : m.toMatrix.transpose * m.toMatrix = 1 :=
  mul_eq_one_comm.mp h.mul_transpose

theorem det_toMatrix (m : Mat3) : m.toMatrix.det = m.determinant := by
  rw [toMatrix_eq, Matrix.det_fin_three]
  simp [determinant]; ring

theorem Orth.isRotation {m : Mat3} (h : m.Orth) (hd : m.determinant = 1) : m.IsRotation :=
  ⟨h.transpose_mul, h.mul_transpose, by rw [det_toMatrix, hd]⟩

theorem orth_of_mul_transpose {m : Mat3} (h : m.toMatrix * m.toMatrix.transpose = 1) : m.Orth := by
  rw [toMatrix_eq] at h
  have := fun i j => congrFun (congrFun h i) j
  have h00 := this 0 0; have h01 := this 0 1; have h02 := this 0 2
  have h11 := this 1 1; have h12 := this 1 2; have h22 := this 2 2
  simp [Matrix.mul_apply, Fin.sum_univ_three] at h00 h01 h02 h11 h12 h22
  constructor <;> simp only [Vec3.dot] <;> linarith

theorem IsRotation.orth {m : Mat3} (h : m.IsRotation) : m.Orth := orth_of_mul_transpose h.2.1

theorem IsRotation.determinant {m : Mat3} (h : m.IsRotation) : m.determinant = 1 := by
  rw [← det_toMatrix]; exact h.2.2

theorem transpose_toMatrix (m : Mat3) : m.transpose.toMatrix = m.toMatrix.transpose := by
  rw [toMatrix_eq, toMatrix_eq]
  ext i j; fin_cases i <;> fin_cases j <;> rfl

theorem IsRotation.transpose {m : Mat3} (h : m.IsRotation) : m.transpose.IsRotation := by
  refine ⟨?_, ?_, ?_⟩
  · rw [transpose_toMatrix, Matrix.transpose_transpose]; exact h.2.1
  · rw [transpose_toMatrix, Matrix.transpose_transpose]; exact h.1
  · rw [transpose_toMatrix, Matrix.det_transpose]; exact h.2.2

@[simp] theorem transpose_transpose (m : Mat3) : m.transpose.transpose = m := rfl

theorem Orth.transpose {m : Mat3} (h : m.Orth) : m.transpose.Orth := by
  apply orth_of_mul_transpose
  rw [transpose_toMatrix, Matrix.transpose_transpose]
  exact h.transpose_mul

theorem mulVec_toFun (m : Mat3) (v : Vec3) : (m.mulVec v).toFun = m.toMatrix.mulVec v.toFun := by
  rw [toMatrix_eq]
  ext i
  fin_cases i <;> simp [Vec3.toFun, mulVec, Vec3.dot, Matrix.mulVec, dotProduct, Fin.sum_univ_three]

theorem toFun_injective : Function.Injective Vec3.toFun := by
  intro a b h
  have h0 := congrFun h 0; have h1 := congrFun h 1; have h2 := congrFun h 2
  ext <;> simp_all [Vec3.toFun]

theorem Orth.transpose_mulVec {m : Mat3} (h : m.Orth) (v : Vec3) :
    m.transpose.mulVec (m.mulVec v) = v := by
  apply toFun_injective
  rw [mulVec_toFun, mulVec_toFun, transpose_toMatrix, Matrix.mulVec_mulVec, h.transpose_mul,
    Matrix.one_mulVec]

theorem Orth.mulVec_transpose {m : Mat3} (h : m.Orth) (v : Vec3) :
    m.mulVec (m.transpose.mulVec v) = v := by
  apply toFun_injective
  rw [mulVec_toFun, mulVec_toFun, transpose_toMatrix, Matrix.mulVec_mulVec, h.mul_transpose,
    Matrix.one_mulVec]

theorem mulVec_dot (m : Mat3) (a b : Vec3) : (m.mulVec a).dot b = a.dot (m.transpose.mulVec b) := by
  simp only [mulVec, Vec3.dot, Mat3.transpose]; ring

theorem Orth.dot_mulVec {m : Mat3} (h : m.Orth) (a b : Vec3) :
    (m.mulVec a).dot (m.mulVec b) = a.dot b := by
  rw [mulVec_dot, h.transpose_mulVec]

theorem Orth.magnitude_mulVec {m : Mat3} (h : m.Orth) (a : Vec3) :
    (m.mulVec a).magnitude = a.magnitude := by
  apply Vec3.magnitude_of_dot a.magnitude_nonneg
  rw [h.dot_mulVec, Vec3.magnitude_sq_dot]

theorem mulVec_plus (m : Mat3) (a b : Vec3) : m.mulVec (a.plus b) = (m.mulVec a).plus (m.mulVec b) := by
  ext <;> simp only [mulVec, Vec3.plus, Vec3.dot] <;> ring

theorem mulVec_minus (m : Mat3) (a b : Vec3) :
    m.mulVec (a.minus b) = (m.mulVec a).minus (m.mulVec b) := by
  ext <;> simp only [mulVec, Vec3.minus, Vec3.dot] <;> ring

theorem mulVec_scaled (m : Mat3) (a : Vec3) (k : ℝ) : m.mulVec (a.scaled k) = (m.mulVec a).scaled k := by
  ext <;> simp only [mulVec, Vec3.scaled, Vec3.dot] <;> ring

end Mat3

end Openspace
