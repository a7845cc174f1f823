import Verif.Lemmas.Linalg
import Verif.Lemmas.Rotation
import Verif.Lemmas.Matrix
import Mathlib.LinearAlgebra.CrossProduct

/-!
# Properties C01–C06: linear algebra
-/

namespace Openspace

/-! ## C01: the methods are the textbook operations (Mathlib's `Matrix` and `Fin n → ℝ`) -/

section C01

theorem C01_vec3 (a b : Vec3) (k : ℝ) :
    (a.plus b).toFun = a.toFun + b.toFun ∧ (a.minus b).toFun = a.toFun - b.toFun ∧
    (a.scaled k).toFun = k • a.toFun ∧ a.dot b = a.toFun ⬝ᵥ b.toFun ∧
    (a.cross b).toFun = crossProduct a.toFun b.toFun ∧
    a.magnitude = ‖a.toE‖ ∧ a.copy = a :=
  ⟨a.plus_toFun b, a.minus_toFun b, a.scaled_toFun k, a.dot_toFun b, by
    simp [Vec3.toFun, Vec3.cross, cross_apply], (Vec3.norm_toE a).symm, rfl⟩

theorem C01_vec6 (a b : Vec6) (r v : Vec3) :
    (a.plus b).toFun = a.toFun + b.toFun ∧ (a.minus b).toFun = a.toFun - b.toFun ∧
    a.dot b = a.toFun ⬝ᵥ b.toFun ∧ a.copy = a ∧
    (Vec6.fromPosVel r v).toFun = ![r.x, r.y, r.z, v.x, v.y, v.z] :=
  ⟨a.plus_toFun b, a.minus_toFun b, a.dot_toFun b, rfl, rfl⟩

theorem C01_mat3 (m n : Mat3) (v : Vec3) (k : ℝ) :
    (m.plus n).toMatrix = m.toMatrix + n.toMatrix ∧ (m.scaled k).toMatrix = k • m.toMatrix ∧
    m.transpose.toMatrix = m.toMatrix.transpose ∧
    (m.mulVec v).toFun = m.toMatrix.mulVec v.toFun ∧
    m.diagonal.toFun = m.toMatrix.diag ∧
    m.column1.toFun = (fun i => m.toMatrix i 0) ∧ m.column2.toFun = (fun i => m.toMatrix i 1) ∧
    m.column3.toFun = (fun i => m.toMatrix i 2) :=
  ⟨m.plus_toMatrix n, m.scaled_toMatrix k, m.transpose_toMatrix, m.mulVec_toFun v, by
    ext i; match i with | 0 | 1 | 2 => rfl, funext fun i => (m.toMatrix_cols i 0).symm,
    funext fun i => (m.toMatrix_cols i 1).symm, funext fun i => (m.toMatrix_cols i 2).symm⟩

theorem C01_mat36 (m : Mat36) (v : Vec6) (n : Mat63) (k : Mat3) :
    m.transpose.toMatrix = m.toMatrix.transpose ∧
    (m.mulVec v).toFun = m.toMatrix.mulVec v.toFun ∧
    (m.mul63 n).toMatrix = m.toMatrix * n.toMatrix ∧
    (k.mul36 m).toMatrix = k.toMatrix * m.toMatrix ∧
    m.column1.toFun = (fun i => m.toMatrix i 0) ∧ m.column2.toFun = (fun i => m.toMatrix i 1) ∧
    m.column3.toFun = (fun i => m.toMatrix i 2) ∧ m.column4.toFun = (fun i => m.toMatrix i 3) ∧
    m.column5.toFun = (fun i => m.toMatrix i 4) ∧ m.column6.toFun = (fun i => m.toMatrix i 5) :=
  ⟨m.transpose_toMatrix, m.mulVec_toFun v, m.mul63_toMatrix n, k.mul36_toMatrix m,
    funext fun i => (m.toMatrix_cols i 0).symm, funext fun i => (m.toMatrix_cols i 1).symm,
    funext fun i => (m.toMatrix_cols i 2).symm, funext fun i => (m.toMatrix_cols i 3).symm,
    funext fun i => (m.toMatrix_cols i 4).symm, funext fun i => (m.toMatrix_cols i 5).symm⟩

theorem C01_mat63 (m : Mat63) (v : Vec3) (n : Mat36) (k : Mat3) :
    m.transpose.toMatrix = m.toMatrix.transpose ∧
    (m.mulVec v).toFun = m.toMatrix.mulVec v.toFun ∧
    (m.mul36 n).toMatrix = m.toMatrix * n.toMatrix ∧
    (m.mul3 k).toMatrix = m.toMatrix * k.toMatrix ∧
    m.column1.toFun = (fun i => m.toMatrix i 0) ∧ m.column2.toFun = (fun i => m.toMatrix i 1) ∧
    m.column3.toFun = (fun i => m.toMatrix i 2) :=
  ⟨m.transpose_toMatrix, m.mulVec_toFun v, m.mul36_toMatrix n, m.mul3_toMatrix k,
    funext fun i => (m.toMatrix_cols i 0).symm, funext fun i => (m.toMatrix_cols i 1).symm,
    funext fun i => (m.toMatrix_cols i 2).symm⟩

theorem C01_mat6 (m k : Mat6) (v : Vec6) (n : Mat63) :
    m.transpose.toMatrix = m.toMatrix.transpose ∧
    (m.mulVec v).toFun = m.toMatrix.mulVec v.toFun ∧
    (m.mul k).toMatrix = m.toMatrix * k.toMatrix ∧
    (m.mul63 n).toMatrix = m.toMatrix * n.toMatrix ∧
    (m.plus k).toMatrix = m.toMatrix + k.toMatrix ∧
    (m.minus k).toMatrix = m.toMatrix - k.toMatrix ∧
    Mat6.identity.toMatrix = 1 ∧
    m.diagonal.toFun = m.toMatrix.diag ∧
    m.column1.toFun = (fun i => m.toMatrix i 0) ∧ m.column2.toFun = (fun i => m.toMatrix i 1) ∧
    m.column3.toFun = (fun i => m.toMatrix i 2) ∧ m.column4.toFun = (fun i => m.toMatrix i 3) ∧
    m.column5.toFun = (fun i => m.toMatrix i 4) ∧ m.column6.toFun = (fun i => m.toMatrix i 5) :=
  ⟨m.transpose_toMatrix, m.mulVec_toFun v, m.mul_toMatrix k, m.mul63_toMatrix n, m.plus_toMatrix k,
    m.minus_toMatrix k, Mat6.identity_toMatrix, m.diagonal_toFun,
    funext fun i => (m.toMatrix_cols i 0).symm, funext fun i => (m.toMatrix_cols i 1).symm,
    funext fun i => (m.toMatrix_cols i 2).symm, funext fun i => (m.toMatrix_cols i 3).symm,
    funext fun i => (m.toMatrix_cols i 4).symm, funext fun i => (m.toMatrix_cols i 5).symm⟩

/-- `cross` is the vector orthogonal to both factors, with the area of the parallelogram as
length, oriented by the right-hand rule (`det [a, b, a × b] ≥ 0`). -/
theorem C01_cross (a b : Vec3) :
    (a.cross b).dot a = 0 ∧ (a.cross b).dot b = 0 ∧
    (a.cross b).magnitude ^ 2 = a.magnitude ^ 2 * b.magnitude ^ 2 - a.dot b ^ 2 ∧
    (⟨a, b, a.cross b⟩ : Mat3).toMatrix.det = (a.cross b).magnitude ^ 2 := by
  refine ⟨a.cross_dot_left b, a.cross_dot_right b, ?_, ?_⟩
  · rw [Vec3.magnitude_sq_dot, Vec3.lagrange, Vec3.magnitude_sq_dot, Vec3.magnitude_sq_dot]
  · rw [Mat3.det_toMatrix, Vec3.magnitude_sq_dot]
    simp only [Mat3.determinant, Vec3.cross, Vec3.dot]; ring

end C01

/-! ## C02: inverse -/

/-- `determinant()` is the determinant; `inverse()` returns the two-sided inverse when it is not
zero and raises `ZeroDivisionError` when it is. -/
theorem C02_inverse (m : Mat3) :
    m.determinant = m.toMatrix.det ∧
    (m.toMatrix.det ≠ 0 → ∃ i, m.inverse = .ok i ∧
      m.toMatrix * i.toMatrix = 1 ∧ i.toMatrix * m.toMatrix = 1) ∧
    (m.toMatrix.det = 0 → m.inverse = .error .zeroDivision) := by
  rw [Mat3.det_toMatrix]
  refine ⟨rfl, fun h => ?_, fun h => by simp [Mat3.inverse, h]⟩
  refine ⟨m.adjugate.scaled (1 / m.determinant), by simp [Mat3.inverse, pyDiv_ok h], ?_⟩
  have key : m.toMatrix * (m.adjugate.scaled (1 / m.determinant)).toMatrix = 1 := by
    rw [Mat3.toMatrix_eq, Mat3.toMatrix_eq]
    ext i j
    fin_cases i <;> fin_cases j <;>
      simp [Matrix.mul_apply, Fin.sum_univ_three, Mat3.adjugate, Mat3.cofactor, Mat3.transpose,
        Mat3.scaled, Vec3.scaled] <;> field_simp <;> simp only [Mat3.determinant] <;> ring
  exact ⟨key, mul_eq_one_comm.mp key⟩

/-- a regular and a singular matrix exist -/
example : (⟨⟨2, 1, 0⟩, ⟨0, 1, 5⟩, ⟨1, 0, 1⟩⟩ : Mat3).toMatrix.det ≠ 0 ∧
    (⟨⟨1, 2, 3⟩, ⟨2, 4, 6⟩, ⟨1, 0, 1⟩⟩ : Mat3).toMatrix.det = 0 := by
  rw [Mat3.det_toMatrix, Mat3.det_toMatrix]; norm_num [Mat3.determinant]

/-! ## C03: normalized -/

/-- the result is a positive multiple of the input of length one, and the only exception is
`ZeroDivisionError`, exactly for the zero vector -/
theorem C03_normalized (v : Vec3) :
    (v ≠ ⟨0, 0, 0⟩ → ∃ u, v.normalized = .ok u ∧ ‖u.toE‖ = 1 ∧ ∃ k : ℝ, 0 < k ∧ u.toE = k • v.toE) ∧
    (∀ e, v.normalized = .error e ↔ v = ⟨0, 0, 0⟩ ∧ e = .zeroDivision) := by
  refine ⟨fun h => ⟨_, Vec3.normalized_ok h, ?_, 1 / v.magnitude, ?_, ?_⟩,
    fun e => Vec3.normalized_eq_error⟩
  · rw [Vec3.norm_toE, Vec3.magnitude_unit (Vec3.unit_dot h)]
  · exact one_div_pos.mpr (Vec3.magnitude_pos.mpr h)
  · ext i; fin_cases i <;> simp [Vec3.toE, Vec3.toFun, Vec3.scaled, mul_comm]

example : (⟨4, 2, 42⟩ : Vec3) ≠ ⟨0, 0, 0⟩ := by simp

/-! ## C04: angle -/

/-- `angle` is the geometric angle (Mathlib's unoriented angle), raising only for a zero vector -/
theorem C04_angle (a b : Vec3) :
    (a ≠ ⟨0, 0, 0⟩ → b ≠ ⟨0, 0, 0⟩ →
      a.angle b = .ok (InnerProductGeometry.angle a.toE b.toE)) ∧
    (∀ e, a.angle b = .error e ↔ (a = ⟨0, 0, 0⟩ ∨ b = ⟨0, 0, 0⟩) ∧ e = .zeroDivision) := by
  refine ⟨fun ha hb => ?_, fun e => Vec3.angle_eq_error⟩
  rw [Vec3.angle_ok ha hb, InnerProductGeometry.angle, Vec3.inner_toE, Vec3.norm_toE, Vec3.norm_toE]

/-- consequences: range, symmetry, invariance under positive scaling -/
theorem C04_angle_laws (a b : Vec3) (t : ℝ) (h : a.angle b = .ok t) :
    0 ≤ t ∧ t ≤ Real.pi ∧ b.angle a = .ok t ∧
    ∀ k l : ℝ, 0 < k → 0 < l → (a.scaled k).angle (b.scaled l) = .ok t := by
  obtain ⟨⟨ha, hb⟩, rfl⟩ := Vec3.angle_eq_ok.mp h
  refine ⟨Real.arccos_nonneg _, Real.arccos_le_pi _, ?_, fun k l hk hl => ?_⟩
  · rw [Vec3.angle_ok hb ha, Vec3.dot_comm, mul_comm]
  · have hka : a.scaled k ≠ ⟨0, 0, 0⟩ := by
      rw [← Vec3.magnitude_ne_zero, Vec3.magnitude_scaled]
      exact mul_ne_zero (by positivity) (Vec3.magnitude_ne_zero.mpr ha)
    have hlb : b.scaled l ≠ ⟨0, 0, 0⟩ := by
      rw [← Vec3.magnitude_ne_zero, Vec3.magnitude_scaled]
      exact mul_ne_zero (by positivity) (Vec3.magnitude_ne_zero.mpr hb)
    rw [Vec3.angle_ok hka hlb, Vec3.magnitude_scaled, Vec3.magnitude_scaled, Vec3.dot_scaled_left,
      Vec3.dot_scaled_right, abs_of_pos hk, abs_of_pos hl]
    congr 2
    have := Vec3.magnitude_ne_zero.mpr ha
    have := Vec3.magnitude_ne_zero.mpr hb
    field_simp

example : (⟨1, 0, 0⟩ : Vec3).angle ⟨0, 2, 0⟩ = .ok (Real.pi / 2) := by
  rw [Vec3.angle_ok (by simp) (by simp)]; simp [Vec3.dot]

/-! ## C05: rotation about an axis -/

/-- Rodrigues' formula, i.e. the definition of the right-handed rotation about `axis` through
`theta`: the component along the axis is kept, the perpendicular component is turned by `theta`
towards `axis × v`.  The only exception is `ZeroDivisionError`, exactly for the zero axis. -/
theorem C05_rodrigues (v axis : Vec3) (theta : ℝ) :
    (axis ≠ ⟨0, 0, 0⟩ → ∃ r, v.rotationAboutAxis axis theta = .ok r ∧
      ∀ par perp : Vec3, par.plus perp = v → (∃ k, par = axis.scaled k) → perp.dot axis = 0 →
        r = (par.plus (perp.scaled (Real.cos theta))).plus
          ((axis.cross perp).scaled (Real.sin theta / axis.magnitude))) ∧
    (∀ e, v.rotationAboutAxis axis theta = .error e ↔ axis = ⟨0, 0, 0⟩ ∧ e = .zeroDivision) := by
  refine ⟨fun h => ⟨_, Vec3.rotationAboutAxis_ok v h theta, ?_⟩,
    fun e => Vec3.rotationAboutAxis_eq_error⟩
  rintro par perp rfl ⟨k, rfl⟩ hp
  exact Vec3.rotate_decomp h k theta hp

/-- the decomposition used in `C05_rodrigues` exists for every vector -/
theorem C05_decomposition (v axis : Vec3) (h : axis ≠ ⟨0, 0, 0⟩) :
    ∃ par perp : Vec3, par.plus perp = v ∧ (∃ k, par = axis.scaled k) ∧ perp.dot axis = 0 := by
  have hd : axis.dot axis ≠ 0 := fun hc => h (Vec3.dot_self_eq_zero.mp hc)
  refine ⟨axis.scaled (v.dot axis / axis.dot axis),
    v.minus (axis.scaled (v.dot axis / axis.dot axis)), ?_, ⟨_, rfl⟩, ?_⟩
  · ext <;> simp [Vec3.plus, Vec3.minus]
  · rw [Vec3.dot_minus_left, Vec3.dot_scaled_left]; field_simp; ring

/-- a rotation preserves lengths, dot products and cross products, and fixes its axis -/
theorem C05_isometry (axis : Vec3) (theta : ℝ) (h : axis ≠ ⟨0, 0, 0⟩) :
    ∃ rot : Vec3 → Vec3, (∀ v : Vec3, v.rotationAboutAxis axis theta = .ok (rot v)) ∧
      (∀ v, (rot v).magnitude = v.magnitude) ∧ (∀ v w, (rot v).dot (rot w) = v.dot w) ∧
      (∀ v w, (rot v).cross (rot w) = rot (v.cross w)) ∧ rot axis = axis := by
  have hu := Vec3.unit_dot h
  have hr := Vec3.rotUM_isRotation hu (Real.sin_sq_add_cos_sq theta)
  refine ⟨fun v => v.rotate axis theta, fun v => Vec3.rotationAboutAxis_ok v h theta, ?_, ?_, ?_, ?_⟩
  · intro v; simp only [Vec3.rotate, ← Vec3.rotUM_mulVec]; exact hr.orth.magnitude_mulVec v
  · intro v w; simp only [Vec3.rotate, ← Vec3.rotUM_mulVec]; exact hr.orth.dot_mulVec v w
  · intro v w; simp only [Vec3.rotate, ← Vec3.rotUM_mulVec]; exact hr.cross_mulVec v w
  · have := Vec3.rotate_decomp (perp := ⟨0, 0, 0⟩) h 1 theta (by simp [Vec3.dot])
    simpa [Vec3.plus, Vec3.scaled, Vec3.cross] using this

/-- rotations about one axis compose by adding the angles; hence `-theta` undoes `theta` -/
theorem C05_compose (v axis : Vec3) (t1 t2 : ℝ) (r1 r2 : Vec3)
    (h1 : v.rotationAboutAxis axis t1 = .ok r1) (h2 : r1.rotationAboutAxis axis t2 = .ok r2) :
    v.rotationAboutAxis axis (t1 + t2) = .ok r2 ∧
    v.rotationAboutAxis axis 0 = .ok v ∧ r1.rotationAboutAxis axis (-t1) = .ok v := by
  obtain ⟨h, rfl⟩ := Vec3.rotationAboutAxis_eq_ok.mp h1
  obtain ⟨_, rfl⟩ := Vec3.rotationAboutAxis_eq_ok.mp h2
  have hu := Vec3.unit_dot h
  have comp : ∀ a b, (v.rotate axis a).rotate axis b = v.rotate axis (a + b) := by
    intro a b
    simp only [Vec3.rotate, Vec3.rotU_rotU hu, Real.cos_add, Real.sin_add]
  have zero : v.rotate axis 0 = v := by simp [Vec3.rotate, Vec3.rotU_one]
  refine ⟨?_, ?_, ?_⟩
  · rw [Vec3.rotationAboutAxis_ok _ h, comp]
  · rw [Vec3.rotationAboutAxis_ok _ h, zero]
  · rw [Vec3.rotationAboutAxis_ok _ h, comp, add_neg_cancel, zero]

/-- a quarter turn about (0,0,2) takes x to y -/
example : (⟨3, 0, 5⟩ : Vec3).rotationAboutAxis ⟨0, 0, 2⟩ (Real.pi / 2) = .ok ⟨0, 3, 5⟩ := by
  have h : (⟨0, 0, 2⟩ : Vec3) ≠ ⟨0, 0, 0⟩ := by simp
  have hm : (⟨0, 0, 2⟩ : Vec3).magnitude = 2 :=
    Vec3.magnitude_of_dot (by norm_num) (by norm_num [Vec3.dot])
  have hv : (⟨3, 0, 5⟩ : Vec3)
      = ((⟨0, 0, 2⟩ : Vec3).scaled (5 / 2)).plus ⟨3, 0, 0⟩ := by
    ext <;> norm_num [Vec3.plus, Vec3.scaled]
  rw [Vec3.rotationAboutAxis_ok _ h, hv, Vec3.rotate_decomp h _ _ (by simp [Vec3.dot]), hm]
  congr 1
  ext <;> norm_num [Vec3.plus, Vec3.scaled, Vec3.cross]

/-! ## C06: noise -/

/-- `with_magnitude_noise(s)` keeps the line of the vector and gives length `|m + s z|` -/
theorem C06_magnitude_noise (v : Vec3) (s z : ℝ) :
    (v ≠ ⟨0, 0, 0⟩ → ∃ r, v.withMagnitudeNoise s z = .ok r ∧ (∃ k, r = v.scaled k) ∧
      r.magnitude = |v.magnitude + s * z|) ∧
    (∀ e, v.withMagnitudeNoise s z = .error e ↔ v = ⟨0, 0, 0⟩ ∧ e = .zeroDivision) := by
  constructor
  · intro h
    have hm := Vec3.magnitude_ne_zero.mpr h
    refine ⟨(v.scaled (1 / v.magnitude)).scaled (Vec3.gauss v.magnitude s z),
      by simp [Vec3.withMagnitudeNoise, Vec3.normalized_ok h],
      ⟨(1 / v.magnitude) * Vec3.gauss v.magnitude s z, ?_⟩, ?_⟩
    · ext <;> simp only [Vec3.scaled] <;> ring
    · rw [Vec3.magnitude_scaled, Vec3.magnitude_unit (Vec3.unit_dot h), mul_one, Vec3.gauss,
        mul_comm z]
  · intro e
    by_cases h : v = ⟨0, 0, 0⟩
    · subst h; simp [Vec3.withMagnitudeNoise, Vec3.normalized_zero, eq_comm]
    · simp [Vec3.withMagnitudeNoise, Vec3.normalized_ok h, h]

/-- `with_angular_noise(s)` keeps the length and tilts the direction by exactly `|s z|`
(when that is at most pi), for every draw; it raises exactly on the z axis -/
theorem C06_angular_noise (v : Vec3) (s z u : ℝ) :
    (¬(v.x = 0 ∧ v.y = 0) → ∃ r, v.withAngularNoise s z u = .ok r ∧ r.magnitude = v.magnitude ∧
      (|s * z| ≤ Real.pi → v.angle r = .ok |s * z|)) ∧
    (∀ e, v.withAngularNoise s z u = .error e ↔ (v.x = 0 ∧ v.y = 0) ∧ e = .zeroDivision) := by
  have hax : v.cross ⟨0, 0, 1⟩ = ⟨0, 0, 0⟩ ↔ (v.x = 0 ∧ v.y = 0) := by
    simp [Vec3.cross, and_comm]
  constructor
  · intro h
    have ha : v.cross ⟨0, 0, 1⟩ ≠ ⟨0, 0, 0⟩ := fun hc => h (hax.mp hc)
    have hv : v ≠ ⟨0, 0, 0⟩ := by rintro rfl; simp at h
    obtain ⟨rot1, hr1, hm1, hd1, -, -⟩ := C05_isometry _ (Vec3.gauss 0 s z) ha
    obtain ⟨rot2, hr2, hm2, hd2, -, hfix⟩ := C05_isometry v (Vec3.uniform 0 (2 * pyPi) u) hv
    refine ⟨rot2 (rot1 v), by simp [Vec3.withAngularNoise, hr1, hr2], by rw [hm2, hm1], ?_⟩
    intro hpi
    have hr : rot2 (rot1 v) ≠ ⟨0, 0, 0⟩ := by
      rw [← Vec3.magnitude_ne_zero, hm2, hm1]; exact Vec3.magnitude_ne_zero.mpr hv
    have hm := Vec3.magnitude_ne_zero.mpr hv
    rw [Vec3.angle_ok hv hr]
    have hdot : v.dot (rot2 (rot1 v)) = v.magnitude * v.magnitude * Real.cos (s * z) := by
      have e1 : v.dot (rot2 (rot1 v)) = v.dot (rot1 v) := by
        have := hd2 v (rot1 v)
        rwa [hfix] at this
      have e2 : rot1 v = v.rotate (v.cross ⟨0, 0, 1⟩) (Vec3.gauss 0 s z) := by
        have := hr1 v
        rw [Vec3.rotationAboutAxis_ok v ha] at this
        exact (Except.ok.inj this).symm
      have e3 := Vec3.rotate_decomp (perp := v) ha 0 (Vec3.gauss 0 s z) (Vec3.dot_cross_left v _)
      have e4 : ((v.cross ⟨0, 0, 1⟩).scaled 0).plus v = v := by
        ext <;> simp [Vec3.plus, Vec3.scaled]
      rw [e4] at e3
      rw [e1, e2, e3, Vec3.dot_plus_right, Vec3.dot_plus_right, Vec3.dot_scaled_right,
        Vec3.dot_scaled_right, Vec3.dot_scaled_right, ← Vec3.magnitude_sq_dot,
        Vec3.dot_cross_right]
      simp only [Vec3.gauss, zero_add, mul_comm z s]
      ring
    rw [hdot, hm2, hm1]
    rw [show v.magnitude * v.magnitude * Real.cos (s * z) / (v.magnitude * v.magnitude)
        = Real.cos |s * z| by rw [Real.cos_abs]; field_simp]
    rw [Real.arccos_cos (abs_nonneg _) hpi]
  · intro e
    by_cases h : v.x = 0 ∧ v.y = 0
    · simp [Vec3.withAngularNoise, hax.mpr h, Vec3.rotationAboutAxis_zero, h, eq_comm]
    · have ha : v.cross ⟨0, 0, 1⟩ ≠ ⟨0, 0, 0⟩ := fun hc => h (hax.mp hc)
      have hv : v ≠ ⟨0, 0, 0⟩ := by rintro rfl; simp at h
      simp [Vec3.withAngularNoise, Vec3.rotationAboutAxis_ok _ ha, Vec3.rotationAboutAxis_ok _ hv, h]

/-- `with_noise`: the reported vector has length `|m + r z1|`; it raises exactly when the noisy
vector is on the z axis (in particular when the noisy length is zero) -/
theorem C06_noise (v : Vec3) (r a z1 z2 u : ℝ) (h : ¬(v.x = 0 ∧ v.y = 0)) :
    (v.magnitude + r * z1 ≠ 0 → ∃ n, v.withNoise r a z1 z2 u = .ok n ∧
      n.magnitude = |v.magnitude + r * z1|) ∧
    (v.magnitude + r * z1 = 0 → v.withNoise r a z1 z2 u = .error .zeroDivision) := by
  have hv : v ≠ ⟨0, 0, 0⟩ := by rintro rfl; simp at h
  have hm := Vec3.magnitude_ne_zero.mpr hv
  obtain ⟨n1, hn1, ⟨k, rfl⟩, hmag⟩ := (C06_magnitude_noise v r z1).1 hv
  constructor
  · intro hne
    have hk : k ≠ 0 := by
      rintro rfl
      rw [Vec3.magnitude_scaled, abs_zero, zero_mul] at hmag
      exact hne (abs_eq_zero.mp hmag.symm)
    obtain ⟨n, hn, hnm, -⟩ := (C06_angular_noise (v.scaled k) a z2 u).1
      (by simpa [Vec3.scaled, hk] using h)
    exact ⟨n, by simp [Vec3.withNoise, hn1, hn], by rw [hnm, hmag]⟩
  · intro h0
    rw [h0, abs_zero, Vec3.magnitude_eq_zero] at hmag
    simp only [Vec3.withNoise, hn1, ok_bind, hmag]
    exact ((C06_angular_noise ⟨0, 0, 0⟩ a z2 u).2 _).mpr ⟨⟨rfl, rfl⟩, rfl⟩

/-- the noisy vector points where the true one does, or against it if the noise exceeds the length -/
theorem C06_magnitude_direction (v r : Vec3) (s z : ℝ) (h : v.withMagnitudeNoise s z = .ok r) :
    r = v.scaled ((v.magnitude + s * z) / v.magnitude) := by
  have hv : v ≠ ⟨0, 0, 0⟩ := by
    rintro rfl
    simp [Vec3.withMagnitudeNoise, Vec3.normalized_zero] at h
  simp only [Vec3.withMagnitudeNoise, Vec3.normalized_ok hv, ok_bind, pure_eq_ok, Except.ok.injEq, Vec3.gauss] at h
  rw [← h]
  ext <;> simp only [Vec3.scaled] <;> ring

/-- `with_noise` tilts the direction by `|a z2|`, from the direction of the vector, or from the opposite one if the noise
of the length exceeds the length -/
theorem C06_noise_direction (v n : Vec3) (r a z1 z2 u : ℝ) (h : v.withNoise r a z1 z2 u = .ok n) (ha : |a * z2| ≤ Real.pi) :
    (0 < v.magnitude + r * z1 → v.angle n = .ok |a * z2|) ∧
    (v.magnitude + r * z1 < 0 → v.angle n = .ok (Real.pi - |a * z2|)) := by
  simp only [Vec3.withNoise, bind_eq_ok] at h
  obtain ⟨w, hw, hn⟩ := h
  have hk := C06_magnitude_direction v w r z1 hw
  have hv : v ≠ ⟨0, 0, 0⟩ := by
    rintro rfl
    simp [Vec3.withMagnitudeNoise, Vec3.normalized_zero] at hw
  have hm := Vec3.magnitude_pos.mpr hv
  have hxy : ¬(w.x = 0 ∧ w.y = 0) := by
    intro hc
    have := ((C06_angular_noise w a z2 u).2 .zeroDivision).mpr ⟨hc, rfl⟩
    rw [this] at hn; cases hn
  obtain ⟨n', hn', -, hang⟩ := (C06_angular_noise w a z2 u).1 hxy
  obtain rfl : n' = n := by rw [hn', Except.ok.injEq] at hn; exact hn
  have hang := hang ha
  have hne : n' ≠ ⟨0, 0, 0⟩ := by
    rintro rfl
    have := ((C04_angle w ⟨0, 0, 0⟩).2 .zeroDivision).mpr ⟨Or.inr rfl, rfl⟩
    rw [this] at hang; cases hang
  have hw0 : w ≠ ⟨0, 0, 0⟩ := by rintro rfl; simp at hxy
  rw [(C04_angle w n').1 hw0 hne, Except.ok.injEq] at hang
  have hE : w.toE = ((v.magnitude + r * z1) / v.magnitude) • v.toE := by
    rw [hk]; ext i; fin_cases i <;> simp [Vec3.toE, Vec3.scaled, Vec3.toFun, mul_comm]
  rw [hE] at hang
  rw [(C04_angle v n').1 hv hne]
  constructor
  · intro hp
    rw [InnerProductGeometry.angle_smul_left_of_pos _ _ (div_pos hp hm)] at hang
    rw [hang]
  · intro hp
    rw [InnerProductGeometry.angle_smul_left_of_neg _ _ (div_neg_of_neg_of_pos hp hm),
      InnerProductGeometry.angle_neg_left] at hang
    rw [← hang]; congr 1; ring

/-- the second draw of `with_angular_noise` (between 0 and 1) turns the result about the true direction: two draws give
results that differ by a rotation about the vector through the difference of the draws, as a fraction of a turn -/
theorem C06_azimuth (v r : Vec3) (s z u w : ℝ) (h : v.withAngularNoise s z u = .ok r) :
    v.withAngularNoise s z w = r.rotationAboutAxis v (2 * Real.pi * (w - u)) := by
  simp only [Vec3.withAngularNoise, bind_eq_ok] at h
  obtain ⟨q, hq, hr⟩ := h
  have hv : v ≠ ⟨0, 0, 0⟩ := by
    rintro rfl
    have := ((C05_rodrigues q ⟨0, 0, 0⟩ (Vec3.uniform 0 (2 * pyPi) u)).2 .zeroDivision).mpr ⟨rfl, rfl⟩
    rw [this] at hr; cases hr
  obtain ⟨r', hr'⟩ : ∃ r', r.rotationAboutAxis v (2 * Real.pi * (w - u)) = .ok r' := ⟨_, Vec3.rotationAboutAxis_ok _ hv _⟩
  simp only [Vec3.withAngularNoise, hq, ok_bind]
  rw [hr', ← (C05_compose q v _ _ r r' hr hr').1]
  congr 1
  simp only [Vec3.uniform, pyPi]
  ring

example : ¬((⟨1, 2, 3⟩ : Vec3).x = 0 ∧ (⟨1, 2, 3⟩ : Vec3).y = 0) := by simp

end Openspace
