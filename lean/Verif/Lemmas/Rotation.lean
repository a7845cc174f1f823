import Verif.Lemmas.Linalg

/-! # Rodrigues' rotation -/

namespace Openspace

namespace Vec3

/-- Rodrigues' formula for a unit axis `u`, with the sine and cosine as arguments -/
noncomputable def rotU (u v : Vec3) (c s : ℝ) : Vec3 :=
  ((v.scaled c).plus ((u.cross v).scaled s)).plus (u.scaled (u.dot v * (1 - c)))

/-- the value computed by `rotation_about_axis` for a non-zero axis -/
noncomputable def rotate (v axis : Vec3) (theta : ℝ) : Vec3 :=
  rotU (axis.scaled (1 / axis.magnitude)) v (Real.cos theta) (Real.sin theta)

/-- the matrix of `rotU` -/
def rotUM (u : Vec3) (c s : ℝ) : Mat3 :=
  ⟨⟨c + u.x * u.x * (1 - c), u.x * u.y * (1 - c) - u.z * s, u.x * u.z * (1 - c) + u.y * s⟩,
   ⟨u.y * u.x * (1 - c) + u.z * s, c + u.y * u.y * (1 - c), u.y * u.z * (1 - c) - u.x * s⟩,
   ⟨u.z * u.x * (1 - c) - u.y * s, u.z * u.y * (1 - c) + u.x * s, c + u.z * u.z * (1 - c)⟩⟩

theorem rotationMatrix_ok {axis : Vec3} (h : axis ≠ ⟨0, 0, 0⟩) (theta : ℝ) :
    rotationMatrix axis theta
      = .ok (rotUM (axis.scaled (1 / axis.magnitude)) (Real.cos theta) (Real.sin theta)) := by
  simp [rotationMatrix, normalized_ok h, rotUM, pySin, pyCos]

theorem rotUM_mulVec (u v : Vec3) (c s : ℝ) : (rotUM u c s).mulVec v = rotU u v c s := by
  ext <;> simp only [rotUM, Mat3.mulVec, rotU, dot, scaled, plus, cross] <;> ring

theorem rotationAboutAxis_ok (v : Vec3) {axis : Vec3} (h : axis ≠ ⟨0, 0, 0⟩) (theta : ℝ) :
    v.rotationAboutAxis axis theta = .ok (v.rotate axis theta) := by
  simp [rotationAboutAxis, rotationMatrix_ok h, rotate, rotUM_mulVec]

theorem rotationAboutAxis_zero (v : Vec3) (theta : ℝ) :
    v.rotationAboutAxis ⟨0, 0, 0⟩ theta = .error .zeroDivision := by
  simp [rotationAboutAxis, rotationMatrix, normalized_zero]

theorem rotationAboutAxis_eq_ok {v axis r : Vec3} {theta : ℝ} :
    v.rotationAboutAxis axis theta = .ok r ↔ axis ≠ ⟨0, 0, 0⟩ ∧ r = v.rotate axis theta := by
  by_cases h : axis = ⟨0, 0, 0⟩
  · subst h; simp [rotationAboutAxis_zero]
  · simp [rotationAboutAxis_ok v h, h, eq_comm]

theorem rotationAboutAxis_eq_error {v axis : Vec3} {theta : ℝ} {e : PyErr} :
    v.rotationAboutAxis axis theta = .error e ↔ axis = ⟨0, 0, 0⟩ ∧ e = .zeroDivision := by
  by_cases h : axis = ⟨0, 0, 0⟩
  · subst h; simp [rotationAboutAxis_zero, eq_comm]
  · simp [rotationAboutAxis_ok v h, h]

theorem rotU_dot {u : Vec3} {c s : ℝ} (hu : u.dot u = 1) (hcs : s ^ 2 + c ^ 2 = 1) (a b : Vec3) :
    (rotU u a c s).dot (rotU u b c s) = a.dot b := by
  simp only [rotU, dot, scaled, plus, cross] at *
  linear_combination (s ^ 2 * (a.x * b.x + a.y * b.y + a.z * b.z)
      + (1 - c) ^ 2 * (u.x * a.x + u.y * a.y + u.z * a.z) * (u.x * b.x + u.y * b.y + u.z * b.z)) * hu
    + ((a.x * b.x + a.y * b.y + a.z * b.z)
      - (u.x * a.x + u.y * a.y + u.z * a.z) * (u.x * b.x + u.y * b.y + u.z * b.z)) * hcs

theorem rotUM_orth {u : Vec3} {c s : ℝ} (hu : u.dot u = 1) (hcs : s ^ 2 + c ^ 2 = 1) :
    (rotUM u c s).Orth := by
  have h1 : (rotUM u c s).row1 = rotU u ⟨1, 0, 0⟩ c (-s) := by
    ext <;> simp only [rotUM, rotU, dot, scaled, plus, cross] <;> ring
  have h2 : (rotUM u c s).row2 = rotU u ⟨0, 1, 0⟩ c (-s) := by
    ext <;> simp only [rotUM, rotU, dot, scaled, plus, cross] <;> ring
  have h3 : (rotUM u c s).row3 = rotU u ⟨0, 0, 1⟩ c (-s) := by
    ext <;> simp only [rotUM, rotU, dot, scaled, plus, cross] <;> ring
  have hcs' : (-s) ^ 2 + c ^ 2 = 1 := by rw [neg_sq]; exact hcs
  constructor <;> simp only [h1, h2, h3] <;> rw [rotU_dot hu hcs'] <;> simp [dot]

theorem rotUM_det {u : Vec3} {c s : ℝ} (hu : u.dot u = 1) (hcs : s ^ 2 + c ^ 2 = 1) :
    (rotUM u c s).determinant = 1 := by
  simp only [rotUM, dot, Mat3.determinant] at *
  linear_combination ((1 - c) * (c ^ 2 + s ^ 2 * (u.x * u.x + u.y * u.y + u.z * u.z)) + s ^ 2) * hu
    + hcs

theorem rotUM_isRotation {u : Vec3} {c s : ℝ} (hu : u.dot u = 1) (hcs : s ^ 2 + c ^ 2 = 1) :
    (rotUM u c s).IsRotation := (rotUM_orth hu hcs).isRotation (rotUM_det hu hcs)

theorem rotU_rotU {u : Vec3} {c1 s1 c2 s2 : ℝ} (hu : u.dot u = 1) (v : Vec3) :
    rotU u (rotU u v c1 s1) c2 s2 = rotU u v (c1 * c2 - s1 * s2) (s1 * c2 + c1 * s2) := by
  simp only [dot] at hu
  ext <;> simp only [rotU, dot, scaled, plus, cross]
  · linear_combination (-s1 * s2 * v.x
      + u.x * (u.x * v.x + u.y * v.y + u.z * v.z) * (1 - c1) * (1 - c2)) * hu
  · linear_combination (-s1 * s2 * v.y
      + u.y * (u.x * v.x + u.y * v.y + u.z * v.z) * (1 - c1) * (1 - c2)) * hu
  · linear_combination (-s1 * s2 * v.z
      + u.z * (u.x * v.x + u.y * v.y + u.z * v.z) * (1 - c1) * (1 - c2)) * hu

theorem rotU_one (u v : Vec3) : rotU u v 1 0 = v := by
  ext <;> simp [rotU, scaled, plus]

/-- rotating an axis-parallel plus a perpendicular vector -/
theorem rotate_decomp {axis perp : Vec3} (h : axis ≠ ⟨0, 0, 0⟩) (k theta : ℝ)
    (hp : perp.dot axis = 0) :
    ((axis.scaled k).plus perp).rotate axis theta
      = ((axis.scaled k).plus (perp.scaled (Real.cos theta))).plus
          ((axis.cross perp).scaled (Real.sin theta / axis.magnitude)) := by
  have hm := magnitude_ne_zero.mpr h
  have hd : (axis.scaled (1 / axis.magnitude)).dot ((axis.scaled k).plus perp)
      = k * axis.magnitude := by
    have h2 := axis.magnitude_sq_dot
    rw [dot_scaled_left, dot_plus_right, dot_scaled_right, ← h2, dot_comm axis perp, hp]
    field_simp; ring
  simp only [rotate, rotU, hd]
  ext <;> simp only [plus, scaled, cross] <;> field_simp <;> ring

end Vec3

theorem Mat3.IsRotation.cross_mulVec {m : Mat3} (h : m.IsRotation) (a b : Vec3) :
    (m.mulVec a).cross (m.mulVec b) = m.mulVec (a.cross b) := by
  have ho := h.orth
  have hd := h.determinant
  have key : ∀ c : Vec3, ((m.mulVec a).cross (m.mulVec b)).dot (m.mulVec c) = (a.cross b).dot c := by
    intro c
    have : ((m.mulVec a).cross (m.mulVec b)).dot (m.mulVec c) = m.determinant * (a.cross b).dot c := by
      simp only [Mat3.mulVec, Vec3.dot, Vec3.cross, Mat3.determinant]; ring
    rw [this, hd, one_mul]
  have key2 : ∀ x : Vec3, ((m.mulVec a).cross (m.mulVec b)).dot x = (m.mulVec (a.cross b)).dot x := by
    intro x
    have h1 := key (m.transpose.mulVec x)
    rw [ho.mulVec_transpose] at h1
    rw [h1, Mat3.mulVec_dot]
  have hx := key2 ⟨1, 0, 0⟩
  have hy := key2 ⟨0, 1, 0⟩
  have hz := key2 ⟨0, 0, 1⟩
  simp only [Vec3.dot, mul_one, mul_zero, add_zero, zero_add] at hx hy hz
  ext
  · exact hx
  · exact hy
  · exact hz

end Openspace
