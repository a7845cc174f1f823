import Verif.Model.Linalg
import Mathlib.LinearAlgebra.Matrix.Notation
import Mathlib.LinearAlgebra.Matrix.Determinant.Basic
import Mathlib.Analysis.InnerProductSpace.PiL2

/-!
# Reading the model's vectors and matrices as Mathlib's

The specification of the linear-algebra classes is Mathlib's linear algebra; this file only says
which component of a Python object is which entry.
-/

namespace Openspace

noncomputable section

/-- components of a `Vector3D` -/
def Vec3.toFun (v : Vec3) : Fin 3 → ℝ := ![v.x, v.y, v.z]

/-- components of a `Vector6D` -/
def Vec6.toFun (v : Vec6) : Fin 6 → ℝ := ![v.x, v.y, v.z, v.vx, v.vy, v.vz]

/-- a `Vector3D` as a point of Euclidean space -/
def Vec3.toE (v : Vec3) : EuclideanSpace ℝ (Fin 3) := WithLp.toLp 2 v.toFun

/-- entries of a `Matrix3D` -/
def Mat3.toMatrix (m : Mat3) : Matrix (Fin 3) (Fin 3) ℝ :=
  Matrix.of ![m.row1.toFun, m.row2.toFun, m.row3.toFun]

/-- entries of a `Matrix3by6` -/
def Mat36.toMatrix (m : Mat36) : Matrix (Fin 3) (Fin 6) ℝ :=
  Matrix.of ![m.row1.toFun, m.row2.toFun, m.row3.toFun]

/-- entries of a `Matrix6by3` -/
def Mat63.toMatrix (m : Mat63) : Matrix (Fin 6) (Fin 3) ℝ :=
  Matrix.of ![m.row1.toFun, m.row2.toFun, m.row3.toFun, m.row4.toFun, m.row5.toFun, m.row6.toFun]

/-- entries of a `Matrix6D` -/
def Mat6.toMatrix (m : Mat6) : Matrix (Fin 6) (Fin 6) ℝ :=
  Matrix.of ![m.row1.toFun, m.row2.toFun, m.row3.toFun, m.row4.toFun, m.row5.toFun, m.row6.toFun]

/-- a matrix is a proper rotation: its transpose is its inverse and its determinant is 1 -/
def Mat3.IsRotation (m : Mat3) : Prop :=
  m.toMatrix.transpose * m.toMatrix = 1 ∧ m.toMatrix * m.toMatrix.transpose = 1 ∧ m.toMatrix.det = 1

end

end Openspace
