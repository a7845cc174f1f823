import Verif.Model.Py

/-!
# Model of `/repo/src/openspace/math/linalg.py`

Vectors and matrices are immutable records here; the constructors' defensive copies
(`row1.copy()` and so on) are the subject of the separate heap model `Verif/Model/Heap.lean`.
-/

namespace Openspace

noncomputable section

/-- `Vector6D` (linalg.py 5-38) -/
@[ext] structure Vec6 where
  x : ℝ
  y : ℝ
  z : ℝ
  vx : ℝ
  vy : ℝ
  vz : ℝ

/-- `Vector3D` (linalg.py 121-139) -/
@[ext] structure Vec3 where
  x : ℝ
  y : ℝ
  z : ℝ

/-- `Matrix3D` (linalg.py 328-346) -/
@[ext] structure Mat3 where
  row1 : Vec3
  row2 : Vec3
  row3 : Vec3

/-- `Matrix3by6` (linalg.py 513-526) -/
@[ext] structure Mat36 where
  row1 : Vec6
  row2 : Vec6
  row3 : Vec6

/-- `Matrix6by3` (linalg.py 628-669) -/
@[ext] structure Mat63 where
  row1 : Vec3
  row2 : Vec3
  row3 : Vec3
  row4 : Vec3
  row5 : Vec3
  row6 : Vec3

/-- `Matrix6D` (linalg.py 821-862) -/
@[ext] structure Mat6 where
  row1 : Vec6
  row2 : Vec6
  row3 : Vec6
  row4 : Vec6
  row5 : Vec6
  row6 : Vec6

namespace Vec6

/-- `Vector6D.from_position_and_velocity` (linalg.py 40-51) -/
def fromPosVel (r v : Vec3) : Vec6 := ⟨r.x, r.y, r.z, v.x, v.y, v.z⟩

/-- `Vector6D.dot` (linalg.py 61-76) -/
def dot (a b : Vec6) : ℝ :=
  a.x * b.x + a.y * b.y + a.z * b.z + a.vx * b.vx + a.vy * b.vy + a.vz * b.vz

/-- `Vector6D.copy` (linalg.py 78-84) -/
def copy (a : Vec6) : Vec6 := ⟨a.x, a.y, a.z, a.vx, a.vy, a.vz⟩

/-- `Vector6D.plus` (linalg.py 86-101) -/
def plus (a b : Vec6) : Vec6 :=
  ⟨a.x + b.x, a.y + b.y, a.z + b.z, a.vx + b.vx, a.vy + b.vy, a.vz + b.vz⟩

/-- `Vector6D.minus` (linalg.py 103-118) -/
def minus (a b : Vec6) : Vec6 :=
  ⟨a.x - b.x, a.y - b.y, a.z - b.z, a.vx - b.vx, a.vy - b.vy, a.vz - b.vz⟩

end Vec6

namespace Vec3

/-- `Vector3D.copy` (linalg.py 183-189) -/
def copy (a : Vec3) : Vec3 := ⟨a.x, a.y, a.z⟩

/-- `Vector3D.plus` (linalg.py 191-199) -/
def plus (a b : Vec3) : Vec3 := ⟨a.x + b.x, a.y + b.y, a.z + b.z⟩

/-- `Vector3D.minus` (linalg.py 201-213) -/
def minus (a b : Vec3) : Vec3 := ⟨a.x - b.x, a.y - b.y, a.z - b.z⟩

/-- `Vector3D.dot` (linalg.py 215-223) -/
def dot (a b : Vec3) : ℝ := a.x * b.x + a.y * b.y + a.z * b.z

/-- `Vector3D.cross` (linalg.py 225-237) -/
def cross (a b : Vec3) : Vec3 :=
  ⟨a.y * b.z - a.z * b.y, a.z * b.x - a.x * b.z, a.x * b.y - a.y * b.x⟩

/-- `Vector3D.magnitude` (linalg.py 239-245) -/
def magnitude (a : Vec3) : ℝ := sqrtNN (a.x * a.x + a.y * a.y + a.z * a.z)

/-- `Vector3D.scaled` (linalg.py 247-255) -/
def scaled (a : Vec3) (k : ℝ) : Vec3 := ⟨a.x * k, a.y * k, a.z * k⟩

/-- `Vector3D.normalized` (linalg.py 257-263) -/
def normalized (a : Vec3) : Py Vec3 := do
  let k ← pyDiv 1 a.magnitude
  pure (a.scaled k)

/-- `Vector3D.angle` (linalg.py 265-278) -/
def angle (a b : Vec3) : Py ℝ := do
  let arg ← pyDiv (a.dot b) (a.magnitude * b.magnitude)
  if arg > 1 then pyAcos 1
  else if arg < -1 then pyAcos (-1)
  else pyAcos arg

end Vec3

namespace Mat3

/-- `Matrix3D.diagonal` (linalg.py 348-354) -/
def diagonal (m : Mat3) : Vec3 := ⟨m.row1.x, m.row2.y, m.row3.z⟩

/-- `Matrix3D.column_1` (linalg.py 356-362) -/
def column1 (m : Mat3) : Vec3 := ⟨m.row1.x, m.row2.x, m.row3.x⟩

/-- `Matrix3D.column_2` (linalg.py 364-370) -/
def column2 (m : Mat3) : Vec3 := ⟨m.row1.y, m.row2.y, m.row3.y⟩

/-- `Matrix3D.column_3` (linalg.py 372-378) -/
def column3 (m : Mat3) : Vec3 := ⟨m.row1.z, m.row2.z, m.row3.z⟩

/-- `Matrix3D.multiply_vector` (linalg.py 380-388) -/
def mulVec (m : Mat3) (v : Vec3) : Vec3 := ⟨m.row1.dot v, m.row2.dot v, m.row3.dot v⟩

/-- `Matrix3D.scaled` (linalg.py 390-398) -/
def scaled (m : Mat3) (k : ℝ) : Mat3 := ⟨m.row1.scaled k, m.row2.scaled k, m.row3.scaled k⟩

/-- `Matrix3D.transpose` (linalg.py 400-410) -/
def transpose (m : Mat3) : Mat3 :=
  ⟨⟨m.row1.x, m.row2.x, m.row3.x⟩, ⟨m.row1.y, m.row2.y, m.row3.y⟩, ⟨m.row1.z, m.row2.z, m.row3.z⟩⟩

/-- `Matrix3D.plus` (linalg.py 412-420) -/
def plus (m k : Mat3) : Mat3 := ⟨m.row1.plus k.row1, m.row2.plus k.row2, m.row3.plus k.row3⟩

/-- `Matrix3D.determinant` (linalg.py 422-435) -/
def determinant (m : Mat3) : ℝ :=
  m.row1.x * m.row2.y * m.row3.z
    + m.row1.y * m.row2.z * m.row3.x
    + m.row1.z * m.row2.x * m.row3.y
    - m.row1.z * m.row2.y * m.row3.x
    - m.row1.y * m.row2.x * m.row3.z
    - m.row1.x * m.row2.z * m.row3.y

/-- `Matrix3D.cofactor` (linalg.py 437-459) -/
def cofactor (m : Mat3) : Mat3 :=
  ⟨⟨m.row2.y * m.row3.z - m.row2.z * m.row3.y,
    -(m.row2.x * m.row3.z - m.row3.x * m.row2.z),
    m.row2.x * m.row3.y - m.row3.x * m.row2.y⟩,
   ⟨-(m.row1.y * m.row3.z - m.row3.y * m.row1.z),
    m.row1.x * m.row3.z - m.row1.z * m.row3.x,
    -(m.row1.x * m.row3.y - m.row1.y * m.row3.x)⟩,
   ⟨m.row1.y * m.row2.z - m.row1.z * m.row2.y,
    -(m.row1.x * m.row2.z - m.row2.x * m.row1.z),
    m.row1.x * m.row2.y - m.row1.y * m.row2.x⟩⟩

/-- `Matrix3D.adjugate` (linalg.py 461-467) -/
def adjugate (m : Mat3) : Mat3 := m.cofactor.transpose

/-- `Matrix3D.inverse` (linalg.py 469-475) -/
def inverse (m : Mat3) : Py Mat3 := do
  let k ← pyDiv 1 m.determinant
  pure (m.adjugate.scaled k)

end Mat3

namespace Mat36

/-- `Matrix3by6.column_1` (linalg.py 528-534) -/
def column1 (m : Mat36) : Vec3 := ⟨m.row1.x, m.row2.x, m.row3.x⟩

/-- `Matrix3by6.column_2` (linalg.py 536-542) -/
def column2 (m : Mat36) : Vec3 := ⟨m.row1.y, m.row2.y, m.row3.y⟩

/-- `Matrix3by6.column_3` (linalg.py 544-550) -/
def column3 (m : Mat36) : Vec3 := ⟨m.row1.z, m.row2.z, m.row3.z⟩

/-- `Matrix3by6.column_4` (linalg.py 552-558) -/
def column4 (m : Mat36) : Vec3 := ⟨m.row1.vx, m.row2.vx, m.row3.vx⟩

/-- `Matrix3by6.column_5` (linalg.py 560-566) -/
def column5 (m : Mat36) : Vec3 := ⟨m.row1.vy, m.row2.vy, m.row3.vy⟩

/-- `Matrix3by6.column_6` (linalg.py 568-574) -/
def column6 (m : Mat36) : Vec3 := ⟨m.row1.vz, m.row2.vz, m.row3.vz⟩

/-- `Matrix3by6.multiply_vector` (linalg.py 576-584) -/
def mulVec (m : Mat36) (v : Vec6) : Vec3 := ⟨m.row1.dot v, m.row2.dot v, m.row3.dot v⟩

/-- `Matrix3by6.transpose` (linalg.py 586-599) -/
def transpose (m : Mat36) : Mat63 :=
  ⟨m.column1, m.column2, m.column3, m.column4, m.column5, m.column6⟩

end Mat36

namespace Mat63

/-- `Matrix6by3.column_1` (linalg.py 671-677) -/
def column1 (m : Mat63) : Vec6 :=
  ⟨m.row1.x, m.row2.x, m.row3.x, m.row4.x, m.row5.x, m.row6.x⟩

/-- `Matrix6by3.column_2` (linalg.py 679-685) -/
def column2 (m : Mat63) : Vec6 :=
  ⟨m.row1.y, m.row2.y, m.row3.y, m.row4.y, m.row5.y, m.row6.y⟩

/-- `Matrix6by3.column_3` (linalg.py 687-693) -/
def column3 (m : Mat63) : Vec6 :=
  ⟨m.row1.z, m.row2.z, m.row3.z, m.row4.z, m.row5.z, m.row6.z⟩

/-- `Matrix6by3.transpose` (linalg.py 695-701) -/
def transpose (m : Mat63) : Mat36 := ⟨m.column1, m.column2, m.column3⟩

/-- `Matrix6by3.multiply` (linalg.py 703-742) -/
def mul3 (m : Mat63) (k : Mat3) : Mat63 :=
  ⟨⟨m.row1.dot k.column1, m.row1.dot k.column2, m.row1.dot k.column3⟩,
   ⟨m.row2.dot k.column1, m.row2.dot k.column2, m.row2.dot k.column3⟩,
   ⟨m.row3.dot k.column1, m.row3.dot k.column2, m.row3.dot k.column3⟩,
   ⟨m.row4.dot k.column1, m.row4.dot k.column2, m.row4.dot k.column3⟩,
   ⟨m.row5.dot k.column1, m.row5.dot k.column2, m.row5.dot k.column3⟩,
   ⟨m.row6.dot k.column1, m.row6.dot k.column2, m.row6.dot k.column3⟩⟩

/-- `Matrix6by3.multiply_vector` (linalg.py 744-759) -/
def mulVec (m : Mat63) (v : Vec3) : Vec6 :=
  ⟨m.row1.dot v, m.row2.dot v, m.row3.dot v, m.row4.dot v, m.row5.dot v, m.row6.dot v⟩

/-- `Matrix6by3.multiply_matrix3by6` (linalg.py 761-818) -/
def mul36 (m : Mat63) (k : Mat36) : Mat6 :=
  ⟨⟨m.row1.dot k.column1, m.row1.dot k.column2, m.row1.dot k.column3,
    m.row1.dot k.column4, m.row1.dot k.column5, m.row1.dot k.column6⟩,
   ⟨m.row2.dot k.column1, m.row2.dot k.column2, m.row2.dot k.column3,
    m.row2.dot k.column4, m.row2.dot k.column5, m.row2.dot k.column6⟩,
   ⟨m.row3.dot k.column1, m.row3.dot k.column2, m.row3.dot k.column3,
    m.row3.dot k.column4, m.row3.dot k.column5, m.row3.dot k.column6⟩,
   ⟨m.row4.dot k.column1, m.row4.dot k.column2, m.row4.dot k.column3,
    m.row4.dot k.column4, m.row4.dot k.column5, m.row4.dot k.column6⟩,
   ⟨m.row5.dot k.column1, m.row5.dot k.column2, m.row5.dot k.column3,
    m.row5.dot k.column4, m.row5.dot k.column5, m.row5.dot k.column6⟩,
   ⟨m.row6.dot k.column1, m.row6.dot k.column2, m.row6.dot k.column3,
    m.row6.dot k.column4, m.row6.dot k.column5, m.row6.dot k.column6⟩⟩

end Mat63

/-- `Matrix3D.multiply_matrix3by6` (linalg.py 477-510) -/
def Mat3.mul36 (m : Mat3) (k : Mat36) : Mat36 :=
  ⟨⟨m.row1.dot k.column1, m.row1.dot k.column2, m.row1.dot k.column3,
    m.row1.dot k.column4, m.row1.dot k.column5, m.row1.dot k.column6⟩,
   ⟨m.row2.dot k.column1, m.row2.dot k.column2, m.row2.dot k.column3,
    m.row2.dot k.column4, m.row2.dot k.column5, m.row2.dot k.column6⟩,
   ⟨m.row3.dot k.column1, m.row3.dot k.column2, m.row3.dot k.column3,
    m.row3.dot k.column4, m.row3.dot k.column5, m.row3.dot k.column6⟩⟩

/-- `Matrix3by6.multiply_matrix_6by3` (linalg.py 601-625) -/
def Mat36.mul63 (m : Mat36) (k : Mat63) : Mat3 :=
  ⟨⟨m.row1.dot k.column1, m.row1.dot k.column2, m.row1.dot k.column3⟩,
   ⟨m.row2.dot k.column1, m.row2.dot k.column2, m.row2.dot k.column3⟩,
   ⟨m.row3.dot k.column1, m.row3.dot k.column2, m.row3.dot k.column3⟩⟩

namespace Mat6

/-- `Matrix6D.identity` (linalg.py 864-878) -/
def identity : Mat6 :=
  ⟨⟨1, 0, 0, 0, 0, 0⟩, ⟨0, 1, 0, 0, 0, 0⟩, ⟨0, 0, 1, 0, 0, 0⟩,
   ⟨0, 0, 0, 1, 0, 0⟩, ⟨0, 0, 0, 0, 1, 0⟩, ⟨0, 0, 0, 0, 0, 1⟩⟩

/-- `Matrix6D.diagonal` (linalg.py 880-893) -/
def diagonal (m : Mat6) : Vec6 :=
  ⟨m.row1.x, m.row2.y, m.row3.z, m.row4.vx, m.row5.vy, m.row6.vz⟩

/-- `Matrix6D.multiply_vector` (linalg.py 895-910) -/
def mulVec (m : Mat6) (v : Vec6) : Vec6 :=
  ⟨m.row1.dot v, m.row2.dot v, m.row3.dot v, m.row4.dot v, m.row5.dot v, m.row6.dot v⟩

/-- `Matrix6D.column_1` (linalg.py 912-918) -/
def column1 (m : Mat6) : Vec6 :=
  ⟨m.row1.x, m.row2.x, m.row3.x, m.row4.x, m.row5.x, m.row6.x⟩

/-- `Matrix6D.column_2` (linalg.py 920-926) -/
def column2 (m : Mat6) : Vec6 :=
  ⟨m.row1.y, m.row2.y, m.row3.y, m.row4.y, m.row5.y, m.row6.y⟩

/-- `Matrix6D.column_3` (linalg.py 928-934) -/
def column3 (m : Mat6) : Vec6 :=
  ⟨m.row1.z, m.row2.z, m.row3.z, m.row4.z, m.row5.z, m.row6.z⟩

/-- `Matrix6D.column_4` (linalg.py 936-949) -/
def column4 (m : Mat6) : Vec6 :=
  ⟨m.row1.vx, m.row2.vx, m.row3.vx, m.row4.vx, m.row5.vx, m.row6.vx⟩

/-- `Matrix6D.column_5` (linalg.py 951-964) -/
def column5 (m : Mat6) : Vec6 :=
  ⟨m.row1.vy, m.row2.vy, m.row3.vy, m.row4.vy, m.row5.vy, m.row6.vy⟩

/-- `Matrix6D.column_6` (linalg.py 966-979) -/
def column6 (m : Mat6) : Vec6 :=
  ⟨m.row1.vz, m.row2.vz, m.row3.vz, m.row4.vz, m.row5.vz, m.row6.vz⟩

/-- `Matrix6D.transpose` (linalg.py 981-994) -/
def transpose (m : Mat6) : Mat6 :=
  ⟨m.column1, m.column2, m.column3, m.column4, m.column5, m.column6⟩

/-- `Matrix6D.multiply_matrix_6by3` (linalg.py 996-1035) -/
def mul63 (m : Mat6) (k : Mat63) : Mat63 :=
  ⟨⟨m.row1.dot k.column1, m.row1.dot k.column2, m.row1.dot k.column3⟩,
   ⟨m.row2.dot k.column1, m.row2.dot k.column2, m.row2.dot k.column3⟩,
   ⟨m.row3.dot k.column1, m.row3.dot k.column2, m.row3.dot k.column3⟩,
   ⟨m.row4.dot k.column1, m.row4.dot k.column2, m.row4.dot k.column3⟩,
   ⟨m.row5.dot k.column1, m.row5.dot k.column2, m.row5.dot k.column3⟩,
   ⟨m.row6.dot k.column1, m.row6.dot k.column2, m.row6.dot k.column3⟩⟩

/-- `Matrix6D.multiply_matrix` (linalg.py 1037-1094) -/
def mul (m : Mat6) (k : Mat6) : Mat6 :=
  ⟨⟨m.row1.dot k.column1, m.row1.dot k.column2, m.row1.dot k.column3,
    m.row1.dot k.column4, m.row1.dot k.column5, m.row1.dot k.column6⟩,
   ⟨m.row2.dot k.column1, m.row2.dot k.column2, m.row2.dot k.column3,
    m.row2.dot k.column4, m.row2.dot k.column5, m.row2.dot k.column6⟩,
   ⟨m.row3.dot k.column1, m.row3.dot k.column2, m.row3.dot k.column3,
    m.row3.dot k.column4, m.row3.dot k.column5, m.row3.dot k.column6⟩,
   ⟨m.row4.dot k.column1, m.row4.dot k.column2, m.row4.dot k.column3,
    m.row4.dot k.column4, m.row4.dot k.column5, m.row4.dot k.column6⟩,
   ⟨m.row5.dot k.column1, m.row5.dot k.column2, m.row5.dot k.column3,
    m.row5.dot k.column4, m.row5.dot k.column5, m.row5.dot k.column6⟩,
   ⟨m.row6.dot k.column1, m.row6.dot k.column2, m.row6.dot k.column3,
    m.row6.dot k.column4, m.row6.dot k.column5, m.row6.dot k.column6⟩⟩

/-- `Matrix6D.plus` (linalg.py 1096-1111) -/
def plus (m k : Mat6) : Mat6 :=
  ⟨m.row1.plus k.row1, m.row2.plus k.row2, m.row3.plus k.row3,
   m.row4.plus k.row4, m.row5.plus k.row5, m.row6.plus k.row6⟩

/-- `Matrix6D.minus` (linalg.py 1113-1128) -/
def minus (m k : Mat6) : Mat6 :=
  ⟨m.row1.minus k.row1, m.row2.minus k.row2, m.row3.minus k.row3,
   m.row4.minus k.row4, m.row5.minus k.row5, m.row6.minus k.row6⟩

end Mat6

namespace Vec3

/-- `Vector3D.rotation_matrix` (linalg.py 280-313) -/
def rotationMatrix (axis : Vec3) (theta : ℝ) : Py Mat3 := do
  let u ← axis.normalized
  let c := pyCos theta
  let s := pySin theta
  let cdiff := 1 - c
  pure
    ⟨⟨c + u.x * u.x * cdiff, u.x * u.y * cdiff - u.z * s, u.x * u.z * cdiff + u.y * s⟩,
     ⟨u.y * u.x * cdiff + u.z * s, c + u.y * u.y * cdiff, u.y * u.z * cdiff - u.x * s⟩,
     ⟨u.z * u.x * cdiff - u.y * s, u.z * u.y * cdiff + u.x * s, c + u.z * u.z * cdiff⟩⟩

/-- `Vector3D.rotation_about_axis` (linalg.py 315-325) -/
def rotationAboutAxis (v axis : Vec3) (theta : ℝ) : Py Vec3 := do
  let m ← rotationMatrix axis theta
  pure (m.mulVec v.copy)

/-- `random.gauss(mu, sigma)`: CPython returns `mu + z * sigma` for a standard normal
deviate `z`; the draw `z` is an argument of the model and every theorem quantifies over it. -/
def gauss (mu sigma z : ℝ) : ℝ := mu + z * sigma

/-- `random.uniform(a, b)`: CPython returns `a + (b - a) * random()`; the draw `u` is an
argument of the model and every theorem quantifies over it. -/
def uniform (a b u : ℝ) : ℝ := a + (b - a) * u

/-- `Vector3D.with_magnitude_noise` (linalg.py 153-161); `z` is the draw of `gauss` -/
def withMagnitudeNoise (v : Vec3) (rangeErr z : ℝ) : Py Vec3 := do
  let n ← v.normalized
  pure (n.scaled (gauss v.magnitude rangeErr z))

/-- `Vector3D.with_angular_noise` (linalg.py 163-173); `z`, `u` are the draws of `gauss` and
`uniform` -/
def withAngularNoise (v : Vec3) (angErr z u : ℝ) : Py Vec3 := do
  let a ← v.rotationAboutAxis (v.cross ⟨0, 0, 1⟩) (gauss 0 angErr z)
  a.rotationAboutAxis v (uniform 0 (2 * pyPi) u)

/-- `Vector3D.with_noise` (linalg.py 141-151); the draws are made in the order `z1`, `z2`, `u` -/
def withNoise (v : Vec3) (rangeErr angErr z1 z2 u : ℝ) : Py Vec3 := do
  let a ← v.withMagnitudeNoise rangeErr z1
  a.withAngularNoise angErr z2 u

end Vec3

end

end Openspace
