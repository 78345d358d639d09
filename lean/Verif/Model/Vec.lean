import Verif.Model.Scalar
/-
Three-component vectors, 3x3 matrices, quaternions and isometries: the part of nalgebra 0.24
that the crate uses (`src/types.rs:1-6`: `Vec3 = Vector3<f32>`, `Mat3 = Matrix3<f32>`,
`Quat = UnitQuaternion<f32>`, `Isometry = Isometry3<f32>`), written out by component.
nalgebra's source is not in the sandbox; the formulas are those of its documentation and of
version 0.24 as known.
-/
namespace Fluffy

/-- src/types.rs:4 `Vec3` -/
structure Vec3 (α : Type) where
  x : α
  y : α
  z : α
  deriving DecidableEq, Repr

namespace Vec3
variable {α : Type}

/-- `a + b` -/
instance [Add α] : Add (Vec3 α) := ⟨fun a b => ⟨a.x + b.x, a.y + b.y, a.z + b.z⟩⟩
/-- `a - b` -/
instance [Sub α] : Sub (Vec3 α) := ⟨fun a b => ⟨a.x - b.x, a.y - b.y, a.z - b.z⟩⟩
/-- `-a` -/
instance [Neg α] : Neg (Vec3 α) := ⟨fun a => ⟨-a.x, -a.y, -a.z⟩⟩

/-- `v.scale(k)`, `v * k`, `k * v` -/
def scale [Mul α] (v : Vec3 α) (k : α) : Vec3 α := ⟨v.x * k, v.y * k, v.z * k⟩
/-- `v / k` -/
def unscale [Div α] (v : Vec3 α) (k : α) : Vec3 α := ⟨v.x / k, v.y / k, v.z / k⟩
/-- `a.dot(b)` -/
def dot [Add α] [Mul α] (a b : Vec3 α) : α := a.x * b.x + a.y * b.y + a.z * b.z
/-- `a.cross(b)` -/
def cross [Sub α] [Mul α] (a b : Vec3 α) : Vec3 α :=
  ⟨a.y * b.z - a.z * b.y, a.z * b.x - a.x * b.z, a.x * b.y - a.y * b.x⟩

variable [Scalar α]
/-- `Vec3::zeros()` -/
def zeros : Vec3 α := ⟨zero, zero, zero⟩
/-- `Vec3::y()` -/
def unitY : Vec3 α := ⟨zero, one, zero⟩
/-- `v.magnitude()` (= `norm()`) -/
def magnitude (v : Vec3 α) : α := Scalar.sqrt (v.dot v)
/-- `v.normalize()`: divides by the norm, no check. -/
def normalize (v : Vec3 α) : Vec3 α := v.unscale v.magnitude
end Vec3

/-- src/types.rs:3 `Mat3`, by rows. -/
structure Mat3 (α : Type) where
  r1 : Vec3 α
  r2 : Vec3 α
  r3 : Vec3 α
  deriving DecidableEq, Repr

namespace Mat3
variable {α : Type}

/-- `m + n` -/
instance [Add α] : Add (Mat3 α) := ⟨fun a b => ⟨a.r1 + b.r1, a.r2 + b.r2, a.r3 + b.r3⟩⟩
/-- `m - n` -/
instance [Sub α] : Sub (Mat3 α) := ⟨fun a b => ⟨a.r1 - b.r1, a.r2 - b.r2, a.r3 - b.r3⟩⟩

/-- `k * m` -/
def scale [Mul α] (m : Mat3 α) (k : α) : Mat3 α := ⟨m.r1.scale k, m.r2.scale k, m.r3.scale k⟩
/-- `m * v` -/
def mulVec [Add α] [Mul α] (m : Mat3 α) (v : Vec3 α) : Vec3 α := ⟨m.r1.dot v, m.r2.dot v, m.r3.dot v⟩
/-- `m.transpose()` -/
def transpose (m : Mat3 α) : Mat3 α :=
  ⟨⟨m.r1.x, m.r2.x, m.r3.x⟩, ⟨m.r1.y, m.r2.y, m.r3.y⟩, ⟨m.r1.z, m.r2.z, m.r3.z⟩⟩
/-- `m * n` -/
def mul [Add α] [Mul α] (m n : Mat3 α) : Mat3 α :=
  let t := n.transpose
  ⟨⟨m.r1.dot t.r1, m.r1.dot t.r2, m.r1.dot t.r3⟩,
   ⟨m.r2.dot t.r1, m.r2.dot t.r2, m.r2.dot t.r3⟩,
   ⟨m.r3.dot t.r1, m.r3.dot t.r2, m.r3.dot t.r3⟩⟩
/-- `a * b.transpose()` for column vectors -/
def outer [Mul α] (a b : Vec3 α) : Mat3 α :=
  ⟨⟨a.x * b.x, a.x * b.y, a.x * b.z⟩, ⟨a.y * b.x, a.y * b.y, a.y * b.z⟩,
   ⟨a.z * b.x, a.z * b.y, a.z * b.z⟩⟩

variable [Scalar α]
/-- `Mat3::zeros()` -/
def zeros : Mat3 α := ⟨Vec3.zeros, Vec3.zeros, Vec3.zeros⟩
/-- `Mat3::from_diagonal(v)` -/
def diagonal (v : Vec3 α) : Mat3 α := ⟨⟨v.x, zero, zero⟩, ⟨zero, v.y, zero⟩, ⟨zero, zero, v.z⟩⟩
/-- `Mat3::from_diagonal_element(k)` -/
def diagonalElement (k : α) : Mat3 α := diagonal ⟨k, k, k⟩

/-- `m.try_inverse()` (nalgebra's closed form for 3x3; `None` exactly when the determinant is zero). -/
def tryInverse (m : Mat3 α) : Option (Mat3 α) :=
  let m11 := m.r1.x; let m12 := m.r1.y; let m13 := m.r1.z
  let m21 := m.r2.x; let m22 := m.r2.y; let m23 := m.r2.z
  let m31 := m.r3.x; let m32 := m.r3.y; let m33 := m.r3.z
  let minor_m12_m23 := m22 * m33 - m32 * m23
  let minor_m11_m23 := m21 * m33 - m31 * m23
  let minor_m11_m22 := m21 * m32 - m31 * m22
  let determinant := m11 * minor_m12_m23 - m12 * minor_m11_m23 + m13 * minor_m11_m22
  if Scalar.eq determinant zero then none
  else some
    ⟨⟨minor_m12_m23 / determinant, (m13 * m32 - m33 * m12) / determinant,
      (m12 * m23 - m22 * m13) / determinant⟩,
     ⟨-minor_m11_m23 / determinant, (m11 * m33 - m31 * m13) / determinant,
      (m13 * m21 - m23 * m11) / determinant⟩,
     ⟨minor_m11_m22 / determinant, (m12 * m31 - m32 * m11) / determinant,
      (m11 * m22 - m21 * m12) / determinant⟩⟩
end Mat3

/-- src/types.rs:5 `Quat = UnitQuaternion<f32>`: scalar part `w`, vector part `(i, j, k)`. -/
structure Quat (α : Type) where
  w : α
  i : α
  j : α
  k : α
  deriving DecidableEq, Repr

namespace Quat
variable {α : Type}

/-- the vector part -/
def vec (q : Quat α) : Vec3 α := ⟨q.i, q.j, q.k⟩

/-- Hamilton product `a * b` -/
def mul [Add α] [Sub α] [Mul α] (a b : Quat α) : Quat α :=
  ⟨a.w * b.w - a.i * b.i - a.j * b.j - a.k * b.k,
   a.w * b.i + a.i * b.w + a.j * b.k - a.k * b.j,
   a.w * b.j - a.i * b.k + a.j * b.w + a.k * b.i,
   a.w * b.k + a.i * b.j - a.j * b.i + a.k * b.w⟩

/-- `q.inverse()` of a unit quaternion: the conjugate. -/
def conj [Neg α] (q : Quat α) : Quat α := ⟨q.w, -q.i, -q.j, -q.k⟩

variable [Scalar α]

/-- `Quat::identity()` -/
def identity : Quat α := ⟨one, zero, zero, zero⟩

/-- `q * v`: `t = 2 (q.vector x v)`, result `t * q.w + q.vector x t + v`. -/
def rotate (q : Quat α) (v : Vec3 α) : Vec3 α :=
  let t := (q.vec.cross v).scale two
  t.scale q.w + q.vec.cross t + v

/-- `f32::EPSILON = 2^-23`, nalgebra's default epsilon for `f32`. -/
def machineEps : α := lit 1 8388608

/-- `Quat::from_scaled_axis(v)`: the exponential of the pure quaternion `v / 2`.
(nalgebra multiplies by `exp 0 = 1`, which is exact and omitted.) -/
def fromScaledAxis (axisAngle : Vec3 α) : Quat α :=
  let v := axisAngle.unscale two
  let nn := v.dot v
  if Scalar.le nn (machineEps * machineEps) then identity
  else
    let n := Scalar.sqrt nn
    let nv := v.scale (Scalar.sin n / n)
    ⟨Scalar.cos n, nv.x, nv.y, nv.z⟩

/-- `q.scaled_axis()`: axis times angle; zero when the vector part is zero. -/
def scaledAxis (q : Quat α) : Vec3 α :=
  let v := if Scalar.le zero q.w then q.vec else -q.vec
  let nn := v.dot v
  if Scalar.lt zero nn then
    let w := Scalar.abs q.w
    let angle := if Scalar.le one w then zero else Scalar.acos w * two
    (v.unscale (Scalar.sqrt nn)).scale angle
  else Vec3.zeros

/-- `q.to_rotation_matrix()` -/
def toRotationMatrix (q : Quat α) : Mat3 α :=
  let ii := q.i * q.i; let jj := q.j * q.j; let kk := q.k * q.k; let ww := q.w * q.w
  let ij := q.i * q.j * two; let wk := q.w * q.k * two; let wj := q.w * q.j * two
  let ik := q.i * q.k * two; let jk := q.j * q.k * two; let wi := q.w * q.i * two
  ⟨⟨ww + ii - jj - kk, ij - wk, wj + ik⟩,
   ⟨wk + ij, ww - ii + jj - kk, jk - wi⟩,
   ⟨ik - wj, wi + jk, ww - ii - jj + kk⟩⟩
end Quat

/-- src/types.rs:6 `Isometry`: `p ↦ rotation * p + translation`. -/
structure Isometry (α : Type) where
  translation : Vec3 α
  rotation : Quat α
  deriving Repr

namespace Isometry
variable {α : Type} [Scalar α]

/-- `append_rotation_mut(r)`: rotate after the present transform. -/
def appendRotation (t : Isometry α) (r : Quat α) : Isometry α :=
  ⟨r.rotate t.translation, r.mul t.rotation⟩
/-- `append_translation_mut(d)`: translate after the present transform. -/
def appendTranslation (t : Isometry α) (d : Vec3 α) : Isometry α :=
  ⟨t.translation + d, t.rotation⟩
/-- `inverse_mut()` -/
def inverse (t : Isometry α) : Isometry α :=
  ⟨t.rotation.conj.rotate (-t.translation), t.rotation.conj⟩
/-- `transform_point(p)` -/
def point (t : Isometry α) (p : Vec3 α) : Vec3 α := t.rotation.rotate p + t.translation
/-- `transform_vector(v)` -/
def vector (t : Isometry α) (v : Vec3 α) : Vec3 α := t.rotation.rotate v
end Isometry

end Fluffy
