import Verif.Model.Vec
/- src/orientation.rs -/
namespace Fluffy

/-- src/orientation.rs:10-33 `Orientation` -/
structure Orientation (α : Type) where
  position : Vec3 α
  rotation : Quat α
  internalOriginOffset : Vec3 α
  deriving Repr

/-- src/orientation.rs:38-40 `translate_moment_of_inertia` -/
def translateMomentOfInertia {α : Type} [Scalar α] (moment : Mat3 α) (totalMass : α) (d : Vec3 α) : Mat3 α :=
  moment + (Mat3.diagonalElement (d.dot d) - Mat3.outer d d).scale totalMass

/-- src/orientation.rs:45-48 `rotate_moment_of_inertia` -/
def rotateMomentOfInertia {α : Type} [Scalar α] (moment : Mat3 α) (rotation : Quat α) : Mat3 α :=
  let outOf := rotation.toRotationMatrix
  (outOf.mul moment).mul outOf.transpose

namespace Orientation
variable {α : Type} [Scalar α]

/-- src/orientation.rs:52-58 `Orientation::new` -/
def new (position rotation internalOriginOffset : Vec3 α) : Orientation α :=
  ⟨position, Quat.fromScaledAxis rotation, internalOriginOffset⟩

/-- src/orientation.rs:61-66 `into_local` -/
def intoLocal (o : Orientation α) : Isometry α :=
  let t : Isometry α := ⟨-o.position, Quat.identity⟩
  (t.appendRotation o.rotation.conj).appendTranslation (-o.internalOriginOffset)

/-- src/orientation.rs:69-73 `into_world` -/
def intoWorld (o : Orientation α) : Isometry α := o.intoLocal.inverse

/-- src/orientation.rs:136-138 `rotation_vec` -/
def rotationVec (o : Orientation α) : Vec3 α := o.rotation.scaledAxis

/-- src/orientation.rs:76-84 `lerp` -/
def lerp (time : α) (start stop : Orientation α) : Orientation α :=
  let opposite := one - time
  let rotationVec := start.rotationVec.scale opposite + stop.rotationVec.scale time
  { position := start.position.scale opposite + stop.position.scale time
    rotation := Quat.fromScaledAxis rotationVec
    internalOriginOffset := start.internalOriginOffset }

/-- src/orientation.rs:89-91 `position_into_local` -/
def positionIntoLocal (o : Orientation α) (p : Vec3 α) : Vec3 α := o.intoLocal.point p
/-- src/orientation.rs:96-98 `position_into_world` -/
def positionIntoWorld (o : Orientation α) (p : Vec3 α) : Vec3 α := o.intoWorld.point p
/-- src/orientation.rs:103-105 `direction_into_local` -/
def directionIntoLocal (o : Orientation α) (d : Vec3 α) : Vec3 α := o.intoLocal.vector d
/-- src/orientation.rs:110-112 `direction_into_world` -/
def directionIntoWorld (o : Orientation α) (d : Vec3 α) : Vec3 α := o.intoWorld.vector d

/-- src/orientation.rs:119-121 `prep_moment_of_inertia` -/
def prepMomentOfInertia (o : Orientation α) (centerOfMass : Vec3 α) (totalMass : α) (moment : Mat3 α) : Mat3 α :=
  translateMomentOfInertia moment totalMass (o.internalOriginOffset + centerOfMass)
/-- src/orientation.rs:126-128 `finalize_moment_of_inertia` -/
def finalizeMomentOfInertia (o : Orientation α) (moment : Mat3 α) : Mat3 α :=
  rotateMomentOfInertia moment o.rotation
/-- src/orientation.rs:131-133 `local_origin_in_world` -/
def localOriginInWorld (o : Orientation α) : Vec3 α := o.positionIntoWorld Vec3.zeros
/-- src/orientation.rs:141-144 `affect_with` and 147-151 `after_affected` (which copies first). -/
def afterAffected (o : Orientation α) (linear angular : Vec3 α) : Orientation α :=
  { o with position := o.position + linear, rotation := (Quat.fromScaledAxis angular).mul o.rotation }
end Orientation
end Fluffy
