import Verif.Model.Collider
/- src/entity.rs, src/force.rs -/
namespace Fluffy
variable {α : Type} [Scalar α]

/-- src/entity.rs:13-52 `InternalEntity` -/
structure InternalEntity (α : Type) where
  orientation : Orientation α
  ownMass : α
  totalMass : α
  preppedMoment : Mat3 α
  velocity : Vec3 α
  angularVelocity : Vec3 α
  colliders : List Handle
  fallingAsleep : Bool
  fallingAsleepTime : α
  asleep : Bool
  neighbors : List Handle
  deriving Repr

/-- src/entity.rs:268-324 `Entity` -/
structure Entity (α : Type) where
  position : Vec3 α
  rotation : Vec3 α
  velocity : Vec3 α
  angularVelocity : Vec3 α
  colliders : List Handle
  ownMass : α
  lastOrientation : Orientation α
  lastTotalMass : α
  lastPreppedMoment : Mat3 α
  asleep : Bool
  deriving Repr

/-- src/force.rs:4-16 `Force` -/
structure Force (α : Type) where
  force : Vec3 α
  position : Vec3 α
  deriving Repr

/-- The messages pushed to `PhysicsSystem::debug`, without their text. -/
inductive DebugMsg where
  /-- src/entity.rs:245 -/
  | removedFrom (target neighbor : Handle)
  /-- src/entity.rs:257 -/
  | wakingUp (h : Handle)
  /-- src/physics_system.rs:635 -/
  | ranOut
  /-- src/physics_system.rs:674 -/
  | puttingToSleep (h : Handle)
  deriving DecidableEq, Repr

namespace Entity
/-- src/entity.rs:329-347 `Entity::new` -/
def new : Entity α :=
  { position := Vec3.zeros, rotation := Vec3.zeros, velocity := Vec3.zeros, angularVelocity := Vec3.zeros
    colliders := [], ownMass := zero
    lastOrientation := Orientation.new Vec3.zeros Vec3.zeros Vec3.zeros
    lastTotalMass := zero, lastPreppedMoment := Mat3.zeros, asleep := false }
/-- src/entity.rs:367-373 `make_orientation` -/
def makeOrientation (e : Entity α) : Orientation α :=
  Orientation.new e.position e.rotation e.lastOrientation.internalOriginOffset
/-- src/entity.rs:379-381 `get_last_moment_of_inertia` -/
def lastMomentOfInertia (e : Entity α) : Mat3 α :=
  e.makeOrientation.finalizeMomentOfInertia e.lastPreppedMoment
/-- src/entity.rs:384-388 `get_total_energy` -/
def totalEnergy (e : Entity α) : α :=
  let linear := (e.velocity.scale e.lastTotalMass).dot e.velocity / two
  let angular := (e.lastMomentOfInertia.mulVec e.angularVelocity).dot e.angularVelocity / two
  linear + angular
end Entity

namespace InternalEntity

/-- src/entity.rs:56-75 `new_from`; `none` is `Err(())`. -/
def newFrom (source : Entity α) : Option (InternalEntity α) :=
  if Scalar.lt source.ownMass zero then none
  else some
    { orientation := source.makeOrientation, ownMass := source.ownMass, totalMass := source.ownMass
      preppedMoment := Mat3.zeros, velocity := source.velocity, angularVelocity := source.angularVelocity
      colliders := [], fallingAsleep := false, fallingAsleepTime := zero, asleep := false, neighbors := [] }

/-- src/entity.rs:78-97 `make_pub` -/
def makePub (e : InternalEntity α) : Entity α :=
  { position := e.orientation.position, rotation := e.orientation.rotationVec
    lastOrientation := e.orientation, ownMass := e.ownMass, lastTotalMass := e.totalMass
    velocity := e.velocity, angularVelocity := e.angularVelocity, colliders := e.colliders
    lastPreppedMoment := e.preppedMoment, asleep := e.asleep }

/-- src/entity.rs:103-108: the distance between two quaternions, component-wise. -/
def rotationDelta (a b : Quat α) : α :=
  Scalar.sqrt ((a.w - b.w) * (a.w - b.w) + (a.i - b.i) * (a.i - b.i) + (a.j - b.j) * (a.j - b.j) +
    (a.k - b.k) * (a.k - b.k))

/-- src/entity.rs:110-116: has anything changed? -/
def changed (e : InternalEntity α) (source : Entity α) : Bool :=
  !Scalar.eq e.ownMass source.ownMass ||
  Scalar.lt EPSILON (e.orientation.position - source.position).magnitude ||
  Scalar.lt EPSILON (rotationDelta (Quat.fromScaledAxis source.rotation) e.orientation.rotation) ||
  Scalar.lt EPSILON (e.velocity - source.velocity).magnitude ||
  Scalar.lt EPSILON (e.angularVelocity - source.angularVelocity).magnitude

/-- src/entity.rs:100-126 `update_from`; `none` is `Err(())`, the boolean is `changed`. -/
def updateFrom (e : InternalEntity α) (source : Entity α) : Option (InternalEntity α × Bool) :=
  if Scalar.lt source.ownMass zero then none
  else some
    ({ e with
        ownMass := source.ownMass
        orientation := { e.orientation with position := source.position, rotation := Quat.fromScaledAxis source.rotation }
        velocity := source.velocity
        angularVelocity := source.angularVelocity },
     e.changed source)

/-- Locals of the loop of src/entity.rs:132-144. -/
structure MassSum (α : Type) where
  centerOfMass : Vec3 α
  totalOtherMass : α
  foundInfinite : Bool

/-- src/entity.rs:135-144: the first loop of `recalculate_mass`. -/
def massLoop (o : Orientation α) (colliders : Arena (Collider α)) : List Handle → MassSum α → Res (MassSum α)
  | [], acc => .ok acc
  | h :: hs, acc => do
    let c ← unwrap (colliders.get h)
    if Scalar.isInfinite c.mass then return { acc with foundInfinite := true }
    else massLoop o colliders hs { acc with
      totalOtherMass := acc.totalOtherMass + c.mass
      centerOfMass := acc.centerOfMass + (o.positionIntoWorld c.localCenterOfMass).scale c.mass }

/-- src/entity.rs:168-175: the second loop of `recalculate_mass`. -/
def momentLoop (o : Orientation α) (colliders : Arena (Collider α)) : List Handle → Mat3 α → Res (Mat3 α)
  | [], acc => .ok acc
  | h :: hs, acc => do
    let c ← unwrap (colliders.get h)
    momentLoop o colliders hs (acc + o.prepMomentOfInertia c.localCenterOfMass c.mass c.momentOfInertia)

/-- src/entity.rs:145-161: the new total mass and orientation. -/
def recenter (e : InternalEntity α) (s : MassSum α) : InternalEntity α :=
  let totalMass := if s.foundInfinite then Scalar.inf else e.ownMass
  if Scalar.lt zero s.totalOtherMass && !s.foundInfinite then
    let com := s.centerOfMass.unscale s.totalOtherMass
    let movement := com - e.orientation.position
    { e with
      totalMass := totalMass + s.totalOtherMass
      orientation := { e.orientation with
        internalOriginOffset := e.orientation.internalOriginOffset - e.orientation.directionIntoLocal movement
        position := e.orientation.position + movement } }
  else
    let movement := e.orientation.internalOriginOffset
    let o := { e.orientation with internalOriginOffset := e.orientation.internalOriginOffset - movement }
    { e with
      totalMass := totalMass
      orientation := { o with position := o.position + o.directionIntoWorld movement } }

/-- src/entity.rs:129-177 `recalculate_mass`; `order` is the iteration order of `self.colliders`. -/
def recalculateMass (order : List Handle) (colliders : Arena (Collider α)) (e : InternalEntity α) :
    Res (InternalEntity α) := do
  let s ← massLoop e.orientation colliders order ⟨Vec3.zeros, zero, false⟩
  let e := e.recenter s
  if s.foundInfinite then .ok { e with preppedMoment := Mat3.zeros }
  else
    let m ← momentLoop e.orientation colliders order Mat3.zeros
    .ok { e with preppedMoment := m }

/-- src/entity.rs:185-187 `get_moment_of_inertia` -/
def momentOfInertia (e : InternalEntity α) : Mat3 α := e.orientation.finalizeMomentOfInertia e.preppedMoment

/-- src/entity.rs:190-200 `get_inverse_moment_of_inertia` (the warning it prints is dropped) -/
def inverseMomentOfInertia (e : InternalEntity α) : Mat3 α :=
  match e.momentOfInertia.tryInverse with
  | some m => m
  | none => Mat3.zeros

/-- src/entity.rs:203-205 `get_velocity_at_world_position` -/
def velocityAt (e : InternalEntity α) (position : Vec3 α) : Vec3 α :=
  e.velocity + e.angularVelocity.cross (position - e.orientation.position)

/-- src/entity.rs:208-220 `get_total_energy` -/
def totalEnergy (e : InternalEntity α) : α :=
  if Scalar.isInfinite e.totalMass then
    if Scalar.lt e.velocity.magnitude EPSILON && Scalar.lt e.angularVelocity.magnitude EPSILON then zero
    else Scalar.inf
  else
    let linear := (e.velocity.scale e.totalMass).dot e.velocity / two
    let angular := (e.momentOfInertia.mulVec e.angularVelocity).dot e.angularVelocity / two
    linear + angular

/-- src/entity.rs:223-226 `apply_impulse` -/
def applyImpulse (e : InternalEntity α) (position impulse : Vec3 α) : InternalEntity α :=
  { e with
    velocity := e.velocity + impulse.scale (one / e.totalMass)
    angularVelocity := e.angularVelocity +
      e.inverseMomentOfInertia.mulVec ((position - e.orientation.position).cross impulse) }

/-- The state of the `while` loop of `wake_up`. -/
structure WakeState (α : Type) where
  entities : Arena (InternalEntity α)
  completed : List Handle
  queue : List Handle
  debug : List DebugMsg

/-- src/entity.rs:236-251: the loop over the (cloned) neighbours of the target. -/
def wakeNeighbors (target : Handle) : List Handle → WakeState α → Res (WakeState α)
  | [], st => .ok st
  | n :: ns, st =>
    if n ∈ st.completed then wakeNeighbors target ns st
    else do
      let neighbor ← unwrap (st.entities.get n)
      if Scalar.isInfinite neighbor.totalMass then
        wakeNeighbors target ns
          { st with
            entities := st.entities.set n { neighbor with neighbors := hsRemove neighbor.neighbors target }
            debug := st.debug ++ [.removedFrom target n] }
      else wakeNeighbors target ns { st with queue := st.queue ++ [n] }

/-- src/entity.rs:233-262: the `while` loop.  The first argument bounds the number of iterations;
`wakeUp` passes enough (the queue plus all neighbour sets), and `.diverge` is proved unreachable. -/
def wakeLoop (ord : IterOrder) : Nat → WakeState α → Res (WakeState α)
  | fuel, st =>
    match st.queue with
    | [] => .ok st
    | target :: rest =>
      match fuel with
      | 0 => .error .diverge
      | fuel + 1 => do
        let st : WakeState α := { st with queue := rest, completed := hsInsert st.completed target }
        let e ← unwrap (st.entities.get target)
        let st ← wakeNeighbors target (ord.neighbors target e.neighbors) st
        let e ← unwrap (st.entities.get target)
        let debug := if e.asleep then st.debug ++ [.wakingUp target] else st.debug
        wakeLoop ord fuel
          { st with entities := st.entities.set target { e with asleep := false, neighbors := [] }, debug := debug }

/-- The number of stored neighbour links; bounds the iterations of `wakeLoop`. -/
def linkCount (entities : Arena (InternalEntity α)) : Nat :=
  (entities.items.map (fun | some (_, e) => e.neighbors.length | none => 0)).sum

/-- src/entity.rs:229-263 `wake_up` -/
def wakeUp (ord : IterOrder) (start : Handle) (entities : Arena (InternalEntity α)) (debug : List DebugMsg) :
    Res (Arena (InternalEntity α) × List DebugMsg) := do
  let st ← wakeLoop ord (1 + linkCount entities) ⟨entities, [], [start], debug⟩
  .ok (st.entities, st.debug)

end InternalEntity
end Fluffy
