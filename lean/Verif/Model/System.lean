import Verif.Model.Entity
/- src/physics_system.rs (everything but `step`), src/gravity_generator.rs, src/unary_force_generator.rs,
src/collision_record.rs -/
namespace Fluffy
variable {α : Type} [Scalar α]

/-- src/collision_record.rs:3-19 `CollisionRecord` -/
structure CollisionRecord (α : Type) where
  firstEntity : Handle
  secondEntity : Handle
  position : Vec3 α
  time : α
  normal : Vec3 α
  restitution : α
  impulseMagnitude : α
  deriving Repr

/-- src/physics_system.rs:25-55 `PhysicsSystem`, without the force generators: what a force generator
can see.  (The `RefCell`s are left out; see `removeCollider`.) -/
structure World (α : Type) where
  entities : Arena (InternalEntity α)
  colliders : Arena (Collider α)
  iterationMax : Nat
  collisionRecords : List (CollisionRecord α)
  energySleepThreshold : α
  sleepTimeThreshold : α
  debug : List DebugMsg

/-- src/unary_force_generator.rs:10-13 `UnaryForceGenerator`; `γ` stands for `Box<dyn UnaryForceGenerator>`.
`&mut self` is the returned generator, and a call may panic. -/
class ForceGenerator (α : Type) (γ : Type) where
  makeForce : γ → (dt : α) → World α → Handle → Res (Force α × γ)

/-- src/physics_system.rs:25-55 `PhysicsSystem` -/
structure System (α : Type) (γ : Type) extends World α where
  generators : Arena γ

/-- src/gravity_generator.rs:8-11 `GravityGenerator` -/
structure GravityGenerator (α : Type) where
  acceleration : Vec3 α
  deriving Repr

namespace World
/-- src/physics_system.rs:108-110 `get_entity` -/
def getEntity (w : World α) (h : Handle) : Option (Entity α) := (w.entities.get h).map InternalEntity.makePub
/-- src/physics_system.rs:192-212 `get_collider` -/
def getCollider (w : World α) (h : Handle) : Option (Collider α) := (w.colliders.get h).map Collider.makePub
end World

/-- src/gravity_generator.rs:20-28 `make_force` -/
instance : ForceGenerator α (GravityGenerator α) where
  makeForce g _ w h := do
    let e ← unwrap (w.getEntity h)
    .ok (⟨g.acceleration.scale e.lastTotalMass, e.position⟩, g)

namespace System
variable {γ : Type}

/-- src/physics_system.rs:71-83 `new` -/
def new : System α γ :=
  { entities := Arena.new, colliders := Arena.new, generators := Arena.new, iterationMax := 5
    collisionRecords := [], energySleepThreshold := lit 1 1000, sleepTimeThreshold := lit 1 10, debug := [] }

/-- src/physics_system.rs:86-89 `add_entity` -/
def addEntity (s : System α γ) (source : Entity α) : System α γ × Option Handle :=
  match InternalEntity.newFrom source with
  | some e => let r := s.entities.insert e; ({ s with entities := r.1 }, some r.2)
  | none => (s, none)

/-- src/physics_system.rs:178-187 `remove_collider`.  The `RefMut` made by `self.colliders.borrow_mut()` in
the scrutinee of the `if let` lives until the end of its body (edition 2018, Cargo.toml), so
`self.colliders.borrow()` on line 183 panics with a `BorrowError` whenever it is reached. -/
def removeCollider (s : System α γ) (h : Handle) : Res (System α γ) :=
  let r := s.colliders.remove h
  match r.2 with
  | some remainder =>
    match remainder.entity with
    | some eh =>
      match s.entities.get eh with
      | some _ => .error .borrow
      | none => .ok { s with colliders := r.1 }
    | none => .ok { s with colliders := r.1 }
  | none => .ok s

/-- src/physics_system.rs:98-100: the loop of `remove_entity`. -/
def removeColliders : List Handle → System α γ → Res (System α γ)
  | [], s => .ok s
  | h :: hs, s => do
    let s ← s.removeCollider h
    removeColliders hs s

/-- src/physics_system.rs:94-103 `remove_entity` -/
def removeEntity (ord : IterOrder) (s : System α γ) (h : Handle) : Res (System α γ × Bool) :=
  let r := s.entities.remove h
  match r.2 with
  | some e => do
    let s ← removeColliders (ord.colliders h e.colliders) { s with entities := r.1 }
    .ok (s, true)
  | none => .ok (s, false)

/-- src/physics_system.rs:115-129 `update_entity`; the boolean is `is_ok()`. -/
def updateEntity (ord : IterOrder) (s : System α γ) (h : Handle) (source : Entity α) : Res (System α γ × Bool) :=
  match s.entities.get h with
  | none => .ok (s, false)
  | some e =>
    match e.updateFrom source with
    | none => .ok (s, false)
    | some (e', wokeUp) => do
      let e'' ← e'.recalculateMass (ord.colliders h e'.colliders) s.colliders
      let entities := s.entities.set h e''
      if wokeUp then
        let r ← InternalEntity.wakeUp ord h entities s.debug
        .ok ({ s with entities := r.1, debug := r.2 }, true)
      else .ok ({ s with entities := entities }, true)

/-- src/physics_system.rs:132-175 `add_collider` -/
def addCollider (s : System α γ) (source : Collider α) : System α γ × Option Handle :=
  match source.newFrom with
  | some c => let r := s.colliders.insert c; ({ s with colliders := r.1 }, some r.2)
  | none => (s, none)

/-- src/physics_system.rs:266-270: recalculate the mass of the linked entity, if it exists. -/
def refreshEntity (ord : IterOrder) (s : System α γ) (eh : Option Handle) : Res (System α γ) :=
  match eh with
  | none => .ok s
  | some eh =>
    match s.entities.get eh with
    | none => .ok s
    | some e => do
      let e ← e.recalculateMass (ord.colliders eh e.colliders) s.colliders
      .ok { s with entities := s.entities.set eh e }

/-- src/physics_system.rs:219-272 `update_collider`; the boolean is `is_ok()`. -/
def updateCollider (ord : IterOrder) (s : System α γ) (h : Handle) (source : Collider α) :
    Res (System α γ × Bool) :=
  match s.colliders.get h with
  | none => .ok (s, false)
  | some c =>
    match c.updateFrom source with
    | .wrongType => .ok (s, false)
    | .invalid => do
      let s ← refreshEntity ord s c.entity
      .ok (s, false)
    | .updated c' => do
      let s ← refreshEntity ord { s with colliders := s.colliders.set h c' } c.entity
      .ok (s, true)

/-- src/physics_system.rs:301-311: remove the collider from the entity it was linked to. -/
def unlinkPrior (ord : IterOrder) (s : System α γ) (ch : Handle) (prior : Option Handle) : Res (System α γ) :=
  match prior with
  | none => .ok s
  | some ph =>
    match s.entities.get ph with
    | none => .ok s
    | some pe => do
      let pe := { pe with colliders := hsRemove pe.colliders ch }
      let pe ← pe.recalculateMass (ord.colliders ph pe.colliders) s.colliders
      .ok { s with entities := s.entities.set ph pe }

/-- src/physics_system.rs:292-313: switch the value in the collider, then unlink. -/
def switchLink (ord : IterOrder) (s : System α γ) (ch : Handle) (eh : Option Handle) : Res (System α γ × Bool) :=
  match s.colliders.get ch with
  | none => .ok (s, false)
  | some c => do
    let prior := c.entity
    let s : System α γ := { s with colliders := s.colliders.set ch (c.setEntity eh) }
    if prior ≠ eh then
      let s ← unlinkPrior ord s ch prior
      .ok (s, true)
    else .ok (s, true)

/-- src/physics_system.rs:277-314 `link_collider`; the boolean is `is_ok()`. -/
def linkCollider (ord : IterOrder) (s : System α γ) (ch : Handle) (eh : Option Handle) : Res (System α γ × Bool) :=
  if !s.colliders.contains ch then .ok (s, false)
  else
    match eh with
    | none => switchLink ord s ch none
    | some h =>
      match s.entities.get h with
      | none => .ok (s, false)
      | some e => do
        let e := { e with colliders := hsInsert e.colliders ch }
        let e ← e.recalculateMass (ord.colliders h e.colliders) s.colliders
        switchLink ord { s with entities := s.entities.set h e } ch (some h)

/-- src/physics_system.rs:317-319 `add_unary_force_generator` (always `Ok`) -/
def addGenerator (s : System α γ) (g : γ) : System α γ × Handle :=
  let r := s.generators.insert g
  ({ s with generators := r.1 }, r.2)

/-- src/physics_system.rs:322-324 `remove_unary_force_generator` -/
def removeGenerator (s : System α γ) (h : Handle) : System α γ × Option γ :=
  let r := s.generators.remove h
  ({ s with generators := r.1 }, r.2)

end System
end Fluffy
