import Verif.Model.Step
/-
A replay of the repository's own unit tests on the model, computed with `Float32`.
This checks the transcription of the code; it is a test, not a proof, and no theorem depends on it.
-/
namespace Fluffy.Replay

/-- binary32 arithmetic of the host -/
instance : Scalar Float32 where
  lit n d := Float32.ofInt n / Float32.ofNat d
  inf := 1 / 0
  nan := 0 / 0
  abs := Float32.abs
  sqrt := Float32.sqrt
  sin := Float32.sin
  cos := Float32.cos
  acos := Float32.acos
  signum x := if x.isNaN then x else if x < 0 || 1 / x < 0 then -1 else 1
  lt a b := decide (a < b)
  le a b := decide (a ≤ b)
  eq a b := a == b
  isNaN := Float32.isNaN
  isFinite := Float32.isFinite
  isInfinite := Float32.isInf

abbrev F := Float32
abbrev V := Vec3 Float32
abbrev Sys := System F (GravityGenerator F)

/-- A test: a state of the system, or a failure message. -/
abbrev T := StateT Sys (Except String)

def check (what : String) (b : Bool) : T Unit := if b then pure () else throw what
def liftRes {τ : Type} (r : Res τ) : T τ :=
  match r with | .ok a => pure a | .error e => throw s!"panic {repr e}"
def getSome {τ : Type} (o : Option τ) : T τ := match o with | some a => pure a | none => throw "unwrap"
def v (x y z : F) : V := ⟨x, y, z⟩
def eps : F := EPSILON
def near (a b : V) (tol : F := eps) : Bool := (a - b).magnitude < tol
def nearS (a b : F) (tol : F := eps) : Bool := (a - b).abs < tol
def ord : IterOrder := IterOrder.id

def addEntity (e : Entity F) : T Handle := do
  let r := (← get).addEntity e; set r.1; getSome r.2
def addCollider (c : Collider F) : T Handle := do
  let r := (← get).addCollider c; set r.1; getSome r.2
def link (c : Handle) (e : Option Handle) : T Bool := do
  let r ← liftRes ((← get).linkCollider ord c e); set r.1; pure r.2
def linkOk (c : Handle) (e : Option Handle) : T Unit := do check "link" (← link c e)
def step (dt : F) : T Unit := do let s ← liftRes ((← get).step ord dt); set s
def getEntity (h : Handle) : T (Entity F) := do getSome ((← get).getEntity h)
def updateEntity (h : Handle) (e : Entity F) : T Unit := do
  let r ← liftRes ((← get).updateEntity ord h e); set r.1; check "update_entity" r.2
def updateCollider (h : Handle) (c : Collider F) : T Unit := do
  let r ← liftRes ((← get).updateCollider ord h c); set r.1; check "update_collider" r.2
def removeEntity (h : Handle) : T Unit := do let r ← liftRes ((← get).removeEntity ord h); set r.1
def removeCollider (h : Handle) : T Unit := do let r ← liftRes ((← get).removeCollider h); set r
def getSphere (h : Handle) : T (SphereCollider F) := do
  match (← get).getCollider h with | some (.sphere s) => pure s | _ => throw "not a sphere"
def steps (n : Nat) (dt : F) : T Unit := do for _ in List.range n do step dt

def run (t : T Unit) : Bool := match t.run System.new with | .ok _ => true | .error _ => false
def report (t : T Unit) : String := match t.run System.new with | .ok _ => "ok" | .error e => e

/-- src/physics_system.rs:733-777 -/
def basicUpdate : T Unit := do
  step 1
  let first ← addEntity { Entity.new with position := v 1 2 3 }
  let e ← getEntity first
  check "a" (e.position.x == 1 && e.position.y == 2 && e.position.z == 3 && e.velocity.magnitude == 0)
  updateEntity first { e with velocity := v 1 0 0 }
  let e ← getEntity first
  check "b" (e.position.x == 1 && e.position.y == 2 && e.position.z == 3 && e.velocity.x == 1)
  step 1
  let e ← getEntity first
  check "c" (e.position.x == 2 && e.position.y == 2 && e.position.z == 3 && e.velocity.x == 1)
  removeEntity first
  check "d" ((← get).getEntity first).isNone

/-- src/physics_system.rs:781-812 -/
def storeCollider : T Unit := do
  let id ← addCollider (.sphere { SphereCollider.new 2 with center := v 0 0 1 })
  let s ← getSphere id
  check "a" (s.center.z == 1 && s.radius == 2 && s.entity == none)
  updateCollider id (.sphere { s with center := v 5 0 1 })
  let s ← getSphere id
  check "b" (s.center.x == 5 && s.center.z == 1 && s.radius == 2)
  removeCollider id
  check "c" ((← get).getCollider id).isNone

/-- src/physics_system.rs:816-921 -/
def linkTest : T Unit := do
  let first ← addEntity { Entity.new with position := v 0 0 1 }
  let c ← addCollider (.sphere (SphereCollider.new 2))
  check "a" ((← getEntity first).colliders.length == 0 && (← getSphere c).entity == none)
  linkOk c (some first)
  check "b" ((← getEntity first).colliders == [c] && (← getSphere c).entity == some first)
  let second ← addEntity Entity.new
  linkOk c (some second)
  let unchanged : T Unit := do
    check "c" ((← getEntity first).colliders == [] && (← getEntity second).colliders == [c] &&
      (← getSphere c).entity == some second)
  unchanged
  let temp ← addEntity Entity.new
  removeEntity temp
  check "d" (!(← link c (some temp)))
  unchanged
  let temp ← addCollider (.sphere (SphereCollider.new 2))
  removeCollider temp
  check "e" (!(← link temp (some second)))
  unchanged
  linkOk c (some second)
  unchanged
  linkOk c none
  check "f" ((← getEntity first).colliders == [] && (← getEntity second).colliders == [] &&
    (← getSphere c).entity == none)
  linkOk c (some second)
  removeEntity second
  check "g" ((← getEntity first).colliders == [] && ((← get).getCollider c).isNone)

/-- src/physics_system.rs:925-968 -/
def localSpace : T Unit := do
  let e ← addEntity { Entity.new with position := v 1 2 3 }
  let origin : T V := do return (← getEntity e).lastOrientation.localOriginInWorld
  let c1 ← addCollider (.sphere { SphereCollider.new 1 with center := v (-1) 15 8, mass := 1 })
  linkOk c1 (some e)
  check "a" (near (← origin) (v 1 2 3))
  linkOk c1 none
  check "b" (near (← origin) (v 1 2 3))
  let c2 ← addCollider (.sphere { SphereCollider.new 1 with center := v 8 (-1) 5, mass := 1 })
  linkOk c2 (some e)
  linkOk c1 (some e)
  check "c" (near (← origin) (v 1 2 3))

/-- src/physics_system.rs:972-1000 -/
def linkNull : T Unit := do
  let e ← addEntity { Entity.new with position := v (-1) (-1) (-1) }
  let c ← addCollider (.null { NullCollider.new with position := v 2 2 2, mass := 1 })
  linkOk c (some e)
  check "a" (near (← getEntity e).position (v 1 1 1))
  step 1
  linkOk c none
  check "b" (near (← getEntity e).position (v (-1) (-1) (-1)))

/-- src/physics_system.rs:1004-1033 -/
def basicPlane : T Unit := do
  let c ← addCollider (.plane PlaneCollider.new)
  updateCollider c (.plane { PlaneCollider.new with normal := v 1 0 0 })
  match (← get).getCollider c with
  | some (.plane p) => check "a" (near p.normal (v 1 0 0))
  | _ => throw "not a plane"
  let e ← addEntity Entity.new
  linkOk c (some e)
  step 1
  linkOk c none

/-- src/physics_system.rs:1037-1085 -/
def billiard : T Unit := do
  let first ← addEntity { Entity.new with ownMass := 1 }
  linkOk (← addCollider (.sphere { SphereCollider.new 1 with mass := 1 })) (some first)
  updateEntity first { (← getEntity first) with velocity := v 2 0 0 }
  let second ← addEntity { Entity.new with position := v 3 0 0, ownMass := 1 }
  linkOk (← addCollider (.sphere { SphereCollider.new 1 with mass := 1 })) (some second)
  step 1
  let e ← getEntity first
  check "a" (nearS e.velocity.x 0 && nearS e.position.x 1)
  let e ← getEntity second
  check "b" (nearS e.velocity.x 2 && nearS e.position.x 4)

/-- src/physics_system.rs:1089-1144 -/
def autoUpdate : T Unit := do
  let first ← addEntity { Entity.new with ownMass := 1 }
  updateEntity first { (← getEntity first) with ownMass := 2 }
  check "a" ((← getEntity first).lastTotalMass == 2)
  let c ← addCollider (.sphere { SphereCollider.new 1 with mass := 1 })
  linkOk c (some first)
  check "b" ((← getEntity first).lastTotalMass == 3)
  updateCollider c (.sphere { (← getSphere c) with mass := 5 })
  check "c" ((← getEntity first).lastTotalMass == 7)
  let second ← addEntity Entity.new
  linkOk c (some second)
  check "d" ((← getEntity first).lastTotalMass == 2 && (← getEntity second).lastTotalMass == 5)
  linkOk c none
  check "e" ((← getEntity first).lastTotalMass == 2 && (← getEntity second).lastTotalMass == 0)

/-- src/physics_system.rs:1148-1183 -/
def angularUpdate : T Unit := do
  let e ← addEntity { Entity.new with position := v 1 1 1 }
  linkOk (← addCollider (.sphere { SphereCollider.new 1 with mass := 1 })) (some e)
  updateEntity e { (← getEntity e) with angularVelocity := v 0 0 1 }
  let at_ (r : V) : T Unit := do
    let t ← getEntity e
    check "pos" (near t.position (v 1 1 1))
    check "rot" (near t.rotation r)
  at_ (v 0 0 0)
  step 1
  at_ (v 0 0 1)
  step 1
  at_ (v 0 0 2)

def frictionless : Material F := { Material.default with staticFriction := 0, dynamicFriction := 0 }

/-- src/physics_system.rs:1187-1246 -/
def angularAdsorb : T Unit := do
  let first ← addEntity Entity.new
  linkOk (← addCollider (.sphere { SphereCollider.new 1 with mass := 1, material := frictionless })) (some first)
  updateEntity first { (← getEntity first) with velocity := v 0 1 0 }
  let dual ← addEntity { Entity.new with position := v 2 3 0 }
  for x in [-2, 2] do
    let s : SphereCollider F := { SphereCollider.new 1 with mass := 1, material := frictionless, center := v x 0 0 }
    linkOk (← addCollider (.sphere s)) (some dual)
  step 2
  let t ← getEntity first
  check "a" (near t.position (v 0 1 0) 0.05 && near t.velocity (v 0 0 0) 0.05)
  let t ← getEntity dual
  check "b" (t.velocity.dot (v 0 1 0) > eps && t.angularVelocity.dot (v 0 0 (-1)) > eps)

def inf : F := Scalar.inf

/-- src/physics_system.rs:1250-1286 -/
def floorStop : T Unit := do
  let ball ← addEntity { Entity.new with position := v 0 0 2, velocity := v 0 0 2 }
  linkOk (← addCollider (.sphere { SphereCollider.new 1 with mass := 1 })) (some ball)
  let wall ← addEntity { Entity.new with position := v (-1) 8 4 }
  let p : PlaneCollider F := { PlaneCollider.new with
    normal := v 0 0 (-1), mass := inf, material := { Material.default with restitution := 0 } }
  linkOk (← addCollider (.plane p)) (some wall)
  step 1
  let e ← getEntity ball
  check "a" (near e.position (v 0 0 3) && near e.velocity (v 0 0 0))
  let e ← getEntity wall
  check "b" (near e.position (v (-1) 8 4) && near e.velocity (v 0 0 0))

/-- src/physics_system.rs:1291-1364 -/
def wallRiccochet : T Unit := do
  let dual ← addEntity { Entity.new with velocity := v 0 0 (-2), angularVelocity := v 0 (-1) 0 }
  for x in [1, -1] do
    let s : SphereCollider F := { SphereCollider.new 1 with mass := 1, center := v x 0 0 }
    linkOk (← addCollider (.sphere s)) (some dual)
  let wall ← addEntity { Entity.new with position := v 0 0 (-2) }
  let p : PlaneCollider F := { PlaneCollider.new with normal := v 0 0 1, mass := inf, material := frictionless }
  linkOk (← addCollider (.plane p)) (some wall)
  for i in List.range 100 do
    let distance : F := -(Float32.ofNat i) / 30 - 2
    let wallPosition := v 0 0 distance
    updateEntity dual { Entity.new with velocity := v 0 0 (-2), angularVelocity := v 0.1 (-1) 0.1 }
    updateEntity wall { Entity.new with position := wallPosition }
    let initial := (← getEntity dual).totalEnergy
    let total := 2 * (distance.abs - 1) / 2
    steps (total / 0.1).ceil.toUInt32.toNat 0.1
    let e ← getEntity dual
    check s!"energy {i} {initial} {e.totalEnergy}" ((e.totalEnergy - initial).abs < eps * 10)
    check "velocity" (0 < e.velocity.z)
    check "wall" (near (← getEntity wall).position wallPosition)

/-- src/physics_system.rs:1368-1374 -/
def generators : T Unit := do
  let r := (← get).addGenerator ⟨v 1 2 3⟩
  set r.1
  let q := (← get).removeGenerator r.2
  set q.1
  match q.2 with | some g => check "a" (near g.acceleration (v 1 2 3)) | none => throw "none"
  check "b" ((← get).removeGenerator r.2).2.isNone

def addGravity : T Unit := do set ((← get).addGenerator ⟨v 0 (-1) 0⟩).1

def addBall (p : V) : T Handle := do
  let e ← addEntity { Entity.new with position := p }
  let s : SphereCollider F := { SphereCollider.new 1 with mass := 1, material := { Material.default with restitution := 0 } }
  linkOk (← addCollider (.sphere s)) (some e)
  return e

def addFloor : T Handle := do
  let e ← addEntity Entity.new
  linkOk (← addCollider (.plane { PlaneCollider.new with mass := inf })) (some e)
  return e

/-- src/physics_system.rs:1378-1414 -/
def basicGravity : T Unit := do
  let ball ← addBall (v 0 3 0)
  let _ ← addFloor
  addGravity
  steps 250 0.1
  check "a" (near (← getEntity ball).position (v 0 1 0))

/-- src/physics_system.rs:1418-1503 -/
def goToSleep : T Unit := do
  let ball ← addBall (v 0 3 0)
  let wall ← addFloor
  addGravity
  step (eps / 2)
  steps 10 0.1
  check "a" (← getEntity wall).asleep
  check "b" (!(← getEntity ball).asleep)
  steps 20 0.1
  check "c" (← getEntity wall).asleep
  check "d" (← getEntity ball).asleep
  let e ← getEntity ball
  check "e" (nearS e.position.y 1)
  updateEntity ball { e with velocity := v 1 e.velocity.y e.velocity.z }
  check "f" (!(← getEntity ball).asleep)
  check "g" (← getEntity wall).asleep
  steps 10 0.1
  let e ← getEntity ball
  check "h" (nearS e.position.y 1)
  updateEntity ball { e with velocity := v 0 e.velocity.y e.velocity.z, angularVelocity := e.angularVelocity.scale 0 }
  check "i" (← getEntity wall).asleep
  steps 10 0.1
  let e ← getEntity ball
  check "j" (e.asleep && nearS e.position.y 1)
  check "k" (← getEntity wall).asleep

/-- src/physics_system.rs:1507-1572 -/
def dualSleeping : T Unit := do
  let ball1 ← addBall (v 0 3 0)
  let ball2 ← addBall (v 5 5.5 0)
  let wall ← addFloor
  addGravity
  steps 25 0.1
  check "a" (← getEntity wall).asleep
  check "b" (← getEntity ball1).asleep
  check "c" (!(← getEntity ball2).asleep)
  steps 10 0.1
  check "d" (← getEntity wall).asleep
  check "e" (← getEntity ball1).asleep
  check "f" (← getEntity ball2).asleep

#guard run basicUpdate
#guard run storeCollider
#guard run linkTest
#guard run localSpace
#guard run linkNull
#guard run basicPlane
#guard run billiard
#guard run autoUpdate
#guard run angularUpdate
#guard run angularAdsorb
#guard run floorStop
#guard run generators
#guard run basicGravity
#guard run goToSleep
#guard run dualSleeping
#guard run wallRiccochet

/-- `remove_collider` on a linked collider panics (src/physics_system.rs:179-183; no unit test does this). -/
def removeLinked : T Unit := do
  let e ← addEntity Entity.new
  let c ← addCollider (.sphere (SphereCollider.new 2))
  linkOk c (some e)
  removeCollider c
#guard !run removeLinked

/-! src/range.rs:131-278 -/
def rangeIs (r : Range F) (a b : F) : Bool := r.min == a && r.max == b
#guard (Range.empty : Range F).isEmpty && (Range.empty : Range F).size == 0
#guard (Range.single (Scalar.nan : F)).isEmpty
#guard rangeIs (Range.range (-1) 2) (-1) 2 && (Range.range (-1 : F) 2).size == 3
#guard rangeIs Range.everything (-inf) inf && (Range.everything : Range F).size == inf
#guard rangeIs (Range.single 1) 1 1 && (Range.single (1 : F)).size == 0 && !(Range.single (1 : F)).isEmpty
#guard (Range.empty : Range F).min.isNaN && (Range.empty : Range F).max.isNaN
#guard ((Range.single 1).intersect (Range.empty : Range F)).isEmpty
#guard ((Range.empty : Range F).contain Range.empty).isEmpty
#guard ((Range.range (2 : F) 1).intersect (Range.range (-2) (-1))).isEmpty
#guard rangeIs ((Range.range 2 (-1)).contain (Range.range (-2) 1)) (-2) 2
#guard ((Range.empty : Range F).intersect (Range.single 1)).isEmpty
#guard rangeIs ((Range.range (-2) 1).intersect (Range.range 2 (-1))) (-1) 1
#guard rangeIs ((Range.range 2 (-1)).intersect (Range.range (-2) 1)) (-1) 1
#guard ((Range.range (-2 : F) (-1)).intersect (Range.range 2 1)).isEmpty
#guard rangeIs ((Range.empty).contain (Range.single 1)) 1 1
#guard rangeIs ((Range.single 1).contain Range.empty) 1 1
#guard rangeIs ((Range.range (-2) 1).contain (Range.range 2 (-1))) (-2) 2
#guard rangeIs (Range.quadraticZeros 2 (-7) 3) 0.5 3
#guard rangeIs (Range.quadraticZeros 1 4 4) (-2) (-2)
#guard (Range.quadraticZeros (1 : F) 0 1).isEmpty
#guard rangeIs (Range.quadraticZeros 0 0 0) (-inf) inf
#guard (Range.quadraticZeros (0 : F) 0 1).isEmpty
#guard rangeIs (Range.quadraticZeros 0 1 2) (-2) (-2)

/-! src/orientation.rs:162-189 -/
def o1 : Orientation F := Orientation.new (v 1 1 1) (v 0 0 0) (v 0 2 0)
def o2 : Orientation F := o1.afterAffected (v 0 0 0) (v 0 0 (-3.14159265 / 2))
#guard near o1.localOriginInWorld (v 1 3 1) && near (o1.positionIntoWorld (v 0 (-1) 0)) (v 1 2 1)
#guard near o2.localOriginInWorld (v 3 1 1) && near (o2.positionIntoWorld (v 0 (-1) 0)) (v 2 1 1)
#guard near (o2.positionIntoWorld (v 1 0 0)) (v 3 0 1)

/-! src/collision.rs:740-1105, 1216-1237 -/
def hitIs (r : Option (Collision F)) (t : F) (p n : V) : Bool :=
  match r with | some c => nearS c.times.min t && near c.position p && near c.normal n | none => false
def resIs (r : Res (Option (Collision F))) (t : F) (p n : V) : Bool :=
  match r with | .ok r => hitIs r t p n | .error _ => false
def missed (r : Res (Option (Collision F))) : Bool := match r with | .ok none => true | _ => false
def normalIs (r : Res (Option (Collision F))) (n : V) : Bool :=
  match r with | .ok (some c) => near c.normal n | _ => false
#guard hitIs (collideSphereSphere 1 (v 1 1 1) (v 2 0 0) 1 (v 5 1 1) (v (-2) 0 0)) 0.5 (v 3 1 1) (v 1 0 0)
#guard hitIs (collideSpherePlane 1 (v 1 1 1) (v 0 (-2) 0) (v 2 (-1) 5) (v 0 1 0) (v 1 0 1)) 0.5 (v 1 (-1) 1) (v 0 (-1) 0)
#guard hitIs (collideSphereLine 1 (v 4 3 0) (v 0 (-2) 0) (v 1 1 0) (v 3 0 0) (v (-1) 0 0)) 0.5 (v 4 1 0) (v 0 (-1) 0)
#guard (collideSphereLine 1 (v 4 3 0) (v 0 0 1) (v 1 1 0) (v 3 0 0) (v (-1) (-1) 0)).isNone
#guard hitIs (collideSphereMidSegment 1 (v 4 3 0) (v 0 (-2) 0) (v 1 1 0) (v 6 1 0) (v (-1) 0 0)) 0.5 (v 4 1 0) (v 0 (-1) 0)
#guard (collideSphereMidSegment 1 (v 4 3 0) (v 0 0 1) (v 1 1 0) (v (-1) 1 0) (v (-1) (-1) 0)).isNone
def tri : List V := [v 0 1 1, v (-1) (-1) 1, v 1 (-1) 1]
#guard resIs (collideSpherePolygon 1 (v 0 0 3) (v 0 0 (-2)) tri (v (-1) 0 0)) 0.5 (v 0 0 1) (v 0 0 (-1))
#guard missed (collideSpherePolygon 1 (v 1 0 3) (v 0 0 (-2)) tri (v (-1) (-1) 0))
def meshAgainst (c m m2 : V) := collideSphereMesh 1 c m tri [(0, 1), (1, 2), (2, 0)] [[0, 1, 2]] m2
#guard resIs (meshAgainst (v 0 3 1) (v 0 (-2) 0) (v 0 0 0)) 0.5 (v 0 1 1) (v 0 (-1) 0)
#guard resIs (meshAgainst (v 0 (-3) 1) (v 0 2 0) (v 0 0 0)) 0.5 (v 0 (-1) 1) (v 0 1 0)
#guard resIs (meshAgainst (v 0.5 (-0.5) 3) (v 0 0 (-2)) (v 0 0 0)) 0.5 (v 0.5 (-0.5) 1) (v 0 0 (-1))
#guard missed (meshAgainst (v 0 0 3) (v 0 0 (-2)) (v 0 4 0))
def at0 (p : V) : Orientation F := Orientation.new p (v 0 0 0) (v 0 0 0)
def meshPlane (s e : V) := collideMeshPlane [v 0 0 0, v 1 1 1] (v 0 0 0) (at0 (v 0 0 0)) (at0 (v 0 0 2)) s e (v 0 0 (-1))
#guard hitIs (meshPlane (v 0 0 2) (v 0 0 2)) 0.5 (v 1 1 2) (v 0 0 1)
#guard (meshPlane (v 0 0 2) (v 0 0 8)).isNone
#guard hitIs (meshPlane (v 0 0 (-10)) (v 0 0 (-10))) 0 (v 1 1 1) (v 0 0 1)
def poly : List V := [v 0 0 0, v 2 0 0, v 0 2 0]
#guard missed (collidePointPolygon (v 0 5 1) (v 0 5 (-1)) poly)
#guard resIs (collidePointPolygon (v 0.5 0.5 1) (v 0.5 0.5 (-1)) poly) 0.5 (v 0.5 0.5 0) (v 0 0 1)
#guard resIs (collidePointPolygon (v 0.5 0.5 (-1)) (v 0.5 0.5 1) poly) 0.5 (v 0.5 0.5 0) (v 0 0 (-1))
#guard normalIs (collidePointPolygon (v 0.5 0.5 0) (v 0.5 0.5 1) poly) (v 0 0 (-1))
#guard normalIs (collidePointPolygon (v 0.5 0.5 0) (v 0.5 0.5 (-1)) poly) (v 0 0 1)
#guard missed (collidePointPolygon (v 1 (-1) 0) (v 1 (-2) 0) poly)
#guard missed (collidePointPolygon (v 10 (-1) 0) (v 10 1 0) poly)
#guard match collidePointPolygon (v 1 (-1) 0) (v 1 1 0) poly with
  | .ok (some c) => nearS c.times.min 0.5 && near c.position (v 1 0 0)
  | _ => false

/-! src/mesh_collider.rs:296-352 -/
def meshCounts (fs : List (List V)) : Option (Nat × Nat × Nat) :=
  match fs.foldlM (fun m f => MeshCollider.addFace m f) (MeshCollider.new : MeshCollider F) with
  | .ok m => if m.isValid then some (m.faces.length, m.edges.length, m.vertices.length) else none
  | .error _ => none
def f1 := [v 0 1 0, v 1 (-1) 0, v (-1) (-1) 0]
def f2 := [v 2 1 0, v 1 (-1) 0, v 3 (-1) 0]
def f3 := [v 0 (-1) 1, v 1 (-1) 0, v (-1) (-1) 0]
def f4 := [v 0 1 0, v 1 (-1) 0, v 2 1 0]
#guard meshCounts [] == none
#guard meshCounts [f1] == some (1, 3, 3)
#guard meshCounts [f1, f2] == some (2, 6, 5)
#guard meshCounts [f1, f2, f3] == some (3, 8, 6)
#guard meshCounts [f1, f2, f3, f4] == some (4, 9, 6)

end Fluffy.Replay
