import Verif.Model.System
import Verif.Model.Collision
/- src/physics_system.rs:331-720: `step` and its helpers. -/
namespace Fluffy
variable {α : Type} [Scalar α] {γ : Type}

/-- src/physics_system.rs:58-67 `EntityStepInfo` -/
structure StepInfo (α : Type) where
  handle : Handle
  linearMovement : Vec3 α
  angularMovement : Vec3 α
  neighbors : List Handle
  deriving Repr

namespace Step

/-- src/physics_system.rs:358-365: the loop over the force generators for one entity. -/
def generatorLoop [ForceGenerator α γ] (dt : α) (w : World α) (h : Handle) (copy : Entity α) :
    List Handle → Arena γ → (acceleration torque : Vec3 α) → Res (Arena γ × Vec3 α × Vec3 α)
  | [], gens, acceleration, torque => .ok (gens, acceleration, torque)
  | gh :: ghs, gens, acceleration, torque => do
    let g ← unwrap (gens.get gh)
    let (f, g') ← ForceGenerator.makeForce g dt w h
    generatorLoop dt w h copy ghs (gens.set gh g')
      (acceleration + f.force.scale (one / copy.lastTotalMass))
      (torque + copy.lastMomentOfInertia.mulVec ((f.position - copy.position).cross f.force))

/-- src/physics_system.rs:371-375: integrate the accelerations of one entity. -/
def integrateVelocity (dt : α) (acceleration torque : Vec3 α) (e : InternalEntity α) : InternalEntity α :=
  { e with
    velocity := e.velocity + acceleration.scale dt
    angularVelocity := e.angularVelocity + e.inverseMomentOfInertia.mulVec (torque.scale dt) }

/-- src/physics_system.rs:350-385: the initial integration of one entity. -/
def integrateOne [ForceGenerator α γ] (dt : α) (gens : List Handle) (s : System α γ) (h : Handle) :
    Res (System α γ × StepInfo α) := do
  let copy ← unwrap (s.getEntity h)
  let totalMass := copy.lastTotalMass
  let (arena, acceleration, torque) ←
    if Scalar.isFinite totalMass && Scalar.lt EPSILON totalMass then
      generatorLoop dt s.toWorld h copy gens s.generators Vec3.zeros Vec3.zeros
    else .ok (s.generators, Vec3.zeros, Vec3.zeros)
  let e ← unwrap (s.entities.get h)
  let e := integrateVelocity dt acceleration torque e
  .ok ({ s with generators := arena, entities := s.entities.set h e },
       ⟨h, e.velocity.scale dt, e.angularVelocity.scale dt, []⟩)

/-- src/physics_system.rs:349-386: the initial integration of all entities, in handle order. -/
def integrateAll [ForceGenerator α γ] (dt : α) (gens : List Handle) :
    List Handle → System α γ → Res (System α γ × List (StepInfo α))
  | [], s => .ok (s, [])
  | h :: hs, s => do
    let (s, info) ← integrateOne dt gens s h
    let (s, infos) ← integrateAll dt gens hs s
    .ok (s, info :: infos)

/-- The `earliest_collision*` locals of src/physics_system.rs:399-408, which are always assigned together;
before the first assignment the collision is `None` and the percentage is `1.0`. -/
structure Candidate (α : Type) where
  percent : α
  collision : Collision α
  restitution : α
  staticFriction : α
  dynamicFriction : α
  frictionThreshold : α
  firstHandle : Handle
  secondHandle : Handle
  firstIndex : Nat
  secondIndex : Nat

/-- `earliest_collision_percent` -/
def percentOf : Option (Candidate α) → α
  | some c => c.percent
  | none => one

/-- `arena.get2_mut(h1, h2)` followed by both `unwrap`s (src/physics_system.rs:417-419, 549-551);
it asserts that the handles differ. -/
def get2 {τ : Type} (a : Arena τ) (h1 h2 : Handle) : Res (τ × τ) :=
  if h1 = h2 then .error .assert
  else do
    let x ← unwrap (a.get h1)
    let y ← unwrap (a.get h2)
    .ok (x, y)

/-- src/physics_system.rs:434-481: one pair of colliders. -/
def considerPair (colliders : Arena (Collider α)) (first second : InternalEntity α) (i1 i2 : StepInfo α)
    (index1 index2 : Nat) (ch1 ch2 : Handle) (best : Option (Candidate α)) : Res (Option (Candidate α)) := do
  let c1 ← unwrap (colliders.get ch1)
  let c2 ← unwrap (colliders.get ch2)
  let r ← collide c1 first.orientation (first.orientation.afterAffected i1.linearMovement i1.angularMovement)
    c2 second.orientation (second.orientation.afterAffected i2.linearMovement i2.angularMovement)
  match r with
  | none => .ok best
  | some collision =>
    let time := collision.times.min
    let delta := first.velocityAt collision.position - second.velocityAt collision.position
    if Scalar.lt (delta.dot collision.normal) EPSILON then .ok best
    else if Scalar.lt time (percentOf best) then
      .ok (some
        { percent := time, collision := collision
          restitution := c1.material.restitution * c2.material.restitution
          staticFriction := c1.material.staticFriction * c2.material.staticFriction
          dynamicFriction := c1.material.dynamicFriction * c2.material.dynamicFriction
          frictionThreshold := c1.material.frictionThreshold * c2.material.frictionThreshold
          firstHandle := i1.handle, secondHandle := i2.handle, firstIndex := index1, secondIndex := index2 })
    else .ok best

/-- src/physics_system.rs:433-482: one collider of the first entity against those of the second. -/
def secondColliderLoop (colliders : Arena (Collider α)) (first second : InternalEntity α) (i1 i2 : StepInfo α)
    (index1 index2 : Nat) (ch1 : Handle) : List Handle → Option (Candidate α) → Res (Option (Candidate α))
  | [], best => .ok best
  | ch2 :: rest, best => do
    let best ← considerPair colliders first second i1 i2 index1 index2 ch1 ch2 best
    secondColliderLoop colliders first second i1 i2 index1 index2 ch1 rest best

/-- src/physics_system.rs:432-483: all pairs of colliders of two entities. -/
def firstColliderLoop (colliders : Arena (Collider α)) (first second : InternalEntity α) (i1 i2 : StepInfo α)
    (index1 index2 : Nat) (order2 : List Handle) :
    List Handle → Option (Candidate α) → Res (Option (Candidate α))
  | [], best => .ok best
  | ch1 :: rest, best => do
    let best ← secondColliderLoop colliders first second i1 i2 index1 index2 ch1 order2 best
    firstColliderLoop colliders first second i1 i2 index1 index2 order2 rest best

/-- src/physics_system.rs:416-484: one pair of entities. -/
def searchPair (ord : IterOrder) (w : World α) (i1 i2 : StepInfo α) (index1 index2 : Nat)
    (best : Option (Candidate α)) : Res (Option (Candidate α)) := do
  let (first, second) ← get2 w.entities i1.handle i2.handle
  if i2.handle ∈ first.neighbors then .ok best
  else if i1.handle ∈ second.neighbors then .ok best
  else
    let order1 := ord.colliders i1.handle first.colliders
    let order2 := ord.colliders i2.handle second.colliders
    firstColliderLoop w.colliders first second i1 i2 index1 index2 order2 order1 best

/-- src/physics_system.rs:413-484: one entity against the later ones. -/
def searchSecond (ord : IterOrder) (w : World α) (i1 : StepInfo α) (index1 : Nat) :
    (index2 : Nat) → List (StepInfo α) → Option (Candidate α) → Res (Option (Candidate α))
  | _, [], best => .ok best
  | index2, i2 :: rest, best => do
    let best ← searchPair ord w i1 i2 index1 index2 best
    searchSecond ord w i1 index1 (index2 + 1) rest best

/-- src/physics_system.rs:410-485: every unique pair of entities. -/
def searchFirst (ord : IterOrder) (w : World α) :
    (index1 : Nat) → List (StepInfo α) → Option (Candidate α) → Res (Option (Candidate α))
  | _, [], best => .ok best
  | index1, i1 :: rest, best => do
    let best ← searchSecond ord w i1 index1 (index1 + 1) rest best
    searchFirst ord w (index1 + 1) rest best

/-- src/physics_system.rs:488-498 and 499-509: wake up a colliding entity unless its mass is infinite. -/
def wakeIfFinite (ord : IterOrder) (h : Handle) (w : World α) : Res (World α) := do
  let e ← unwrap (w.entities.get h)
  if Scalar.isFinite e.totalMass then
    let r ← InternalEntity.wakeUp ord h w.entities w.debug
    .ok { w with entities := r.1, debug := r.2 }
  else .ok w

/-- src/physics_system.rs:487-509 -/
def wakeColliding (ord : IterOrder) (best : Option (Candidate α)) (w : World α) : Res (World α) :=
  match best with
  | none => .ok w
  | some c => do
    let w ← wakeIfFinite ord c.firstHandle w
    wakeIfFinite ord c.secondHandle w

/-- src/physics_system.rs:517-529: advance every entity that is awake and shrink what is left. -/
def advanceLoop (percent : α) : List (StepInfo α) → Arena (InternalEntity α) →
    Res (Arena (InternalEntity α) × List (StepInfo α))
  | [], entities => .ok (entities, [])
  | info :: rest, entities => do
    let e ← unwrap (entities.get info.handle)
    let entities :=
      if !e.asleep then
        let linear := info.linearMovement.scale percent
        let angular := info.angularMovement.scale percent
        entities.set info.handle { e with orientation := e.orientation.afterAffected linear angular }
      else entities
    let info' := { info with
      linearMovement := info.linearMovement.scale (one - percent)
      angularMovement := info.angularMovement.scale (one - percent) }
    let (entities, infos) ← advanceLoop percent rest entities
    .ok (entities, info' :: infos)

/-- src/physics_system.rs:684-695 `calc_collision_impulse_denominator` -/
def impulseDenominator (first second : InternalEntity α) (c : Collision α) : α :=
  let firstOffset := c.position - first.orientation.position
  let secondOffset := c.position - second.orientation.position
  let firstLinear := one / first.totalMass
  let secondLinear := one / second.totalMass
  let firstAngular := ((first.inverseMomentOfInertia.mulVec (firstOffset.cross c.normal)).cross firstOffset).dot c.normal
  let secondAngular := ((second.inverseMomentOfInertia.mulVec (secondOffset.cross c.normal)).cross secondOffset).dot c.normal
  firstLinear + secondLinear + firstAngular + secondAngular

/-- src/physics_system.rs:698-710 `calc_collision_impulse` -/
def collisionImpulse (first second : InternalEntity α) (restitution : α) (c : Collision α) : Vec3 α :=
  let delta := first.velocityAt c.position - second.velocityAt c.position
  let normalCoincidence := delta.dot c.normal
  let numerator := -(one + restitution) * normalCoincidence
  c.normal.scale (numerator / impulseDenominator first second c)

/-- src/physics_system.rs:713-719 `apply_collision_impulse` -/
def applyCollisionImpulse (e : InternalEntity α) (info : StepInfo α) (position impulse : Vec3 α) (remaining : α) :
    InternalEntity α × StepInfo α :=
  let e := e.applyImpulse position impulse
  (e, { info with linearMovement := e.velocity.scale remaining, angularMovement := e.angularVelocity.scale remaining })

/-- src/physics_system.rs:583-601: friction of two bodies after the normal impulse; the friction impulse on
the first, and whether they are left in contact. -/
def frictionImpulse (first second : InternalEntity α) (impulse : Vec3 α) (k : Candidate α) : Vec3 α × Bool :=
  let c := k.collision
  let delta := first.velocityAt c.position - second.velocityAt c.position
  let normalCoincidence := delta.dot c.normal
  let leftInContact := Scalar.lt (Scalar.abs normalCoincidence) EPSILON
  let sliding := delta - c.normal.scale normalCoincidence
  let slidingMagnitude := sliding.magnitude
  let coefficient :=
    if Scalar.lt (Scalar.abs normalCoincidence / slidingMagnitude) k.frictionThreshold then k.staticFriction
    else k.dynamicFriction
  let denominator := impulseDenominator first second c
  let maxFriction := slidingMagnitude / denominator
  let percent := (impulse.magnitude * coefficient) / maxFriction
  let percent := if Scalar.lt one percent then one else percent
  let percent := if !Scalar.isFinite percent then zero else percent
  (sliding.scale (-percent), leftInContact)

/-- The outcome of `respondPair`. -/
structure Response (α : Type) where
  first : InternalEntity α
  second : InternalEntity α
  firstInfo : StepInfo α
  secondInfo : StepInfo α
  record : CollisionRecord α

/-- src/physics_system.rs:538-623: respond to a collision of two entities. -/
def respondPair (k : Candidate α) (recordTime timeAfter : α) (first second : InternalEntity α)
    (i1 i2 : StepInfo α) : Response α :=
  let c := k.collision
  let impulse := collisionImpulse first second k.restitution c
  let record : CollisionRecord α :=
    { firstEntity := k.firstHandle, secondEntity := k.secondHandle, position := c.position, time := recordTime
      normal := c.normal, restitution := k.restitution, impulseMagnitude := impulse.magnitude }
  let r1 := applyCollisionImpulse first i1 c.position impulse timeAfter
  let r2 := applyCollisionImpulse second i2 c.position (-impulse) timeAfter
  let f := frictionImpulse r1.1 r2.1 impulse k
  let r1 := applyCollisionImpulse r1.1 r1.2 c.position f.1 timeAfter
  let r2 := applyCollisionImpulse r2.1 r2.2 c.position (-f.1) timeAfter
  let i1 := if f.2 then { r1.2 with neighbors := hsInsert r1.2.neighbors k.secondHandle } else r1.2
  let i2 := if f.2 then { r2.2 with neighbors := hsInsert r2.2.neighbors k.firstHandle } else r2.2
  ⟨r1.1, r2.1, i1, i2, record⟩

/-- The locals of the iteration loop of src/physics_system.rs:391-633. -/
structure LoopState (α : Type) where
  world : World α
  infos : List (StepInfo α)
  timeLeft : α
  currentPercent : α

/-- src/physics_system.rs:533-625: respond to the earliest collision.  The two info indices are distinct
(`searchSecond` starts after `index1`), so both infos are read first and written at the end. -/
def respond (dt : α) (k : Candidate α) (st : LoopState α) : Res (LoopState α) := do
  let (first, second) ← get2 st.world.entities k.firstHandle k.secondHandle
  let i1 ← index st.infos k.firstIndex
  let i2 ← index st.infos k.secondIndex
  let r := respondPair k (st.currentPercent * dt) st.timeLeft first second i1 i2
  let entities := (st.world.entities.set k.firstHandle r.first).set k.secondHandle r.second
  .ok { st with
    world := { st.world with entities := entities, collisionRecords := st.world.collisionRecords ++ [r.record] }
    infos := (st.infos.set k.firstIndex r.firstInfo).set k.secondIndex r.secondInfo }

/-- src/physics_system.rs:511-530: advance everything to the earliest collision (or to the end). -/
def advance (best : Option (Candidate α)) (st : LoopState α) : Res (LoopState α) := do
  let percent := percentOf best
  let (entities, infos) ← advanceLoop percent st.infos st.world.entities
  .ok { world := { st.world with entities := entities }
        infos := infos
        timeLeft := st.timeLeft * (one - percent)
        currentPercent := st.currentPercent + (one - st.currentPercent) * percent }

/-- src/physics_system.rs:394-633: the iteration loop; the boolean is `concluded`. -/
def iterate (ord : IterOrder) (dt : α) : Nat → LoopState α → Res (LoopState α × Bool)
  | 0, st => .ok (st, false)
  | n + 1, st => do
    let best ← searchFirst ord st.world 0 st.infos none
    let w ← wakeColliding ord best st.world
    let st ← advance best { st with world := w }
    match best with
    | none => .ok (st, true)
    | some k => do
      let st ← respond dt k st
      iterate ord dt n st

/-- src/physics_system.rs:677-680: add the sleeper to its neighbours' sets. -/
def linkNeighbors (h : Handle) : List Handle → Arena (InternalEntity α) → Res (Arena (InternalEntity α))
  | [], entities => .ok entities
  | n :: ns, entities => do
    let e ← unwrap (entities.get n)
    linkNeighbors h ns (entities.set n { e with neighbors := hsInsert e.neighbors h })

/-- src/physics_system.rs:640-680: the sleep decision of one entity. -/
def sleepOne (ord : IterOrder) (dt : α) (info : StepInfo α) (w : World α) : Res (World α) := do
  let e ← unwrap (w.entities.get info.handle)
  if e.asleep then
    let e := { e with velocity := Vec3.zeros, angularVelocity := Vec3.zeros }
    .ok { w with entities := w.entities.set info.handle e }
  else if Scalar.lt w.energySleepThreshold e.totalEnergy then
    let e := { e with fallingAsleep := false, fallingAsleepTime := zero }
    .ok { w with entities := w.entities.set info.handle e }
  else
    let time := if e.fallingAsleep then e.fallingAsleepTime + dt else e.fallingAsleepTime
    let e := { e with fallingAsleep := true, fallingAsleepTime := time }
    if Scalar.lt e.fallingAsleepTime w.sleepTimeThreshold then
      .ok { w with entities := w.entities.set info.handle e }
    else
      let e := { e with asleep := true, neighbors := info.neighbors }
      let entities ← linkNeighbors info.handle (ord.stepNeighbors info.handle info.neighbors)
        (w.entities.set info.handle e)
      .ok { w with entities := entities, debug := w.debug ++ [.puttingToSleep info.handle] }

/-- src/physics_system.rs:639-681: the sleep loop. -/
def sleepLoop (ord : IterOrder) (dt : α) : List (StepInfo α) → World α → Res (World α)
  | [], w => .ok w
  | info :: rest, w => do
    let w ← sleepOne ord dt info w
    sleepLoop ord dt rest w

end Step

open Step in
/-- src/physics_system.rs:331-682 `step` -/
def System.step [ForceGenerator α γ] (ord : IterOrder) (s : System α γ) (dt : α) : Res (System α γ) :=
  if Scalar.lt (Scalar.abs dt) EPSILON then .ok s
  else do
    let s : System α γ := { s with collisionRecords := [], debug := [] }
    let (s, infos) ← integrateAll dt s.generators.handles s.entities.handles s
    let (st, concluded) ← iterate ord dt s.iterationMax ⟨s.toWorld, infos, dt, zero⟩
    let w := if concluded then st.world else { st.world with debug := st.world.debug ++ [.ranOut] }
    let w ← sleepLoop ord dt st.infos w
    .ok { s with toWorld := w }

end Fluffy
