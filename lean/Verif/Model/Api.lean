import Verif.Model.Step
/- Histories of API calls: src/physics_system.rs, the public methods and the public fields of `PhysicsSystem`. -/
namespace Fluffy
variable {α : Type} [Scalar α] {γ : Type}

/-- One use of the mutating public interface of `PhysicsSystem` (physics_system.rs:86-331; the last one is an
assignment to the public fields, physics_system.rs:37-54). -/
inductive Op (α γ : Type) where
  | addEntity (e : Entity α)
  | removeEntity (h : Handle)
  | updateEntity (h : Handle) (e : Entity α)
  | addCollider (c : Collider α)
  | removeCollider (h : Handle)
  | updateCollider (h : Handle) (c : Collider α)
  | linkCollider (c : Handle) (e : Option Handle)
  | addGenerator (g : γ)
  | removeGenerator (h : Handle)
  | step (dt : α)
  | configure (iterationMax : Nat) (energySleepThreshold sleepTimeThreshold : α)
      (records : List (CollisionRecord α)) (debug : List DebugMsg)

/-- What a call returns. -/
inductive Out (γ : Type) where
  | entity (h : Option Handle)
  | collider (h : Option Handle)
  | generator (h : Handle)
  | removed (g : Option γ)
  | ok (b : Bool)
  | unit

/-- Run one call; `ord` is the iteration order of the hash sets during the call. -/
def System.exec [ForceGenerator α γ] (ord : IterOrder) (s : System α γ) : Op α γ → Res (System α γ × Out γ)
  | .addEntity e => let r := s.addEntity e; .ok (r.1, .entity r.2)
  | .removeEntity h => do let r ← s.removeEntity ord h; .ok (r.1, .ok r.2)
  | .updateEntity h e => do let r ← s.updateEntity ord h e; .ok (r.1, .ok r.2)
  | .addCollider c => let r := s.addCollider c; .ok (r.1, .collider r.2)
  | .removeCollider h => do let r ← s.removeCollider h; .ok (r, .unit)
  | .updateCollider h c => do let r ← s.updateCollider ord h c; .ok (r.1, .ok r.2)
  | .linkCollider c e => do let r ← s.linkCollider ord c e; .ok (r.1, .ok r.2)
  | .addGenerator g => let r := s.addGenerator g; .ok (r.1, .generator r.2)
  | .removeGenerator h => let r := s.removeGenerator h; .ok (r.1, .removed r.2)
  | .step dt => do let r ← s.step ord dt; .ok (r, .unit)
  | .configure n e t rs d =>
    .ok ({ s with iterationMax := n, energySleepThreshold := e, sleepTimeThreshold := t, collisionRecords := rs,
                  debug := d }, .unit)

/-- `Steps s tr s'`: some sequence of calls, none of which panics, leads from `s` to `s'`;
`tr` lists the calls with their results, latest first. -/
inductive Steps [ForceGenerator α γ] (s : System α γ) : List (Op α γ × Out γ) → System α γ → Prop
  | nil : Steps s [] s
  | snoc {tr : List (Op α γ × Out γ)} {m s' : System α γ} (ord : IterOrder) (op : Op α γ) (out : Out γ) :
      Steps s tr m → m.exec ord op = .ok (s', out) → Steps s ((op, out) :: tr) s'

/-- States a program can get into, starting from `PhysicsSystem::new()`. -/
def Reachable [ForceGenerator α γ] (s : System α γ) : Prop := ∃ tr, Steps System.new tr s

end Fluffy
