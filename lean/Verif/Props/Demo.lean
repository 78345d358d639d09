import Verif.Proofs.History
import Verif.Num.XReal
/- A small concrete history over exact numbers, used beside the theorems to show that their hypotheses can be met. -/
namespace Fluffy.Demo
open XReal

abbrev Sys := System XReal (GravityGenerator XReal)

/-- An entity of mass 1 at the origin, at rest. -/
noncomputable def ball : Entity XReal := { Entity.new with ownMass := fin 1 }
/-- A collider of mass 2 that never collides. -/
noncomputable def weight : Collider XReal := .null { NullCollider.new with mass := fin 2 }

/-- After `add_entity(ball)`. -/
noncomputable def s1 : Sys := ((System.new : Sys).addEntity ball).1
/-- After `add_collider(weight)`. -/
noncomputable def s2 : Sys := (s1.addCollider weight).1
/-- After a second `add_entity(ball)`. -/
noncomputable def s3 : Sys := (s2.addEntity ball).1

def h0 : Handle := ⟨0, 0⟩
def h1 : Handle := ⟨1, 0⟩

theorem ball_new : ∃ e, InternalEntity.newFrom ball = some e := by
  simp [InternalEntity.newFrom, ball]
theorem weight_new : ∃ c, weight.newFrom = some c := by
  simp [Collider.newFrom, weight, NullCollider.isValid]

theorem exec1 : (System.new : Sys).exec .id (.addEntity ball) = .ok (s1, .entity (some h0)) := by
  obtain ⟨e, he⟩ := ball_new
  simp only [System.exec, s1, System.addEntity, he]; rfl
theorem exec2 : s1.exec .id (.addCollider weight) = .ok (s2, .collider (some h0)) := by
  obtain ⟨e, he⟩ := ball_new
  obtain ⟨c, hc⟩ := weight_new
  simp only [System.exec, s1, s2, System.addEntity, System.addCollider, he, hc]; rfl
theorem exec3 : s2.exec .id (.addEntity ball) = .ok (s3, .entity (some h1)) := by
  obtain ⟨e, he⟩ := ball_new
  obtain ⟨c, hc⟩ := weight_new
  simp only [System.exec, s1, s2, s3, System.addEntity, System.addCollider, he, hc]; rfl

theorem steps3 : Steps (System.new : Sys) [(.addEntity ball, .entity (some h1)),
    (.addCollider weight, .collider (some h0)), (.addEntity ball, .entity (some h0))] s3 :=
  .snoc .id _ _ (.snoc .id _ _ (.snoc .id _ _ .nil exec1) exec2) exec3
theorem reachable3 : Reachable s3 := ⟨_, steps3⟩

/-- The entity `ball` becomes. -/
noncomputable def ballE : InternalEntity XReal :=
  { orientation := ball.makeOrientation, ownMass := fin 1, totalMass := fin 1
    preppedMoment := Mat3.zeros, velocity := Vec3.zeros, angularVelocity := Vec3.zeros
    colliders := [], fallingAsleep := false, fallingAsleepTime := zero, asleep := false, neighbors := [] }
theorem ball_newFrom : InternalEntity.newFrom ball = some ballE := by
  simp [InternalEntity.newFrom, ball, ballE, Entity.new]
theorem weight_newFrom : weight.newFrom = some weight := by
  simp [Collider.newFrom, weight, NullCollider.isValid, NullCollider.new]

theorem s3_entities : s3.entities = ⟨[some (0, ballE), some (0, ballE), none, none], [2, 3], 0⟩ := by
  simp only [s3, s2, s1, System.addEntity, System.addCollider, ball_newFrom, weight_newFrom]; rfl
theorem s3_colliders : s3.colliders = ⟨[some (0, weight), none, none, none], [1, 2, 3], 0⟩ := by
  simp only [s3, s2, s1, System.addEntity, System.addCollider, ball_newFrom, weight_newFrom]; rfl

end Fluffy.Demo
