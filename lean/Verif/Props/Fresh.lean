import Verif.Props.Store
import Verif.Num.Kernel
/-
C106: what `new()` gives can be added as it is, and has the values one expects.
-/
set_option linter.unusedSectionVars false
set_option linter.unusedSimpArgs false
namespace Fluffy.Props
open Fluffy

section
open XReal
variable {γ : Type} [ForceGenerator XReal γ]

/-- The surface that a collider has unless it is given another: it bounces fully, the static coefficient is 1 up to a speed of 1/4, the dynamic one is 3/10. -/
noncomputable def plainSurface : Material XReal := ⟨fin 1, fin (1 / 4), fin 1, fin (3 / 10)⟩

theorem default_surface : (Material.default : Material XReal) = plainSurface := by
  simp [Material.default, plainSurface]

/-- Whether a collider can be added does not depend on the system. -/
theorem add_of_newFrom {c d : Collider XReal} (h : c.newFrom = some d) (s : System XReal γ) : ∃ s' k, s.addCollider c = (s', some k) := by
  unfold System.addCollider; rw [h]; exact ⟨_, _, rfl⟩

/-- **C106 (an entity).** An entity as `Entity::new` makes it can be added to every system; it is at the origin, does not move or turn, weighs nothing, has no colliders and is awake. -/
theorem C106_entity_partial {s : System XReal γ} (hr : Reachable s) : ∃ s' h e, s.addEntity Entity.new = (s', some h) ∧ s'.getEntity h = some e ∧
    e.position = ⟨fin 0, fin 0, fin 0⟩ ∧ e.velocity = ⟨fin 0, fin 0, fin 0⟩ ∧ e.angularVelocity = ⟨fin 0, fin 0, fin 0⟩ ∧ e.ownMass = fin 0 ∧ e.lastTotalMass = fin 0 ∧
    e.colliders = [] ∧ e.asleep = false ∧ e.lastOrientation.rotation = ⟨fin 1, fin 0, fin 0, fin 0⟩ := by
  have hn : InternalEntity.newFrom (Entity.new : Entity XReal) ≠ none := by
    unfold InternalEntity.newFrom
    rw [if_neg (by simp [Entity.new])]
    simp
  obtain ⟨E, hE⟩ := Option.ne_none_iff_exists'.mp hn
  obtain ⟨s', h, ha⟩ : ∃ s' h, s.addEntity Entity.new = (s', some h) := by
    unfold System.addEntity; rw [hE]; exact ⟨_, _, rfl⟩
  obtain ⟨-, ⟨p, hp, p1, p2, p3, p4, p5, p6, p7, p8⟩, -⟩ := C03_add_then_get_entity hr ha
  refine ⟨s', h, p, ha, hp, by rw [p1]; simp [Entity.new, NullCollider.new, SphereCollider.new, PlaneCollider.new, BoxCollider.new, Vec3.zeros], by rw [p2]; simp [Entity.new, NullCollider.new, SphereCollider.new, PlaneCollider.new, BoxCollider.new, Vec3.zeros], by rw [p3]; simp [Entity.new, NullCollider.new, SphereCollider.new, PlaneCollider.new, BoxCollider.new, Vec3.zeros], by rw [p4]; simp [Entity.new, NullCollider.new, SphereCollider.new, PlaneCollider.new, BoxCollider.new, Vec3.zeros], by rw [p5]; simp [Entity.new, NullCollider.new, SphereCollider.new, PlaneCollider.new, BoxCollider.new, Vec3.zeros], p6, p7, ?_⟩
  rw [p8, show (Entity.new : Entity XReal).rotation = (Vec3.o).f by simp [Entity.new, Vec3.zeros, Vec3.f, Vec3.o], Quat.f_fromScaledAxis]
  simp [Quat.exp, Quat.f, Vec3.dot_def, Vec3.o, mul_self_nonneg, Quat.e]

/-- **C106 (a null collider).** -/
theorem C106_null_partial {s : System XReal γ} (hr : Reachable s) : ∃ s' h c, s.addCollider (.null .new) = (s', some h) ∧ s'.getCollider h = some (.null c) ∧
    c.entity = none ∧ c.position = ⟨fin 0, fin 0, fin 0⟩ ∧ c.mass = fin 0 := by
  obtain ⟨d, hd⟩ : ∃ d, (Collider.null .new : Collider XReal).newFrom = some d := by
    simp [Collider.newFrom, NullCollider.isValid, NullCollider.new]
  obtain ⟨s', h, ha⟩ := add_of_newFrom hd s
  obtain ⟨-, ⟨d, hg, hs⟩, -⟩ := C04_add_then_get_collider hr ha
  cases d <;> simp only [StoredAs] at hs
  obtain ⟨q1, q2, q3, -⟩ := hs
  exact ⟨s', h, _, ha, hg, q1, by rw [q2]; simp [Entity.new, NullCollider.new, SphereCollider.new, PlaneCollider.new, BoxCollider.new, Vec3.zeros], by rw [q3]; simp [Entity.new, NullCollider.new, SphereCollider.new, PlaneCollider.new, BoxCollider.new, Vec3.zeros]⟩

/-- **C106 (a ball).** A ball as `SphereCollider::new` makes it can be added exactly if its radius is more than 1/20; it is centred, weighs nothing and has the plain surface. -/
theorem C106_sphere_partial {s : System XReal γ} (hr : Reachable s) (r : ℝ) :
    (1 / 20 < r → ∃ s' h c, s.addCollider (.sphere (.new (fin r))) = (s', some h) ∧ s'.getCollider h = some (.sphere c) ∧
      c.entity = none ∧ c.center = ⟨fin 0, fin 0, fin 0⟩ ∧ c.radius = fin r ∧ c.mass = fin 0 ∧ c.material = plainSurface) ∧
    (r ≤ 1 / 20 → s.addCollider (.sphere (.new (fin r))) = (s, none)) := by
  refine ⟨fun hR => ?_, fun hR => ?_⟩
  · obtain ⟨d, hd⟩ : ∃ d, (Collider.sphere (.new (fin r)) : Collider XReal).newFrom = some d := by
      have : (5 : ℝ) / 100 < r := by linarith
      simp [Collider.newFrom, SphereCollider.isValid, SphereCollider.new, MINIMUM_RADIUS, this]
    obtain ⟨s', h, ha⟩ := add_of_newFrom hd s
    obtain ⟨-, ⟨d, hg, hs⟩, -⟩ := C04_add_then_get_collider hr ha
    cases d <;> simp only [StoredAs] at hs
    obtain ⟨q1, q2, q3, q4, q5⟩ := hs
    exact ⟨s', h, _, ha, hg, q1, by rw [q2]; simp [Entity.new, NullCollider.new, SphereCollider.new, PlaneCollider.new, BoxCollider.new, Vec3.zeros], by rw [q3]; simp [Entity.new, NullCollider.new, SphereCollider.new, PlaneCollider.new, BoxCollider.new, Vec3.zeros], by rw [q4]; simp [Entity.new, NullCollider.new, SphereCollider.new, PlaneCollider.new, BoxCollider.new, Vec3.zeros], by rw [q5]; exact default_surface⟩
  · have hd : (Collider.sphere (.new (fin r)) : Collider XReal).newFrom = none := by
      have : ¬ (5 : ℝ) / 100 < r := by linarith
      simp [Collider.newFrom, SphereCollider.isValid, SphereCollider.new, MINIMUM_RADIUS, this]
    unfold System.addCollider; rw [hd]

/-- **C106 (a plane).** -/
theorem C106_plane_partial {s : System XReal γ} (hr : Reachable s) : ∃ s' h c, s.addCollider (.plane .new) = (s', some h) ∧ s'.getCollider h = some (.plane c) ∧
    c.entity = none ∧ c.position = ⟨fin 0, fin 0, fin 0⟩ ∧ c.normal = ⟨fin 0, fin 1, fin 0⟩ ∧ c.mass = fin 0 ∧ c.material = plainSurface := by
  obtain ⟨d, hd⟩ : ∃ d, (Collider.plane .new : Collider XReal).newFrom = some d := by
    have s1 : Scalar.sqrt (fin 1) = fin 1 := by rw [fin_sqrt zero_le_one, Real.sqrt_one]
    simp [Collider.newFrom, PlaneCollider.isValid, PlaneCollider.new, Vec3.unitY, Vec3.magnitude, Vec3.dot, s1]; norm_num
  obtain ⟨s', h, ha⟩ := add_of_newFrom hd s
  obtain ⟨-, ⟨d, hg, hs⟩, -⟩ := C04_add_then_get_collider hr ha
  cases d <;> simp only [StoredAs] at hs
  obtain ⟨q1, q2, q3, q4, q5, -⟩ := hs
  refine ⟨s', h, _, ha, hg, q1, by rw [q2]; simp [Entity.new, NullCollider.new, SphereCollider.new, PlaneCollider.new, BoxCollider.new, Vec3.zeros], ?_, by rw [q3]; simp [Entity.new, NullCollider.new, SphereCollider.new, PlaneCollider.new, BoxCollider.new, Vec3.zeros], by rw [q4]; exact default_surface⟩
  rw [q5 trivial]
  have s1 : Scalar.sqrt (fin 1) = fin 1 := by rw [fin_sqrt zero_le_one, Real.sqrt_one]
  simp [PlaneCollider.new, Vec3.unitY, Vec3.dot, Vec3.unscale, s1, fin_div one_ne_zero]

/-- **C106 (a box).** It reaches from the origin to (1, 1, 1). -/
theorem C106_box_partial {s : System XReal γ} (hr : Reachable s) : ∃ s' h c, s.addCollider (.box .new) = (s', some h) ∧ s'.getCollider h = some (.box c) ∧
    c.entity = none ∧ c.position = ⟨fin 0, fin 0, fin 0⟩ ∧ c.minCorner = ⟨fin 0, fin 0, fin 0⟩ ∧ c.maxCorner = ⟨fin 1, fin 1, fin 1⟩ ∧ c.mass = fin 0 ∧ c.material = plainSurface := by
  obtain ⟨d, hd⟩ : ∃ d, (Collider.box .new : Collider XReal).newFrom = some d := by
    have hd : (⟨fin 1, fin 1, fin 1⟩ - ⟨fin 0, fin 0, fin 0⟩ : Vec3 XReal) = ⟨fin 1, fin 1, fin 1⟩ := by
      show (⟨fin 1 - fin 0, fin 1 - fin 0, fin 1 - fin 0⟩ : Vec3 XReal) = _
      simp
    simp [Collider.newFrom, BoxCollider.isValid, BoxCollider.new, Vec3.zeros, hd]; norm_num
  obtain ⟨s', h, ha⟩ := add_of_newFrom hd s
  obtain ⟨-, ⟨d, hg, hs⟩, -⟩ := C04_add_then_get_collider hr ha
  cases d <;> simp only [StoredAs, HasMin, HasMax] at hs
  rename_i c
  obtain ⟨q1, q2, q3, q4, ⟨u1, u2, u3⟩, v1, v2, v3⟩ := hs
  refine ⟨s', h, c, ha, hg, q1, by rw [q2]; simp [Entity.new, NullCollider.new, SphereCollider.new, PlaneCollider.new, BoxCollider.new, Vec3.zeros], ?_, ?_, by rw [q3]; simp [Entity.new, NullCollider.new, SphereCollider.new, PlaneCollider.new, BoxCollider.new, Vec3.zeros], by rw [q4]; exact default_surface⟩
  · apply Vec3.ext
    · rw [u1]; simp [BoxCollider.new, Vec3.zeros]
    · rw [u2]; simp [BoxCollider.new, Vec3.zeros]
    · rw [u3]; simp [BoxCollider.new, Vec3.zeros]
  · apply Vec3.ext
    · rw [v1]; simp [BoxCollider.new, Vec3.zeros]
    · rw [v2]; simp [BoxCollider.new, Vec3.zeros]
    · rw [v3]; simp [BoxCollider.new, Vec3.zeros]

/-- The theorems above speak about something: the new system can be reached. -/
example : Reachable (System.new : System XReal γ) := ⟨[], .nil⟩

/-- **C106 is false** for a mesh: as `MeshCollider::new` makes it no system takes it, since it has no faces. -/
theorem C106_mesh_false (s : System XReal γ) : s.addCollider (.mesh .new) = (s, none) := by
  simp [System.addCollider, Collider.newFrom, MeshCollider.isValid, MeshCollider.new]

end

section
open F32 Demo
variable [Libm]

/-- Two balls, each an `Entity::new` with a `SphereCollider::new` of radius 1, and nothing but position and velocity of the entities set. -/
def bubbles : List (Op F32 (GravityGenerator F32)) :=
  [.configure 1 (num 0) (num 0) [] [],
   .addEntity { Entity.new with velocity := vec 2 0 0 }, .addCollider (.sphere (.new (num 1))), .linkCollider h0 (some h0),
   .addEntity { Entity.new with position := vec 3 0 0 }, .addCollider (.sphere (.new (num 1))), .linkCollider h1 (some h1), .step (num 1)]

/-- **C106 is false** for what the things do, in binary32: if one such ball runs into the other, both velocities are NaN, since nothing weighs anything. -/
theorem C106_massless_false : ∃ (s : System F32 (GravityGenerator F32)) (outs : List (Out (GravityGenerator F32))) (a b : Entity F32), play (plain bubbles) System.new = .ok (s, outs) ∧
    s.getEntity h0 = some a ∧ s.getEntity h1 = some b ∧ a.velocity.x = .nan ∧ b.velocity.x = .nan := by
  have h : ((play (plain bubbles) (System.new : System F32 (GravityGenerator F32))).test fun r => match r.1.getEntity h0, r.1.getEntity h1 with
      | some a, some b => same a.velocity.x .nan && same b.velocity.x .nan
      | _, _ => false) = true := by kernel_refl
  obtain ⟨⟨s, outs⟩, hplay, h⟩ := Res.of_test h
  split at h
  case h_2 => cases h
  rename_i a b g1 g2
  simp only [Bool.and_eq_true, same_iff] at h
  exact ⟨s, outs, a, b, hplay, g1, g2, h.1, h.2⟩

end
end Fluffy.Props
