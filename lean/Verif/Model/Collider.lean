import Verif.Model.Orientation
import Verif.Model.Arena
/-
src/collider.rs, null_collider.rs, sphere_collider.rs, plane_collider.rs, mesh_collider.rs,
aligned_box_collider.rs, collider_wrapper.rs.

The crate has two structs per shape, a public one (`SphereCollider`) and an internal one
(`InternalSphereCollider`), with the same fields.  The model uses one structure for both;
`newFrom`, `updateFrom` and `makePub` are the conversions.  The four surface coefficients, which are
the same in all colliding shapes, are grouped in `Material`.
-/
namespace Fluffy
variable {α : Type}

/-- The fields `restitution_coefficient`, `friction_threshold`, `static_friction_coefficient`,
`dynamic_friction_coefficient` (src/sphere_collider.rs:24-34 and the same in the other colliders). -/
structure Material (α : Type) where
  restitution : α
  frictionThreshold : α
  staticFriction : α
  dynamicFriction : α
  deriving Repr

/-- The defaults of the `new` functions, e.g. src/sphere_collider.rs:174-177. -/
def Material.default [Scalar α] : Material α := ⟨one, lit 1 4, one, lit 3 10⟩

/-- src/null_collider.rs:6-15 and 86-106 -/
structure NullCollider (α : Type) where
  entity : Option Handle
  position : Vec3 α
  mass : α
  momentOfInertia : Mat3 α
  deriving Repr

/-- src/sphere_collider.rs:9-35 and 124-164 -/
structure SphereCollider (α : Type) where
  entity : Option Handle
  center : Vec3 α
  radius : α
  mass : α
  material : Material α
  deriving Repr

/-- src/plane_collider.rs:7-33 and 125-169 -/
structure PlaneCollider (α : Type) where
  entity : Option Handle
  position : Vec3 α
  normal : Vec3 α
  mass : α
  material : Material α
  deriving Repr

/-- src/mesh_collider.rs:8-35 and 133-180 -/
structure MeshCollider (α : Type) where
  entity : Option Handle
  position : Vec3 α
  vertices : List (Vec3 α)
  faces : List (List Nat)
  edges : List (Nat × Nat)
  material : Material α
  deriving Repr

/-- src/aligned_box_collider.rs:8-36 and 149-200 -/
structure BoxCollider (α : Type) where
  entity : Option Handle
  position : Vec3 α
  minCorner : Vec3 α
  maxCorner : Vec3 α
  mass : α
  material : Material α
  deriving Repr

/-- src/collider_wrapper.rs:10-16 `ColliderWrapper`; also stands for `Box<dyn InternalCollider>`
together with `get_type` (src/collider.rs:9-20) and the downcasts. -/
inductive Collider (α : Type) where
  | null (c : NullCollider α)
  | sphere (c : SphereCollider α)
  | plane (c : PlaneCollider α)
  | mesh (c : MeshCollider α)
  | box (c : BoxCollider α)
  deriving Repr

/-- src/collider.rs:9-20 `ColliderType` -/
inductive ColliderType where
  | null | sphere | plane | mesh | alignedBox
  deriving DecidableEq, Repr

variable [Scalar α]

/-- src/null_collider.rs:110-117 `NullCollider::new` -/
def NullCollider.new : NullCollider α := ⟨none, Vec3.zeros, zero, Mat3.zeros⟩
/-- src/null_collider.rs:120-122 `is_valid` -/
def NullCollider.isValid (c : NullCollider α) : Bool := Scalar.le zero c.mass
/-- src/sphere_collider.rs:168-179 `SphereCollider::new` -/
def SphereCollider.new (radius : α) : SphereCollider α := ⟨none, Vec3.zeros, radius, zero, .default⟩
/-- src/sphere_collider.rs:5 `MINIMUM_RADIUS = 0.05` -/
def MINIMUM_RADIUS : α := lit 5 100
/-- src/sphere_collider.rs:182-184 `is_valid` -/
def SphereCollider.isValid (c : SphereCollider α) : Bool :=
  Scalar.lt MINIMUM_RADIUS c.radius && Scalar.le zero c.mass
/-- src/plane_collider.rs:173-184 `PlaneCollider::new` -/
def PlaneCollider.new : PlaneCollider α := ⟨none, Vec3.zeros, Vec3.unitY, zero, .default⟩
/-- src/plane_collider.rs:187-189 `is_valid` -/
def PlaneCollider.isValid (c : PlaneCollider α) : Bool :=
  Scalar.le zero c.mass && Scalar.lt EPSILON c.normal.magnitude
/-- src/mesh_collider.rs:186-198 `MeshCollider::new` -/
def MeshCollider.new : MeshCollider α := ⟨none, Vec3.zeros, [], [], [], .default⟩
/-- src/mesh_collider.rs:282-284 `is_valid` -/
def MeshCollider.isValid (c : MeshCollider α) : Bool :=
  3 ≤ c.vertices.length && 1 ≤ c.faces.length && 1 ≤ c.edges.length
/-- src/aligned_box_collider.rs:204-216 `AlignedBoxCollider::new` -/
def BoxCollider.new : BoxCollider α := ⟨none, Vec3.zeros, Vec3.zeros, ⟨one, one, one⟩, zero, .default⟩
/-- src/aligned_box_collider.rs:219-222 `is_valid` -/
def BoxCollider.isValid (c : BoxCollider α) : Bool :=
  let size := c.maxCorner - c.minCorner
  Scalar.lt EPSILON size.x && Scalar.lt EPSILON size.y && Scalar.lt EPSILON size.z && Scalar.le zero c.mass

/-- src/aligned_box_collider.rs:46-50 and 86-90: the componentwise minimum of the two corners. -/
def cornerMin (a b : Vec3 α) : Vec3 α := ⟨fmin a.x b.x, fmin a.y b.y, fmin a.z b.z⟩
/-- src/aligned_box_collider.rs:51-55 and 91-95: the componentwise maximum of the two corners. -/
def cornerMax (a b : Vec3 α) : Vec3 α := ⟨fmax a.x b.x, fmax a.y b.y, fmax a.z b.z⟩

namespace Collider

/-- src/collider.rs:26 `get_type` (null_collider.rs:57, sphere_collider.rs:89, plane_collider.rs:87,
mesh_collider.rs:101, aligned_box_collider.rs:108) -/
def type : Collider α → ColliderType
  | null _ => .null | sphere _ => .sphere | plane _ => .plane | mesh _ => .mesh | box _ => .alignedBox

/-- The `new_from` functions: null_collider.rs:19-30, sphere_collider.rs:39-54, plane_collider.rs:37-52,
mesh_collider.rs:39-55, aligned_box_collider.rs:39-63.  `none` is `Err(())`. -/
def newFrom : Collider α → Option (Collider α)
  | null s => if !s.isValid then none else some (null { s with entity := none })
  | sphere s => if !s.isValid then none else some (sphere { s with entity := none })
  | plane s => if !s.isValid then none else
      some (plane { s with entity := none, normal := s.normal.normalize })
  | mesh s => if !s.isValid then none else some (mesh { s with entity := none })
  | box s => if !s.isValid then none else
      some (box { s with entity := none, minCorner := cornerMin s.minCorner s.maxCorner,
                         maxCorner := cornerMax s.minCorner s.maxCorner })

/-- The `make_pub` functions: null_collider.rs:33-40, sphere_collider.rs:57-68, plane_collider.rs:55-66,
mesh_collider.rs:58-70, aligned_box_collider.rs:66-78: a copy of every field. -/
def makePub : Collider α → Collider α
  | null s => null ⟨s.entity, s.position, s.mass, s.momentOfInertia⟩
  | sphere s => sphere ⟨s.entity, s.center, s.radius, s.mass, s.material⟩
  | plane s => plane ⟨s.entity, s.position, s.normal, s.mass, s.material⟩
  | mesh s => mesh ⟨s.entity, s.position, s.vertices, s.faces, s.edges, s.material⟩
  | box s => box ⟨s.entity, s.position, s.minCorner, s.maxCorner, s.mass, s.material⟩

/-- The outcome of `update_from` behind the downcasts of src/physics_system.rs:228-264. -/
inductive UpdateResult (α : Type) where
  /-- the source is of another collider type: early `return Err(())` -/
  | wrongType
  /-- the source is invalid: `Err(())`, destination unchanged -/
  | invalid
  /-- `Ok(())` with the new contents -/
  | updated (c : Collider α)

/-- src/physics_system.rs:228-264 with the `update_from` functions: null_collider.rs:43-52,
sphere_collider.rs:71-84, plane_collider.rs:69-82 (stores the normal as given), mesh_collider.rs:73-87,
aligned_box_collider.rs:81-103.  The entity link is kept. -/
def updateFrom : (dest source : Collider α) → UpdateResult α
  | null d, null s => if !s.isValid then .invalid else
      .updated (null { d with position := s.position, mass := s.mass, momentOfInertia := s.momentOfInertia })
  | sphere d, sphere s => if !s.isValid then .invalid else
      .updated (sphere { d with center := s.center, radius := s.radius, mass := s.mass, material := s.material })
  | plane d, plane s => if !s.isValid then .invalid else
      .updated (plane { d with position := s.position, normal := s.normal, mass := s.mass, material := s.material })
  | mesh d, mesh s => if !s.isValid then .invalid else
      .updated (mesh { d with position := s.position, vertices := s.vertices, faces := s.faces,
                              edges := s.edges, material := s.material })
  | box d, box s => if !s.isValid then .invalid else
      .updated (box { d with position := s.position, minCorner := cornerMin s.minCorner s.maxCorner,
                             maxCorner := cornerMax s.minCorner s.maxCorner, mass := s.mass,
                             material := s.material })
  | _, _ => .wrongType

/-- src/collider.rs:32 `get_entity` (all shapes alike, e.g. sphere_collider.rs:99) -/
def entity : Collider α → Option Handle
  | null s => s.entity | sphere s => s.entity | plane s => s.entity | mesh s => s.entity | box s => s.entity

/-- src/collider.rs:29 `set_entity` (all shapes alike, e.g. sphere_collider.rs:92-96); the returned
old value is `entity`. -/
def setEntity (h : Option Handle) : Collider α → Collider α
  | null s => null { s with entity := h } | sphere s => sphere { s with entity := h }
  | plane s => plane { s with entity := h } | mesh s => mesh { s with entity := h }
  | box s => box { s with entity := h }

/-- src/collider.rs:35 `get_local_center_of_mass`: null_collider.rs:69, sphere_collider.rs:104,
plane_collider.rs:102, mesh_collider.rs:116, aligned_box_collider.rs:123 -/
def localCenterOfMass : Collider α → Vec3 α
  | null s => s.position | sphere s => s.center | plane s => s.position | mesh s => s.position
  | box s => s.position + (s.minCorner + s.maxCorner).scale (lit 1 2)

/-- src/collider.rs:38 `get_mass`: null_collider.rs:71, sphere_collider.rs:106, plane_collider.rs:104,
mesh_collider.rs:118, aligned_box_collider.rs:125 -/
def mass : Collider α → α
  | null s => s.mass | sphere s => s.mass | plane s => s.mass | mesh _ => zero | box s => s.mass

/-- src/collider.rs:43 `get_moment_of_inertia_tensor`: null_collider.rs:73, sphere_collider.rs:108-111,
plane_collider.rs:106, mesh_collider.rs:120, aligned_box_collider.rs:127-136 -/
def momentOfInertia : Collider α → Mat3 α
  | null s => s.momentOfInertia
  | sphere s =>
    let inertia := lit 2 1 / lit 5 1 * s.mass * s.radius
    Mat3.diagonal ⟨inertia, inertia, inertia⟩
  | plane _ => Mat3.zeros
  | mesh _ => Mat3.zeros
  | box s =>
    let d := s.maxCorner - s.minCorner
    let size : Vec3 α := ⟨d.x * d.x, d.y * d.y, d.z * d.z⟩
    let coefficient := s.mass / lit 12 1
    Mat3.diagonal ⟨coefficient * (size.y + size.z), coefficient * (size.x + size.z),
      coefficient * (size.x + size.y)⟩

/-- src/collider.rs:46-55, the four coefficient getters: sphere_collider.rs:113-119,
plane_collider.rs:108-114, mesh_collider.rs:122-128, aligned_box_collider.rs:138-144 and the constants
of null_collider.rs:75-81. -/
def material : Collider α → Material α
  | null _ => ⟨zero, one, zero, zero⟩
  | sphere s => s.material | plane s => s.material | mesh s => s.material | box s => s.material

end Collider
end Fluffy
