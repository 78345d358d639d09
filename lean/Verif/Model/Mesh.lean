import Verif.Model.Collider
/- src/mesh_collider.rs: building a mesh, and its world-space vertices. -/
namespace Fluffy
variable {α : Type} [Scalar α]

/-- The loop shape `for index in 0..l.len()` with `l[index]` and `l[index+1 wrapped]`:
all cyclically consecutive pairs in order. -/
def cyclicPairs {τ : Type} (l : List τ) : List (τ × τ) := l.zip (l.drop 1 ++ l.take 1)

/-- The loop shape of mesh_collider.rs:209-212: cyclically consecutive triples (for lists of length ≥ 2). -/
def cyclicTriples {τ : Type} (l : List τ) : List (τ × τ × τ) :=
  l.zip ((l.drop 1 ++ l.take 1).zip (l.drop 2 ++ l.take 2))

namespace MeshCollider

/-- mesh_collider.rs:256-262: the first stored vertex closer than `EPSILON`. -/
def findVertex (p : Vec3 α) : Nat → List (Vec3 α) → Option Nat
  | _, [] => none
  | i, v :: vs => if Scalar.lt (v - p).magnitude EPSILON then some i else findVertex p (i + 1) vs

/-- mesh_collider.rs:252-269 `add_points`: the new vertex list and the indices. -/
def addPoints (vertices : List (Vec3 α)) : List (Vec3 α) → List (Vec3 α) × List Nat
  | [] => (vertices, [])
  | p :: ps =>
    match findVertex p 0 vertices with
    | some i => let r := addPoints vertices ps; (r.1, i :: r.2)
    | none => let r := addPoints (vertices ++ [p]) ps; (r.1, vertices.length :: r.2)

/-- mesh_collider.rs:233-247 `add_edge` -/
def addEdge (edges : List (Nat × Nat)) (index1 index2 : Nat) : List (Nat × Nat) :=
  let e := if index1 > index2 then (index2, index1) else (index1, index2)
  if e ∈ edges then edges else edges ++ [e]

/-- mesh_collider.rs:213-214: the coplanarity and convexity assertion of one corner. -/
def cornerOk (normal : Vec3 α) (t : Vec3 α × Vec3 α × Vec3 α) : Bool :=
  let current := ((t.2.1 - t.1).cross (t.2.2 - t.1)).normalize
  Scalar.lt (Scalar.abs (current.dot normal - one)) EPSILON

/-- mesh_collider.rs:205-228 `add_face` -/
def addFace (m : MeshCollider α) (points : List (Vec3 α)) : Res (MeshCollider α) :=
  match points with
  | p0 :: p1 :: p2 :: _ =>
    let normal := ((p1 - p0).cross (p2 - p0)).normalize
    if (cyclicTriples points).all (cornerOk normal) then
      let r := addPoints m.vertices points
      let edges := (cyclicPairs r.2).foldl (fun es e => addEdge es e.1 e.2) m.edges
      .ok { m with vertices := r.1, edges := edges, faces := m.faces ++ [r.2] }
    else .error .assert
  | _ => .error .assert

/-- mesh_collider.rs:90-96 `vertices_in_world` -/
def verticesInWorld (m : MeshCollider α) (o : Orientation α) : List (Vec3 α) :=
  m.vertices.map (fun v => o.positionIntoWorld (m.position + v))

end MeshCollider
end Fluffy
