import Verif.Model.Mesh
import Verif.Model.Range
/- src/collision.rs -/
namespace Fluffy
variable {α : Type} [Scalar α]

/-- src/collision.rs:15-22 `Collision` -/
structure Collision (α : Type) where
  times : Range α
  position : Vec3 α
  normal : Vec3 α
  deriving Repr

/-- `Range::range(0.0, 1.0)`, as used in every detector. -/
def unitRange : Range α := Range.range zero one

/-- src/collision.rs:27-31 `transform_out_of` -/
def Collision.transformOutOf (c : Collision α) (start stop : Orientation α) : Collision α :=
  let o := Orientation.lerp c.times.min start stop
  { c with position := o.positionIntoWorld c.position, normal := o.directionIntoWorld c.normal }

/-- `collision.normal *= -1.0` (src/collision.rs:98, 144, 188, 251) -/
def Collision.flip (c : Collision α) : Collision α := { c with normal := c.normal.scale (lit (-1) 1) }

/-- src/collision.rs:262-278 `sphere_plane_overlap_time` -/
def spherePlaneOverlapTime (radius1 : α) (center1 movement1 position2 normal2 movement2 : Vec3 α)
    (infiniteBackdrop : Bool) : Range α :=
  let startNearest := center1 + normal2.scale (-radius1)
  let startFarthest := center1 + normal2.scale radius1
  let circleRange := Range.range (startNearest.dot normal2) (startFarthest.dot normal2)
  let planeValue := position2.dot normal2
  let planeRange := Range.range planeValue (if infiniteBackdrop then -Scalar.inf else planeValue)
  circleRange.linearOverlap planeRange (movement2.dot normal2 - movement1.dot normal2)

/-- src/collision.rs:281-295 `collide_sphere_with_plane` -/
def collideSpherePlane (radius1 : α) (center1 movement1 position2 normal2 movement2 : Vec3 α) :
    Option (Collision α) :=
  let times := (spherePlaneOverlapTime radius1 center1 movement1 position2 normal2 movement2 true).intersect unitRange
  if !times.isEmpty then
    let startNearest := center1 + normal2.scale (-radius1)
    some ⟨times, startNearest + movement1.scale times.min, -normal2⟩
  else none

/-- src/collision.rs:298-319 `collide_sphere_with_sphere` -/
def collideSphereSphere (radius1 : α) (center1 movement1 : Vec3 α) (radius2 : α)
    (center2 movement2 : Vec3 α) : Option (Collision α) :=
  let dv := movement1 - movement2
  let dc := center1 - center2
  let radius := radius1 + radius2
  let times := (Range.quadraticZeros (dv.dot dv) (two * dv.dot dc) (dc.dot dc - radius * radius)).intersect unitRange
  if !times.isEmpty then
    let position := ((center1 + movement1.scale times.min).scale radius2 +
      (center2 + movement2.scale times.min).scale radius1).scale (one / radius)
    let normal := (position - center1).normalize
    some ⟨times, position, normal⟩
  else none

/-- src/collision.rs:322-344 `collide_sphere_with_line` -/
def collideSphereLine (radius1 : α) (center1 movement1 start2 direction2 movement2 : Vec3 α) :
    Option (Collision α) :=
  let direction := direction2.normalize
  let movement := movement1 - movement2
  let a := (center1 - start2).cross direction
  let b := movement.cross direction
  let times := (Range.quadraticZeros (b.dot b) (two * a.dot b) (a.dot a - radius1 * radius1)).intersect unitRange
  if !times.isEmpty then
    let linePosition := start2 + movement2.scale times.min
    let centerPosition := center1 + movement1.scale times.min
    let alongLength := (centerPosition - linePosition).dot direction
    let position := linePosition + direction.scale alongLength
    let normal := (position - center1).normalize
    some ⟨times, position, normal⟩
  else none

/-- src/collision.rs:349-359 `collide_sphere_with_mid_line_segment` -/
def collideSphereMidSegment (radius1 : α) (center1 movement1 start2 end2 movement2 : Vec3 α) :
    Option (Collision α) :=
  let length := end2 - start2
  match collideSphereLine radius1 center1 movement1 start2 length movement2 with
  | some hit =>
    let hitMovement := movement2.scale hit.times.min
    let hitStart := start2 + hitMovement
    let hitEnd := end2 + hitMovement
    if Scalar.lt (Scalar.abs (((hitStart - hit.position).magnitude + (hitEnd - hit.position).magnitude) - length.magnitude)) EPSILON
    then some hit else none
  | none => none

/-- src/collision.rs:383-399: the point-in-polygon loop.  `true` when it runs to the end, `false` for
the `return None`. -/
def insideLoop (hitPosition normal shift : Vec3 α) : List (Vec3 α × Vec3 α) → (expectedSign : α) → Bool
  | [], _ => true
  | (c1, c2) :: rest, expectedSign =>
    let first := c1 + shift
    let second := c2 + shift
    let sign := ((hitPosition - first).cross (second - first)).dot normal
    if Scalar.lt (Scalar.abs sign) EPSILON then insideLoop hitPosition normal shift rest expectedSign
    else if Scalar.eq zero expectedSign then insideLoop hitPosition normal shift rest (Scalar.signum sign)
    else if !Scalar.eq expectedSign (Scalar.signum sign) then false
    else insideLoop hitPosition normal shift rest expectedSign

/-- src/collision.rs:366-407 `collide_sphere_with_polygon_surface` -/
def collideSpherePolygon (radius1 : α) (center1 movement1 : Vec3 α) (corners2 : List (Vec3 α))
    (movement2 : Vec3 α) : Res (Option (Collision α)) :=
  match corners2 with
  | c0 :: c1 :: c2 :: _ =>
    let normal := ((c1 - c0).cross (c2 - c0)).normalize
    let times := (spherePlaneOverlapTime radius1 center1 movement1 c0 normal movement2 false).intersect unitRange
    if !times.isEmpty then
      let sphereHit := center1 + movement1.scale times.min
      let totalPlaneMovement := movement2.scale times.min
      let planeHit := c0 + totalPlaneMovement
      let hit := sphereHit - normal.scale ((sphereHit - planeHit).dot normal)
      let normal' := (hit - sphereHit).normalize
      if insideLoop hit normal' totalPlaneMovement (cyclicPairs corners2) zero then
        .ok (some ⟨times, hit, normal'⟩)
      else .ok none
    else .ok none
  | _ => .error .assert

/-- src/collision.rs:410-415 `EarliestCollisionAccumulator` -/
structure Earliest (α : Type) where
  earliest : Option (Collision α)
  earliestTime : α

/-- src/collision.rs:419-424 `new` -/
def Earliest.new : Earliest α := ⟨none, Scalar.inf⟩

/-- src/collision.rs:427-439 `consider` -/
def Earliest.consider (acc : Earliest α) : Option (Collision α) → Earliest α
  | some c => if Scalar.lt c.times.min acc.earliestTime then ⟨some c, c.times.min⟩ else acc
  | none => acc

/-- The loops of src/collision.rs:457-463 and 1199-1204 over edges. -/
def considerEdges (radius1 : α) (center1 movement1 : Vec3 α) (vertices2 : List (Vec3 α)) (movement2 : Vec3 α) :
    List (Nat × Nat) → Earliest α → Res (Earliest α)
  | [], acc => .ok acc
  | (i, j) :: es, acc => do
    let a ← index vertices2 i
    let b ← index vertices2 j
    considerEdges radius1 center1 movement1 vertices2 movement2 es
      (acc.consider (collideSphereMidSegment radius1 center1 movement1 a b movement2))

/-- The loops of src/collision.rs:449-455 and 1206-1211 over corner points. -/
def considerVertices (radius1 : α) (center1 movement1 movement2 : Vec3 α) :
    List (Vec3 α) → Earliest α → Earliest α
  | [], acc => acc
  | v :: vs, acc => considerVertices radius1 center1 movement1 movement2 vs
      (acc.consider (collideSphereSphere radius1 center1 movement1 zero v movement2))

/-- src/collision.rs:467-470: the corner points of a face. -/
def faceCorners (vertices : List (Vec3 α)) : List Nat → Res (List (Vec3 α))
  | [] => .ok []
  | i :: is => do
    let v ← index vertices i
    let vs ← faceCorners vertices is
    .ok (v :: vs)

/-- src/collision.rs:465-475: the loop over faces. -/
def considerFaces (radius1 : α) (center1 movement1 : Vec3 α) (vertices2 : List (Vec3 α)) (movement2 : Vec3 α) :
    List (List Nat) → Earliest α → Res (Earliest α)
  | [], acc => .ok acc
  | f :: fs, acc => do
    let corners ← faceCorners vertices2 f
    let c ← collideSpherePolygon radius1 center1 movement1 corners movement2
    considerFaces radius1 center1 movement1 vertices2 movement2 fs (acc.consider c)

/-- src/collision.rs:446-477 `collide_sphere_with_mesh` -/
def collideSphereMesh (radius1 : α) (center1 movement1 : Vec3 α) (vertices2 : List (Vec3 α))
    (edges2 : List (Nat × Nat)) (faces2 : List (List Nat)) (movement2 : Vec3 α) : Res (Option (Collision α)) := do
  let acc := considerVertices radius1 center1 movement1 movement2 vertices2 Earliest.new
  let acc ← considerEdges radius1 center1 movement1 vertices2 movement2 edges2 acc
  let acc ← considerFaces radius1 center1 movement1 vertices2 movement2 faces2 acc
  .ok acc.earliest

/-- src/collision.rs:479-485 `_MeshCollisionInfo` -/
structure MeshInfo (α : Type) where
  startPosition : Vec3 α
  endPosition : Vec3 α
  startDistance : α
  endDistance : α

/-- src/collision.rs:493-508: the values computed for one vertex. -/
def meshInfo (meshPosition : Vec3 α) (start stop : Orientation α) (planeStart planeEnd planeNormal : Vec3 α)
    (vertex : Vec3 α) : MeshInfo α :=
  let internal := meshPosition + vertex
  let s := start.positionIntoWorld internal
  let e := stop.positionIntoWorld internal
  ⟨s, e, (s - planeStart).dot planeNormal, (e - planeEnd).dot planeNormal⟩

/-- `start_distances` / `end_distances` of src/collision.rs:489-501: hull of the given values. -/
def hull (values : List α) : Range α :=
  values.foldl (fun r d => r.contain (Range.single d)) Range.empty

/-- src/collision.rs:523-534: sum and count of the positions near the least distance, then divided. -/
def closestAverage (epsilon least : α) : List (Vec3 α × α) → (sum : Vec3 α) → (count : α) → Vec3 α
  | [], sum, count => sum.unscale count
  | (p, d) :: rest, sum, count =>
    if Scalar.lt (Scalar.abs (d - least)) epsilon then closestAverage epsilon least rest (sum + p) (count + one)
    else closestAverage epsilon least rest sum count

/-- src/collision.rs:488-545 `collide_mesh_with_plane` -/
def collideMeshPlane (vertices : List (Vec3 α)) (meshPosition : Vec3 α) (start stop : Orientation α)
    (planeStart planeEnd planeNormal : Vec3 α) : Option (Collision α) :=
  let infos := vertices.map (meshInfo meshPosition start stop planeStart planeEnd planeNormal)
  let startDistances := hull (infos.map (·.startDistance))
  let endDistances := hull (infos.map (·.endDistance))
  let times := ((Range.range (-Scalar.inf) zero).linearOverlap startDistances
    (endDistances.min - startDistances.min)).intersect unitRange
  if !times.isEmpty then
    let startEpsilon := startDistances.size * lit 1 100
    let endEpsilon := endDistances.size * lit 1 100
    let startAverage := closestAverage startEpsilon startDistances.min
      (infos.map (fun i => (i.startPosition, i.startDistance))) Vec3.zeros zero
    let endAverage := closestAverage endEpsilon endDistances.min
      (infos.map (fun i => (i.endPosition, i.endDistance))) Vec3.zeros zero
    let time := times.min
    some ⟨times, startAverage.scale (one - time) + endAverage.scale time, -planeNormal⟩
  else none

/-- src/collision.rs:548-558: the search loop of `get_polygon_normal` over (previous, current, next). -/
def polygonNormalLoop : List (Vec3 α × Vec3 α × Vec3 α) → Res (Vec3 α)
  | [] => .error .assert
  | (prev, cur, next) :: rest =>
    let normal := (prev - cur).cross (next - cur)
    let length := normal.magnitude
    if Scalar.isFinite length && Scalar.lt EPSILON length then .ok (normal.unscale length)
    else polygonNormalLoop rest

/-- src/collision.rs:547-559 `get_polygon_normal` -/
def polygonNormal (points : List (Vec3 α)) : Res (Vec3 α) :=
  let prevs := points.drop (points.length - 1) ++ points.take (points.length - 1)
  polygonNormalLoop (prevs.zip (points.zip (points.drop 1 ++ points.take 1)))

/-- src/collision.rs:561-563 `point_is_on_plane` -/
def pointIsOnPlane (point planeNormal planePoint : Vec3 α) : Bool :=
  Scalar.lt (Scalar.abs ((point - planePoint).dot planeNormal)) EPSILON

/-- src/collision.rs:578-599: earliest crossing of an edge by a point moving within the plane. -/
def alongPlaneLoop (pointStart pointEnd planeNormal : Vec3 α) :
    List (Vec3 α × Vec3 α) → (closestTime : α) → (closestPosition : Vec3 α) → α × Vec3 α
  | [], t, p => (t, p)
  | (a, b) :: rest, t, p =>
    let direction := b - a
    let lineOrtho := (planeNormal.cross direction).normalize
    let d0 := (pointStart - a).dot lineOrtho
    let delta := (pointEnd - a).dot lineOrtho - d0
    let time := d0 / -delta
    if !Scalar.isFinite time || Scalar.lt time zero || Scalar.lt one time then
      alongPlaneLoop pointStart pointEnd planeNormal rest t p
    else
      let position := pointStart + (pointEnd - pointStart).scale time
      let along := (position - a).dot direction
      if Scalar.lt along zero || Scalar.lt (direction.dot direction) along then
        alongPlaneLoop pointStart pointEnd planeNormal rest t p
      else if Scalar.lt time t then alongPlaneLoop pointStart pointEnd planeNormal rest time position
      else alongPlaneLoop pointStart pointEnd planeNormal rest t p

/-- src/collision.rs:631-646: is the point inside the polygon (by signs of cross products)? -/
def pointInsideLoop (point planeNormal : Vec3 α) : List (Vec3 α × Vec3 α) → (expectedSign : α) → Bool
  | [], _ => true
  | (a, b) :: rest, expectedSign =>
    let distance := point - a
    if Scalar.lt distance.magnitude EPSILON then true
    else
      let cross := ((b - a).cross distance).dot planeNormal
      if Scalar.lt (Scalar.abs cross) EPSILON then pointInsideLoop point planeNormal rest expectedSign
      else
        let sign := Scalar.signum cross
        if !Scalar.eq zero expectedSign && !Scalar.eq expectedSign sign then false
        else pointInsideLoop point planeNormal rest sign

/-- src/collision.rs:616-627: orient the normal towards the starting point. -/
def orientNormal (pointStart pointEnd p0 planeNormal : Vec3 α) : Vec3 α :=
  let startCoincidence := (pointStart - p0).dot planeNormal
  if Scalar.lt startCoincidence (-EPSILON) then planeNormal.scale (lit (-1) 1)
  else if Scalar.lt startCoincidence EPSILON then
    let endCoincidence := (pointEnd - p0).dot planeNormal
    if Scalar.lt zero endCoincidence then planeNormal.scale (lit (-1) 1) else planeNormal
  else planeNormal

/-- src/collision.rs:568-658 `collide_point_with_polygon` -/
def collidePointPolygon (pointStart pointEnd : Vec3 α) (polygon : List (Vec3 α)) : Res (Option (Collision α)) := do
  let pointDelta := pointEnd - pointStart
  let planeNormal ← polygonNormal polygon
  let p0 ← index polygon 0
  if pointIsOnPlane pointStart planeNormal p0 && pointIsOnPlane pointEnd planeNormal p0 then
    let r := alongPlaneLoop pointStart pointEnd planeNormal (cyclicPairs polygon) two Vec3.zeros
    if Scalar.le r.1 one then .ok (some ⟨Range.single r.1, r.2, planeNormal⟩) else .ok none
  else
    let time := (pointStart - p0).dot planeNormal / -(pointDelta.dot planeNormal)
    if !Scalar.isFinite time || Scalar.lt time zero || Scalar.lt one time then .ok none
    else
      let point := pointStart + pointDelta.scale time
      let planeNormal := orientNormal pointStart pointEnd p0 planeNormal
      if pointInsideLoop point planeNormal (cyclicPairs polygon) zero then
        .ok (some ⟨Range.single time, point, planeNormal⟩)
      else .ok none

/-- src/collision.rs:660-675 `MeshPointPairs`, `precompute_mesh_point_pairs` (start, end) -/
def meshPointPairs (m : MeshCollider α) (start stop : Orientation α) : List (Vec3 α × Vec3 α) :=
  m.vertices.map (fun p => (start.positionIntoWorld (m.position + p), stop.positionIntoWorld (m.position + p)))

/-- src/collision.rs:683-685: the face's corners half way through the movement. -/
def midFace (points : List (Vec3 α × Vec3 α)) : List Nat → Res (List (Vec3 α))
  | [] => .ok []
  | i :: is => do
    let p ← index points i
    let ps ← midFace points is
    .ok ((p.1 + p.2).unscale two :: ps)

/-- src/collision.rs:681-691: one point against all faces. -/
def pointAgainstFaces (p : Vec3 α × Vec3 α) (points2 : List (Vec3 α × Vec3 α)) :
    List (List Nat) → Earliest α → Res (Earliest α)
  | [], acc => .ok acc
  | f :: fs, acc => do
    let polygon ← midFace points2 f
    let c ← collidePointPolygon p.1 p.2 polygon
    pointAgainstFaces p points2 fs (acc.consider c)

/-- src/collision.rs:680-692: all points against all faces. -/
def pointsAgainstFaces (points2 : List (Vec3 α × Vec3 α)) (faces2 : List (List Nat)) :
    List (Vec3 α × Vec3 α) → Earliest α → Res (Earliest α)
  | [], acc => .ok acc
  | p :: ps, acc => do
    let acc ← pointAgainstFaces p points2 faces2 acc
    pointsAgainstFaces points2 faces2 ps acc

/-- src/collision.rs:702-707: is the point on the negative side of the contact plane? -/
def behindContact (c : Collision α) (p : Vec3 α × Vec3 α) : Bool :=
  let time := c.times.min
  let point := p.1.scale (one - time) + p.2.scale time
  Scalar.lt ((point - c.position).dot c.normal) zero

/-- src/collision.rs:677-715 `collide_mesh_points_with_mesh_faces` -/
def collideMeshPointsFaces (output : Earliest α) (points1 : List (Vec3 α × Vec3 α)) (mesh2 : MeshCollider α)
    (points2 : List (Vec3 α × Vec3 α)) (normalFactor : α) : Res (Earliest α) := do
  let acc ← pointsAgainstFaces points2 mesh2.faces points1 Earliest.new
  match acc.earliest with
  | some c =>
    let negate := (points1.filter (behindContact c)).length
    let keep := (points1.filter (fun p => !behindContact c p)).length
    let normal := if negate > keep then c.normal.scale (lit (-1) 1) else c.normal
    .ok (output.consider (some { c with normal := normal.scale normalFactor }))
  | none => .ok output

/-- src/collision.rs:717-738 `collide_mesh_with_mesh` -/
def collideMeshMesh (mesh1 : MeshCollider α) (start1 end1 : Orientation α) (mesh2 : MeshCollider α)
    (start2 end2 : Orientation α) : Res (Option (Collision α)) := do
  let points1 := meshPointPairs mesh1 start1 end1
  let points2 := meshPointPairs mesh2 start2 end2
  let acc ← collideMeshPointsFaces Earliest.new points1 mesh2 points2 (lit (-1) 1)
  let acc ← collideMeshPointsFaces acc points2 mesh1 points1 one
  .ok acc.earliest

/-- src/collision.rs:1123-1141: the times at which the centre is within `radius` of a surface of the box. -/
def boxSurfaceTimes (radius : α) (center movement minCorner maxCorner : Vec3 α) : Range α :=
  let boxX := Range.range minCorner.x maxCorner.x
  let boxY := Range.range minCorner.y maxCorner.y
  let boxZ := Range.range minCorner.z maxCorner.z
  let sphereX := Range.range (center.x - radius) (center.x + radius)
  let sphereY := Range.range (center.y - radius) (center.y + radius)
  let sphereZ := Range.range (center.z - radius) (center.z + radius)
  let xNarrow := boxX.linearOverlap (Range.single center.x) movement.x
  let xBroad := boxX.linearOverlap sphereX movement.x
  let yNarrow := boxY.linearOverlap (Range.single center.y) movement.y
  let yBroad := boxY.linearOverlap sphereY movement.y
  let zNarrow := boxZ.linearOverlap (Range.single center.z) movement.z
  let zBroad := boxZ.linearOverlap sphereZ movement.z
  let x := (xBroad.intersect yNarrow).intersect zNarrow
  let y := (xNarrow.intersect yBroad).intersect zNarrow
  let z := (xNarrow.intersect yNarrow).intersect zBroad
  ((x.contain y).contain z).intersect unitRange

/-- src/collision.rs:1145-1163: the axis direction of the box surface hit. -/
def boxSurfaceNormal (centerAtCollision minCorner maxCorner : Vec3 α) : Vec3 α :=
  let boxCenter := (minCorner + maxCorner).unscale two
  let boxSize := maxCorner - minCorner
  let d := boxCenter - centerAtCollision
  let nx := d.x / boxSize.x
  let ny := d.y / boxSize.y
  let nz := d.z / boxSize.z
  if Scalar.lt (Scalar.abs nx) (Scalar.abs ny) then
    if Scalar.lt (Scalar.abs ny) (Scalar.abs nz) then ⟨zero, zero, Scalar.signum nz⟩
    else ⟨zero, Scalar.signum ny, zero⟩
  else
    if Scalar.lt (Scalar.abs nx) (Scalar.abs nz) then ⟨zero, zero, Scalar.signum nz⟩
    else ⟨Scalar.signum nx, zero, zero⟩

/-- src/collision.rs:1119-1170: the collision with the surfaces, if any. -/
def boxSurfaceCollision (radius : α) (center movement minCorner maxCorner : Vec3 α) : Option (Collision α) :=
  let times := boxSurfaceTimes radius center movement minCorner maxCorner
  if !times.isEmpty then
    let centerAt := center + movement.scale times.min
    let normal := boxSurfaceNormal centerAt minCorner maxCorner
    some ⟨times, centerAt + normal.scale radius, normal⟩
  else none

/-- src/collision.rs:1172-1181 -/
def boxCorners (a b : Vec3 α) : List (Vec3 α) :=
  [⟨a.x, a.y, a.z⟩, ⟨b.x, a.y, a.z⟩, ⟨a.x, b.y, a.z⟩, ⟨b.x, b.y, a.z⟩,
   ⟨a.x, a.y, b.z⟩, ⟨b.x, a.y, b.z⟩, ⟨a.x, b.y, b.z⟩, ⟨b.x, b.y, b.z⟩]

/-- src/collision.rs:1182-1198 -/
def boxEdges : List (Nat × Nat) :=
  [(0, 1), (2, 3), (4, 5), (6, 7), (0, 2), (1, 3), (4, 6), (5, 7), (0, 4), (1, 5), (2, 6), (3, 7)]

/-- src/collision.rs:1112-1213 `collide_sphere_with_aligned_box` -/
def collideSphereBox (radius : α) (center movement minCorner maxCorner : Vec3 α) : Res (Option (Collision α)) := do
  let acc := (Earliest.new).consider (boxSurfaceCollision radius center movement minCorner maxCorner)
  let corners := boxCorners minCorner maxCorner
  let acc ← considerEdges radius center movement corners Vec3.zeros boxEdges acc
  .ok (considerVertices radius center movement Vec3.zeros corners acc).earliest

/-- src/collision.rs:62-77 and 80-95: sphere against plane in world space. -/
def dispatchSpherePlane (s : SphereCollider α) (start1 end1 : Orientation α) (p : PlaneCollider α)
    (start2 end2 : Orientation α) : Option (Collision α) :=
  let ss := start1.positionIntoWorld s.center
  let se := end1.positionIntoWorld s.center
  let ps := start2.positionIntoWorld p.position
  let pe := end2.positionIntoWorld p.position
  collideSpherePlane s.radius ss (se - ss) ps p.normal (pe - ps)

/-- src/collision.rs:106-122, 125-141: sphere against mesh in world space. -/
def dispatchSphereMesh (s : SphereCollider α) (start1 end1 : Orientation α) (m : MeshCollider α)
    (start2 end2 : Orientation α) : Res (Option (Collision α)) :=
  let ss := start1.positionIntoWorld s.center
  let se := end1.positionIntoWorld s.center
  let ms := start2.positionIntoWorld m.position
  let me := end2.positionIntoWorld m.position
  collideSphereMesh s.radius ss (se - ss) (m.verticesInWorld start2) m.edges m.faces (me - ms)

/-- src/collision.rs:152-166, 171-185: mesh against plane. -/
def dispatchMeshPlane (m : MeshCollider α) (start1 end1 : Orientation α) (p : PlaneCollider α)
    (start2 end2 : Orientation α) : Option (Collision α) :=
  collideMeshPlane m.vertices m.position start1 end1
    (start2.positionIntoWorld p.position) (end2.positionIntoWorld p.position) p.normal

/-- src/collision.rs:211-230, 235-250: sphere against box, in the local space of the box's entity. -/
def dispatchSphereBox (s : SphereCollider α) (start1 end1 : Orientation α) (b : BoxCollider α)
    (start2 end2 : Orientation α) : Res (Option (Collision α)) := do
  let ss := start2.positionIntoLocal (start1.positionIntoWorld s.center)
  let se := end2.positionIntoLocal (end1.positionIntoWorld s.center)
  let r ← collideSphereBox s.radius ss (se - ss) b.minCorner b.maxCorner
  .ok (r.map (·.transformOutOf start2 end2))

/-- src/collision.rs:35-259 `collide` -/
def collide (c1 : Collider α) (start1 end1 : Orientation α) (c2 : Collider α) (start2 end2 : Orientation α) :
    Res (Option (Collision α)) :=
  match c1, c2 with
  | .sphere s1, .sphere s2 =>
    let p1 := start1.positionIntoWorld s1.center
    let e1 := end1.positionIntoWorld s1.center
    let p2 := start2.positionIntoWorld s2.center
    let e2 := end2.positionIntoWorld s2.center
    .ok (collideSphereSphere s1.radius p1 (e1 - p1) s2.radius p2 (e2 - p2))
  | .sphere s, .plane p => .ok (dispatchSpherePlane s start1 end1 p start2 end2)
  | .plane p, .sphere s => .ok ((dispatchSpherePlane s start2 end2 p start1 end1).map Collision.flip)
  | .sphere s, .mesh m => dispatchSphereMesh s start1 end1 m start2 end2
  | .mesh m, .sphere s => do
    let r ← dispatchSphereMesh s start2 end2 m start1 end1
    .ok (r.map Collision.flip)
  | .mesh m, .plane p => .ok (dispatchMeshPlane m start1 end1 p start2 end2)
  | .plane p, .mesh m => .ok ((dispatchMeshPlane m start2 end2 p start1 end1).map Collision.flip)
  | .mesh m1, .mesh m2 => collideMeshMesh m1 start1 end1 m2 start2 end2
  | .sphere s, .box b => dispatchSphereBox s start1 end1 b start2 end2
  | .box b, .sphere s => do
    let r ← dispatchSphereBox s start2 end2 b start1 end1
    .ok (r.map Collision.flip)
  | _, _ => .ok none

end Fluffy
