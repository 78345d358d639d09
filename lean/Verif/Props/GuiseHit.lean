import Verif.Num.Guise
import Verif.Props.ShiftHit
/-
C85 and C86, first part: the contact between two shapes in other axes is the same contact in the other axes; masses have no part in it.
-/
set_option linter.unusedSectionVars false
set_option linter.unusedSimpArgs false
namespace Fluffy
open XReal

/-- The contact in the turned axes. -/
noncomputable def Collision.turn (t : Turn) (c : Collision XReal) : Collision XReal := ⟨c.times, c.position.turn t, c.normal.turn t⟩

/-- Push the turn outwards. -/
macro "turns" : tactic =>
  `(tactic| simp only [← Vec3.turn_add, ← Vec3.turn_sub, ← Vec3.turn_neg, ← Vec3.turn_scale, ← Vec3.turn_unscale, Vec3.turn_dot, Vec3.turn_cross,
    Vec3.turn_magnitude, Vec3.turn_normalize])

namespace Props
variable (t : Turn)

theorem turn_flip (c : Collision XReal) : (c.turn t).flip = c.flip.turn t := by
  unfold Collision.flip Collision.turn; turns

/-! ### Spheres -/

theorem overlap_turn (r : XReal) (c m p n v : Vec3 XReal) (b : Bool) :
    spherePlaneOverlapTime r (c.turn t) (m.turn t) (p.turn t) (n.turn t) (v.turn t) b = spherePlaneOverlapTime r c m p n v b := by
  unfold spherePlaneOverlapTime; turns

theorem spherePlane_turn (r : XReal) (c m p n v : Vec3 XReal) :
    collideSpherePlane r (c.turn t) (m.turn t) (p.turn t) (n.turn t) (v.turn t) = (collideSpherePlane r c m p n v).map (Collision.turn t) := by
  unfold collideSpherePlane
  simp only [overlap_turn]
  turns
  split <;> rfl

theorem sphereSphere_turn (r s : XReal) (c m p v : Vec3 XReal) :
    collideSphereSphere r (c.turn t) (m.turn t) s (p.turn t) (v.turn t) = (collideSphereSphere r c m s p v).map (Collision.turn t) := by
  unfold collideSphereSphere
  turns
  split <;> rfl

theorem sphereLine_turn (r : XReal) (c m p q v : Vec3 XReal) :
    collideSphereLine r (c.turn t) (m.turn t) (p.turn t) (q.turn t) (v.turn t) = (collideSphereLine r c m p q v).map (Collision.turn t) := by
  unfold collideSphereLine
  turns
  split <;> rfl

theorem sphereSegment_turn (r : XReal) (c m p q v : Vec3 XReal) :
    collideSphereMidSegment r (c.turn t) (m.turn t) (p.turn t) (q.turn t) (v.turn t) = (collideSphereMidSegment r c m p q v).map (Collision.turn t) := by
  unfold collideSphereMidSegment
  turns
  simp only [sphereLine_turn]
  cases collideSphereLine r c m p (q - p) v with
  | none => rfl
  | some hit =>
    simp only [Option.map_some]
    simp only [Collision.turn]
    turns
    split <;> rfl

theorem insideLoop_turn (h n s : Vec3 XReal) : ∀ (l : List (Vec3 XReal × Vec3 XReal)) (e : XReal),
    insideLoop (h.turn t) (n.turn t) (s.turn t) (l.map (Prod.map (Vec3.turn t) (Vec3.turn t))) e = insideLoop h n s l e
  | [], _ => rfl
  | (a, b) :: rest, e => by
    simp only [List.map_cons, insideLoop, Prod.map]
    turns
    simp only [insideLoop_turn h n s rest]

theorem spherePolygon_turn (r : XReal) (c m : Vec3 XReal) (ps : List (Vec3 XReal)) (v : Vec3 XReal) :
    collideSpherePolygon r (c.turn t) (m.turn t) (ps.map (Vec3.turn t)) (v.turn t) = (collideSpherePolygon r c m ps v).map (Option.map (Collision.turn t)) := by
  match ps with
  | [] => rfl
  | [_] => rfl
  | [_, _] => rfl
  | c0 :: c1 :: c2 :: rest =>
    have hp : cyclicPairs ((c0.turn t) :: (c1.turn t) :: (c2.turn t) :: rest.map (Vec3.turn t)) =
      (cyclicPairs (c0 :: c1 :: c2 :: rest)).map (Prod.map (Vec3.turn t) (Vec3.turn t)) := cyclicPairs_shift (Vec3.turn t) (c0 :: c1 :: c2 :: rest)
    unfold collideSpherePolygon
    simp only [List.map_cons, hp]
    turns
    simp only [overlap_turn, insideLoop_turn]
    split
    · split <;> rfl
    · rfl

/-! ### Sphere and mesh -/

/-- The accumulator in the turned axes. -/
noncomputable def turnAcc (a : Earliest XReal) : Earliest XReal := ⟨a.earliest.map (Collision.turn t), a.earliestTime⟩
theorem consider_turn (a : Earliest XReal) (c : Option (Collision XReal)) :
    (turnAcc t a).consider (c.map (Collision.turn t)) = turnAcc t (a.consider c) := by
  cases c with
  | none => rfl
  | some c =>
    simp only [Option.map_some, Earliest.consider, show (c.turn t).times = c.times from rfl]
    simp only [turnAcc]
    by_cases h : Scalar.lt c.times.min a.earliestTime = true <;> simp [h]
theorem new_turn : turnAcc t Earliest.new = Earliest.new := rfl

theorem vertices_turn (r : XReal) (c m v : Vec3 XReal) : ∀ (l : List (Vec3 XReal)) (a : Earliest XReal),
    considerVertices r (c.turn t) (m.turn t) (v.turn t) (l.map (Vec3.turn t)) (turnAcc t a) = turnAcc t (considerVertices r c m v l a)
  | [], _ => rfl
  | p :: l, a => by
    simp only [List.map_cons, considerVertices]
    rw [sphereSphere_turn, consider_turn, vertices_turn r c m v l]

theorem edges_turn (r : XReal) (c m v : Vec3 XReal) (vs : List (Vec3 XReal)) : ∀ (l : List (Nat × Nat)) (a : Earliest XReal),
    considerEdges r (c.turn t) (m.turn t) (vs.map (Vec3.turn t)) (v.turn t) l (turnAcc t a) = (considerEdges r c m vs v l a).map (turnAcc t)
  | [], _ => rfl
  | (i, j) :: l, a => by
    simp only [considerEdges, index_map]
    cases index vs i with
    | error e => rfl
    | ok p =>
      cases index vs j with
      | error e => rfl
      | ok q =>
        show considerEdges r (c.turn t) (m.turn t) (vs.map (Vec3.turn t)) (v.turn t) l ((turnAcc t a).consider (collideSphereMidSegment r (c.turn t) (m.turn t) (p.turn t) (q.turn t) (v.turn t))) =
          (considerEdges r c m vs v l (a.consider (collideSphereMidSegment r c m p q v))).map (turnAcc t)
        rw [sphereSegment_turn, consider_turn, edges_turn r c m v vs l]

theorem faces_turn (r : XReal) (c m v : Vec3 XReal) (vs : List (Vec3 XReal)) : ∀ (l : List (List Nat)) (a : Earliest XReal),
    considerFaces r (c.turn t) (m.turn t) (vs.map (Vec3.turn t)) (v.turn t) l (turnAcc t a) = (considerFaces r c m vs v l a).map (turnAcc t)
  | [], _ => rfl
  | f :: l, a => by
    simp only [considerFaces, faceCorners_map]
    cases faceCorners vs f with
    | error e => rfl
    | ok ps =>
      show (collideSpherePolygon r (c.turn t) (m.turn t) (ps.map (Vec3.turn t)) (v.turn t) >>= fun x => considerFaces r (c.turn t) (m.turn t) (vs.map (Vec3.turn t)) (v.turn t) l ((turnAcc t a).consider x)) =
          ((collideSpherePolygon r c m ps v) >>= fun x => considerFaces r c m vs v l (a.consider x)).map (turnAcc t)
      rw [spherePolygon_turn]
      cases collideSpherePolygon r c m ps v with
      | error e => rfl
      | ok o =>
        show considerFaces r (c.turn t) (m.turn t) (vs.map (Vec3.turn t)) (v.turn t) l ((turnAcc t a).consider (o.map (Collision.turn t))) =
          (considerFaces r c m vs v l (a.consider o)).map (turnAcc t)
        rw [consider_turn, faces_turn r c m v vs l]

theorem sphereMesh_turn (r : XReal) (c m v : Vec3 XReal) (vs : List (Vec3 XReal)) (es : List (Nat × Nat)) (fs : List (List Nat)) :
    collideSphereMesh r (c.turn t) (m.turn t) (vs.map (Vec3.turn t)) es fs (v.turn t) = (collideSphereMesh r c m vs es fs v).map (Option.map (Collision.turn t)) := by
  unfold collideSphereMesh
  have h := vertices_turn t r c m v vs Earliest.new
  rw [new_turn] at h
  dsimp only
  rw [h, edges_turn]
  cases considerEdges r c m vs v es (considerVertices r c m v vs Earliest.new) with
  | error e => rfl
  | ok a =>
    show (considerFaces r (c.turn t) (m.turn t) (vs.map (Vec3.turn t)) (v.turn t) fs (turnAcc t a) >>= fun a => .ok a.earliest) = _
    rw [faces_turn]
    show _ = (considerFaces r c m vs v fs a >>= fun a => .ok a.earliest).map _
    cases considerFaces r c m vs v fs a <;> rfl

/-! ### Mesh and plane -/

theorem closest_turn (ε least : XReal) : ∀ (l : List (Vec3 XReal × XReal)) (sum : Vec3 XReal) (n : XReal),
    closestAverage ε least (l.map (fun x => (x.1.turn t, x.2))) (sum.turn t) n = (closestAverage ε least l sum n).turn t
  | [], sum, n => by simp only [List.map_nil, closestAverage]; turns
  | (p, x) :: l, sum, n => by
    simp only [List.map_cons, closestAverage]
    turns
    split
    · exact closest_turn ε least l _ _
    · exact closest_turn ε least l sum n

theorem meshPlane_turn (o e : Orientation XReal) (vs : List (Vec3 XReal)) (m a b n : Vec3 XReal) :
    collideMeshPlane (vs.map (Vec3.turn t)) (m.turn t) (o.turn t) (e.turn t) (a.turn t) (b.turn t) (n.turn t) = (collideMeshPlane vs m o e a b n).map (Collision.turn t) := by
  have hi : ∀ v : Vec3 XReal, meshInfo (m.turn t) (o.turn t) (e.turn t) (a.turn t) (b.turn t) (n.turn t) (v.turn t) =
      ⟨(meshInfo m o e a b n v).startPosition.turn t, (meshInfo m o e a b n v).endPosition.turn t, (meshInfo m o e a b n v).startDistance,
        (meshInfo m o e a b n v).endDistance⟩ := by
    intro v
    unfold meshInfo
    simp only [← Vec3.turn_add, Orientation.turn_positionIntoWorld]
    turns
  have h1 : ((vs.map (Vec3.turn t)).map (meshInfo (m.turn t) (o.turn t) (e.turn t) (a.turn t) (b.turn t) (n.turn t))).map (·.startDistance) = (vs.map (meshInfo m o e a b n)).map (·.startDistance) := by
    rw [List.map_map, List.map_map, List.map_map]; exact List.map_congr_left (fun v _ => by simp [hi])
  have h2 : ((vs.map (Vec3.turn t)).map (meshInfo (m.turn t) (o.turn t) (e.turn t) (a.turn t) (b.turn t) (n.turn t))).map (·.endDistance) = (vs.map (meshInfo m o e a b n)).map (·.endDistance) := by
    rw [List.map_map, List.map_map, List.map_map]; exact List.map_congr_left (fun v _ => by simp [hi])
  have h3 : ((vs.map (Vec3.turn t)).map (meshInfo (m.turn t) (o.turn t) (e.turn t) (a.turn t) (b.turn t) (n.turn t))).map (fun i => (i.startPosition, i.startDistance)) =
      ((vs.map (meshInfo m o e a b n)).map (fun i => (i.startPosition, i.startDistance))).map (fun x => (x.1.turn t, x.2)) := by
    rw [List.map_map, List.map_map, List.map_map, List.map_map]; exact List.map_congr_left (fun v _ => by simp [hi])
  have h4 : ((vs.map (Vec3.turn t)).map (meshInfo (m.turn t) (o.turn t) (e.turn t) (a.turn t) (b.turn t) (n.turn t))).map (fun i => (i.endPosition, i.endDistance)) =
      ((vs.map (meshInfo m o e a b n)).map (fun i => (i.endPosition, i.endDistance))).map (fun x => (x.1.turn t, x.2)) := by
    rw [List.map_map, List.map_map, List.map_map, List.map_map]; exact List.map_congr_left (fun v _ => by simp [hi])
  have hz := fun (ε least : XReal) (l : List (Vec3 XReal × XReal)) => closest_turn t ε least l Vec3.zeros zero
  simp only [Vec3.turn_zeros] at hz
  unfold collideMeshPlane
  simp only [h1, h2, h3, h4, hz]
  turns
  split <;> rfl

/-! ### Mesh and mesh -/

theorem polygonLoop_turn : ∀ l : List (Vec3 XReal × Vec3 XReal × Vec3 XReal),
    polygonNormalLoop (l.map (Prod.map (Vec3.turn t) (Prod.map (Vec3.turn t) (Vec3.turn t)))) = (polygonNormalLoop l).map (Vec3.turn t)
  | [] => rfl
  | (a, b, c) :: l => by
    simp only [List.map_cons, Prod.map, polygonNormalLoop]
    turns
    split
    · rfl
    · exact polygonLoop_turn l
theorem polygonNormal_turn (ps : List (Vec3 XReal)) : polygonNormal (ps.map (Vec3.turn t)) = (polygonNormal ps).map (Vec3.turn t) := by
  unfold polygonNormal
  dsimp only
  rw [List.length_map, ← List.map_drop, ← List.map_take, ← List.map_append, ← List.map_drop, ← List.map_take, ← List.map_append,
    List.zip_map, List.zip_map, polygonLoop_turn]

theorem along_turn (a b n : Vec3 XReal) : ∀ (l : List (Vec3 XReal × Vec3 XReal)) (k : XReal) (p : Vec3 XReal),
    alongPlaneLoop (a.turn t) (b.turn t) (n.turn t) (l.map (Prod.map (Vec3.turn t) (Vec3.turn t))) k (p.turn t) =
      Prod.map id (Vec3.turn t) (alongPlaneLoop a b n l k p)
  | [], k, p => rfl
  | (x, y) :: l, k, p => by
    simp only [List.map_cons, Prod.map, alongPlaneLoop]
    turns
    split
    · exact along_turn a b n l k p
    · split
      · exact along_turn a b n l k p
      · split
        · exact along_turn a b n l _ _
        · exact along_turn a b n l k p

theorem pointInside_turn (x n : Vec3 XReal) : ∀ (l : List (Vec3 XReal × Vec3 XReal)) (e : XReal),
    pointInsideLoop (x.turn t) (n.turn t) (l.map (Prod.map (Vec3.turn t) (Vec3.turn t))) e = pointInsideLoop x n l e
  | [], _ => rfl
  | (a, b) :: l, e => by
    simp only [List.map_cons, Prod.map, pointInsideLoop]
    turns
    simp only [pointInside_turn x n l]

theorem pointPolygon_turn (a b : Vec3 XReal) (ps : List (Vec3 XReal)) :
    collidePointPolygon (a.turn t) (b.turn t) (ps.map (Vec3.turn t)) = (collidePointPolygon a b ps).map (Option.map (Collision.turn t)) := by
  unfold collidePointPolygon
  simp only [polygonNormal_turn, index_map, cyclicPairs_shift]
  cases polygonNormal ps with
  | error e => rfl
  | ok n =>
    cases index ps 0 with
    | error e => rfl
    | ok p =>
      simp only [Except.map, Res.ok_bind]
      have h1 : ∀ x : Vec3 XReal, pointIsOnPlane (x.turn t) (n.turn t) (p.turn t) = pointIsOnPlane x n p := by
        intro x; unfold pointIsOnPlane; turns
      have h2 : orientNormal (a.turn t) (b.turn t) (p.turn t) (n.turn t) = (orientNormal a b p n).turn t := by
        unfold orientNormal
        turns
        split
        · rfl
        · split
          · split <;> rfl
          · rfl
      have h3 := along_turn t a b n (cyclicPairs ps) two Vec3.zeros
      rw [Vec3.turn_zeros] at h3
      simp only [h1, h2, h3]
      turns
      simp only [pointInside_turn]
      split
      · simp only [Prod.map, id]
        split <;> rfl
      · split
        · rfl
        · split <;> rfl

/-- A mesh in the turned axes. -/
noncomputable def _root_.Fluffy.MeshCollider.turn (m : MeshCollider XReal) : MeshCollider XReal :=
  { m with position := m.position.turn t, vertices := m.vertices.map (Vec3.turn t) }

theorem meshPairs_turn (o e : Orientation XReal) (m : MeshCollider XReal) :
    meshPointPairs (m.turn t) (o.turn t) (e.turn t) = (meshPointPairs m o e).map (Prod.map (Vec3.turn t) (Vec3.turn t)) := by
  unfold meshPointPairs MeshCollider.turn
  rw [List.map_map, List.map_map]
  exact List.map_congr_left (fun v _ => by
    simp [← Vec3.turn_add, Orientation.turn_positionIntoWorld])

theorem midFace_turn (ps : List (Vec3 XReal × Vec3 XReal)) : ∀ l : List Nat,
    midFace (ps.map (Prod.map (Vec3.turn t) (Vec3.turn t))) l = (midFace ps l).map (List.map (Vec3.turn t))
  | [] => rfl
  | i :: l => by
    simp only [midFace, index_map, midFace_turn ps l]
    cases index ps i with
    | error e => rfl
    | ok p =>
      cases midFace ps l with
      | error e => rfl
      | ok qs =>
        show Except.ok ((p.1.turn t + p.2.turn t).unscale two :: qs.map (Vec3.turn t)) = Except.ok (((p.1 + p.2).unscale two).turn t :: qs.map (Vec3.turn t))
        turns

theorem pointFaces_turn (p : Vec3 XReal × Vec3 XReal) (qs : List (Vec3 XReal × Vec3 XReal)) : ∀ (l : List (List Nat)) (a : Earliest XReal),
    pointAgainstFaces (Prod.map (Vec3.turn t) (Vec3.turn t) p) (qs.map (Prod.map (Vec3.turn t) (Vec3.turn t))) l (turnAcc t a) = (pointAgainstFaces p qs l a).map (turnAcc t)
  | [], _ => rfl
  | f :: l, a => by
    simp only [pointAgainstFaces, midFace_turn]
    cases midFace qs f with
    | error e => rfl
    | ok ps =>
      show (collidePointPolygon (p.1.turn t) (p.2.turn t) (ps.map (Vec3.turn t)) >>= fun c => pointAgainstFaces _ _ l ((turnAcc t a).consider c)) =
        (collidePointPolygon p.1 p.2 ps >>= fun c => pointAgainstFaces p qs l (a.consider c)).map (turnAcc t)
      rw [pointPolygon_turn]
      cases collidePointPolygon p.1 p.2 ps with
      | error e => rfl
      | ok o =>
        show pointAgainstFaces _ _ l ((turnAcc t a).consider (o.map (Collision.turn t))) = (pointAgainstFaces p qs l (a.consider o)).map (turnAcc t)
        rw [consider_turn, pointFaces_turn p qs l]

theorem pointsFaces_turn (qs : List (Vec3 XReal × Vec3 XReal)) (fs : List (List Nat)) : ∀ (l : List (Vec3 XReal × Vec3 XReal)) (a : Earliest XReal),
    pointsAgainstFaces (qs.map (Prod.map (Vec3.turn t) (Vec3.turn t))) fs (l.map (Prod.map (Vec3.turn t) (Vec3.turn t))) (turnAcc t a) = (pointsAgainstFaces qs fs l a).map (turnAcc t)
  | [], _ => rfl
  | p :: l, a => by
    simp only [List.map_cons, pointsAgainstFaces, pointFaces_turn]
    cases pointAgainstFaces p qs fs a with
    | error e => rfl
    | ok b => exact pointsFaces_turn qs fs l b

theorem behind_turn (c : Collision XReal) (p : Vec3 XReal × Vec3 XReal) :
    behindContact (c.turn t) (Prod.map (Vec3.turn t) (Vec3.turn t) p) = behindContact c p := by
  unfold behindContact Collision.turn
  simp only [Prod.map]
  turns

theorem meshPointsFaces_turn (a : Earliest XReal) (ps qs : List (Vec3 XReal × Vec3 XReal)) (m : MeshCollider XReal) (k : XReal) :
    collideMeshPointsFaces (turnAcc t a) (ps.map (Prod.map (Vec3.turn t) (Vec3.turn t))) (m.turn t) (qs.map (Prod.map (Vec3.turn t) (Vec3.turn t))) k =
      (collideMeshPointsFaces a ps m qs k).map (turnAcc t) := by
  unfold collideMeshPointsFaces
  rw [← new_turn t, show (m.turn t).faces = m.faces from rfl, pointsFaces_turn, new_turn]
  cases hb : pointsAgainstFaces qs m.faces ps Earliest.new with
  | error e => rfl
  | ok b =>
    simp only [Except.map, Res.ok_bind]
    cases he : b.earliest with
    | none => simp [turnAcc, he]
    | some c =>
      have he' : (turnAcc t b).earliest = some (c.turn t) := by simp [turnAcc, he]
      simp only [he']
      have h1 : ∀ f : Vec3 XReal × Vec3 XReal → Bool, ∀ g : Vec3 XReal × Vec3 XReal → Bool, (∀ p, f (Prod.map (Vec3.turn t) (Vec3.turn t) p) = g p) →
          ((ps.map (Prod.map (Vec3.turn t) (Vec3.turn t))).filter f).length = (ps.filter g).length := by
        intro f g hfg
        rw [List.filter_map, List.length_map]
        congr 1
        exact List.filter_congr (fun p _ => hfg p)
      rw [h1 _ _ (behind_turn t c), h1 (fun p => !behindContact (c.turn t) p) (fun p => !behindContact c p) (fun p => by rw [behind_turn])]
      have hn : ((if (ps.filter (behindContact c)).length > (ps.filter (fun p => !behindContact c p)).length then (c.turn t).normal.scale (lit (-1) 1) else (c.turn t).normal).scale k) =
          ((if (ps.filter (behindContact c)).length > (ps.filter (fun p => !behindContact c p)).length then c.normal.scale (lit (-1) 1) else c.normal).scale k).turn t := by
        unfold Collision.turn
        split <;> turns
      rw [hn]
      have := consider_turn t a (some { c with normal := (if (ps.filter (behindContact c)).length > (ps.filter (fun p => !behindContact c p)).length then c.normal.scale (lit (-1) 1) else c.normal).scale k })
      exact congrArg Except.ok this

theorem meshMesh_turn (o1 e1 o2 e2 : Orientation XReal) (m1 m2 : MeshCollider XReal) :
    collideMeshMesh (m1.turn t) (o1.turn t) (e1.turn t) (m2.turn t) (o2.turn t) (e2.turn t) = (collideMeshMesh m1 o1 e1 m2 o2 e2).map (Option.map (Collision.turn t)) := by
  unfold collideMeshMesh
  simp only [meshPairs_turn]
  rw [← new_turn t, meshPointsFaces_turn, new_turn]
  cases collideMeshPointsFaces Earliest.new (meshPointPairs m1 o1 e1) m2 (meshPointPairs m2 o2 e2) (lit (-1) 1) with
  | error e => rfl
  | ok a =>
    simp only [Except.map, Res.ok_bind]
    rw [meshPointsFaces_turn]
    cases collideMeshPointsFaces a (meshPointPairs m2 o2 e2) m1 (meshPointPairs m1 o1 e1) one <;> rfl

/-! ### Everything -/

end Props

/-- The same scene in another guise: other axes, and another unit of mass (`unit` of the new for one of the old). -/
structure Guise where
  axes : Turn
  unit : ℝ
  pos : 0 < unit

/-- A collider in another guise: its local geometry in the turned axes, its mass (and a null collider's moment) in the new unit. -/
noncomputable def Collider.recast (g : Guise) : Collider XReal → Collider XReal
  | .null s => .null { s with position := s.position.turn g.axes, mass := s.mass * fin g.unit, momentOfInertia := (s.momentOfInertia.turn g.axes).scale (fin g.unit) }
  | .sphere s => .sphere { s with center := s.center.turn g.axes, mass := s.mass * fin g.unit }
  | .plane s => .plane { s with position := s.position.turn g.axes, normal := s.normal.turn g.axes, mass := s.mass * fin g.unit }
  | .mesh s => .mesh (s.turn g.axes)
  | .box s => .box { s with position := s.position.turn g.axes, minCorner := s.minCorner.turn g.axes, maxCorner := s.maxCorner.turn g.axes, mass := s.mass * fin g.unit }

namespace Props

/-- Boxes are left alone by no turn but none: their sides are parallel to the axes, and ties between corners and edges are broken in the order of the axes. -/
def Turnable (t : Turn) : Collider XReal → Prop
  | .box _ => t = .stay
  | _ => True

theorem stay_orientation (o : Orientation XReal) : o.turn .stay = o := rfl
theorem stay_collision : Collision.turn .stay = id := rfl

/-- The contact between two shapes in another guise is the contact in that guise. -/
theorem collide_recast (g : Guise) (o1 e1 o2 e2 : Orientation XReal) {c1 c2 : Collider XReal} (t1 : Turnable g.axes c1) (t2 : Turnable g.axes c2) :
    collide (c1.recast g) (o1.turn g.axes) (e1.turn g.axes) (c2.recast g) (o2.turn g.axes) (e2.turn g.axes) =
      (collide c1 o1 e1 c2 o2 e2).map (Option.map (Collision.turn g.axes)) := by
  obtain ⟨t, u, hu⟩ := g
  have sp : ∀ (o1 e1 o2 e2 : Orientation XReal) (s : SphereCollider XReal) (p : PlaneCollider XReal) (m m' : XReal),
      dispatchSpherePlane { s with center := s.center.turn t, mass := m } (o1.turn t) (e1.turn t) { p with position := p.position.turn t, normal := p.normal.turn t, mass := m' } (o2.turn t) (e2.turn t) =
        (dispatchSpherePlane s o1 e1 p o2 e2).map (Collision.turn t) := by
    intro o1 e1 o2 e2 s p m m'
    unfold dispatchSpherePlane
    simp only [Orientation.turn_positionIntoWorld]
    turns
    rw [spherePlane_turn]
  have sm : ∀ (o1 e1 o2 e2 : Orientation XReal) (s : SphereCollider XReal) (m : MeshCollider XReal) (m' : XReal),
      dispatchSphereMesh { s with center := s.center.turn t, mass := m' } (o1.turn t) (e1.turn t) (m.turn t) (o2.turn t) (e2.turn t) =
        (dispatchSphereMesh s o1 e1 m o2 e2).map (Option.map (Collision.turn t)) := by
    intro o1 e1 o2 e2 s m m'
    unfold dispatchSphereMesh
    have hv : (m.turn t).verticesInWorld (o2.turn t) = (m.verticesInWorld o2).map (Vec3.turn t) := by
      unfold MeshCollider.verticesInWorld MeshCollider.turn
      rw [List.map_map, List.map_map]
      exact List.map_congr_left (fun v _ => by simp [← Vec3.turn_add, Orientation.turn_positionIntoWorld])
    rw [hv]
    simp only [MeshCollider.turn, Orientation.turn_positionIntoWorld]
    turns
    rw [sphereMesh_turn]
  have mp : ∀ (o1 e1 o2 e2 : Orientation XReal) (m : MeshCollider XReal) (p : PlaneCollider XReal) (m' : XReal),
      dispatchMeshPlane (m.turn t) (o1.turn t) (e1.turn t) { p with position := p.position.turn t, normal := p.normal.turn t, mass := m' } (o2.turn t) (e2.turn t) =
        (dispatchMeshPlane m o1 e1 p o2 e2).map (Collision.turn t) := by
    intro o1 e1 o2 e2 m p m'
    unfold dispatchMeshPlane
    simp only [MeshCollider.turn, Orientation.turn_positionIntoWorld, meshPlane_turn]
  have fl : ∀ o : Option (Collision XReal), (o.map (Collision.turn t)).map Collision.flip = (o.map Collision.flip).map (Collision.turn t) := by
    intro o
    cases o with
    | none => rfl
    | some c => exact congrArg some (turn_flip t c)
  have flr : ∀ r : Res (Option (Collision XReal)), (r.map (Option.map (Collision.turn t)) >>= fun o => .ok (o.map Collision.flip)) =
      (r >>= fun o => .ok (o.map Collision.flip)).map (Option.map (Collision.turn t)) := by
    intro r
    cases r with
    | error e => rfl
    | ok o => exact congrArg Except.ok (fl o)
  have sid : ∀ r : Res (Option (Collision XReal)), r = r.map (Option.map (Collision.turn .stay)) := by
    intro r
    rw [stay_collision]
    cases r with
    | error e => rfl
    | ok o => cases o <;> rfl
  simp only [Turnable] at t1 t2
  cases c1 with
  | null _ => rfl
  | sphere s =>
    cases c2 with
    | null _ => rfl
    | sphere s2 =>
      unfold collide Collider.recast
      simp only [Orientation.turn_positionIntoWorld]
      turns
      rw [sphereSphere_turn]
      rfl
    | plane p => exact congrArg Except.ok (sp o1 e1 o2 e2 s p _ _)
    | mesh m => exact sm o1 e1 o2 e2 s m _
    | box b => simp only at t2; subst t2; exact sid _
  | plane p =>
    cases c2 with
    | sphere s => exact congrArg Except.ok ((congrArg (Option.map Collision.flip) (sp o2 e2 o1 e1 s p _ _)).trans (fl _))
    | mesh m => exact congrArg Except.ok ((congrArg (Option.map Collision.flip) (mp o2 e2 o1 e1 m p _)).trans (fl _))
    | null _ => rfl
    | plane _ => rfl
    | box _ => rfl
  | mesh m =>
    cases c2 with
    | sphere s => exact (congrArg (fun r => r >>= fun o => .ok (o.map Collision.flip)) (sm o2 e2 o1 e1 s m _)).trans (flr _)
    | plane p => exact congrArg Except.ok (mp o1 e1 o2 e2 m p _)
    | mesh m2 => exact meshMesh_turn t o1 e1 o2 e2 m m2
    | null _ => rfl
    | box _ => rfl
  | box b =>
    cases c2 with
    | sphere s => simp only at t1; subst t1; exact sid _
    | null _ => rfl
    | plane _ => rfl
    | mesh _ => rfl
    | box _ => rfl

end Props
end Fluffy
