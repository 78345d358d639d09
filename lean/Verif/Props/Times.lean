import Verif.Model.Collision
import Verif.Props.Ranges
import Verif.Proofs.Basic
/-
C52: the times of every reported collision lie in the step.
-/
set_option linter.unusedSectionVars false
set_option linter.unusedSimpArgs false
namespace Fluffy.Props
open Fluffy
variable {α : Type} [Scalar α] [LawfulOrder α]

/-- The times of the collision are a non-empty range within [0,1]. -/
def InStep (c : Collision α) : Prop :=
  c.times.isEmpty = false ∧ Scalar.le zero c.times.min = true ∧ Scalar.le c.times.min c.times.max = true ∧ Scalar.le c.times.max one = true

theorem inStep_of_unit {R : Range α} {p n : Vec3 α} (h : ¬ ((!(R.intersect unitRange).isEmpty) = false)) : InStep ⟨R.intersect unitRange, p, n⟩ := by
  have h : (R.intersect unitRange).isEmpty = false := by simpa using h
  have hlow : Scalar.le (R.intersect unitRange).lo (R.intersect unitRange).hi = true := by
    revert h
    unfold Range.intersect
    split
    · intro h; unfold Range.empty Range.isEmpty at h; rw [LawfulOrder.isNaN_nan] at h; cases h
    · simp only
      generalize (if Scalar.lt unitRange.lo R.lo = true then R.lo else unitRange.lo) = lo
      generalize (if Scalar.lt R.hi unitRange.hi = true then R.hi else unitRange.hi) = hi
      split
      · intro h; unfold Range.empty Range.isEmpty at h; rw [LawfulOrder.isNaN_nan] at h; cases h
      · rename_i q
        intro h
        have h := isEmpty_false h
        exact le_iff'.mpr ⟨by simpa using q, h.1, h.2⟩
  have h01 : Scalar.le (zero : α) one = true := le_of_lt' LawfulOrder.zero_lt_one
  have hn := isEmpty_false h
  have a1 := ((C39_intersect R unitRange _).mp (holds_iff'.mpr ⟨le_refl' hn.1, hlow⟩)).2
  have a2 := ((C39_intersect R unitRange _).mp (holds_iff'.mpr ⟨hlow, le_refl' hn.2⟩)).2
  unfold unitRange at a1 a2
  rw [C39_range] at a1 a2
  refine ⟨h, ?_, ?_, ?_⟩ <;> simp only [Range.min, Range.max, h, Bool.false_eq_true, if_false]
  · rcases a1 with q | q
    · exact q.1
    · exact le_trans' h01 q.1
  · exact hlow
  · rcases a2 with q | q
    · exact q.2
    · exact le_trans' q.2 h01

theorem inStep_single {t : α} {p n : Vec3 α} (h0 : Scalar.le zero t = true) (h1 : Scalar.le t one = true) : InStep ⟨Range.single t, p, n⟩ := by
  have hn := (le_iff'.mp h0).2.2
  have he : (Range.single t).isEmpty = false := by simp [Range.single, Range.isEmpty, hn]
  refine ⟨he, ?_, ?_, ?_⟩ <;> simp only [Range.min, Range.max, he, Bool.false_eq_true, if_false]
  · exact h0
  · exact le_refl' hn
  · exact h1

theorem InStep.of_times {c d : Collision α} (h : InStep c) (e : d.times = c.times) : InStep d := by
  unfold InStep; rw [e]; exact h

/-- What an accumulator holds. -/
def AccIn (a : Earliest α) : Prop := ∀ c, a.earliest = some c → InStep c

theorem AccIn.consider {a : Earliest α} (h : AccIn a) {o : Option (Collision α)} (ho : ∀ c, o = some c → InStep c) : AccIn (a.consider o) := by
  intro c hc
  cases o with
  | none => exact h c hc
  | some d =>
    simp only [Earliest.consider] at hc
    split at hc
    · simp only [Option.some.injEq] at hc; subst hc; exact ho _ rfl
    · exact h c hc

theorem AccIn.new : AccIn (Earliest.new : Earliest α) := by intro c hc; simp [Earliest.new] at hc

theorem in_spherePlane {r : α} {c m p n v : Vec3 α} : ∀ x, collideSpherePlane r c m p n v = some x → InStep x := by
  intro x hx
  unfold collideSpherePlane at hx
  simp only at hx
  split at hx
  · rename_i h; simp only [Option.some.injEq] at hx; subst hx; exact inStep_of_unit (by simpa using h)
  · cases hx
theorem in_sphereSphere {r s : α} {c m p v : Vec3 α} : ∀ x, collideSphereSphere r c m s p v = some x → InStep x := by
  intro x hx
  unfold collideSphereSphere at hx
  simp only at hx
  split at hx
  · rename_i h; simp only [Option.some.injEq] at hx; subst hx; exact inStep_of_unit (by simpa using h)
  · cases hx
theorem in_sphereLine {r : α} {c m p d v : Vec3 α} : ∀ x, collideSphereLine r c m p d v = some x → InStep x := by
  intro x hx
  unfold collideSphereLine at hx
  simp only at hx
  split at hx
  · rename_i h; simp only [Option.some.injEq] at hx; subst hx; exact inStep_of_unit (by simpa using h)
  · cases hx
theorem in_sphereSegment {r : α} {c m p d v : Vec3 α} : ∀ x, collideSphereMidSegment r c m p d v = some x → InStep x := by
  intro x hx
  unfold collideSphereMidSegment at hx
  simp only at hx
  split at hx
  · rename_i hit h
    split at hx
    · simp only [Option.some.injEq] at hx; subst hx; exact in_sphereLine _ h
    · cases hx
  · cases hx
theorem in_spherePolygon {r : α} {c m v : Vec3 α} {ps : List (Vec3 α)} {o : Option (Collision α)}
    (h : collideSpherePolygon r c m ps v = .ok o) : ∀ x, o = some x → InStep x := by
  intro x hx
  subst hx
  unfold collideSpherePolygon at h
  split at h
  · simp only at h
    split at h
    · rename_i q
      split at h
      · simp only [Except.ok.injEq, Option.some.injEq] at h; subst h; exact inStep_of_unit (by simpa using q)
      · simp at h
    · simp at h
  · cases h

theorem in_vertices {r : α} {c m v : Vec3 α} : ∀ (vs : List (Vec3 α)) (a : Earliest α), AccIn a → AccIn (considerVertices r c m v vs a)
  | [], a, h => h
  | p :: vs, a, h => in_vertices vs _ (h.consider in_sphereSphere)
theorem in_edges {r : α} {c m v : Vec3 α} {vs : List (Vec3 α)} : ∀ (es : List (Nat × Nat)) (a b : Earliest α), AccIn a →
    considerEdges r c m vs v es a = .ok b → AccIn b
  | [], a, b, h, hb => by simp only [considerEdges, Except.ok.injEq] at hb; subst hb; exact h
  | (i, j) :: es, a, b, h, hb => by
    unfold considerEdges at hb
    obtain ⟨x, hx, hb⟩ := Res.bind_eq_ok.mp hb
    obtain ⟨y, hy, hb⟩ := Res.bind_eq_ok.mp hb
    exact in_edges es _ b (h.consider in_sphereSegment) hb
theorem in_faces {r : α} {c m v : Vec3 α} {vs : List (Vec3 α)} : ∀ (fs : List (List Nat)) (a b : Earliest α), AccIn a →
    considerFaces r c m vs v fs a = .ok b → AccIn b
  | [], a, b, h, hb => by simp only [considerFaces, Except.ok.injEq] at hb; subst hb; exact h
  | f :: fs, a, b, h, hb => by
    unfold considerFaces at hb
    obtain ⟨x, hx, hb⟩ := Res.bind_eq_ok.mp hb
    obtain ⟨y, hy, hb⟩ := Res.bind_eq_ok.mp hb
    exact in_faces fs _ b (h.consider (in_spherePolygon hy)) hb
theorem in_sphereMesh {r : α} {c m v : Vec3 α} {vs : List (Vec3 α)} {es : List (Nat × Nat)} {fs : List (List Nat)} {o : Option (Collision α)}
    (h : collideSphereMesh r c m vs es fs v = .ok o) : ∀ x, o = some x → InStep x := by
  intro x hx
  subst hx
  unfold collideSphereMesh at h
  simp only at h
  obtain ⟨a, ha, h⟩ := Res.bind_eq_ok.mp h
  obtain ⟨b, hb, h⟩ := Res.bind_eq_ok.mp h
  simp only [Except.ok.injEq] at h
  exact in_faces _ _ _ (in_edges _ _ _ (in_vertices _ _ AccIn.new) ha) hb x h

theorem in_meshPlane {vs : List (Vec3 α)} {p a b n : Vec3 α} {s e : Orientation α} : ∀ x, collideMeshPlane vs p s e a b n = some x → InStep x := by
  intro x hx
  unfold collideMeshPlane at hx
  simp only at hx
  split at hx
  · rename_i h; simp only [Option.some.injEq] at hx; subst hx; exact inStep_of_unit (by simpa using h)
  · cases hx

/-- A time that passed the checks of `collide_point_with_polygon`. -/
theorem time_checked {t : α} (h : ¬ ((!Scalar.isFinite t || Scalar.lt t zero || Scalar.lt one t) = true)) :
    Scalar.le zero t = true ∧ Scalar.le t one = true := by
  simp only [Bool.or_eq_true, Bool.not_eq_true', not_or, Bool.not_eq_false, Bool.not_eq_true] at h
  have hn := (LawfulOrder.lt_notNaN _ _ (LawfulOrder.lt_inf t h.1.1)).1
  exact ⟨le_iff'.mpr ⟨h.1.2, LawfulOrder.isNaN_lit _ _, hn⟩, le_iff'.mpr ⟨h.2, hn, LawfulOrder.isNaN_lit _ _⟩⟩

theorem in_along {a b n : Vec3 α} : ∀ (es : List (Vec3 α × Vec3 α)) (t : α) (p : Vec3 α),
    (t = two ∨ (Scalar.le zero t = true ∧ Scalar.le t one = true)) →
    ((alongPlaneLoop a b n es t p).1 = two ∨ (Scalar.le zero (alongPlaneLoop a b n es t p).1 = true ∧ Scalar.le (alongPlaneLoop a b n es t p).1 one = true))
  | [], t, p, h => h
  | (u, v) :: es, t, p, h => by
    unfold alongPlaneLoop
    simp only
    split
    · exact in_along es t p h
    · rename_i q
      split
      · exact in_along es t p h
      · split
        · exact in_along es _ _ (Or.inr (time_checked q))
        · exact in_along es t p h

theorem in_pointPolygon {a b : Vec3 α} {ps : List (Vec3 α)} {o : Option (Collision α)} (h : collidePointPolygon a b ps = .ok o) :
    ∀ x, o = some x → InStep x := by
  intro x hx
  subst hx
  unfold collidePointPolygon at h
  simp only at h
  obtain ⟨n, hn, h⟩ := Res.bind_eq_ok.mp h
  obtain ⟨p, hp, h⟩ := Res.bind_eq_ok.mp h
  split at h
  · split at h
    · rename_i q
      simp only [Except.ok.injEq, Option.some.injEq] at h
      subst h
      rcases in_along (a := a) (b := b) (n := n) (cyclicPairs ps) two Vec3.zeros (Or.inl rfl) with e | e
      · rw [e] at q
        rw [le_iff', LawfulOrder.one_lt_two] at q
        simp at q
      · exact inStep_single e.1 e.2
    · simp at h
  · split at h
    · simp at h
    · rename_i q
      split at h
      · simp only [Except.ok.injEq, Option.some.injEq] at h
        subst h
        exact inStep_single (time_checked q).1 (time_checked q).2
      · simp at h

theorem in_pointFaces {p : Vec3 α × Vec3 α} {qs : List (Vec3 α × Vec3 α)} : ∀ (fs : List (List Nat)) (a b : Earliest α), AccIn a →
    pointAgainstFaces p qs fs a = .ok b → AccIn b
  | [], a, b, h, hb => by simp only [pointAgainstFaces, Except.ok.injEq] at hb; subst hb; exact h
  | f :: fs, a, b, h, hb => by
    unfold pointAgainstFaces at hb
    obtain ⟨x, hx, hb⟩ := Res.bind_eq_ok.mp hb
    obtain ⟨y, hy, hb⟩ := Res.bind_eq_ok.mp hb
    exact in_pointFaces fs _ b (h.consider (in_pointPolygon hy)) hb
theorem in_pointsFaces {qs : List (Vec3 α × Vec3 α)} {fs : List (List Nat)} : ∀ (ps : List (Vec3 α × Vec3 α)) (a b : Earliest α), AccIn a →
    pointsAgainstFaces qs fs ps a = .ok b → AccIn b
  | [], a, b, h, hb => by simp only [pointsAgainstFaces, Except.ok.injEq] at hb; subst hb; exact h
  | p :: ps, a, b, h, hb => by
    unfold pointsAgainstFaces at hb
    obtain ⟨x, hx, hb⟩ := Res.bind_eq_ok.mp hb
    exact in_pointsFaces ps _ b (in_pointFaces _ _ _ h hx) hb
theorem in_meshPointsFaces {a b : Earliest α} {ps qs : List (Vec3 α × Vec3 α)} {m : MeshCollider α} {k : α} (h : AccIn a)
    (hb : collideMeshPointsFaces a ps m qs k = .ok b) : AccIn b := by
  unfold collideMeshPointsFaces at hb
  obtain ⟨x, hx, hb⟩ := Res.bind_eq_ok.mp hb
  have hx := in_pointsFaces _ _ _ AccIn.new hx
  cases hc : x.earliest with
  | none => rw [hc] at hb; simp only [Except.ok.injEq] at hb; subst hb; exact h
  | some c =>
    rw [hc] at hb
    simp only [Except.ok.injEq] at hb
    subst hb
    refine h.consider ?_
    intro d hd
    simp only [Option.some.injEq] at hd
    subst hd
    exact (hx c hc).of_times rfl
theorem in_meshMesh {m1 m2 : MeshCollider α} {o1 o2 o3 o4 : Orientation α} {o : Option (Collision α)}
    (h : collideMeshMesh m1 o1 o2 m2 o3 o4 = .ok o) : ∀ x, o = some x → InStep x := by
  intro x hx
  subst hx
  unfold collideMeshMesh at h
  simp only at h
  obtain ⟨a, ha, h⟩ := Res.bind_eq_ok.mp h
  obtain ⟨b, hb, h⟩ := Res.bind_eq_ok.mp h
  simp only [Except.ok.injEq] at h
  exact in_meshPointsFaces (in_meshPointsFaces AccIn.new ha) hb x h

theorem in_boxSurface {r : α} {c m a b : Vec3 α} : ∀ x, boxSurfaceCollision r c m a b = some x → InStep x := by
  intro x hx
  unfold boxSurfaceCollision boxSurfaceTimes at hx
  simp only at hx
  split at hx
  · rename_i h; simp only [Option.some.injEq] at hx; subst hx; exact inStep_of_unit (by simpa using h)
  · cases hx
theorem in_sphereBox {s : SphereCollider α} {b : BoxCollider α} {o1 o2 o3 o4 : Orientation α} {o : Option (Collision α)}
    (h : dispatchSphereBox s o1 o2 b o3 o4 = .ok o) : ∀ x, o = some x → InStep x := by
  intro x hx
  subst hx
  unfold dispatchSphereBox at h
  simp only at h
  obtain ⟨a, ha, h⟩ := Res.bind_eq_ok.mp h
  simp only [Except.ok.injEq, Option.map_eq_some_iff] at h
  obtain ⟨y, hy, h⟩ := h
  subst hy
  subst h
  refine InStep.of_times (c := y) ?_ rfl
  unfold collideSphereBox at ha
  simp only at ha
  obtain ⟨e, he, ha⟩ := Res.bind_eq_ok.mp ha
  simp only [Except.ok.injEq] at ha
  exact in_vertices _ _ (in_edges _ _ _ (AccIn.new.consider in_boxSurface) he) y ha

/-- **C52.** Every collision reported by `collide`, for any two colliders and any start and end poses (whatever numbers are in them),
has a non-empty range of times within the step. -/
theorem C52_times {c1 c2 : Collider α} {o1 o2 o3 o4 : Orientation α} {c : Collision α} (h : collide c1 o1 o2 c2 o3 o4 = .ok (some c)) :
    InStep c := by
  have flip : ∀ {o : Option (Collision α)}, (∀ x, o = some x → InStep x) → ∀ x, o.map Collision.flip = some x → InStep x := by
    intro o ho x hx
    simp only [Option.map_eq_some_iff] at hx
    obtain ⟨y, hy, rfl⟩ := hx
    exact (ho y hy).of_times rfl
  unfold collide at h
  split at h
  · simp only [Except.ok.injEq] at h; exact in_sphereSphere _ h
  · simp only [Except.ok.injEq] at h; exact in_spherePlane _ h
  · simp only [Except.ok.injEq] at h; exact flip in_spherePlane _ h
  · exact in_sphereMesh h _ rfl
  · obtain ⟨r, hr, h⟩ := Res.bind_eq_ok.mp h
    simp only [Except.ok.injEq] at h
    exact flip (in_sphereMesh hr) _ h
  · simp only [Except.ok.injEq] at h; exact in_meshPlane _ h
  · simp only [Except.ok.injEq] at h; exact flip in_meshPlane _ h
  · exact in_meshMesh h _ rfl
  · exact in_sphereBox h _ rfl
  · obtain ⟨r, hr, h⟩ := Res.bind_eq_ok.mp h
    simp only [Except.ok.injEq] at h
    exact flip (in_sphereBox hr) _ h
  · simp at h

end Fluffy.Props
