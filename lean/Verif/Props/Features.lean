import Verif.Props.Times
/-
C47: of the features of a mesh (and of a box) that a sphere hits, the earliest is reported.
-/
set_option linter.unusedSectionVars false
set_option linter.unusedSimpArgs false
namespace Fluffy.Props
open Fluffy
variable {α : Type} [Scalar α] [LawfulOrder α]

/-! ### Specification -/

/-- One of the collisions of the set is reported, and none of the set is earlier; nothing is reported exactly if the set is
empty. -/
def ReportsEarliest (S : Collision α → Prop) (o : Option (Collision α)) : Prop :=
  (∀ c, o = some c → S c ∧ ∀ h, S h → Scalar.le c.times.min h.times.min = true) ∧ (o = none ↔ ∀ h, ¬ S h)

/-- The hits of a sphere on the corner points, the edges and the faces of a mesh. -/
inductive FeatureHit (radius : α) (center movement : Vec3 α) (vertices : List (Vec3 α)) (edges : List (Nat × Nat))
    (faces : List (List Nat)) (movement2 : Vec3 α) (c : Collision α) : Prop
  | vertex (v : Vec3 α) (hv : v ∈ vertices) (h : collideSphereSphere radius center movement zero v movement2 = some c)
  | edge (i j : Nat) (a b : Vec3 α) (he : (i, j) ∈ edges) (ha : vertices[i]? = some a) (hb : vertices[j]? = some b)
      (h : collideSphereMidSegment radius center movement a b movement2 = some c)
  | face (f : List Nat) (ps : List (Vec3 α)) (hf : f ∈ faces) (hp : List.Forall₂ (fun i p => vertices[i]? = some p) f ps)
      (h : collideSpherePolygon radius center movement ps movement2 = .ok (some c))

/-! ### The accumulator -/

/-- The accumulator has seen exactly the collisions of the set. -/
structure Tracks (acc : Earliest α) (S : Collision α → Prop) : Prop where
  none : acc.earliest = none → acc.earliestTime = Scalar.inf ∧ ∀ h, ¬ S h
  some : ∀ c, acc.earliest = some c → acc.earliestTime = c.times.min ∧ S c ∧ ∀ h, S h → Scalar.le c.times.min h.times.min = true

theorem Tracks.new : Tracks (Earliest.new : Earliest α) (fun _ => False) :=
  ⟨fun _ => ⟨rfl, fun _ h => h⟩, fun _ h => by simp [Earliest.new] at h⟩

theorem Tracks.congr {acc : Earliest α} {S T : Collision α → Prop} (h : Tracks acc S) (he : ∀ c, S c ↔ T c) : Tracks acc T := by
  have : S = T := funext fun c => propext (he c)
  rwa [← this]

theorem one_lt_inf : Scalar.lt (one : α) Scalar.inf = true := by
  rcases LawfulOrder.lt_of_not _ Scalar.inf _ (LawfulOrder.one_lt_two (α := α)) LawfulOrder.inf_notNaN with h | h
  · exact h
  · rw [LawfulOrder.inf_max] at h; cases h

theorem InStep.lt_inf {c : Collision α} (h : InStep c) : Scalar.lt c.times.min Scalar.inf = true := by
  have h1 := le_iff'.mp (le_trans' h.2.2.1 h.2.2.2)
  rcases LawfulOrder.lt_of_not _ c.times.min _ (one_lt_inf (α := α)) h1.2.1 with h2 | h2
  · rw [h1.1] at h2; cases h2
  · exact h2

theorem Tracks.consider {acc : Earliest α} {S : Collision α → Prop} (ht : Tracks acc S) (o : Option (Collision α))
    (ho : ∀ c, o = .some c → InStep c) : Tracks (acc.consider o) (fun c => S c ∨ o = .some c) := by
  cases o with
  | none => exact ht.congr (fun c => by simp)
  | some c =>
    have hc := ho c rfl
    have hn := (le_iff'.mp hc.2.1).2.2
    unfold Earliest.consider
    simp only
    cases he : acc.earliest with
    | none =>
      obtain ⟨h1, h2⟩ := ht.none he
      rw [h1, if_pos hc.lt_inf]
      refine ⟨fun h => by simp at h, fun d hd => ?_⟩
      simp only [Option.some.injEq] at hd
      subst hd
      refine ⟨rfl, .inr rfl, ?_⟩
      rintro h (h' | h')
      · exact absurd h' (h2 h)
      · simp only [Option.some.injEq] at h'
        subst h'; exact le_refl' hn
    | some d =>
      obtain ⟨h1, h2, h3⟩ := ht.some d he
      rw [h1]
      split
      · rename_i hlt
        refine ⟨fun h => by simp at h, fun x hx => ?_⟩
        simp only [Option.some.injEq] at hx
        subst hx
        refine ⟨rfl, .inr rfl, ?_⟩
        rintro h (h' | h')
        · exact le_trans' (le_of_lt' hlt) (h3 h h')
        · simp only [Option.some.injEq] at h'
          subst h'; exact le_refl' hn
      · rename_i hlt
        refine ⟨fun h => (by rw [he] at h; cases h), fun x hx => ?_⟩
        rw [he] at hx
        cases hx
        refine ⟨h1, .inl h2, ?_⟩
        rintro h (h' | h')
        · exact h3 h h'
        · simp only [Option.some.injEq] at h'
          subst h'
          exact le_iff'.mpr ⟨by simpa using hlt, (le_iff'.mp (h3 d h2)).2.1, hn⟩

theorem Tracks.reports {acc : Earliest α} {S : Collision α → Prop} (h : Tracks acc S) : ReportsEarliest S acc.earliest := by
  refine ⟨fun c hc => (h.some c hc).2, fun hn => (h.none hn).2, fun hs => ?_⟩
  cases he : acc.earliest with
  | none => rfl
  | some c => exact absurd (h.some c he).2.1 (hs c)

/-! ### The loops -/

theorem index_ok {τ : Type} {l : List τ} {i : Nat} {a : τ} : index l i = .ok a ↔ l[i]? = some a := by
  unfold index
  split <;> simp_all

theorem tracks_vertices {r : α} {c m v : Vec3 α} : ∀ (vs : List (Vec3 α)) {acc : Earliest α} {S : Collision α → Prop}, Tracks acc S →
    Tracks (considerVertices r c m v vs acc) (fun x => S x ∨ ∃ p ∈ vs, collideSphereSphere r c m zero p v = some x)
  | [], acc, S, h => h.congr (fun x => by simp)
  | p :: vs, acc, S, h => by
    have := tracks_vertices (r := r) (c := c) (m := m) (v := v) vs (h.consider (collideSphereSphere r c m zero p v) in_sphereSphere)
    exact this.congr (fun x => by simp [or_assoc])

theorem tracks_edges {r : α} {c m v : Vec3 α} {vs : List (Vec3 α)} : ∀ (es : List (Nat × Nat)) {acc acc' : Earliest α} {S : Collision α → Prop},
    Tracks acc S → considerEdges r c m vs v es acc = .ok acc' →
    Tracks acc' (fun x => S x ∨ ∃ i j a b, (i, j) ∈ es ∧ vs[i]? = some a ∧ vs[j]? = some b ∧ collideSphereMidSegment r c m a b v = some x)
  | [], acc, acc', S, h, hh => by
    simp only [considerEdges] at hh
    cases hh
    exact h.congr (fun x => by simp)
  | (i, j) :: es, acc, acc', S, h, hh => by
    simp only [considerEdges] at hh
    obtain ⟨a, ha, hh⟩ := Res.bind_eq_ok.mp hh
    obtain ⟨b, hb, hh⟩ := Res.bind_eq_ok.mp hh
    rw [index_ok] at ha hb
    refine (tracks_edges es (h.consider _ in_sphereSegment) hh).congr (fun x => ?_)
    constructor
    · rintro ((h1 | h1) | ⟨i', j', a', b', h1, h2⟩)
      · exact .inl h1
      · exact .inr ⟨i, j, a, b, by simp, ha, hb, h1⟩
      · exact .inr ⟨i', j', a', b', by simp [h1], h2⟩
    · rintro (h1 | ⟨i', j', a', b', h1, h2, h3, h4⟩)
      · exact .inl (.inl h1)
      · rcases List.mem_cons.mp h1 with h1 | h1
        · cases h1
          rw [ha] at h2; rw [hb] at h3
          cases h2; cases h3
          exact .inl (.inr h4)
        · exact .inr ⟨i', j', a', b', h1, h2, h3, h4⟩

theorem faceCorners_ok {vs : List (Vec3 α)} : ∀ {f : List Nat} {ps : List (Vec3 α)}, faceCorners vs f = .ok ps →
    List.Forall₂ (fun i p => vs[i]? = some p) f ps
  | [], ps, h => by simp only [faceCorners] at h; cases h; exact .nil
  | i :: f, ps, h => by
    simp only [faceCorners] at h
    obtain ⟨a, ha, h⟩ := Res.bind_eq_ok.mp h
    obtain ⟨qs, hq, h⟩ := Res.bind_eq_ok.mp h
    cases h
    exact .cons (index_ok.mp ha) (faceCorners_ok hq)

theorem forall2_unique {vs : List (Vec3 α)} : ∀ {f : List Nat} {ps qs : List (Vec3 α)}, List.Forall₂ (fun i p => vs[i]? = some p) f ps →
    List.Forall₂ (fun i p => vs[i]? = some p) f qs → ps = qs
  | [], _, _, .nil, .nil => rfl
  | _ :: f, _, _, .cons h1 h2, .cons h3 h4 => by
    rw [h1] at h3; cases h3
    rw [forall2_unique h2 h4]

theorem tracks_faces {r : α} {c m v : Vec3 α} {vs : List (Vec3 α)} : ∀ (fs : List (List Nat)) {acc acc' : Earliest α} {S : Collision α → Prop},
    Tracks acc S → considerFaces r c m vs v fs acc = .ok acc' →
    Tracks acc' (fun x => S x ∨ ∃ f ps, f ∈ fs ∧ List.Forall₂ (fun i p => vs[i]? = some p) f ps ∧ collideSpherePolygon r c m ps v = .ok (some x))
  | [], acc, acc', S, h, hh => by
    simp only [considerFaces] at hh
    cases hh
    exact h.congr (fun x => by simp)
  | f :: fs, acc, acc', S, h, hh => by
    simp only [considerFaces] at hh
    obtain ⟨ps, hp, hh⟩ := Res.bind_eq_ok.mp hh
    obtain ⟨o, ho, hh⟩ := Res.bind_eq_ok.mp hh
    have hp := faceCorners_ok hp
    refine (tracks_faces fs (h.consider _ (in_spherePolygon ho)) hh).congr (fun x => ?_)
    constructor
    · rintro ((h1 | h1) | ⟨f', ps', h1, h2⟩)
      · exact .inl h1
      · exact .inr ⟨f, ps, by simp, hp, by rw [ho, h1]⟩
      · exact .inr ⟨f', ps', by simp [h1], h2⟩
    · rintro (h1 | ⟨f', ps', h1, h2, h3⟩)
      · exact .inl (.inl h1)
      · rcases List.mem_cons.mp h1 with h1 | h1
        · subst h1
          rw [forall2_unique h2 hp, ho] at h3
          cases h3
          exact .inl (.inr rfl)
        · exact .inr ⟨f', ps', h1, h2, h3⟩

/-- **C47.** The answer for a sphere and a mesh is the earliest of the hits on the corner points, edges and faces. -/
theorem C47_sphereMesh {r : α} {c m v : Vec3 α} {vs : List (Vec3 α)} {es : List (Nat × Nat)} {fs : List (List Nat)}
    {o : Option (Collision α)} (h : collideSphereMesh r c m vs es fs v = .ok o) : ReportsEarliest (FeatureHit r c m vs es fs v) o := by
  unfold collideSphereMesh at h
  obtain ⟨a1, h1, h⟩ := Res.bind_eq_ok.mp h
  obtain ⟨a2, h2, h⟩ := Res.bind_eq_ok.mp h
  cases h
  refine ((tracks_faces _ (tracks_edges _ (tracks_vertices _ Tracks.new) h1) h2).congr (fun x => ?_)).reports
  constructor
  · rintro (((h | ⟨p, h, h'⟩) | ⟨i, j, a, b, h3, h4, h5, h6⟩) | ⟨f, ps, h3, h4, h5⟩)
    · exact h.elim
    · exact .vertex p h h'
    · exact .edge i j a b h3 h4 h5 h6
    · exact .face f ps h3 h4 h5
  · rintro (⟨p, h, h'⟩ | ⟨i, j, a, b, h3, h4, h5, h6⟩ | ⟨f, ps, h3, h4, h5⟩)
    · exact .inl (.inl (.inr ⟨p, h, h'⟩))
    · exact .inl (.inr ⟨i, j, a, b, h3, h4, h5, h6⟩)
    · exact .inr ⟨f, ps, h3, h4, h5⟩

/-- What is considered for a sphere and a box: the hit on the surfaces, and the hits on its edges and corners. -/
inductive BoxHit (radius : α) (center movement minCorner maxCorner : Vec3 α) (c : Collision α) : Prop
  | surface (h : boxSurfaceCollision radius center movement minCorner maxCorner = some c)
  | edge (i j : Nat) (a b : Vec3 α) (he : (i, j) ∈ boxEdges) (ha : (boxCorners minCorner maxCorner)[i]? = some a)
      (hb : (boxCorners minCorner maxCorner)[j]? = some b)
      (h : collideSphereMidSegment radius center movement a b Vec3.zeros = some c)
  | corner (v : Vec3 α) (hv : v ∈ boxCorners minCorner maxCorner)
      (h : collideSphereSphere radius center movement zero v Vec3.zeros = some c)

/-- The same for a sphere and a box. -/
theorem sphereBox_earliest {r : α} {c m a b : Vec3 α} {o : Option (Collision α)} (h : collideSphereBox r c m a b = .ok o) :
    ReportsEarliest (BoxHit r c m a b) o := by
  unfold collideSphereBox at h
  obtain ⟨a1, h1, h⟩ := Res.bind_eq_ok.mp h
  cases h
  refine ((tracks_vertices _ (tracks_edges _ (Tracks.new.consider _ in_boxSurface) h1)).congr (fun x => ?_)).reports
  constructor
  · rintro (((h | h) | ⟨i, j, a, b, h3, h4, h5, h6⟩) | ⟨p, h, h'⟩)
    · exact h.elim
    · exact .surface h
    · exact .edge i j a b h3 h4 h5 h6
    · exact .corner p h h'
  · rintro (h | ⟨i, j, a, b, h3, h4, h5, h6⟩ | ⟨p, h, h'⟩)
    · exact .inl (.inl (.inr h))
    · exact .inl (.inr ⟨i, j, a, b, h3, h4, h5, h6⟩)
    · exact .inr ⟨p, h, h'⟩

end Fluffy.Props
