import Verif.Props.Features
/-
C47 for two meshes: the answer is the earliest of the hits of the corner points of either mesh on the faces of the other.
-/
set_option linter.unusedSectionVars false
set_option linter.unusedSimpArgs false
namespace Fluffy.Props
open Fluffy
variable {α : Type} [Scalar α] [LawfulOrder α]

/-- The polygon of a face half way through the step. -/
def MidPolygon (points : List (Vec3 α × Vec3 α)) (f : List Nat) (polygon : List (Vec3 α)) : Prop :=
  List.Forall₂ (fun i x => ∃ q, points[i]? = some q ∧ x = (q.1 + q.2).unscale two) f polygon

/-- The hits of one mesh's corner points on the other mesh's faces. -/
inductive PointHit (points others : List (Vec3 α × Vec3 α)) (faces : List (List Nat)) (c : Collision α) : Prop
  | mk (p : Vec3 α × Vec3 α) (hp : p ∈ points) (f : List Nat) (hf : f ∈ faces) (polygon : List (Vec3 α)) (hm : MidPolygon others f polygon)
      (h : collidePointPolygon p.1 p.2 polygon = .ok (some c))

theorem midFace_ok {qs : List (Vec3 α × Vec3 α)} : ∀ {f : List Nat} {ps : List (Vec3 α)}, midFace qs f = .ok ps → MidPolygon qs f ps
  | [], ps, h => by
    simp only [midFace] at h; cases h; exact .nil
  | i :: is, ps, h => by
    simp only [midFace] at h
    obtain ⟨a, ha, h⟩ := Res.bind_eq_ok.mp h
    obtain ⟨q, hq, h⟩ := Res.bind_eq_ok.mp h
    cases h
    exact .cons ⟨a, index_ok.mp ha, rfl⟩ (midFace_ok hq)

theorem midPolygon_unique {qs : List (Vec3 α × Vec3 α)} : ∀ {f : List Nat} {ps ps' : List (Vec3 α)}, MidPolygon qs f ps → MidPolygon qs f ps' → ps = ps'
  | [], _, _, .nil, .nil => rfl
  | _ :: f, _, _, .cons ⟨q, h1, h1'⟩ h2, .cons ⟨q', h3, h3'⟩ h4 => by
    rw [h1] at h3; cases h3
    rw [h1', h3', midPolygon_unique h2 h4]

theorem tracks_pointFaces {p : Vec3 α × Vec3 α} {qs : List (Vec3 α × Vec3 α)} : ∀ (fs : List (List Nat)) {acc acc' : Earliest α} {S : Collision α → Prop},
    Tracks acc S → pointAgainstFaces p qs fs acc = .ok acc' → Tracks acc' (fun x => S x ∨ PointHit [p] qs fs x)
  | [], acc, acc', S, h, hh => by
    simp only [pointAgainstFaces] at hh
    cases hh
    refine h.congr (fun x => ⟨.inl, ?_⟩)
    rintro (h | ⟨_, _, f, hf, _⟩)
    · exact h
    · simp at hf
  | f :: fs, acc, acc', S, h, hh => by
    simp only [pointAgainstFaces] at hh
    obtain ⟨ps, hp, hh⟩ := Res.bind_eq_ok.mp hh
    obtain ⟨o, ho, hh⟩ := Res.bind_eq_ok.mp hh
    have hp := midFace_ok hp
    refine (tracks_pointFaces fs (h.consider _ (in_pointPolygon ho)) hh).congr (fun x => ?_)
    constructor
    · rintro ((h1 | h1) | ⟨p', hp', f', hf', ps', h1, h2⟩)
      · exact .inl h1
      · exact .inr ⟨p, by simp, f, by simp, ps, hp, by rw [ho, h1]⟩
      · exact .inr ⟨p', hp', f', by simp [hf'], ps', h1, h2⟩
    · rintro (h1 | ⟨p', hp', f', hf', ps', h1, h2⟩)
      · exact .inl (.inl h1)
      · rcases List.mem_cons.mp hf' with hf' | hf'
        · subst hf'
          simp only [List.mem_singleton] at hp'
          subst hp'
          rw [midPolygon_unique h1 hp, ho] at h2
          cases h2
          exact .inl (.inr rfl)
        · exact .inr ⟨p', hp', f', hf', ps', h1, h2⟩

theorem tracks_pointsFaces {qs : List (Vec3 α × Vec3 α)} {fs : List (List Nat)} : ∀ (ps : List (Vec3 α × Vec3 α)) {acc acc' : Earliest α} {S : Collision α → Prop},
    Tracks acc S → pointsAgainstFaces qs fs ps acc = .ok acc' → Tracks acc' (fun x => S x ∨ PointHit ps qs fs x)
  | [], acc, acc', S, h, hh => by
    simp only [pointsAgainstFaces] at hh
    cases hh
    refine h.congr (fun x => ⟨.inl, ?_⟩)
    rintro (h | ⟨_, hp, _⟩)
    · exact h
    · simp at hp
  | p :: ps, acc, acc', S, h, hh => by
    simp only [pointsAgainstFaces] at hh
    obtain ⟨a, ha, hh⟩ := Res.bind_eq_ok.mp hh
    refine (tracks_pointsFaces ps (tracks_pointFaces fs h ha) hh).congr (fun x => ?_)
    constructor
    · rintro ((h1 | ⟨p', hp', h1⟩) | ⟨p', hp', h1⟩)
      · exact .inl h1
      · simp only [List.mem_singleton] at hp'
        exact .inr ⟨p', by simp [hp'], by assumption, by assumption, by assumption, by assumption, by assumption⟩
      · exact .inr ⟨p', by simp [hp'], by assumption, by assumption, by assumption, by assumption, by assumption⟩
    · rintro (h1 | ⟨p', hp', f', hf', ps', h1, h2⟩)
      · exact .inl (.inl h1)
      · rcases List.mem_cons.mp hp' with hp' | hp'
        · exact .inl (.inr ⟨p', by simp [hp'], f', hf', ps', h1, h2⟩)
        · exact .inr ⟨p', hp', f', hf', ps', h1, h2⟩

/-- Where a corner point is at time `t`, by linear interpolation. -/
def pointAt (t : α) (p : Vec3 α × Vec3 α) : Vec3 α := p.1.scale (one - t) + p.2.scale t

/-- The collision `c` is the hit `d` with the normal turned towards most of the points and multiplied by `k`. -/
def Turned (points : List (Vec3 α × Vec3 α)) (k : α) (d c : Collision α) : Prop :=
  c.times = d.times ∧ c.position = d.position ∧
  let behind := points.countP (fun p => Scalar.lt ((pointAt d.times.min p - d.position).dot d.normal) zero)
  (2 * behind ≤ points.length → c.normal = d.normal.scale k) ∧
  (points.length < 2 * behind → c.normal = (d.normal.scale (lit (-1) 1)).scale k)

theorem tracks_meshPoints {out out' : Earliest α} {ps qs : List (Vec3 α × Vec3 α)} {m : MeshCollider α} {k : α} {S : Collision α → Prop}
    (ht : Tracks out S) (h : collideMeshPointsFaces out ps m qs k = .ok out') :
    ∃ T : Collision α → Prop, Tracks out' (fun x => S x ∨ T x) ∧ ((∃ x, T x) ↔ ∃ d, PointHit ps qs m.faces d) ∧
      (∀ x, T x → (∃ d, PointHit ps qs m.faces d ∧ Turned ps k d x) ∧ ∀ e, PointHit ps qs m.faces e → Scalar.le x.times.min e.times.min = true) := by
  unfold collideMeshPointsFaces at h
  obtain ⟨a, ha, h⟩ := Res.bind_eq_ok.mp h
  have hin := in_pointsFaces _ _ _ AccIn.new ha
  have hr := ((tracks_pointsFaces ps Tracks.new ha).congr (T := fun x => PointHit ps qs m.faces x) (fun x => by simp)).reports
  cases hc : a.earliest with
  | none =>
    rw [hc] at h hr
    simp only [Except.ok.injEq] at h
    subst h
    refine ⟨fun _ => False, ht.congr (fun x => by simp), ⟨fun ⟨_, h⟩ => h.elim, fun ⟨d, hd⟩ => absurd hd (hr.2.mp rfl d)⟩, fun x h => h.elim⟩
  | some d =>
    rw [hc] at h hr
    simp only [Except.ok.injEq] at h
    have hd := hr.1 d rfl
    have hturn : ∀ n : Vec3 α, n = (if (ps.filter (behindContact d)).length > (ps.filter (fun p => !behindContact d p)).length then d.normal.scale (lit (-1) 1) else d.normal) →
        Turned ps k d { d with normal := n.scale k } := by
      intro n hn
      refine ⟨rfl, rfl, ?_⟩
      have e1 : (ps.filter (behindContact d)).length = ps.countP (behindContact d) := (List.countP_eq_length_filter ..).symm
      have e2 : (ps.filter (fun p => !behindContact d p)).length = ps.length - ps.countP (behindContact d) := by
        have h1 := List.length_eq_countP_add_countP (behindContact d) (l := ps)
        have h2 : (ps.filter (fun p => !behindContact d p)).length = ps.countP (fun p => !behindContact d p) := (List.countP_eq_length_filter ..).symm
        have h3 : ps.countP (fun p => !behindContact d p) = ps.countP (fun a => decide ¬behindContact d a = true) := by
          congr 1; funext p; cases behindContact d p <;> rfl
        omega
      have hle : ps.countP (behindContact d) ≤ ps.length := List.countP_le_length
      rw [e1, e2] at hn
      constructor
      · intro h
        change 2 * ps.countP (behindContact d) ≤ _ at h
        rw [if_neg (by omega)] at hn
        rw [hn]
      · intro h
        change _ < 2 * ps.countP (behindContact d) at h
        rw [if_pos (by omega)] at hn
        rw [hn]
    subst h
    refine ⟨fun x => x = { d with normal := (if (ps.filter (behindContact d)).length > (ps.filter (fun p => !behindContact d p)).length then d.normal.scale (lit (-1) 1) else d.normal).scale k }, ?_, ?_, ?_⟩
    · refine (ht.consider _ (fun c h => ?_)).congr (fun x => ?_)
      · simp only [Option.some.injEq] at h
        subst h
        exact (hin d hc).of_times rfl
      · constructor
        · rintro (h | h)
          · exact .inl h
          · simp only [Option.some.injEq] at h; exact .inr h.symm
        · rintro (h | h)
          · exact .inl h
          · exact .inr (by rw [h])
    · exact ⟨fun _ => ⟨d, hd.1⟩, fun _ => ⟨_, rfl⟩⟩
    · rintro x rfl
      exact ⟨⟨d, hd.1, hturn _ rfl⟩, fun e he => hd.2 e he⟩

/-- **C47** for two meshes: the answer is one of the hits of the corner points of one mesh on the faces (half way through the step) of the other, with
the normal turned towards most of the points of the mesh the point belongs to and then off the first mesh, and no hit is earlier; nothing is reported
exactly if there is no hit. -/
theorem C47_meshMesh {m1 m2 : MeshCollider α} {o1 e1 o2 e2 : Orientation α} {o : Option (Collision α)} (h : collideMeshMesh m1 o1 e1 m2 o2 e2 = .ok o) :
    let ps := m1.vertices.map (fun p => (o1.positionIntoWorld (m1.position + p), e1.positionIntoWorld (m1.position + p)))
    let qs := m2.vertices.map (fun p => (o2.positionIntoWorld (m2.position + p), e2.positionIntoWorld (m2.position + p)))
    (∀ c, o = some c →
      ((∃ d, PointHit ps qs m2.faces d ∧ Turned ps (lit (-1) 1) d c) ∨ ∃ d, PointHit qs ps m1.faces d ∧ Turned qs one d c) ∧
      ∀ d, PointHit ps qs m2.faces d ∨ PointHit qs ps m1.faces d → Scalar.le c.times.min d.times.min = true) ∧
    (o = none ↔ ∀ d, ¬ (PointHit ps qs m2.faces d ∨ PointHit qs ps m1.faces d)) := by
  intro ps qs
  unfold collideMeshMesh at h
  simp only at h
  obtain ⟨a, ha, h⟩ := Res.bind_eq_ok.mp h
  obtain ⟨b, hb, h⟩ := Res.bind_eq_ok.mp h
  change collideMeshPointsFaces Earliest.new ps m2 qs (lit (-1) 1) = .ok a at ha
  change collideMeshPointsFaces a qs m1 ps one = .ok b at hb
  simp only [Except.ok.injEq] at h
  subst h
  obtain ⟨T1, ht, hT1, hT1'⟩ := tracks_meshPoints Tracks.new ha
  obtain ⟨T2, ht, hT2, hT2'⟩ := tracks_meshPoints ht hb
  have hr := (ht.congr (T := fun x => T1 x ∨ T2 x) (fun x => by simp)).reports
  constructor
  · intro c hc
    obtain ⟨hS, hmin⟩ := hr.1 c hc
    refine ⟨?_, ?_⟩
    · rcases hS with h | h
      · exact .inl (hT1' c h).1
      · exact .inr (hT2' c h).1
    · rintro d (hd | hd)
      · obtain ⟨x, hx⟩ := hT1.mpr ⟨d, hd⟩
        exact le_trans' (hmin x (.inl hx)) ((hT1' x hx).2 d hd)
      · obtain ⟨x, hx⟩ := hT2.mpr ⟨d, hd⟩
        exact le_trans' (hmin x (.inr hx)) ((hT2' x hx).2 d hd)
  · rw [hr.2]
    constructor
    · rintro h d (hd | hd)
      · obtain ⟨x, hx⟩ := hT1.mpr ⟨d, hd⟩
        exact h x (.inl hx)
      · obtain ⟨x, hx⟩ := hT2.mpr ⟨d, hd⟩
        exact h x (.inr hx)
    · rintro h x (hx | hx)
      · obtain ⟨d, hd⟩ := hT1.mp ⟨x, hx⟩
        exact h d (.inl hd)
      · obtain ⟨d, hd⟩ := hT2.mp ⟨x, hx⟩
        exact h d (.inr hd)

end Fluffy.Props
