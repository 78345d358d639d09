import Verif.Props.Panic
import Verif.Props.Pairs
import Mathlib.Data.List.Rotate
/-
C50: building a mesh with `add_face`.
-/
set_option linter.unusedSectionVars false
set_option linter.unusedSimpArgs false
namespace Fluffy.Props
open Fluffy System Step
variable {α : Type} [Scalar α]

/-- The meshes a program can make: starting from `MeshCollider::new()`, add faces, assign the public fields, and read a stored mesh back (which sets the
entity). The list has the points of the accepted `add_face` calls in order. -/
inductive Made : List (List (Vec3 α)) → MeshCollider α → Prop
  | new : Made [] MeshCollider.new
  | assign {calls : List (List (Vec3 α))} {m : MeshCollider α} (position : Vec3 α) (material : Material α) (h : Made calls m) :
      Made calls { m with position := position, material := material }
  | readBack {calls : List (List (Vec3 α))} {m : MeshCollider α} (entity : Option Handle) (h : Made calls m) : Made calls { m with entity := entity }
  | face {calls : List (List (Vec3 α))} {m m' : MeshCollider α} (points : List (Vec3 α)) (h : Made calls m) (hf : m.addFace points = .ok m') :
      Made (calls ++ [points]) m'

/-- The two corners follow one another around the face. -/
def Follows {τ : Type} (f : List τ) (a b : τ) : Prop := ∃ k < f.length, f[k]? = some a ∧ f[(k + 1) % f.length]? = some b

/-- The stored vertex stands for the point: it is the point itself, or less than `EPSILON` away. -/
def StandsFor (vertices : List (Vec3 α)) (p : Vec3 α) (i : Nat) : Prop :=
  ∃ v, vertices[i]? = some v ∧ (v = p ∨ Scalar.lt (v - p).magnitude EPSILON = true)

/-- What makes a mesh well formed, given the points of the faces added. -/
structure WellFormed (calls : List (List (Vec3 α))) (m : MeshCollider α) : Prop where
  /-- every face has at least three corners -/
  corners : ∀ f ∈ m.faces, 3 ≤ f.length
  /-- the faces are the calls, corner by corner -/
  faces : List.Forall₂ (List.Forall₂ (StandsFor m.vertices)) calls m.faces
  /-- face indices refer to stored vertices -/
  inFaces : ∀ f ∈ m.faces, ∀ i ∈ f, i < m.vertices.length
  /-- edge indices refer to stored vertices -/
  inEdges : ∀ e ∈ m.edges, e.1 < m.vertices.length ∧ e.2 < m.vertices.length
  /-- the edges are the sides of the faces with the lower index first -/
  edges : ∀ a b, (a, b) ∈ m.edges ↔ a ≤ b ∧ ∃ f ∈ m.faces, Follows f a b ∨ Follows f b a
  /-- no edge is stored twice -/
  once : m.edges.Nodup
  /-- stored vertices are not closer than `EPSILON` -/
  apart : m.vertices.Pairwise (fun v w => Scalar.lt (v - w).magnitude EPSILON = false)
  /-- stored vertices are points that were given -/
  given : ∀ v ∈ m.vertices, ∃ points ∈ calls, v ∈ points
  /-- every stored vertex is a corner of a face -/
  used : ∀ i < m.vertices.length, ∃ f ∈ m.faces, i ∈ f

theorem findVertex_none {p : Vec3 α} : ∀ {k : Nat} {vs : List (Vec3 α)}, MeshCollider.findVertex p k vs = none →
    ∀ v ∈ vs, Scalar.lt (v - p).magnitude EPSILON = false
  | _, [], _, _, hv => by simp at hv
  | k, w :: vs, h, v, hv => by
    simp only [MeshCollider.findVertex] at h
    split at h
    · cases h
    · rename_i hn
      rcases List.mem_cons.mp hv with rfl | hv
      · simpa using hn
      · exact findVertex_none h v hv

theorem findVertex_some {p : Vec3 α} : ∀ {k i : Nat} {vs : List (Vec3 α)}, MeshCollider.findVertex p k vs = some i →
    ∃ j v, i = k + j ∧ vs[j]? = some v ∧ Scalar.lt (v - p).magnitude EPSILON = true
  | _, _, [], h => by simp [MeshCollider.findVertex] at h
  | k, i, w :: vs, h => by
    simp only [MeshCollider.findVertex] at h
    split at h
    · rename_i hn
      simp only [Option.some.injEq] at h
      exact ⟨0, w, by omega, rfl, hn⟩
    · obtain ⟨j, v, h1, h2, h3⟩ := findVertex_some h
      exact ⟨j + 1, v, by omega, by simpa using h2, h3⟩

theorem standsFor_append {vs ws : List (Vec3 α)} {p : Vec3 α} {i : Nat} (h : StandsFor vs p i) : StandsFor (vs ++ ws) p i := by
  obtain ⟨v, h1, h2⟩ := h
  exact ⟨v, by rw [List.getElem?_append_left (by exact (List.getElem?_eq_some_iff.mp h1).1)]; exact h1, h2⟩

/-- What `add_points` does. -/
structure Added (vs ps vs' : List (Vec3 α)) (is : List Nat) : Prop where
  grows : ∃ new, vs' = vs ++ new ∧ ∀ v ∈ new, v ∈ ps
  stands : List.Forall₂ (StandsFor vs') ps is
  apart : vs.Pairwise (fun v w => Scalar.lt (v - w).magnitude EPSILON = false) → vs'.Pairwise (fun v w => Scalar.lt (v - w).magnitude EPSILON = false)
  used : ∀ i, vs.length ≤ i → i < vs'.length → i ∈ is

theorem addPoints_added : ∀ (ps vs : List (Vec3 α)), Added vs ps (MeshCollider.addPoints vs ps).1 (MeshCollider.addPoints vs ps).2
  | [], vs => ⟨⟨[], by simp [MeshCollider.addPoints], by simp⟩, .nil, fun h => h, fun i h1 h2 => by simp [MeshCollider.addPoints] at h2; omega⟩
  | p :: ps, vs => by
    cases hf : MeshCollider.findVertex p 0 vs with
    | some i =>
      have h := addPoints_added ps vs
      simp only [MeshCollider.addPoints, hf]
      obtain ⟨j, v, h1, h2, h3⟩ := findVertex_some hf
      obtain ⟨new, hn, hn'⟩ := h.grows
      refine ⟨⟨new, hn, fun v hv => by simp [hn' v hv]⟩, .cons ?_ h.stands, h.apart, fun i h1 h2 => by simp [h.used i h1 h2]⟩
      rw [hn]
      exact standsFor_append ⟨v, by rw [h1, Nat.zero_add]; exact h2, .inr h3⟩
    | none =>
      have h := addPoints_added ps (vs ++ [p])
      simp only [MeshCollider.addPoints, hf]
      obtain ⟨new, hn, hn'⟩ := h.grows
      refine ⟨⟨p :: new, by rw [hn]; simp, ?_⟩, .cons ?_ h.stands, fun hv => h.apart ?_, fun i h1 h2 => ?_⟩
      · intro v hv
        rcases List.mem_cons.mp hv with rfl | hv
        · simp
        · simp [hn' v hv]
      · rw [hn]
        exact standsFor_append ⟨p, by simp, .inl rfl⟩
      · rw [List.pairwise_append]
        exact ⟨hv, by simp, fun v h1 w h2 => by simp only [List.mem_singleton] at h2; subst h2; exact findVertex_none hf v h1⟩
      · rcases Nat.lt_or_eq_of_le h1 with h1 | h1
        · simp [h.used i (by simp; omega) h2]
        · simp [h1]

theorem mem_cyclicPairs {τ : Type} {f : List τ} {a b : τ} : (a, b) ∈ cyclicPairs f ↔ Follows f a b := by
  unfold cyclicPairs Follows
  cases f with
  | nil => simp
  | cons x xs =>
    have e : (x :: xs).drop 1 ++ (x :: xs).take 1 = (x :: xs).rotate 1 := (List.rotate_eq_drop_append_take (by simp)).symm
    rw [e, List.mem_iff_getElem?]
    constructor
    · rintro ⟨k, hk⟩
      rw [List.getElem?_zip_eq_some] at hk
      have hl := (List.getElem?_eq_some_iff.mp hk.1).1
      refine ⟨k, hl, hk.1, ?_⟩
      rw [← List.getElem?_rotate hl]; exact hk.2
    · rintro ⟨k, hl, h1, h2⟩
      refine ⟨k, List.getElem?_zip_eq_some.mpr ⟨h1, ?_⟩⟩
      rw [List.getElem?_rotate hl]; exact h2

theorem mem_addEdge {es : List (Nat × Nat)} {i j a b : Nat} :
    (a, b) ∈ MeshCollider.addEdge es i j ↔ (a, b) ∈ es ∨ a ≤ b ∧ ((i = a ∧ j = b) ∨ (i = b ∧ j = a)) := by
  unfold MeshCollider.addEdge
  simp only
  split <;> rename_i h1 <;> split <;> rename_i h2
  · constructor
    · exact .inl
    · rintro (h | ⟨h3, ⟨rfl, rfl⟩ | ⟨rfl, rfl⟩⟩)
      · exact h
      · omega
      · exact h2
  · simp only [List.mem_append, List.mem_singleton, Prod.mk.injEq]
    constructor
    · rintro (h | ⟨rfl, rfl⟩)
      · exact .inl h
      · exact .inr ⟨by omega, .inr ⟨rfl, rfl⟩⟩
    · rintro (h | ⟨h3, ⟨rfl, rfl⟩ | ⟨rfl, rfl⟩⟩)
      · exact .inl h
      · omega
      · exact .inr ⟨rfl, rfl⟩
  · constructor
    · exact .inl
    · rintro (h | ⟨h3, ⟨rfl, rfl⟩ | ⟨rfl, rfl⟩⟩)
      · exact h
      · exact h2
      · have : i = j := by omega
        subst this; exact h2
  · simp only [List.mem_append, List.mem_singleton, Prod.mk.injEq]
    constructor
    · rintro (h | ⟨rfl, rfl⟩)
      · exact .inl h
      · exact .inr ⟨by omega, .inl ⟨rfl, rfl⟩⟩
    · rintro (h | ⟨h3, ⟨rfl, rfl⟩ | ⟨rfl, rfl⟩⟩)
      · exact .inl h
      · exact .inr ⟨rfl, rfl⟩
      · have : i = j := by omega
        subst this; exact .inr ⟨rfl, rfl⟩

theorem addEdge_nodup {es : List (Nat × Nat)} {i j : Nat} (h : es.Nodup) : (MeshCollider.addEdge es i j).Nodup := by
  unfold MeshCollider.addEdge
  simp only
  split <;> split <;> first | exact h | skip
  all_goals
    rename_i hn
    rw [List.nodup_append]
    exact ⟨h, by simp, fun a ha b hb hab => by simp only [List.mem_singleton] at hb; subst hb; subst hab; exact hn ha⟩

theorem addEdges : ∀ (ps es : List (Nat × Nat)), es.Nodup →
    (ps.foldl (fun es e => MeshCollider.addEdge es e.1 e.2) es).Nodup ∧
    ∀ a b, (a, b) ∈ ps.foldl (fun es e => MeshCollider.addEdge es e.1 e.2) es ↔ (a, b) ∈ es ∨ a ≤ b ∧ ((a, b) ∈ ps ∨ (b, a) ∈ ps)
  | [], es, h => by simp [h]
  | (i, j) :: ps, es, h => by
    obtain ⟨h1, h2⟩ := addEdges ps (MeshCollider.addEdge es i j) (addEdge_nodup h)
    refine ⟨h1, fun a b => ?_⟩
    rw [List.foldl_cons, h2, mem_addEdge]
    simp only [List.mem_cons, Prod.mk.injEq]
    constructor
    · rintro ((h | ⟨h3, ⟨rfl, rfl⟩ | ⟨rfl, rfl⟩⟩) | ⟨h3, h | h⟩)
      · exact .inl h
      · exact .inr ⟨h3, .inl (.inl ⟨rfl, rfl⟩)⟩
      · exact .inr ⟨h3, .inr (.inl ⟨rfl, rfl⟩)⟩
      · exact .inr ⟨h3, .inl (.inr h)⟩
      · exact .inr ⟨h3, .inr (.inr h)⟩
    · rintro (h | ⟨h3, (⟨rfl, rfl⟩ | h) | (⟨rfl, rfl⟩ | h)⟩)
      · exact .inl (.inl h)
      · exact .inl (.inr ⟨h3, .inl ⟨rfl, rfl⟩⟩)
      · exact .inr ⟨h3, .inl h⟩
      · exact .inl (.inr ⟨h3, .inr ⟨rfl, rfl⟩⟩)
      · exact .inr ⟨h3, .inr h⟩

/-- What an accepted `add_face` does. -/
theorem addFace_ok {m m' : MeshCollider α} {points : List (Vec3 α)} (h : m.addFace points = .ok m') :
    3 ≤ points.length ∧ m' =
      { m with
        vertices := (MeshCollider.addPoints m.vertices points).1
        faces := m.faces ++ [(MeshCollider.addPoints m.vertices points).2]
        edges := (cyclicPairs (MeshCollider.addPoints m.vertices points).2).foldl (fun es e => MeshCollider.addEdge es e.1 e.2) m.edges } := by
  unfold MeshCollider.addFace at h
  split at h
  · simp only at h
    split at h
    · simp only [Except.ok.injEq] at h
      exact ⟨by simp, h.symm⟩
    · cases h
  · cases h

/-- **C50.** Every mesh made is well formed. -/
theorem C50_wellFormed {calls : List (List (Vec3 α))} {m : MeshCollider α} (h : Made calls m) : WellFormed calls m := by
  induction h with
  | new => exact ⟨by simp [MeshCollider.new], .nil, by simp [MeshCollider.new], by simp [MeshCollider.new], by simp [MeshCollider.new], .nil, .nil, by simp [MeshCollider.new],
      by simp [MeshCollider.new]⟩
  | readBack entity _ ih => exact ⟨ih.corners, ih.faces, ih.inFaces, ih.inEdges, ih.edges, ih.once, ih.apart, ih.given, ih.used⟩
  | assign position material _ ih => exact ⟨ih.corners, ih.faces, ih.inFaces, ih.inEdges, ih.edges, ih.once, ih.apart, ih.given, ih.used⟩
  | @face calls m m' points _ hf ih =>
    obtain ⟨h3, rfl⟩ := addFace_ok hf
    have ha := addPoints_added points m.vertices
    generalize (MeshCollider.addPoints m.vertices points).1 = vs at *
    generalize (MeshCollider.addPoints m.vertices points).2 = is at *
    obtain ⟨new, hn, hn'⟩ := ha.grows
    have hlen : points.length = is.length := ha.stands.length_eq
    have hle : m.vertices.length ≤ vs.length := by rw [hn]; simp
    have hin : ∀ i ∈ is, i < vs.length := by
      intro i hi
      obtain ⟨k, hk⟩ := List.mem_iff_getElem?.mp hi
      have hst := ha.stands
      rw [List.forall₂_iff_get] at hst
      have hk' := List.getElem?_eq_some_iff.mp hk
      obtain ⟨v, hv, -⟩ := hst.2 k (by have := hk'.1; omega) hk'.1
      simp only [List.get_eq_getElem, hk'.2] at hv
      exact (List.getElem?_eq_some_iff.mp hv).1
    obtain ⟨he1, he2⟩ := addEdges (cyclicPairs is) m.edges ih.once
    have hfollow : ∀ {a b}, Follows is a b → a < vs.length ∧ b < vs.length := fun {a b} ⟨k, _, h1, h2⟩ =>
      ⟨hin a (List.mem_of_getElem? h1), hin b (List.mem_of_getElem? h2)⟩
    refine ⟨?_, ?_, ?_, ?_, ?_, he1, ha.apart ih.apart, ?_, ?_⟩
    · intro f hf
      rcases List.mem_append.mp hf with hf | hf
      · exact ih.corners f hf
      · simp only [List.mem_singleton] at hf
        subst hf; omega
    · refine List.rel_append (R := List.Forall₂ (StandsFor vs)) ?_ (.cons ha.stands .nil)
      refine ih.faces.imp (fun f p h => h.imp (fun a b h => ?_))
      rw [hn]; exact standsFor_append h
    · intro f hf i hi
      rcases List.mem_append.mp hf with hf | hf
      · exact lt_of_lt_of_le (ih.inFaces f hf i hi) hle
      · simp only [List.mem_singleton] at hf
        subst hf; exact hin i hi
    · rintro ⟨a, b⟩ he
      rcases (he2 a b).mp he with he | ⟨-, he | he⟩
      · have := ih.inEdges _ he
        exact ⟨lt_of_lt_of_le this.1 hle, lt_of_lt_of_le this.2 hle⟩
      · exact hfollow (mem_cyclicPairs.mp he)
      · exact (hfollow (mem_cyclicPairs.mp he)).symm
    · intro a b
      rw [he2, ih.edges, mem_cyclicPairs, mem_cyclicPairs]
      simp only [List.mem_append, List.mem_singleton]
      constructor
      · rintro (⟨h1, f, hf, h2⟩ | ⟨h1, h2⟩)
        · exact ⟨h1, f, .inl hf, h2⟩
        · exact ⟨h1, is, .inr rfl, h2⟩
      · rintro ⟨h1, f, hf | rfl, h2⟩
        · exact .inl ⟨h1, f, hf, h2⟩
        · exact .inr ⟨h1, h2⟩
    · intro v hv
      simp only [hn, List.mem_append] at hv
      rcases hv with hv | hv
      · obtain ⟨ps, h1, h2⟩ := ih.given v hv
        exact ⟨ps, by simp [h1], h2⟩
      · exact ⟨points, by simp, hn' v hv⟩
    · intro i hi
      by_cases h : i < m.vertices.length
      · obtain ⟨f, h1, h2⟩ := ih.used i h
        exact ⟨f, by simp [h1], h2⟩
      · exact ⟨is, by simp, ha.used i (by omega) hi⟩

/-- **C50**, counts and validity: there are as many faces as calls, and the mesh is valid exactly if at least three vertices are stored. -/
theorem C50_valid {calls : List (List (Vec3 α))} {m : MeshCollider α} (h : Made calls m) :
    m.faces.length = calls.length ∧ (m.isValid = true ↔ 3 ≤ m.vertices.length) := by
  have w := C50_wellFormed h
  refine ⟨w.faces.length_eq.symm, ?_⟩
  unfold MeshCollider.isValid
  simp only [Bool.and_eq_true, decide_eq_true_eq]
  constructor
  · exact fun h => h.1.1
  · intro h3
    obtain ⟨f, hf, -⟩ := w.used 0 (by omega)
    have hc := w.corners f hf
    refine ⟨⟨h3, List.length_pos_of_mem hf⟩, ?_⟩
    have h0 : f[0]? = some (f[0]'(by omega)) := List.getElem?_eq_getElem _
    have h1 : f[(0 + 1) % f.length]? = some (f[(0 + 1) % f.length]'(Nat.mod_lt _ (by omega))) := List.getElem?_eq_getElem _
    have hF : Follows f _ _ := ⟨0, by omega, h0, h1⟩
    rcases Nat.le_total (f[0]'(by omega)) (f[(0 + 1) % f.length]'(Nat.mod_lt _ (by omega))) with hle | hle
    · exact List.length_pos_of_mem ((w.edges _ _).mpr ⟨hle, f, hf, .inl hF⟩)
    · exact List.length_pos_of_mem ((w.edges _ _).mpr ⟨hle, f, hf, .inr hF⟩)

/-- Every mesh made is one the collision code can index without panic. -/
theorem Made.good {calls : List (List (Vec3 α))} {m : MeshCollider α} (h : Made calls m) : m.Good :=
  have w := C50_wellFormed h
  ⟨w.inEdges, fun f hf => ⟨w.corners f hf, w.inFaces f hf⟩⟩

/-- A collider a program can make: any null, sphere, plane or box collider, and the meshes `add_face` makes. -/
def Makeable : Collider α → Prop
  | .mesh m => ∃ calls, Made calls m
  | _ => True

/-- **C29** for the meshes a program can make: as `C29_no_panic_partial`, with no condition on the form of the meshes but that they were made with
`add_face`. -/
theorem C29_made_partial {γ : Type} [ForceGenerator α γ] [SafeGenerator α γ] (l : List (IterOrder × Op α γ)) (h : AllAllowed Makeable (System.new : System α γ) l) :
    ∃ s, runAll System.new l = .ok s := by
  have hg : ∀ c : Collider α, Makeable c → c.Good := by
    intro c hc
    cases c <;> first | trivial | (obtain ⟨_, hc⟩ := hc; exact hc.good)
  refine C29_no_panic_partial l ?_
  revert h
  generalize (System.new : System α γ) = s
  induction l generalizing s with
  | nil => exact fun _ => trivial
  | cons c l ih =>
    obtain ⟨ord, op⟩ := c
    rintro ⟨h1, h2⟩
    refine ⟨?_, fun s' out hs => ih s' (h2 s' out hs)⟩
    cases op <;> first | exact hg _ h1 | exact h1

section
open XReal

theorem standsFor_near {vs : List (Vec3 XReal)} {p : Vec3 ℝ} {i : Nat} {v : Vec3 ℝ} (h : StandsFor vs p.f i) (hv : vs[i]? = some v.f) : (v - p).len < eps := by
  obtain ⟨w, h1, h2⟩ := h
  rw [hv] at h1
  simp only [Option.some.injEq] at h1
  subst h1
  rcases h2 with h2 | h2
  · rw [Vec3.f_inj] at h2
    subst h2
    rw [Vec3.sub_self', (Vec3.len_eq_zero _).mpr rfl]; unfold eps; norm_num
  · simpa [eps] using h2

/-- **C50**, non-degenerate faces: once a face with three corners at least two `EPSILON` apart was added, the mesh is valid. -/
theorem C50_nondegenerate {calls : List (List (Vec3 XReal))} {m : MeshCollider XReal} (h : Made calls m) (hfin : ∀ c ∈ calls, ∀ p ∈ c, ∃ q : Vec3 ℝ, p = q.f)
    {c : List (Vec3 XReal)} (hc : c ∈ calls) {p q r : Vec3 ℝ} (hp : p.f ∈ c) (hq : q.f ∈ c) (hr : r.f ∈ c)
    (hpq : 2 * eps ≤ (p - q).len) (hqr : 2 * eps ≤ (q - r).len) (hpr : 2 * eps ≤ (p - r).len) : m.isValid = true := by
  have w := C50_wellFormed h
  rw [(C50_valid h).2]
  have hvs : ∀ v ∈ m.vertices, ∃ q : Vec3 ℝ, v = q.f := fun v hv => by
    obtain ⟨c, h1, h2⟩ := w.given v hv
    exact hfin c h1 v h2
  -- the corner that stands for a point
  have stand : ∀ p : Vec3 ℝ, p.f ∈ c → ∃ i, i < m.vertices.length ∧ ∃ v : Vec3 ℝ, m.vertices[i]? = some v.f ∧ (v - p).len < eps := by
    intro p hp
    obtain ⟨k, hk⟩ := List.mem_iff_getElem?.mp hc
    obtain ⟨j, hj⟩ := List.mem_iff_getElem?.mp hp
    have hf := w.faces
    rw [List.forall₂_iff_get] at hf
    have hk' := List.getElem?_eq_some_iff.mp hk
    have h2 := hf.2 k hk'.1 (by rw [← hf.1]; exact hk'.1)
    simp only [List.get_eq_getElem, hk'.2] at h2
    rw [List.forall₂_iff_get] at h2
    have hj' := List.getElem?_eq_some_iff.mp hj
    have h3 := h2.2 j hj'.1 (by rw [← h2.1]; exact hj'.1)
    simp only [List.get_eq_getElem, hj'.2] at h3
    obtain ⟨v, hv, -⟩ := id h3
    obtain ⟨v', rfl⟩ := hvs v (List.mem_of_getElem? hv)
    exact ⟨_, (List.getElem?_eq_some_iff.mp hv).1, v', hv, standsFor_near h3 hv⟩
  obtain ⟨i, hi, v, hv, hv'⟩ := stand p hp
  obtain ⟨j, hj, u, hu, hu'⟩ := stand q hq
  obtain ⟨k, hk, x, hx, hx'⟩ := stand r hr
  have apart : ∀ {a b v : Vec3 ℝ}, 2 * eps ≤ (a - b).len → (v - a).len < eps → (v - b).len < eps → False := by
    intro a b v h1 h2 h3
    have e : a - b = (v - b) + (a - v) := by ext <;> simp
    have e' : (a - v).len = (v - a).len := by
      show Real.sqrt _ = Real.sqrt _
      congr 1; simp [Vec3.dot_def]; ring
    have ht := len_triangle (v - b) (a - v)
    rw [← e, e'] at ht
    linarith
  have hij : i ≠ j := fun h => by
    subst h; rw [hv] at hu; simp only [Option.some.injEq, Vec3.f_inj] at hu; subst hu
    exact apart hpq hv' hu'
  have hjk : j ≠ k := fun h => by
    subst h; rw [hu] at hx; simp only [Option.some.injEq, Vec3.f_inj] at hx; subst hx
    exact apart hqr hu' hx'
  have hik : i ≠ k := fun h => by
    subst h; rw [hv] at hx; simp only [Option.some.injEq, Vec3.f_inj] at hx; subst hx
    exact apart hpr hv' hx'
  omega

/-- Accepting a triangle. -/
theorem triangle_accepted {a b c : Vec3 ℝ} (h : (b - a).cross (c - a) ≠ .o) (m : MeshCollider XReal) : ∃ m', m.addFace [a.f, b.f, c.f] = .ok m' := by
  have e1 : (c - b).cross (a - b) = (b - a).cross (c - a) := by ext <;> simp [Vec3.cross] <;> ring
  have e2 : (a - c).cross (b - c) = (b - a).cross (c - a) := by ext <;> simp [Vec3.cross] <;> ring
  have hn := Vec3.f_normalize h
  have hu : (((b - a).cross (c - a)).scale ((b - a).cross (c - a)).len⁻¹).dot (((b - a).cross (c - a)).scale ((b - a).cross (c - a)).len⁻¹) = 1 := by
    have hl : ((b - a).cross (c - a)).len ≠ 0 := fun h0 => h ((Vec3.len_eq_zero _).mp h0)
    generalize (b - a).cross (c - a) = w at *
    have e : (w.scale w.len⁻¹).dot (w.scale w.len⁻¹) = w.dot w * (w.len⁻¹ * w.len⁻¹) := by simp [Vec3.dot_def]; ring
    rw [e, ← Vec3.len_sq]; field_simp
  have hall : (cyclicTriples [a.f, b.f, c.f]).all (MeshCollider.cornerOk ((b.f - a.f).cross (c.f - a.f)).normalize) = true := by
    simp only [cyclicTriples, List.drop, List.take, List.cons_append, List.nil_append, List.zip, List.zipWith, List.all_cons, List.all_nil, MeshCollider.cornerOk,
      Vec3.f_sub, Vec3.f_cross, e1, e2, hn, Vec3.f_dot, hu, one_eq, fin_sub, fin_abs, EPSILON_eq, fin_lt]
    norm_num
  unfold MeshCollider.addFace
  simp only [hall, if_true]
  exact ⟨_, rfl⟩

/-- A triangle for C50: the unit right triangle is accepted, and the mesh is valid. -/
example : ∃ m, Made [Slab.corners.map Vec3.f] m ∧ m.isValid = true := by
  obtain ⟨m, hm⟩ := triangle_accepted (a := ⟨0, 0, 0⟩) (b := ⟨0, 0, 1⟩) (c := ⟨1, 0, 0⟩) (fun h => by have := congrArg Vec3.y h; norm_num [Vec3.cross] at this) MeshCollider.new
  have hM : Made [Slab.corners.map Vec3.f] m := Made.face (calls := []) _ .new hm
  refine ⟨m, hM, C50_nondegenerate hM (c := Slab.corners.map Vec3.f) (p := ⟨0, 0, 0⟩) (q := ⟨0, 0, 1⟩) (r := ⟨1, 0, 0⟩) ?_ (by simp) (by simp [Slab.corners]) (by simp [Slab.corners]) (by simp [Slab.corners]) ?_ ?_ ?_⟩
  · intro c hc p hp
    simp only [List.mem_singleton] at hc
    subst hc
    obtain ⟨q, -, rfl⟩ := List.mem_map.mp hp
    exact ⟨q, rfl⟩
  all_goals
    refine Real.le_sqrt_of_sq_le ?_
    norm_num [Vec3.dot_def, eps]

/-- Without three corners apart a mesh need not be valid: a triangle with sides of a tenth of `EPSILON` is accepted, its corners are merged into one,
and the mesh is not valid. -/
theorem C50_tiny : ∃ (points : List (Vec3 XReal)) (m : MeshCollider XReal), Made [points] m ∧ m.isValid = false ∧ m.vertices.length = 1 ∧ m.edges = [(0, 0)] := by
  obtain ⟨m, hm⟩ := triangle_accepted (a := ⟨0, 0, 0⟩) (b := ⟨1 / 10000000, 0, 0⟩) (c := ⟨0, 1 / 10000000, 0⟩) (fun h => by have := congrArg Vec3.z h; norm_num [Vec3.cross] at this)
    MeshCollider.new
  have hM := Made.face (calls := []) _ .new hm
  have near : ∀ x y : ℝ, x * x + y * y < eps * eps → Scalar.lt ((⟨0, 0, 0⟩ : Vec3 ℝ).f - (⟨x, y, 0⟩ : Vec3 ℝ).f).magnitude (EPSILON : XReal) = true := by
    intro x y h
    rw [Vec3.f_sub, Vec3.f_magnitude, EPSILON_eq, fin_lt, decide_eq_true_eq]
    show Real.sqrt _ < _
    rw [Real.sqrt_lt' (by norm_num)]
    have e : ((⟨0, 0, 0⟩ : Vec3 ℝ) - ⟨x, y, 0⟩).dot (⟨0, 0, 0⟩ - ⟨x, y, 0⟩) = x * x + y * y := by simp [Vec3.dot_def]
    rw [e]; unfold eps at h; linarith
  have n1 := near (1 / 10000000) 0 (by norm_num [eps])
  have n2 := near 0 (1 / 10000000) (by norm_num [eps])
  have hp : MeshCollider.addPoints [] [(⟨0, 0, 0⟩ : Vec3 ℝ).f, (⟨1 / 10000000, 0, 0⟩ : Vec3 ℝ).f, (⟨0, 1 / 10000000, 0⟩ : Vec3 ℝ).f] = ([(⟨0, 0, 0⟩ : Vec3 ℝ).f], [0, 0, 0]) := by
    simp only [MeshCollider.addPoints, MeshCollider.findVertex, List.nil_append, n1, n2, if_true, List.length_nil]
  obtain ⟨-, h⟩ := addFace_ok hm
  have hnew : (MeshCollider.new : MeshCollider XReal).vertices = [] := rfl
  rw [hnew, hp] at h
  refine ⟨_, m, hM, ?_, ?_, ?_⟩ <;> subst h
  · simp [MeshCollider.isValid]
  · rfl
  · rfl
end

end Fluffy.Props
