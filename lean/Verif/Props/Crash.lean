import Verif.Props.Accept
import Verif.Num.Kernel
import Verif.Num.Rodrigues
/-
C29: when collision detection between two meshes panics.
-/
set_option linter.unusedSectionVars false
set_option linter.unusedSimpArgs false
namespace Fluffy.Props
open Fluffy XReal

/-! ### Specification -/
section
variable {α : Type} [Scalar α]

/-- Somewhere around the polygon, three consecutive corners span a parallelogram with an area that is finite and above `EPSILON`. -/
def Spans (polygon : List (Vec3 α)) : Prop :=
  ∃ a b c, InARow polygon a b c ∧ Scalar.isFinite ((a - b).cross (c - b)).magnitude = true ∧ Scalar.lt EPSILON ((a - b).cross (c - b)).magnitude = true

/-- Where the point of the mesh is half way between the two poses: the average of the two places. -/
def halfWay (m : MeshCollider α) (start stop : Orientation α) (v : Vec3 α) : Vec3 α :=
  (start.positionIntoWorld (m.position + v) + stop.positionIntoWorld (m.position + v)).unscale two

/-- Every face of the mesh, with its corners half way, spans an area. -/
def HoldsOpen (m : MeshCollider α) (start stop : Orientation α) : Prop :=
  ∀ f ∈ m.faces, ∀ vs, List.Forall₂ (fun i v => m.vertices[i]? = some v) f vs → Spans (vs.map (halfWay m start stop))
end

/-! ### Any arithmetic -/
section
variable {α : Type} [Scalar α]

theorem mem_triples {τ : Type} {l : List τ} (a b c : τ) : (a, b, c) ∈ triples l ↔ InARow l a b c := by
  rw [List.mem_iff_getElem?]
  constructor
  · rintro ⟨k, hk⟩
    have hl : k < l.length := by
      have := (List.getElem?_eq_some_iff.mp hk).1
      rwa [triples_length] at this
    have h0 : 0 < l.length := by omega
    have i1 : (k + (l.length - 1)) % l.length < l.length := Nat.mod_lt _ h0
    have i2 : (k + 1) % l.length < l.length := Nat.mod_lt _ h0
    have h := triples_getElem? l k hl (List.getElem?_eq_getElem i1) (List.getElem?_eq_getElem hl) (List.getElem?_eq_getElem i2)
    rw [hk] at h
    simp only [Option.some.injEq, Prod.mk.injEq] at h
    obtain ⟨rfl, rfl, rfl⟩ := h
    refine ⟨(k + (l.length - 1)) % l.length, i1, List.getElem?_eq_getElem i1, ?_, ?_⟩
    · rw [Nat.mod_add_mod, show k + (l.length - 1) + 1 = k + l.length by omega, Nat.add_mod_right, Nat.mod_eq_of_lt hl]
      exact List.getElem?_eq_getElem hl
    · rw [Nat.mod_add_mod, show k + (l.length - 1) + 2 = k + 1 + l.length by omega, Nat.add_mod_right]
      exact List.getElem?_eq_getElem i2
  · rintro ⟨k, hk, ha, hb, hc⟩
    have h0 : 0 < l.length := by omega
    refine ⟨(k + 1) % l.length, triples_getElem? l _ (Nat.mod_lt _ h0) ?_ hb ?_⟩
    · rw [Nat.mod_add_mod, show k + 1 + (l.length - 1) = k + l.length by omega, Nat.add_mod_right, Nat.mod_eq_of_lt hk]
      exact ha
    · rw [Nat.mod_add_mod]
      exact hc

theorem normalLoop_cases (l : List (Vec3 α × Vec3 α × Vec3 α)) :
    ((∃ a b c, (a, b, c) ∈ l ∧ Scalar.isFinite ((a - b).cross (c - b)).magnitude = true ∧ Scalar.lt EPSILON ((a - b).cross (c - b)).magnitude = true) →
      ∃ n, polygonNormalLoop l = .ok n) ∧
    ((¬∃ a b c, (a, b, c) ∈ l ∧ Scalar.isFinite ((a - b).cross (c - b)).magnitude = true ∧ Scalar.lt EPSILON ((a - b).cross (c - b)).magnitude = true) →
      polygonNormalLoop l = .error .assert) := by
  induction l with
  | nil => exact ⟨by simp, fun _ => rfl⟩
  | cons e l ih =>
    obtain ⟨a, b, c⟩ := e
    unfold polygonNormalLoop
    by_cases h : (Scalar.isFinite ((a - b).cross (c - b)).magnitude && Scalar.lt EPSILON ((a - b).cross (c - b)).magnitude) = true
    · simp only [h, if_true]
      rw [Bool.and_eq_true] at h
      exact ⟨fun _ => ⟨_, rfl⟩, fun hn => absurd ⟨a, b, c, by simp, h.1, h.2⟩ hn⟩
    · simp only [h]
      rw [Bool.and_eq_true] at h
      constructor
      · rintro ⟨a', b', c', hm, h'⟩
        rcases List.mem_cons.mp hm with hm | hm
        · simp only [Prod.mk.injEq] at hm
          obtain ⟨rfl, rfl, rfl⟩ := hm
          exact absurd h' h
        · exact ih.1 ⟨a', b', c', hm, h'⟩
      · intro hn
        refine ih.2 ?_
        rintro ⟨a', b', c', hm, h'⟩
        exact hn ⟨a', b', c', by simp [hm], h'⟩

theorem polygonNormal_spans {l : List (Vec3 α)} (h : Spans l) : ∃ n, polygonNormal l = .ok n := by
  obtain ⟨a, b, c, hr, h⟩ := h
  exact (normalLoop_cases (triples l)).1 ⟨a, b, c, (mem_triples a b c).mpr hr, h⟩

theorem polygonNormal_flat {l : List (Vec3 α)} (h : ¬Spans l) : polygonNormal l = .error .assert := by
  refine (normalLoop_cases (triples l)).2 ?_
  rintro ⟨a, b, c, hm, h'⟩
  exact h ⟨a, b, c, (mem_triples a b c).mp hm, h'⟩

theorem spans_ne {l : List (Vec3 α)} (h : Spans l) : l ≠ [] := by
  rintro rfl
  obtain ⟨a, b, c, ⟨k, hk, -⟩, -⟩ := h
  simp at hk

theorem collidePoint_spans {l : List (Vec3 α)} (h : Spans l) (p q : Vec3 α) : ∃ x, collidePointPolygon p q l = .ok x := by
  obtain ⟨n, hn⟩ := polygonNormal_spans h
  obtain ⟨x, rest, rfl⟩ := List.exists_cons_of_ne_nil (spans_ne h)
  unfold collidePointPolygon
  rw [hn]
  simp only [Res.ok_bind, index, List.getElem?_cons_zero]
  split
  · split <;> exact ⟨_, rfl⟩
  · split
    · exact ⟨_, rfl⟩
    · split <;> exact ⟨_, rfl⟩

theorem collidePoint_flat {l : List (Vec3 α)} (h : ¬Spans l) (p q : Vec3 α) : collidePointPolygon p q l = .error .assert := by
  unfold collidePointPolygon
  rw [polygonNormal_flat h]
  rfl

theorem forall₂_exists {vs : List (Vec3 α)} : ∀ {f : List Nat}, (∀ i ∈ f, i < vs.length) → ∃ cs, List.Forall₂ (fun i v => vs[i]? = some v) f cs
  | [], _ => ⟨[], .nil⟩
  | i :: f, h => by
    obtain ⟨cs, hc⟩ := forall₂_exists (f := f) fun j hj => h j (by simp [hj])
    exact ⟨vs[i]'(h i (by simp)) :: cs, .cons (List.getElem?_eq_getElem _) hc⟩

theorem midFace_eq {m : MeshCollider α} {s e : Orientation α} : ∀ {f : List Nat} {cs : List (Vec3 α)}, List.Forall₂ (fun i v => m.vertices[i]? = some v) f cs →
    midFace (meshPointPairs m s e) f = .ok (cs.map (halfWay m s e))
  | [], _, .nil => rfl
  | i :: f, v :: cs, .cons h hs => by
    unfold midFace
    have : index (meshPointPairs m s e) i = .ok (s.positionIntoWorld (m.position + v), e.positionIntoWorld (m.position + v)) := by
      rw [index_eq_ok]
      unfold meshPointPairs
      rw [List.getElem?_map, h]
      rfl
    rw [this, midFace_eq hs]
    rfl

/-- One point against the faces of a mesh. -/
theorem pointFaces {m : MeshCollider α} {s e : Orientation α} (p : Vec3 α × Vec3 α) : ∀ (fs : List (List Nat)) (_ : ∀ f ∈ fs, ∀ i ∈ f, i < m.vertices.length) (acc : Earliest α),
    ((∀ f ∈ fs, ∀ vs, List.Forall₂ (fun i v => m.vertices[i]? = some v) f vs → Spans (vs.map (halfWay m s e))) → ∃ x, pointAgainstFaces p (meshPointPairs m s e) fs acc = .ok x) ∧
    ((¬∀ f ∈ fs, ∀ vs, List.Forall₂ (fun i v => m.vertices[i]? = some v) f vs → Spans (vs.map (halfWay m s e))) →
      pointAgainstFaces p (meshPointPairs m s e) fs acc = .error .assert)
  | [], _, acc => ⟨fun _ => ⟨acc, rfl⟩, fun h => absurd (by simp) h⟩
  | f :: fs, hi, acc => by
    obtain ⟨cs, hc⟩ := forall₂_exists (vs := m.vertices) (f := f) (hi f (by simp))
    have hu : ∀ vs, List.Forall₂ (fun i v => m.vertices[i]? = some v) f vs → vs = cs := by
      intro vs hv
      clear hi
      induction hc generalizing vs with
      | nil => cases hv; rfl
      | cons h1 _ ih =>
        cases hv with
        | cons h2 h3 => rw [ih _ h3]; rw [h1] at h2; cases h2; rfl
    unfold pointAgainstFaces
    rw [midFace_eq hc]
    simp only [Res.ok_bind]
    by_cases hs : Spans (cs.map (halfWay m s e))
    · obtain ⟨x, hx⟩ := collidePoint_spans hs p.1 p.2
      rw [hx]
      simp only [Res.ok_bind]
      obtain ⟨h1, h2⟩ := pointFaces (m := m) (s := s) (e := e) p fs (fun f hf => hi f (by simp [hf])) (acc.consider x)
      refine ⟨fun h => h1 fun f hf => h f (by simp [hf]), fun h => h2 fun h' => h ?_⟩
      intro g hg vs hv
      rcases List.mem_cons.mp hg with rfl | hg
      · rw [hu vs hv]; exact hs
      · exact h' g hg vs hv
    · rw [collidePoint_flat hs]
      exact ⟨fun h => absurd (h f (by simp) cs hc) hs, fun _ => rfl⟩

/-- The points against the faces of a mesh. -/
theorem pointsFaces {m : MeshCollider α} {s e : Orientation α} {fs : List (List Nat)} (hi : ∀ f ∈ fs, ∀ i ∈ f, i < m.vertices.length) :
    ∀ (ps : List (Vec3 α × Vec3 α)) (acc : Earliest α),
    ((∀ f ∈ fs, ∀ vs, List.Forall₂ (fun i v => m.vertices[i]? = some v) f vs → Spans (vs.map (halfWay m s e))) → ∃ x, pointsAgainstFaces (meshPointPairs m s e) fs ps acc = .ok x) ∧
    (ps ≠ [] → (¬∀ f ∈ fs, ∀ vs, List.Forall₂ (fun i v => m.vertices[i]? = some v) f vs → Spans (vs.map (halfWay m s e))) →
      pointsAgainstFaces (meshPointPairs m s e) fs ps acc = .error .assert)
  | [], acc => ⟨fun _ => ⟨acc, rfl⟩, fun h => absurd rfl h⟩
  | p :: ps, acc => by
    obtain ⟨h1, h2⟩ := pointFaces (m := m) (s := s) (e := e) p fs hi acc
    unfold pointsAgainstFaces
    constructor
    · intro h
      obtain ⟨x, hx⟩ := h1 h
      rw [hx]
      exact (pointsFaces hi ps x).1 h
    · intro _ h
      rw [h2 h]
      rfl

/-- Two well-formed meshes with at least one point each, in any arithmetic: collision detection yields a result exactly if every face of both, half way through
the movement, has three consecutive corners that span a finite area above `EPSILON`; otherwise it panics. -/
theorem C29_mesh_exact {m1 m2 : MeshCollider α} (g1 : m1.Good) (g2 : m2.Good) (v1 : m1.vertices ≠ []) (v2 : m2.vertices ≠ []) (s1 e1 s2 e2 : Orientation α) :
    ((∃ x, collide (.mesh m1) s1 e1 (.mesh m2) s2 e2 = .ok x) ↔ HoldsOpen m1 s1 e1 ∧ HoldsOpen m2 s2 e2) ∧
    (¬(HoldsOpen m1 s1 e1 ∧ HoldsOpen m2 s2 e2) → collide (.mesh m1) s1 e1 (.mesh m2) s2 e2 = .error .assert) := by
  have e : collide (.mesh m1) s1 e1 (.mesh m2) s2 e2 = collideMeshMesh m1 s1 e1 m2 s2 e2 := rfl
  rw [e]
  have half : ∀ {m m' : MeshCollider α} {s e s' e' : Orientation α} (out : Earliest α) (k : α), m'.Good → m.vertices ≠ [] →
      (HoldsOpen m' s' e' → ∃ x, collideMeshPointsFaces out (meshPointPairs m s e) m' (meshPointPairs m' s' e') k = .ok x) ∧
      (¬HoldsOpen m' s' e' → collideMeshPointsFaces out (meshPointPairs m s e) m' (meshPointPairs m' s' e') k = .error .assert) := by
    intro m m' s e s' e' out k hg hv
    obtain ⟨h1, h2⟩ := pointsFaces (m := m') (s := s') (e := e') (fs := m'.faces) (fun f hf => (hg.faces f hf).2) (meshPointPairs m s e) Earliest.new
    unfold collideMeshPointsFaces
    constructor
    · intro h
      obtain ⟨x, hx⟩ := h1 h
      rw [hx]
      simp only [Res.ok_bind]
      split <;> exact ⟨_, rfl⟩
    · intro h
      rw [h2 (by simpa [meshPointPairs] using hv) h]
      rfl
  have bad : ¬(HoldsOpen m1 s1 e1 ∧ HoldsOpen m2 s2 e2) → collideMeshMesh m1 s1 e1 m2 s2 e2 = .error .assert := by
    intro h
    unfold collideMeshMesh
    by_cases h2 : HoldsOpen m2 s2 e2
    · have h1 : ¬HoldsOpen m1 s1 e1 := fun h1 => h ⟨h1, h2⟩
      obtain ⟨x, hx⟩ := (half (s := s1) (e := e1) Earliest.new (lit (-1) 1) g2 v1).1 h2
      simp only [hx, Res.ok_bind]
      rw [(half (s := s2) (e := e2) x one g1 v2).2 h1]
      rfl
    · simp only [(half (s := s1) (e := e1) Earliest.new (lit (-1) 1) g2 v1).2 h2]
      rfl
  refine ⟨⟨?_, ?_⟩, bad⟩
  · rintro ⟨x, hx⟩
    by_contra h
    rw [bad h] at hx
    cases hx
  · rintro ⟨h1, h2⟩
    unfold collideMeshMesh
    obtain ⟨x, hx⟩ := (half (s := s1) (e := e1) Earliest.new (lit (-1) 1) g2 v1).1 h2
    simp only [hx, Res.ok_bind]
    obtain ⟨y, hy⟩ := (half (s := s2) (e := e2) x one g1 v2).1 h1
    simp only [hy, Res.ok_bind]
    exact ⟨_, rfl⟩
end

/-! ### Exact numbers: what is left of an area half way through a turn -/

/-- Half way between a vector and what a rotation makes of it. -/
noncomputable def midTurn (p : Quat ℝ) (u : Vec3 ℝ) : Vec3 ℝ := (u + p.rot u).scale 2⁻¹

theorem midTurn_eq {p : Quat ℝ} (h : p.normSq = 1) (u : Vec3 ℝ) :
    midTurn p u = u.scale (p.w * p.w) + p.vec.scale (p.vec.dot u) + (p.vec.cross u).scale p.w := by
  unfold Quat.normSq at h
  ext <;> simp only [midTurn, Quat.rot, Quat.vec, Vec3.add_x, Vec3.add_y, Vec3.add_z, Vec3.scale_x, Vec3.scale_y, Vec3.scale_z, Vec3.cross_x, Vec3.cross_y,
    Vec3.cross_z, Vec3.dot_def]
  · linear_combination (-u.x) * h
  · linear_combination (-u.y) * h
  · linear_combination (-u.z) * h

theorem midTurn_cross {p : Quat ℝ} (h : p.normSq = 1) (u v : Vec3 ℝ) :
    (midTurn p u).cross (midTurn p v) = ((u.cross v).scale p.w + p.vec.cross (u.cross v)).scale p.w := by
  have key : ((u.cross v).scale p.w + p.vec.cross (u.cross v)).scale p.w = (((u.cross v).scale p.w + p.vec.cross (u.cross v)).scale p.w).scale p.normSq := by
    rw [h, Vec3.scale_one]
  rw [key, midTurn_eq h, midTurn_eq h]
  ext <;> simp only [Quat.normSq, Quat.vec, Vec3.add_x, Vec3.add_y, Vec3.add_z, Vec3.scale_x, Vec3.scale_y, Vec3.scale_z, Vec3.cross_x, Vec3.cross_y,
    Vec3.cross_z, Vec3.dot_def] <;> ring

/-- At least the squared cosine of half the angle is left of an area. -/
theorem midTurn_area {p : Quat ℝ} (h : p.normSq = 1) (u v : Vec3 ℝ) : p.w * p.w * (u.cross v).len ≤ ((midTurn p u).cross (midTurn p v)).len := by
  rw [midTurn_cross h]
  generalize u.cross v = n
  rw [Vec3.len_scale]
  have hl : |p.w| * n.len ≤ (n.scale p.w + p.vec.cross n).len := by
    refine abs_le_of_sq_le_sq' ?_ (Vec3.len_nonneg _) |>.2
    have e1 : (n.scale p.w + p.vec.cross n).len ^ 2 = p.w * p.w * (n.dot n) + (p.vec.dot p.vec * n.dot n - p.vec.dot n * p.vec.dot n) := by
      rw [pow_two, Vec3.len_sq]
      simp only [Vec3.dot_def, Vec3.add_x, Vec3.add_y, Vec3.add_z, Vec3.scale_x, Vec3.scale_y, Vec3.scale_z, Vec3.cross_x, Vec3.cross_y, Vec3.cross_z]
      ring
    have e2 : (|p.w| * n.len) ^ 2 = p.w * p.w * n.dot n := by
      rw [mul_pow, sq_abs, pow_two, pow_two, Vec3.len_sq]
    rw [e1, e2]
    have := Vec3.dot_mul_le p.vec n
    linarith
  calc p.w * p.w * n.len = |p.w| * n.len * |p.w| := by rw [mul_right_comm |p.w|, abs_mul_abs_self]
    _ ≤ _ := mul_le_mul_of_nonneg_right hl (abs_nonneg _)

theorem exp_w {a : Vec3 ℝ} (h : a.len ≤ Real.pi) : Real.cos (a.len / 2) ^ 2 ≤ (Quat.exp a).w * (Quat.exp a).w := by
  have hlen : (a.scale 2⁻¹).len = a.len / 2 := by
    rw [Vec3.len_scale, abs_of_pos (by norm_num : (0 : ℝ) < 2⁻¹)]; ring
  unfold Quat.exp
  split
  · simp only [Quat.e]
    have := Real.cos_sq_le_one (a.len / 2)
    linarith
  · simp only [hlen]
    rw [pow_two]

theorem exp_half {a : Vec3 ℝ} (h : a.len = Real.pi) : (Quat.exp a).w = 0 := by
  have hlen : (a.scale 2⁻¹).len = a.len / 2 := by
    rw [Vec3.len_scale, abs_of_pos (by norm_num : (0 : ℝ) < 2⁻¹)]; ring
  unfold Quat.exp
  rw [if_neg]
  · simp only [hlen, h]
    exact Real.cos_pi_div_two
  · rw [← Vec3.len_sq, hlen, h, Quat.meps]
    have := Real.two_le_pi
    intro hc
    nlinarith

/-! ### Meshes of finite points -/

/-- A mesh of finite points. -/
structure FiniteMesh (m : MeshCollider XReal) (q : Vec3 ℝ) (vs : List (Vec3 ℝ)) : Prop where
  position : m.position = q.f
  vertices : m.vertices = vs.map Vec3.f

section
variable {m : MeshCollider XReal} {q : Vec3 ℝ} {vs : List (Vec3 ℝ)} (hm : FiniteMesh m q vs) {o : Orientation ℝ} (ho : o.Unit)
include hm ho

theorem halfWay_f (l a v : Vec3 ℝ) : halfWay m o.f (o.f.afterAffected l.f a.f) v.f = ((o.toWorld (q + v) + (o.after l a).toWorld (q + v)).scale 2⁻¹).f := by
  unfold halfWay
  rw [hm.position, Vec3.f_add, Orientation.f_afterAffected, Orientation.f_positionIntoWorld _ _ ho, Orientation.f_positionIntoWorld _ _ (Orientation.after_unit _ ho l a),
    Vec3.f_add, two_eq, Vec3.f_unscale_two]

theorem halfWay_diff (l a x y : Vec3 ℝ) : halfWay m o.f (o.f.afterAffected l.f a.f) x.f - halfWay m o.f (o.f.afterAffected l.f a.f) y.f =
    (midTurn (Quat.exp a) (o.rotation.rot (x - y))).f := by
  rw [halfWay_f hm ho, halfWay_f hm ho, Vec3.f_sub, Vec3.f_inj]
  have h1 := world_diff (o := o) q y x
  have h2 := world_diff (o := o.after l a) q y x
  have h3 : (o.after l a).rotation.rot (x - y) = (Quat.exp a).rot (o.rotation.rot (x - y)) := Quat.rot_mul _ (Quat.exp_normSq a) ho
  rw [h3] at h2
  unfold midTurn
  rw [← h2, ← h1]
  ext <;> simp <;> ring

theorem halfWay_area (l a x y z : Vec3 ℝ) :
    ((halfWay m o.f (o.f.afterAffected l.f a.f) x.f - halfWay m o.f (o.f.afterAffected l.f a.f) y.f).cross
      (halfWay m o.f (o.f.afterAffected l.f a.f) z.f - halfWay m o.f (o.f.afterAffected l.f a.f) y.f)).magnitude =
    fin ((midTurn (Quat.exp a) (o.rotation.rot (x - y))).cross (midTurn (Quat.exp a) (o.rotation.rot (z - y)))).len := by
  rw [halfWay_diff hm ho, halfWay_diff hm ho, Vec3.f_cross, Vec3.f_magnitude]

/-- If the turn leaves enough of one corner of every face, all faces stay open. -/
theorem holdsOpen {l a : Vec3 ℝ} (ha : a.len ≤ Real.pi)
    (h : ∀ f ∈ m.faces, ∀ cs, Corners vs f cs → ∃ x y z, InARow cs x y z ∧ eps < Real.cos (a.len / 2) ^ 2 * ((x - y).cross (z - y)).len) :
    HoldsOpen m o.f (o.f.afterAffected l.f a.f) := by
  intro f hf us hu
  have : ∃ cs : List (Vec3 ℝ), us = cs.map Vec3.f ∧ Corners vs f cs := by
    rw [hm.vertices] at hu
    clear hf
    unfold Corners
    induction hu with
    | nil => exact ⟨[], rfl, .nil⟩
    | cons h1 _ ih =>
      obtain ⟨cs, rfl, hc⟩ := ih
      rw [List.getElem?_map, Option.map_eq_some_iff] at h1
      obtain ⟨w, hw, rfl⟩ := h1
      exact ⟨w :: cs, rfl, .cons hw hc⟩
  obtain ⟨cs, rfl, hc⟩ := this
  obtain ⟨x, y, z, ⟨k, hk, h1, h2, h3⟩, ha'⟩ := h f hf cs hc
  refine ⟨_, _, _, ⟨k, by simpa using hk, by simp [h1]; rfl, by simp [h2]; rfl, by simp [h3]; rfl⟩, ?_⟩
  rw [halfWay_area hm ho]
  refine ⟨isFinite_fin _, ?_⟩
  rw [EPSILON_eq, fin_lt, decide_eq_true_iff]
  have e1 := midTurn_area (Quat.exp_normSq a) (o.rotation.rot (x - y)) (o.rotation.rot (z - y))
  rw [← Quat.rot_cross _ _ ho, Quat.rot_len _ ho] at e1
  have e2 := mul_le_mul_of_nonneg_right (exp_w ha) (Vec3.len_nonneg ((x - y).cross (z - y)))
  have : eps = 1 / 1000000 := rfl
  linarith

/-- Half a turn leaves nothing of any face. -/
theorem collapses {l a : Vec3 ℝ} (ha : a.len = Real.pi) (hg : m.Good) (hf : m.faces ≠ []) : ¬HoldsOpen m o.f (o.f.afterAffected l.f a.f) := by
  intro h
  obtain ⟨f, fs, hfs⟩ := List.exists_cons_of_ne_nil hf
  have hfm : f ∈ m.faces := by rw [hfs]; simp
  obtain ⟨us, hu⟩ := forall₂_exists (vs := m.vertices) (hg.faces f hfm).2
  obtain ⟨x, y, z, hr, -, hl⟩ := h f hfm us hu
  have fin_us : ∀ p ∈ us.map (halfWay m o.f (o.f.afterAffected l.f a.f)), ∃ v : Vec3 ℝ, p = halfWay m o.f (o.f.afterAffected l.f a.f) v.f := by
    intro p hp
    obtain ⟨u, hu', rfl⟩ := List.mem_map.mp hp
    have : ∃ i : Nat, m.vertices[i]? = some u := by
      clear hr hp hfm hfs
      induction hu with
      | nil => cases hu'
      | cons h1 _ ih =>
        rcases List.mem_cons.mp hu' with rfl | hu'
        · exact ⟨_, h1⟩
        · exact ih hu'
    obtain ⟨i, hi⟩ := this
    rw [hm.vertices, List.getElem?_map, Option.map_eq_some_iff] at hi
    obtain ⟨v, -, rfl⟩ := hi
    exact ⟨v, rfl⟩
  obtain ⟨x', rfl⟩ := fin_us x hr.mem.1
  obtain ⟨y', rfl⟩ := fin_us y hr.mem.2.1
  obtain ⟨z', rfl⟩ := fin_us z hr.mem.2.2
  rw [halfWay_area hm ho, midTurn_cross (Quat.exp_normSq a), exp_half ha, Vec3.scale_zero, Vec3.len_o, EPSILON_eq, fin_lt, decide_eq_true_iff] at hl
  norm_num at hl
end

/-- The faces of a mesh are wide enough for a turn by the vector `a`: every face has three consecutive corners whose area, times the squared cosine of half
the angle, is above `EPSILON`. -/
def WideFor (vs : List (Vec3 ℝ)) (fs : List (List Nat)) (a : Vec3 ℝ) : Prop :=
  a.len ≤ Real.pi ∧ ∀ f ∈ fs, ∀ cs, Corners vs f cs → ∃ x y z, InARow cs x y z ∧ eps < Real.cos (a.len / 2) ^ 2 * ((x - y).cross (z - y)).len

/-- Two meshes that are wide enough for the turns they make are no reason to panic. -/
theorem C29_mesh_wide {m1 m2 : MeshCollider XReal} {q1 q2 : Vec3 ℝ} {vs1 vs2 : List (Vec3 ℝ)} (f1 : FiniteMesh m1 q1 vs1) (f2 : FiniteMesh m2 q2 vs2)
    (g1 : m1.Good) (g2 : m2.Good) (n1 : vs1 ≠ []) (n2 : vs2 ≠ []) {o1 o2 : Orientation ℝ} (u1 : o1.Unit) (u2 : o2.Unit) (l1 a1 l2 a2 : Vec3 ℝ)
    (w1 : WideFor vs1 m1.faces a1) (w2 : WideFor vs2 m2.faces a2) :
    ∃ x, collide (.mesh m1) o1.f (o1.f.afterAffected l1.f a1.f) (.mesh m2) o2.f (o2.f.afterAffected l2.f a2.f) = .ok x :=
  (C29_mesh_exact g1 g2 (by rw [f1.vertices]; simpa using n1) (by rw [f2.vertices]; simpa using n2) _ _ _ _).1.mpr
    ⟨holdsOpen f1 u1 w1.1 w1.2, holdsOpen f2 u2 w2.1 w2.2⟩

/-- A mesh that makes exactly half a turn, about any axis, makes collision detection with any other mesh panic, wherever the two are. -/
theorem C29_half_turn {m1 m2 : MeshCollider XReal} {q1 : Vec3 ℝ} {vs1 : List (Vec3 ℝ)} (f1 : FiniteMesh m1 q1 vs1)
    (g1 : m1.Good) (g2 : m2.Good) (n1 : m1.faces ≠ []) (n2 : m2.vertices ≠ []) {o1 : Orientation ℝ} (u1 : o1.Unit) (l1 a1 : Vec3 ℝ) (s2 e2 : Orientation XReal)
    (ht : a1.len = Real.pi) :
    collide (.mesh m1) o1.f (o1.f.afterAffected l1.f a1.f) (.mesh m2) s2 e2 = .error .assert ∧
    collide (.mesh m2) s2 e2 (.mesh m1) o1.f (o1.f.afterAffected l1.f a1.f) = .error .assert := by
  have v1 : m1.vertices ≠ [] := by
    intro hv
    obtain ⟨f, fs, hfs⟩ := List.exists_cons_of_ne_nil n1
    have hf := g1.faces f (by rw [hfs]; simp)
    rcases f with _ | ⟨i, f⟩
    · simp at hf
    · have := hf.2 i (by simp)
      rw [hv] at this
      simp at this
  exact ⟨(C29_mesh_exact g1 g2 v1 n2 _ _ _ _).2 fun h => collapses f1 u1 ht g1 n1 h.1, (C29_mesh_exact g2 g1 n2 v1 _ _ _ _).2 fun h => collapses f1 u1 ht g1 n1 h.2⟩

/-! ### The hypotheses are met -/

/-- The unit right triangle. -/
noncomputable def setSquare : MeshCollider XReal :=
  { MeshCollider.new with vertices := [(⟨0, 0, 0⟩ : Vec3 ℝ), ⟨1, 0, 0⟩, ⟨0, 1, 0⟩].map Vec3.f, edges := [(0, 1), (1, 2), (0, 2)], faces := [[0, 1, 2]] }

theorem setSquare_finite : FiniteMesh setSquare .o [⟨0, 0, 0⟩, ⟨1, 0, 0⟩, ⟨0, 1, 0⟩] := ⟨Vec3.f_zeros, rfl⟩
theorem setSquare_good : setSquare.Good := by
  constructor <;> simp [setSquare]

/-- Two unit triangles, one of which makes a third of a turn, are wide enough, and one can make half a turn. -/
theorem C29_mesh_applies : WideFor [⟨0, 0, 0⟩, ⟨1, 0, 0⟩, ⟨0, 1, 0⟩] setSquare.faces ⟨0, 0, 2 * Real.pi / 3⟩ ∧ WideFor [⟨0, 0, 0⟩, ⟨1, 0, 0⟩, ⟨0, 1, 0⟩] setSquare.faces .o ∧
    (⟨0, 0, Real.pi⟩ : Vec3 ℝ).len = Real.pi := by
  have len : ∀ x : ℝ, 0 ≤ x → (⟨0, 0, x⟩ : Vec3 ℝ).len = x := by
    intro x hx
    unfold Vec3.len
    rw [show (⟨0, 0, x⟩ : Vec3 ℝ).dot ⟨0, 0, x⟩ = x * x by simp [Vec3.dot_def]]
    exact Real.sqrt_mul_self hx
  have hp := Real.pi_pos
  have area : ((⟨0, 0, 0⟩ - ⟨1, 0, 0⟩ : Vec3 ℝ).cross (⟨0, 1, 0⟩ - ⟨1, 0, 0⟩)).len = 1 := by
    unfold Vec3.len
    rw [show ((⟨0, 0, 0⟩ - ⟨1, 0, 0⟩ : Vec3 ℝ).cross (⟨0, 1, 0⟩ - ⟨1, 0, 0⟩)).dot ((⟨0, 0, 0⟩ - ⟨1, 0, 0⟩ : Vec3 ℝ).cross (⟨0, 1, 0⟩ - ⟨1, 0, 0⟩)) = 1 by
      simp [Vec3.dot_def]]
    exact Real.sqrt_one
  have wide : ∀ a : Vec3 ℝ, a.len ≤ Real.pi → eps < Real.cos (a.len / 2) ^ 2 → WideFor [⟨0, 0, 0⟩, ⟨1, 0, 0⟩, ⟨0, 1, 0⟩] setSquare.faces a := by
    intro a h1 h2
    refine ⟨h1, ?_⟩
    intro f hf cs hc
    simp only [setSquare, List.mem_singleton] at hf
    subst hf
    rcases hc with _ | ⟨c0, _ | ⟨c1, _ | ⟨c2, _ | _⟩⟩⟩
    simp only [List.getElem?_cons_zero, List.getElem?_cons_succ, Option.some.injEq] at c0 c1 c2
    subst c0 c1 c2
    refine ⟨_, _, _, first_in_a_row _ _ _ _, ?_⟩
    rw [area]
    linarith
  refine ⟨wide _ ?_ ?_, wide _ ?_ ?_, len _ hp.le⟩
  · rw [len _ (by positivity)]; linarith
  · rw [len _ (by positivity), show 2 * Real.pi / 3 / 2 = Real.pi / 3 by ring, Real.cos_pi_div_three]
    unfold eps; norm_num
  · rw [Vec3.len_o]; exact hp.le
  · rw [Vec3.len_o]; simp [eps]; norm_num

/-! ### A run in binary32 -/
section
variable [Libm]
open Fluffy.F32 Demo Step

/-- The corners of a small triangle, half a millimetre along two sides. -/
def speckCorners : List (Vec3 F32) := [vec 0 0 0, ⟨num 1 2048, num 0, num 0⟩, ⟨num 0, num 1 2048, num 0⟩]

/-- The mesh that `add_face` makes of it. -/
def speck : MeshCollider F32 := match MeshCollider.new.addFace speckCorners with | .ok m => m | .error _ => MeshCollider.new

theorem speck_made : Made [speckCorners] speck := by
  have h : ((MeshCollider.new.addFace speckCorners).test fun _ => true) = true := by kernel_refl
  obtain ⟨m, hm, -⟩ := Res.of_test h
  have : speck = m := by unfold speck; rw [hm]
  rw [this]
  exact .face (calls := []) _ .new hm

/-- Two entities, a hundred metres apart and at rest, with such a mesh each. -/
def speckCalls : List (Op F32 (GravityGenerator F32)) :=
  [.addEntity (thing (num 1) (vec 0 0 0) (vec 0 0 0)), .addCollider (.mesh speck), .linkCollider h0 (some h0),
   .addEntity (thing (num 1) (vec 100 0 0) (vec 0 0 0)), .addCollider (.mesh speck), .linkCollider h1 (some h1)]

/-- **C29 fails** for small meshes: with two meshes made by `add_face` of a triangle with two sides of half a millimetre, linked to two entities at rest that are a
hundred metres apart, the next step panics. -/
theorem C29_mesh_false : ∃ s : System F32 (GravityGenerator F32), Reachable s ∧ Made [speckCorners] speck ∧ speck.isValid = true ∧
    (play (plain speckCalls) System.new).map Prod.fst = .ok s ∧ s.exec .id (.step (num 1)) = .error .assert := by
  have h : (Res.test (Except.map Prod.fst (play (plain speckCalls) (System.new : System F32 (GravityGenerator F32)))) fun s =>
      speck.isValid && match s.exec .id (.step (num 1)) with | .error .assert => true | _ => false) = true := by kernel_refl
  obtain ⟨s, hs, h⟩ := Res.of_test h
  rw [Bool.and_eq_true] at h
  obtain ⟨hv, h⟩ := h
  refine ⟨s, ?_, speck_made, hv, hs, ?_⟩
  · cases hp : play (plain speckCalls) (System.new : System F32 (GravityGenerator F32)) with
    | error e => rw [hp] at hs; cases hs
    | ok r =>
      rw [hp] at hs
      cases hs
      exact play_reachable hp
  · split at h
    · assumption
    · cases h
end

end Fluffy.Props
