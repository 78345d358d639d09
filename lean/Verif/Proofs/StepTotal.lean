import Verif.Proofs.Total
import Verif.Proofs.Sleep
/- When `step` and collision detection cannot panic. -/
set_option linter.unusedSectionVars false
set_option linter.unusedSimpArgs false
namespace Fluffy
variable {α : Type} [Scalar α] {γ : Type}

theorem index_ok {τ : Type} {l : List τ} {i : Nat} (h : i < l.length) : ∃ x, index l i = .ok x :=
  ⟨l[i], index_eq_ok.mpr (List.getElem?_eq_getElem h)⟩

/-- The indices of a mesh are in range and its faces have at least three corners. -/
structure MeshCollider.Good (m : MeshCollider α) : Prop where
  edges : ∀ e ∈ m.edges, e.1 < m.vertices.length ∧ e.2 < m.vertices.length
  faces : ∀ f ∈ m.faces, 3 ≤ f.length ∧ ∀ i ∈ f, i < m.vertices.length

def Collider.Good : Collider α → Prop
  | .mesh m => m.Good
  | _ => True

def Collider.IsMesh : Collider α → Prop
  | .mesh _ => True
  | _ => False

theorem considerEdges_ok {r : α} {c m : Vec3 α} {vs : List (Vec3 α)} {m2 : Vec3 α} :
    ∀ (es : List (Nat × Nat)) (acc : Earliest α), (∀ e ∈ es, e.1 < vs.length ∧ e.2 < vs.length) →
    ∃ acc', considerEdges r c m vs m2 es acc = .ok acc'
  | [], acc, _ => ⟨acc, rfl⟩
  | (i, j) :: es, acc, h => by
    obtain ⟨h1, h2⟩ := h (i, j) (by simp)
    obtain ⟨a, ha⟩ := index_ok h1
    obtain ⟨b, hb⟩ := index_ok h2
    unfold considerEdges
    rw [ha, hb]
    exact considerEdges_ok es _ (fun e he => h e (by simp [he]))

theorem faceCorners_ok {vs : List (Vec3 α)} : ∀ (f : List Nat), (∀ i ∈ f, i < vs.length) →
    ∃ cs, faceCorners vs f = .ok cs ∧ cs.length = f.length
  | [], _ => ⟨[], rfl, rfl⟩
  | i :: f, h => by
    obtain ⟨a, ha⟩ := index_ok (h i (by simp))
    obtain ⟨cs, hc, hl⟩ := faceCorners_ok f (fun j hj => h j (by simp [hj]))
    unfold faceCorners
    rw [ha, hc]
    exact ⟨_, rfl, by simp [hl]⟩

theorem collideSpherePolygon_ok {r : α} {c m m2 : Vec3 α} {cs : List (Vec3 α)} (h : 3 ≤ cs.length) :
    ∃ x, collideSpherePolygon r c m cs m2 = .ok x := by
  match cs, h with
  | a :: b :: d :: rest, _ =>
    unfold collideSpherePolygon
    simp only
    split
    · split <;> exact ⟨_, rfl⟩
    · exact ⟨_, rfl⟩

theorem considerFaces_ok {r : α} {c m : Vec3 α} {vs : List (Vec3 α)} {m2 : Vec3 α} :
    ∀ (fs : List (List Nat)) (acc : Earliest α), (∀ f ∈ fs, 3 ≤ f.length ∧ ∀ i ∈ f, i < vs.length) →
    ∃ acc', considerFaces r c m vs m2 fs acc = .ok acc'
  | [], acc, _ => ⟨acc, rfl⟩
  | f :: fs, acc, h => by
    obtain ⟨h1, h2⟩ := h f (by simp)
    obtain ⟨cs, hc, hl⟩ := faceCorners_ok f h2
    obtain ⟨x, hx⟩ := collideSpherePolygon_ok (r := r) (c := c) (m := m) (m2 := m2) (by rw [hl]; exact h1)
    unfold considerFaces
    rw [hc]
    simp only [Res.ok_bind]
    rw [hx]
    exact considerFaces_ok fs _ (fun e he => h e (by simp [he]))

theorem collideSphereMesh_ok {r : α} {c m m2 : Vec3 α} {vs : List (Vec3 α)} {es : List (Nat × Nat)}
    {fs : List (List Nat)} (he : ∀ e ∈ es, e.1 < vs.length ∧ e.2 < vs.length)
    (hf : ∀ f ∈ fs, 3 ≤ f.length ∧ ∀ i ∈ f, i < vs.length) : ∃ x, collideSphereMesh r c m vs es fs m2 = .ok x := by
  unfold collideSphereMesh
  obtain ⟨a, ha⟩ := considerEdges_ok (r := r) (c := c) (m := m) (m2 := m2) es
    (considerVertices r c m m2 vs Earliest.new) he
  obtain ⟨b, hb⟩ := considerFaces_ok (r := r) (c := c) (m := m) (m2 := m2) fs a hf
  simp only [ha, hb, Res.ok_bind]
  exact ⟨_, rfl⟩

theorem dispatchSphereMesh_ok {s : SphereCollider α} {o1 o2 o3 o4 : Orientation α} {m : MeshCollider α} (h : m.Good) :
    ∃ x, dispatchSphereMesh s o1 o2 m o3 o4 = .ok x := by
  unfold dispatchSphereMesh
  exact collideSphereMesh_ok (by simpa [MeshCollider.verticesInWorld] using h.edges)
    (by simpa [MeshCollider.verticesInWorld] using h.faces)

theorem collideSphereBox_ok {r : α} {c m a b : Vec3 α} : ∃ x, collideSphereBox r c m a b = .ok x := by
  unfold collideSphereBox
  obtain ⟨x, hx⟩ := considerEdges_ok (r := r) (c := c) (m := m) (m2 := Vec3.zeros) (vs := boxCorners a b) boxEdges
    ((Earliest.new).consider (boxSurfaceCollision r c m a b)) (by simp [boxEdges, boxCorners])
  simp only [hx, Res.ok_bind]
  exact ⟨_, rfl⟩

theorem dispatchSphereBox_ok {s : SphereCollider α} {o1 o2 o3 o4 : Orientation α} {b : BoxCollider α} :
    ∃ x, dispatchSphereBox s o1 o2 b o3 o4 = .ok x := by
  unfold dispatchSphereBox
  obtain ⟨x, hx⟩ := collideSphereBox_ok (r := s.radius) (c := o3.positionIntoLocal (o1.positionIntoWorld s.center))
    (m := o4.positionIntoLocal (o2.positionIntoWorld s.center) - o3.positionIntoLocal (o1.positionIntoWorld s.center))
    (a := b.minCorner) (b := b.maxCorner)
  simp only [hx, Res.ok_bind]
  exact ⟨_, rfl⟩

/-- Collision detection does not panic on well-formed colliders that are not both meshes. -/
theorem collide_ok {c1 c2 : Collider α} (h1 : c1.Good) (h2 : c2.Good) (hm : ¬(c1.IsMesh ∧ c2.IsMesh))
    (o1 o2 o3 o4 : Orientation α) : ∃ x, collide c1 o1 o2 c2 o3 o4 = .ok x := by
  unfold collide
  split
  · exact ⟨_, rfl⟩
  · exact ⟨_, rfl⟩
  · exact ⟨_, rfl⟩
  · exact dispatchSphereMesh_ok h2
  · rename_i m s
    obtain ⟨x, hx⟩ := dispatchSphereMesh_ok (s := s) (o1 := o3) (o2 := o4) (o3 := o1) (o4 := o2) h1
    rw [hx]; exact ⟨_, rfl⟩
  · exact ⟨_, rfl⟩
  · exact ⟨_, rfl⟩
  · exact absurd ⟨trivial, trivial⟩ hm
  · exact dispatchSphereBox_ok
  · rename_i b s
    obtain ⟨x, hx⟩ := dispatchSphereBox_ok (s := s) (b := b) (o1 := o3) (o2 := o4) (o3 := o1) (o4 := o2)
    rw [hx]; exact ⟨_, rfl⟩
  · exact ⟨_, rfl⟩

namespace Step
open InternalEntity

/-- All neighbours listed are live. -/
def NeighborsLive (a : Arena (InternalEntity α)) : Prop :=
  ∀ k E n, a.get k = some E → n ∈ E.neighbors → ∃ N, a.get n = some N

/-- Every collider of every entity exists and collision detection between different entities cannot panic. -/
def PairsSafe (w : World α) : Prop :=
  (∀ k E c, w.entities.get k = some E → c ∈ E.colliders → ∃ C, w.colliders.get c = some C) ∧
  ∀ k1 k2 E1 E2 c1 c2 C1 C2, k1 ≠ k2 → w.entities.get k1 = some E1 → w.entities.get k2 = some E2 → c1 ∈ E1.colliders →
    c2 ∈ E2.colliders → w.colliders.get c1 = some C1 → w.colliders.get c2 = some C2 →
    ∀ o1 o2 o3 o4, ∃ x, collide C1 o1 o2 C2 o3 o4 = .ok x

theorem PairsSafe.frame {w w' : World α} (h : PairsSafe w) (f : Frame w w') : PairsSafe w' := by
  constructor
  · intro k E c hE hc
    obtain ⟨E0, hE0, hr⟩ := f.entities.get' hE
    rw [f.colliders]
    exact h.1 k E0 c hE0 (by rw [hr] at hc; exact hc)
  · intro k1 k2 E1 E2 c1 c2 C1 C2 hne hE1 hE2 hc1 hc2 hC1 hC2
    obtain ⟨F1, hF1, hr1⟩ := f.entities.get' hE1
    obtain ⟨F2, hF2, hr2⟩ := f.entities.get' hE2
    rw [f.colliders] at hC1 hC2
    exact h.2 k1 k2 F1 F2 c1 c2 C1 C2 hne hF1 hF2 (by rw [hr1] at hc1; exact hc1) (by rw [hr2] at hc2; exact hc2) hC1 hC2

theorem considerPair_total {cs : Arena (Collider α)} {first second : InternalEntity α} {i1 i2 : StepInfo α}
    {n1 n2 : Nat} {ch1 ch2 : Handle} {C1 C2 : Collider α} (h1 : cs.get ch1 = some C1) (h2 : cs.get ch2 = some C2)
    (hc : ∀ o1 o2 o3 o4, ∃ x, collide C1 o1 o2 C2 o3 o4 = .ok x) (best : Option (Candidate α)) :
    ∃ b, considerPair cs first second i1 i2 n1 n2 ch1 ch2 best = .ok b := by
  unfold considerPair
  rw [h1, h2]
  simp only [unwrap_some, Res.ok_bind]
  obtain ⟨x, hx⟩ := hc first.orientation (first.orientation.afterAffected i1.linearMovement i1.angularMovement)
    second.orientation (second.orientation.afterAffected i2.linearMovement i2.angularMovement)
  rw [hx]
  simp only [Res.ok_bind]
  split
  · exact ⟨_, rfl⟩
  · split
    · exact ⟨_, rfl⟩
    · split <;> exact ⟨_, rfl⟩

theorem secondColliderLoop_total {cs : Arena (Collider α)} {first second : InternalEntity α} {i1 i2 : StepInfo α}
    {n1 n2 : Nat} {ch1 : Handle} : ∀ {l : List Handle} (best : Option (Candidate α)),
    (∀ ch2 ∈ l, ∃ C1 C2, cs.get ch1 = some C1 ∧ cs.get ch2 = some C2 ∧
      ∀ o1 o2 o3 o4, ∃ x, collide C1 o1 o2 C2 o3 o4 = .ok x) →
    ∃ b, secondColliderLoop cs first second i1 i2 n1 n2 ch1 l best = .ok b
  | [], best, _ => ⟨best, rfl⟩
  | ch2 :: l, best, h => by
    obtain ⟨C1, C2, h1, h2, hc⟩ := h ch2 (by simp)
    obtain ⟨b, hb⟩ := considerPair_total (first := first) (second := second) (i1 := i1) (i2 := i2) (n1 := n1) (n2 := n2)
      h1 h2 hc best
    unfold secondColliderLoop
    rw [hb]
    exact secondColliderLoop_total b (fun x hx => h x (by simp [hx]))

theorem firstColliderLoop_total {cs : Arena (Collider α)} {first second : InternalEntity α} {i1 i2 : StepInfo α}
    {n1 n2 : Nat} {order2 : List Handle} : ∀ {l : List Handle} (best : Option (Candidate α)),
    (∀ ch1 ∈ l, ∀ ch2 ∈ order2, ∃ C1 C2, cs.get ch1 = some C1 ∧ cs.get ch2 = some C2 ∧
      ∀ o1 o2 o3 o4, ∃ x, collide C1 o1 o2 C2 o3 o4 = .ok x) →
    ∃ b, firstColliderLoop cs first second i1 i2 n1 n2 order2 l best = .ok b
  | [], best, _ => ⟨best, rfl⟩
  | ch1 :: l, best, h => by
    obtain ⟨b, hb⟩ := secondColliderLoop_total (first := first) (second := second) (i1 := i1) (i2 := i2) (n1 := n1)
      (n2 := n2) best (h ch1 (by simp))
    unfold firstColliderLoop
    rw [hb]
    exact firstColliderLoop_total b (fun x hx => h x (by simp [hx]))

theorem searchPair_total {ord : IterOrder} {w : World α} {i1 i2 : StepInfo α} {n1 n2 : Nat} (hw : PairsSafe w)
    (hne : i1.handle ≠ i2.handle) (h1 : ∃ e, w.entities.get i1.handle = some e)
    (h2 : ∃ e, w.entities.get i2.handle = some e) (best : Option (Candidate α)) :
    ∃ b, searchPair ord w i1 i2 n1 n2 best = .ok b := by
  obtain ⟨e1, he1⟩ := h1
  obtain ⟨e2, he2⟩ := h2
  have hg : get2 w.entities i1.handle i2.handle = .ok (e1, e2) := get2_eq_ok.mpr ⟨hne, he1, he2⟩
  unfold searchPair
  rw [hg]
  simp only [Res.ok_bind]
  split
  · exact ⟨_, rfl⟩
  · split
    · exact ⟨_, rfl⟩
    · refine firstColliderLoop_total best ?_
      intro ch1 hc1 ch2 hc2
      rw [(ord.colliders_perm _ _).mem_iff] at hc1 hc2
      obtain ⟨C1, hC1⟩ := hw.1 _ _ _ he1 hc1
      obtain ⟨C2, hC2⟩ := hw.1 _ _ _ he2 hc2
      exact ⟨C1, C2, hC1, hC2, hw.2 _ _ _ _ _ _ _ _ hne he1 he2 hc1 hc2 hC1 hC2⟩

theorem searchSecond_total {ord : IterOrder} {w : World α} {i1 : StepInfo α} {n1 : Nat} (hw : PairsSafe w)
    (h1 : ∃ e, w.entities.get i1.handle = some e) : ∀ {l : List (StepInfo α)} (n2 : Nat) (best : Option (Candidate α)),
    (∀ i2 ∈ l, i1.handle ≠ i2.handle ∧ ∃ e, w.entities.get i2.handle = some e) →
    ∃ b, searchSecond ord w i1 n1 n2 l best = .ok b
  | [], n2, best, _ => ⟨best, rfl⟩
  | i2 :: l, n2, best, h => by
    obtain ⟨b, hb⟩ := searchPair_total (ord := ord) (n1 := n1) (n2 := n2) hw (h i2 (by simp)).1 h1 (h i2 (by simp)).2 best
    unfold searchSecond
    rw [hb]
    exact searchSecond_total hw h1 _ b (fun x hx => h x (by simp [hx]))

theorem searchFirst_total {ord : IterOrder} {w : World α} (hw : PairsSafe w) :
    ∀ {l : List (StepInfo α)} (n1 : Nat) (best : Option (Candidate α)), (l.map StepInfo.handle).Nodup →
    (∀ i ∈ l, ∃ e, w.entities.get i.handle = some e) → ∃ b, searchFirst ord w n1 l best = .ok b
  | [], n1, best, _, _ => ⟨best, rfl⟩
  | i1 :: l, n1, best, hnd, h => by
    rw [List.map_cons, List.nodup_cons] at hnd
    obtain ⟨b, hb⟩ := searchSecond_total (ord := ord) (n1 := n1) hw (h i1 (by simp)) (n1 + 1) best (l := l) (by
      intro i2 hi2
      refine ⟨fun hc => hnd.1 ?_, h i2 (by simp [hi2])⟩
      rw [hc]; exact List.mem_map_of_mem hi2)
    unfold searchFirst
    rw [hb]
    exact searchFirst_total hw _ b hnd.2 (fun x hx => h x (by simp [hx]))

theorem wakeUp_neighborsLive {ord : IterOrder} {start : Handle} {a b : Arena (InternalEntity α)} {d d' : List DebugMsg}
    (h : wakeUp ord start a d = .ok (b, d')) (hn : NeighborsLive a) : NeighborsLive b := by
  obtain ⟨h1, h2, -⟩ := wakeUp_spec h
  intro k E n hE hm
  obtain ⟨E0, hE0, -⟩ := h1.get' hE
  obtain ⟨-, -, hs⟩ := h2 k E0 E hE0 hE
  obtain ⟨N, hN⟩ := hn k E0 n hE0 (hs.subset hm)
  obtain ⟨N', hN', -⟩ := h1.get hN
  exact ⟨N', hN'⟩

theorem wakeIfFinite_total {ord : IterOrder} {h : Handle} {w : World α} (hl : ∃ e, w.entities.get h = some e)
    (hn : NeighborsLive w.entities) : ∃ w', wakeIfFinite ord h w = .ok w' ∧ NeighborsLive w'.entities := by
  obtain ⟨e, he⟩ := hl
  obtain ⟨b, d, hb⟩ := wakeUp_ok (ord := ord) (start := h) (a := w.entities) w.debug ⟨e, he⟩
    (fun t x n _ hx hm => hn t x n hx hm)
  unfold wakeIfFinite
  rw [he]
  simp only [unwrap_some, Res.ok_bind]
  split
  · rw [hb]; exact ⟨_, rfl, wakeUp_neighborsLive hb hn⟩
  · exact ⟨_, rfl, hn⟩

theorem wakeColliding_total {ord : IterOrder} {best : Option (Candidate α)} {w : World α}
    (hl : ∀ k, best = some k → (∃ e, w.entities.get k.firstHandle = some e) ∧ ∃ e, w.entities.get k.secondHandle = some e)
    (hn : NeighborsLive w.entities) : ∃ w', wakeColliding ord best w = .ok w' ∧ NeighborsLive w'.entities := by
  unfold wakeColliding
  split
  · exact ⟨w, rfl, hn⟩
  · rename_i k
    obtain ⟨l1, l2⟩ := hl k rfl
    obtain ⟨m, hm, hnm⟩ := wakeIfFinite_total (ord := ord) l1 hn
    obtain ⟨e2, he2⟩ := l2
    obtain ⟨e2', he2', -⟩ := (wakeIfFinite_evolves hm).2.get he2
    obtain ⟨m', hm', hnm'⟩ := wakeIfFinite_total (ord := ord) ⟨e2', he2'⟩ hnm
    rw [hm]
    exact ⟨m', hm', hnm'⟩

theorem advanceLoop_total {percent : α} : ∀ {l : List (StepInfo α)} {a : Arena (InternalEntity α)},
    (∀ i ∈ l, ∃ e, a.get i.handle = some e) → ∃ r, advanceLoop percent l a = .ok r
  | [], a, _ => ⟨_, rfl⟩
  | i :: l, a, h => by
    obtain ⟨e, he⟩ := h i (by simp)
    have lv : ∀ {v : InternalEntity α}, ∀ j ∈ l, ∃ x, (a.set i.handle v).get j.handle = some x := by
      intro v j hj
      obtain ⟨x, hx⟩ := h j (by simp [hj])
      rw [Arena.get_set]
      split
      · exact ⟨_, by rw [he]; rfl⟩
      · exact ⟨x, hx⟩
    unfold advanceLoop
    rw [he]
    simp only [unwrap_some, Res.ok_bind]
    split
    · obtain ⟨r, hr⟩ := advanceLoop_total (percent := percent) (l := l) lv
      rw [hr]; exact ⟨_, rfl⟩
    · obtain ⟨r, hr⟩ := advanceLoop_total (percent := percent) (l := l) (a := a) (fun j hj => h j (by simp [hj]))
      rw [hr]; exact ⟨_, rfl⟩

theorem advance_total {best : Option (Candidate α)} {st : LoopState α}
    (h : ∀ i ∈ st.infos, ∃ e, st.world.entities.get i.handle = some e) : ∃ st', advance best st = .ok st' := by
  obtain ⟨r, hr⟩ := advanceLoop_total (percent := percentOf best) h
  unfold advance
  simp only [hr, Res.ok_bind]; exact ⟨_, rfl⟩

theorem respond_total {dt : α} {k : Candidate α} {st : LoopState α} (hne : k.firstHandle ≠ k.secondHandle)
    (h1 : ∃ e, st.world.entities.get k.firstHandle = some e) (h2 : ∃ e, st.world.entities.get k.secondHandle = some e)
    (i1 : ∃ i, st.infos[k.firstIndex]? = some i) (i2 : ∃ i, st.infos[k.secondIndex]? = some i) :
    ∃ st', respond dt k st = .ok st' := by
  obtain ⟨e1, h1⟩ := h1
  obtain ⟨e2, h2⟩ := h2
  obtain ⟨i1, hi1⟩ := i1
  obtain ⟨i2, hi2⟩ := i2
  unfold respond
  have hg : get2 st.world.entities k.firstHandle k.secondHandle = .ok (e1, e2) := get2_eq_ok.mpr ⟨hne, h1, h2⟩
  rw [hg, index_eq_ok.mpr hi1, index_eq_ok.mpr hi2]
  exact ⟨_, rfl⟩

theorem NeighborsLive.of_eq {a b : Arena (InternalEntity α)} (hn : NeighborsLive a)
    (h : ∀ k e', b.get k = some e' → ∃ e, a.get k = some e ∧ e'.neighbors = e.neighbors)
    (hl : ∀ k e, a.get k = some e → ∃ e', b.get k = some e') : NeighborsLive b := by
  intro k E n hE hm
  obtain ⟨e, he, hh⟩ := h k E hE
  rw [hh] at hm
  obtain ⟨N, hN⟩ := hn k e n he hm
  exact hl n N hN

theorem iterate_total {ord : IterOrder} {dt : α} {w0 : World α} {hs : List Handle} (hnd : hs.Nodup)
    (hw0 : PairsSafe w0) : ∀ (n : Nat) {st : LoopState α}, LoopInv w0 hs st → NeighborsLive st.world.entities →
    ∃ st' c, iterate ord dt n st = .ok (st', c) ∧ NeighborsLive st'.world.entities
  | 0, st, _, hn => ⟨st, false, rfl, hn⟩
  | n + 1, st, inv, hn => by
    have hnd' : (st.infos.map StepInfo.handle).Nodup := by rw [inv.handles]; exact hnd
    have hlive : ∀ i ∈ st.infos, ∃ e, st.world.entities.get i.handle = some e := by
      intro i hi
      exact inv.live _ (by rw [← inv.handles]; exact List.mem_map_of_mem hi)
    obtain ⟨best, h1⟩ := searchFirst_total (ord := ord) (hw0.frame inv.frame) 0 none hnd' hlive
    obtain ⟨w, h2, hnw⟩ := wakeColliding_total (ord := ord) (best := best) (w := st.world) (by
      rintro k rfl
      obtain ⟨-, -, -, -, -, -, -, -, f, g, hf, hg⟩ := (searchFirst_contact h1).indices
      exact ⟨⟨f, hf⟩, g, hg⟩) hn
    have fw := frame_wake h2
    obtain ⟨st1, h3⟩ := advance_total (best := best) (st := { st with world := w }) (by
      intro i hi
      obtain ⟨e, he⟩ := hlive i hi
      obtain ⟨e', he', -⟩ := fw.entities.get he
      exact ⟨e', he'⟩)
    obtain ⟨b1, b2⟩ := loopInv_body (dt := dt) hnd inv h1 h2 h3
    have fa := frame_advance (st := { st with world := w }) hnd' h3
    have hn1 : NeighborsLive st1.world.entities := hnw.of_eq
      (System.advance_neighbors (st := { st with world := w }) hnd' h3) (fun k e he => by
        obtain ⟨e', he', -⟩ := fa.entities.get he; exact ⟨e', he'⟩)
    unfold iterate
    rw [h1]; simp only [Res.ok_bind]
    rw [h2]; simp only [Res.ok_bind]
    rw [h3]; simp only [Res.ok_bind]
    cases best with
    | none => exact ⟨st1, true, rfl, hn1⟩
    | some k =>
      simp only
      obtain ⟨⟨i1, i2, g1, g2, g3, g4⟩, -⟩ := contact_infos hnd' h1 h3
      obtain ⟨-, hne, -, -, -, -, -, -, f, g, hf, hg⟩ := (searchFirst_contact h1).indices
      obtain ⟨f', hf', -⟩ := (fw.trans fa).entities.get hf
      obtain ⟨g', hg', -⟩ := (fw.trans fa).entities.get hg
      obtain ⟨st2, h4⟩ := respond_total (dt := dt) hne ⟨f', hf'⟩ ⟨g', hg'⟩ ⟨i1, g1⟩ ⟨i2, g2⟩
      rw [h4]; simp only [Res.ok_bind]
      have fr := frame_respond h4
      exact iterate_total hnd hw0 n (b2 k st2 rfl h4) (hn1.of_eq (System.respond_neighbors h4) (fun k e he => by
        obtain ⟨e', he', -⟩ := fr.entities.get he; exact ⟨e', he'⟩))

theorem sleepOne_total {ord : IterOrder} {dt : α} {i : StepInfo α} {w : World α}
    (h : ∃ e, w.entities.get i.handle = some e) (hi : ∀ n ∈ i.neighbors, ∃ e, w.entities.get n = some e) :
    ∃ w', sleepOne ord dt i w = .ok w' := by
  obtain ⟨e, he⟩ := h
  unfold sleepOne
  rw [he]
  simp only [unwrap_some, Res.ok_bind]
  split
  · exact ⟨_, rfl⟩
  · split
    · exact ⟨_, rfl⟩
    · generalize (if e.fallingAsleep = true then e.fallingAsleepTime + dt else e.fallingAsleepTime) = time
      split
      · exact ⟨_, rfl⟩
      · obtain ⟨b, hb⟩ := linkNeighbors_ok (h := i.handle) (l := ord.stepNeighbors i.handle i.neighbors)
          (w.entities.set i.handle
            { orientation := e.orientation, ownMass := e.ownMass, totalMass := e.totalMass,
              preppedMoment := e.preppedMoment, velocity := e.velocity, angularVelocity := e.angularVelocity,
              colliders := e.colliders, fallingAsleep := true, fallingAsleepTime := time, asleep := true,
              neighbors := i.neighbors }) (by
          intro n hn
          rw [(ord.stepNeighbors_perm _ _).mem_iff] at hn
          obtain ⟨x, hx⟩ := hi n hn
          rw [Arena.get_set]
          split
          · exact ⟨_, by rw [he]; rfl⟩
          · exact ⟨x, hx⟩)
        rw [hb]; exact ⟨_, rfl⟩

theorem sleepLoop_total {ord : IterOrder} {dt : α} : ∀ {l : List (StepInfo α)} {w : World α},
    (∀ i ∈ l, i.handle ∉ i.neighbors ∧ (∃ e, w.entities.get i.handle = some e) ∧
      ∀ n ∈ i.neighbors, ∃ e, w.entities.get n = some e) → NeighborsLive w.entities →
    ∃ w', sleepLoop ord dt l w = .ok w' ∧ NeighborsLive w'.entities
  | [], w, _, hn => ⟨w, rfl, hn⟩
  | i :: l, w, h, hn => by
    obtain ⟨h1, h2, h3⟩ := h i (by simp)
    obtain ⟨m, hm⟩ := sleepOne_total (ord := ord) (dt := dt) h2 h3
    have fr := sleepOne_frame h1 hm
    have lv : ∀ {n}, (∃ e, w.entities.get n = some e) → ∃ e, m.entities.get n = some e := by
      rintro n ⟨e, he⟩
      obtain ⟨e', he', -⟩ := fr.entities.get he
      exact ⟨e', he'⟩
    unfold sleepLoop
    rw [hm]; simp only [Res.ok_bind]
    refine sleepLoop_total (fun j hj => ?_) ?_
    · obtain ⟨a1, a2, a3⟩ := h j (by simp [hj])
      exact ⟨a1, lv a2, fun n hn => lv (a3 n hn)⟩
    · obtain ⟨-, -, ⟨e, e', he, he', -, g1, g2, ho⟩, -⟩ := sleepOne_spec h1 hm
      intro k E n hE hmem
      obtain ⟨E0, hE0, -⟩ := fr.entities.get' hE
      apply lv
      by_cases hk : k = i.handle
      · subst hk
        rw [he] at hE0; rw [he'] at hE; cases hE0; cases hE
        cases ha : e.asleep with
        | true => rw [g2 (Or.inl ha)] at hmem; exact hn _ _ _ he hmem
        | false =>
          cases hb : e'.asleep with
          | true => rw [g1 ha hb] at hmem; exact h3 n hmem
          | false => rw [g2 (Or.inr hb)] at hmem; exact hn _ _ _ he hmem
      · rw [(ho k E0 E hk hE0 hE).2] at hmem
        split at hmem
        · rcases mem_hsInsert.mp hmem with hmem | rfl
          · exact hn _ _ _ hE0 hmem
          · exact h2
        · exact hn _ _ _ hE0 hmem

/-- A force generator that does not panic when asked about a live entity. -/
class SafeGenerator (α : Type) [Scalar α] (γ : Type) [ForceGenerator α γ] : Prop where
  ok : ∀ (g : γ) (dt : α) (w : World α) (h : Handle), (∃ e, w.entities.get h = some e) →
    ∃ r, ForceGenerator.makeForce g dt w h = .ok r

instance : SafeGenerator α (GravityGenerator α) where
  ok g dt w h hh := by
    obtain ⟨e, he⟩ := hh
    simp only [ForceGenerator.makeForce, World.getEntity, he]
    exact ⟨_, rfl⟩

variable [ForceGenerator α γ] [SafeGenerator α γ]

theorem generatorLoop_total {dt : α} {w : World α} {h : Handle} {copy : Entity α} (hh : ∃ e, w.entities.get h = some e) :
    ∀ {l : List Handle} {g : Arena γ} (a t : Vec3 α), (∀ x ∈ l, ∃ v, g.get x = some v) →
    ∃ r, generatorLoop dt w h copy l g a t = .ok r
  | [], g, a, t, _ => ⟨_, rfl⟩
  | x :: l, g, a, t, hl => by
    obtain ⟨v, hv⟩ := hl x (by simp)
    obtain ⟨⟨f, v'⟩, hf⟩ := SafeGenerator.ok v dt w h hh
    unfold generatorLoop
    rw [hv]; simp only [unwrap_some, Res.ok_bind]
    rw [hf]; simp only [Res.ok_bind]
    refine generatorLoop_total hh _ _ (fun y hy => ?_)
    obtain ⟨u, hu⟩ := hl y (by simp [hy])
    rw [Arena.get_set]
    split
    · exact ⟨_, by rw [hv]; rfl⟩
    · exact ⟨u, hu⟩

theorem integrateOne_total {dt : α} {gens : List Handle} {s : System α γ} {h : Handle}
    (hh : ∃ e, s.entities.get h = some e) (hg : ∀ x ∈ gens, ∃ v, s.generators.get x = some v) :
    ∃ r, integrateOne dt gens s h = .ok r := by
  obtain ⟨e, he⟩ := hh
  unfold integrateOne
  have : s.getEntity h = some e.makePub := by unfold World.getEntity; rw [he]; rfl
  rw [this]; simp only [unwrap_some, Res.ok_bind]
  obtain ⟨⟨g, a, t⟩, hr⟩ := generatorLoop_total (dt := dt) (w := s.toWorld) (h := h) (copy := e.makePub) ⟨e, he⟩ Vec3.zeros
    Vec3.zeros hg
  split
  · rw [hr]; simp only [Res.ok_bind]; rw [he]; exact ⟨_, rfl⟩
  · rw [he]; exact ⟨_, rfl⟩

theorem integrateAll_total {dt : α} {gens : List Handle} : ∀ {l : List Handle} {s : System α γ},
    (∀ h ∈ l, ∃ e, s.entities.get h = some e) → (∀ x ∈ gens, ∃ v, s.generators.get x = some v) →
    ∃ r, integrateAll dt gens l s = .ok r
  | [], s, _, _ => ⟨_, rfl⟩
  | h :: l, s, hl, hg => by
    obtain ⟨⟨m, i⟩, hm⟩ := integrateOne_total (dt := dt) (hl h (by simp)) hg
    obtain ⟨e, g, a, t, he, hacc, rfl, -⟩ := integrateOne_spec hm
    have hsh := accelerates_shape hacc
    obtain ⟨r, hr⟩ := integrateAll_total (dt := dt) (gens := gens) (l := l)
      (s := { s with generators := g, entities := s.entities.set h (integrateVelocity dt a t e) }) (by
        intro k hk
        obtain ⟨x, hx⟩ := hl k (by simp [hk])
        simp only [Arena.get_set]
        split
        · exact ⟨_, by rw [he]; rfl⟩
        · exact ⟨x, hx⟩) (by
        intro x hx
        obtain ⟨v, hv⟩ := hg x hx
        have := hsh.isSome x
        rw [hv] at this
        exact Option.isSome_iff_exists.mp this)
    unfold integrateAll
    rw [hm]; simp only [Res.ok_bind]
    rw [hr]
    exact ⟨_, rfl⟩

/-- `step` does not panic when all neighbours are live and collision detection cannot panic; and the neighbours stay
live. -/
theorem step_total {ord : IterOrder} {s : System α γ} (dt : α) (hn : NeighborsLive s.entities)
    (hp : PairsSafe s.toWorld) : ∃ s', s.step ord dt = .ok s' ∧ NeighborsLive s'.entities := by
  unfold System.step
  split
  · exact ⟨s, rfl, hn⟩
  · obtain ⟨⟨mid, infos⟩, h1⟩ := integrateAll_total (dt := dt) (gens := s.generators.handles) (l := s.entities.handles)
      (s := { s with collisionRecords := [], debug := [] }) (fun h hh => Arena.mem_handles.mp hh)
      (fun h hh => Arena.mem_handles.mp hh)
    obtain ⟨k1, k2, k3, k4, k5, k6⟩ := integrateAll_spec (Arena.handles_nodup _) h1
    have f : Frame s.toWorld mid.toWorld := by
      refine ⟨k3.mono (fun _ _ => VelRel.static), ?_, ?_, ?_, ?_⟩ <;> rw [k1]
    have inv0 : LoopInv s.toWorld s.entities.handles ⟨mid.toWorld, infos, dt, zero⟩ := by
      refine ⟨f, k5, f.live (fun x hx => Arena.mem_handles.mp hx), ?_⟩
      intro i hi
      obtain ⟨e, -, he⟩ := k6 i hi
      have : i.neighbors = [] := by rw [he]
      rw [this]; simp
    have hnm : NeighborsLive mid.entities := hn.of_eq (fun k e' he' => by
        obtain ⟨e, he, hr⟩ := k3.get' he'
        exact ⟨e, he, by rw [hr]⟩) (fun k e he => by
        obtain ⟨e', he', -⟩ := k3.get he; exact ⟨e', he'⟩)
    obtain ⟨st, c, h2, hnf⟩ := iterate_total (ord := ord) (dt := dt) (Arena.handles_nodup _) hp mid.iterationMax inv0 hnm
    have inv := iterate_inv (Arena.handles_nodup _) inv0 h2
    have hent : (if c then st.world else { st.world with debug := st.world.debug ++ [.ranOut] }).entities =
        st.world.entities := by split <;> rfl
    obtain ⟨w, h3, hnw⟩ := sleepLoop_total (ord := ord) (dt := dt) (l := st.infos)
      (w := if c then st.world else { st.world with debug := st.world.debug ++ [.ranOut] }) (by
        rw [hent]
        intro i hi
        refine ⟨fun hc => ((inv.neighbors i hi).2 _ hc).2 rfl,
          inv.live _ (by rw [← inv.handles]; exact List.mem_map_of_mem hi),
          fun n hn => inv.live _ ((inv.neighbors i hi).2 n hn).1⟩) (by rw [hent]; exact hnf)
    simp only
    rw [h1]; simp only [Res.ok_bind]
    rw [h2]; simp only [Res.ok_bind]
    rw [h3]
    exact ⟨_, rfl, hnw⟩

end Step
end Fluffy
