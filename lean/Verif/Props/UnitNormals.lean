import Verif.Props.Planes
import Verif.Props.Earliest
import Verif.Props.Polygon
import Verif.Num.MassState
import Verif.Props.Through
import Verif.Props.Conserve
/-
C68: the normals of reported contacts are unit vectors.
-/
set_option linter.unusedSectionVars false
set_option linter.unusedSimpArgs false
namespace Fluffy.Props
open Fluffy XReal Step

/-! ### Vectors that are unit vectors unless they hold a value that is not finite -/

/-- The vector has length one, unless one of its numbers is not finite. -/
def UnitIfFinite (n : Vec3 XReal) : Prop := Finite3 n → UnitVec n

theorem UnitVec.toIf {n : Vec3 XReal} (h : UnitVec n) : UnitIfFinite n := fun _ => h

theorem fin_of_div_posInf {a : XReal} (h : Scalar.isFinite (a / posInf) = true) : Scalar.isFinite a = true := by
  cases a with
  | fin r => rfl
  | nan => simp at h
  | posInf => exact absurd h (by decide)
  | negInf => exact absurd h (by decide)

theorem normalize_unit (v : Vec3 XReal) : UnitIfFinite v.normalize := by
  by_cases hv : Finite3 v
  · obtain ⟨a, rfl⟩ := hv.f
    by_cases ha : a = .o
    · subst ha
      intro h
      rw [f_normalize_zero] at h
      have := h.1
      simp at this
    · rw [Vec3.f_normalize ha]
      exact ((unitVec_f _).mpr (Vec3.unit_normalize ha)).toIf
  · intro h
    exfalso
    obtain ⟨h1, h2, h3⟩ := h
    simp only [Vec3.normalize, Vec3.unscale, Vec3.magnitude] at h1 h2 h3
    cases hd : v.dot v with
    | fin d =>
      have hd : Scalar.isFinite (v.dot v) = true := by rw [hd]; rfl
      simp only [Vec3.dot] at hd
      have a := XReal.fin_of_add hd
      have b := XReal.fin_of_add a.1
      exact hv ⟨(XReal.fin_of_mul b.1).1, (XReal.fin_of_mul b.2).1, (XReal.fin_of_mul a.2).1⟩
    | nan => rw [hd] at h1; simp at h1
    | negInf => rw [hd] at h1; rw [show Scalar.sqrt (negInf : XReal) = nan from rfl] at h1; simp at h1
    | posInf =>
      rw [hd, show Scalar.sqrt (posInf : XReal) = posInf from rfl] at h1 h2 h3
      exact hv ⟨fin_of_div_posInf h1, fin_of_div_posInf h2, fin_of_div_posInf h3⟩

theorem UnitIfFinite.neg {n : Vec3 XReal} (h : UnitIfFinite n) : UnitIfFinite (-n) := by
  rintro ⟨h1, h2, h3⟩
  have e : ∀ x : XReal, Scalar.isFinite (-x) = true → Scalar.isFinite x = true := by intro x; cases x <;> exact id
  obtain ⟨a, ha⟩ := Finite3.f (v := n) ⟨e _ h1, e _ h2, e _ h3⟩
  subst ha
  have := (unitVec_f a).mp (h (finite3_f a))
  rw [Vec3.f_neg, unitVec_f]
  simpa [Vec3.dot_def] using this

theorem UnitIfFinite.signed {n : Vec3 XReal} (h : UnitIfFinite n) {x : ℝ} (hx : x * x = 1) : UnitIfFinite (n.scale (fin x)) := by
  rintro ⟨h1, h2, h3⟩
  obtain ⟨a, ha⟩ := Finite3.f (v := n) ⟨(XReal.fin_of_mul h1).1, (XReal.fin_of_mul h2).1, (XReal.fin_of_mul h3).1⟩
  subst ha
  have := (unitVec_f a).mp (h (finite3_f a))
  rw [Vec3.f_scale, unitVec_f]
  rw [Vec3.dot_def] at this ⊢
  simp
  linear_combination x * x * this + hx

theorem UnitIfFinite.scale_neg {n : Vec3 XReal} (h : UnitIfFinite n) : UnitIfFinite (n.scale (lit (-1) 1)) := by
  rw [show (lit (-1) 1 : XReal) = fin (-1) by simp]
  exact h.signed (by norm_num)

theorem UnitIfFinite.scale_one {n : Vec3 XReal} (h : UnitIfFinite n) : UnitIfFinite (n.scale one) := by
  rw [one_eq]
  exact h.signed (by norm_num)

theorem UnitIfFinite.rotate {n : Vec3 XReal} (h : UnitIfFinite n) {q : Quat XReal} (hq : ∀ r : Quat ℝ, q = r.f → r.normSq = 1) :
    UnitIfFinite (q.rotate n) := by
  intro hf
  obtain ⟨u, hu⟩ := hf.f
  obtain ⟨⟨r, hr⟩, ⟨a, ha⟩⟩ := Quat.fin_of_rotate hu
  have h1 := hq r hr
  subst hr; subst ha
  have := (unitVec_f a).mp (h (finite3_f a))
  rw [Quat.f_rotate, unitVec_f, Quat.rot_dot _ _ h1]
  exact this

/-- Interpolated poses turn unit vectors to unit vectors. -/
theorem UnitIfFinite.intoWorld {n : Vec3 XReal} (h : UnitIfFinite n) (t : XReal) (a b : Orientation XReal) :
    UnitIfFinite ((Orientation.lerp t a b).directionIntoWorld n) := by
  refine h.rotate ?_
  intro r hr
  have e : (((Orientation.lerp t a b).rotation.conj.mul Quat.identity).conj : Quat XReal) = r.f := hr
  have fc : ∀ {p : Quat XReal}, p.conj.Fin → p.Fin := by
    intro p hp
    rw [Quat.fin_iff] at hp ⊢
    have e : ∀ x : XReal, Scalar.isFinite (-x) = true → Scalar.isFinite x = true := by intro x; cases x <;> exact id
    exact ⟨hp.1, e _ hp.2.1, e _ hp.2.2.1, e _ hp.2.2.2⟩
  obtain ⟨t, ht⟩ := fc (Quat.fin_of_mul (fc ⟨r, e⟩)).1
  have hu := Quat.fromScaledAxis_unit ht
  rw [ht, Quat.f_conj, Quat.f_identity, Quat.f_mul, Quat.f_conj, Quat.f_inj] at e
  rw [← e]
  have : ((t.conj.mul Quat.e).conj).normSq = t.normSq := by
    simp [Quat.normSq, Quat.conj]
  rw [this]; exact hu

/-! ### The detectors -/

/-- The contact, if any, has a unit normal or one that is not finite. -/
def Sharp (c : Option (Collision XReal)) : Prop := ∀ x, c = some x → UnitIfFinite x.normal

theorem Sharp.none : Sharp none := fun _ h => by cases h
theorem Sharp.flip {c : Option (Collision XReal)} (h : Sharp c) : Sharp (c.map Collision.flip) := by
  intro x hx
  obtain ⟨y, rfl, rfl⟩ := Option.map_eq_some_iff.mp hx
  exact (h y rfl).scale_neg

theorem Sharp.consider {acc : Earliest XReal} {c : Option (Collision XReal)} (ha : Sharp acc.earliest) (hc : Sharp c) : Sharp (acc.consider c).earliest := by
  cases c with
  | none => exact ha
  | some c =>
    unfold Earliest.consider
    simp only
    split
    · exact hc
    · exact ha

theorem sharp_spherePlane {r : XReal} {c m p n q : Vec3 XReal} (hn : UnitIfFinite n) : Sharp (collideSpherePlane r c m p n q) := by
  intro x hx
  unfold collideSpherePlane at hx
  simp only at hx
  split at hx
  · cases hx; exact hn.neg
  · cases hx

theorem sharp_sphereSphere {r : XReal} {c m : Vec3 XReal} {r' : XReal} {p q : Vec3 XReal} : Sharp (collideSphereSphere r c m r' p q) := by
  intro x hx
  unfold collideSphereSphere at hx
  simp only at hx
  split at hx
  · cases hx; exact normalize_unit _
  · cases hx

theorem sharp_segment {r : XReal} {c m a b q : Vec3 XReal} : Sharp (collideSphereMidSegment r c m a b q) := by
  intro x hx
  unfold collideSphereMidSegment at hx
  simp only at hx
  split at hx
  · rename_i hit hl
    split at hx
    · cases hx
      unfold collideSphereLine at hl
      simp only at hl
      split at hl
      · cases hl; exact normalize_unit _
      · cases hl
    · cases hx
  · cases hx

theorem sharp_polygon {r : XReal} {c m : Vec3 XReal} {cs : List (Vec3 XReal)} {q : Vec3 XReal} {x : Option (Collision XReal)}
    (h : collideSpherePolygon r c m cs q = .ok x) : Sharp x := by
  unfold collideSpherePolygon at h
  split at h
  · simp only at h
    split at h
    · split at h
      · cases h
        intro y hy; cases hy; exact normalize_unit _
      · cases h; exact .none
    · cases h; exact .none
  · cases h

theorem sharp_edges {r : XReal} {c m : Vec3 XReal} {vs : List (Vec3 XReal)} {q : Vec3 XReal} (es : List (Nat × Nat)) {acc acc' : Earliest XReal}
    (h : considerEdges r c m vs q es acc = .ok acc') (ha : Sharp acc.earliest) : Sharp acc'.earliest := by
  induction es generalizing acc with
  | nil => unfold considerEdges at h; cases h; exact ha
  | cons e es ih =>
    obtain ⟨i, j⟩ := e
    unfold considerEdges at h
    obtain ⟨a, -, h⟩ := Res.bind_eq_ok.mp h
    obtain ⟨b, -, h⟩ := Res.bind_eq_ok.mp h
    exact ih h (ha.consider sharp_segment)

theorem sharp_vertices {r : XReal} {c m q : Vec3 XReal} (vs : List (Vec3 XReal)) {acc : Earliest XReal} (ha : Sharp acc.earliest) :
    Sharp (considerVertices r c m q vs acc).earliest := by
  induction vs generalizing acc with
  | nil => exact ha
  | cons v vs ih => exact ih (ha.consider sharp_sphereSphere)

theorem sharp_faces {r : XReal} {c m : Vec3 XReal} {vs : List (Vec3 XReal)} {q : Vec3 XReal} (fs : List (List Nat)) {acc acc' : Earliest XReal}
    (h : considerFaces r c m vs q fs acc = .ok acc') (ha : Sharp acc.earliest) : Sharp acc'.earliest := by
  induction fs generalizing acc with
  | nil => unfold considerFaces at h; cases h; exact ha
  | cons f fs ih =>
    unfold considerFaces at h
    obtain ⟨a, -, h⟩ := Res.bind_eq_ok.mp h
    obtain ⟨b, hb, h⟩ := Res.bind_eq_ok.mp h
    exact ih h (ha.consider (sharp_polygon hb))

theorem sharp_sphereMesh {s : SphereCollider XReal} {a b : Orientation XReal} {m : MeshCollider XReal} {a' b' : Orientation XReal}
    {x : Option (Collision XReal)} (h : dispatchSphereMesh s a b m a' b' = .ok x) : Sharp x := by
  unfold dispatchSphereMesh collideSphereMesh at h
  obtain ⟨acc, h1, h⟩ := Res.bind_eq_ok.mp h
  obtain ⟨acc', h2, h⟩ := Res.bind_eq_ok.mp h
  cases h
  exact sharp_faces _ h2 (sharp_edges _ h1 (sharp_vertices _ .none))

theorem sharp_meshPlane {m : MeshCollider XReal} {a b : Orientation XReal} {p : PlaneCollider XReal} {a' b' : Orientation XReal}
    (hn : UnitIfFinite p.normal) : Sharp (dispatchMeshPlane m a b p a' b') := by
  intro x hx
  unfold dispatchMeshPlane collideMeshPlane at hx
  simp only at hx
  split at hx
  · cases hx; exact hn.neg
  · cases hx

theorem unit_polygonLoop (l : List (Vec3 XReal × Vec3 XReal × Vec3 XReal)) {n : Vec3 XReal} (h : polygonNormalLoop l = .ok n) : UnitIfFinite n := by
  induction l with
  | nil => unfold polygonNormalLoop at h; cases h
  | cons t l ih =>
    obtain ⟨a, b, c⟩ := t
    unfold polygonNormalLoop at h
    simp only at h
    split at h
    · cases h; exact normalize_unit _
    · exact ih h

theorem unit_orient {a b p n : Vec3 XReal} (hn : UnitIfFinite n) : UnitIfFinite (orientNormal a b p n) := by
  unfold orientNormal
  simp only
  split
  · exact hn.scale_neg
  · split
    · split
      · exact hn.scale_neg
      · exact hn
    · exact hn

theorem sharp_pointPolygon {a b : Vec3 XReal} {l : List (Vec3 XReal)} {x : Option (Collision XReal)} (h : collidePointPolygon a b l = .ok x) :
    Sharp x := by
  unfold collidePointPolygon at h
  obtain ⟨n, hn, h⟩ := Res.bind_eq_ok.mp h
  obtain ⟨p0, -, h⟩ := Res.bind_eq_ok.mp h
  have hn : UnitIfFinite n := unit_polygonLoop _ hn
  simp only at h
  split at h
  · split at h
    · cases h; intro y hy; cases hy; exact hn
    · cases h; exact .none
  · split at h
    · cases h; exact .none
    · split at h
      · cases h; intro y hy; cases hy; exact unit_orient hn
      · cases h; exact .none

theorem sharp_pointFaces {p : Vec3 XReal × Vec3 XReal} {ps : List (Vec3 XReal × Vec3 XReal)} (fs : List (List Nat)) {acc acc' : Earliest XReal}
    (h : pointAgainstFaces p ps fs acc = .ok acc') (ha : Sharp acc.earliest) : Sharp acc'.earliest := by
  induction fs generalizing acc with
  | nil => unfold pointAgainstFaces at h; cases h; exact ha
  | cons f fs ih =>
    unfold pointAgainstFaces at h
    obtain ⟨a, -, h⟩ := Res.bind_eq_ok.mp h
    obtain ⟨b, hb, h⟩ := Res.bind_eq_ok.mp h
    exact ih h (ha.consider (sharp_pointPolygon hb))

theorem sharp_pointsFaces {ps : List (Vec3 XReal × Vec3 XReal)} {fs : List (List Nat)} (l : List (Vec3 XReal × Vec3 XReal)) {acc acc' : Earliest XReal}
    (h : pointsAgainstFaces ps fs l acc = .ok acc') (ha : Sharp acc.earliest) : Sharp acc'.earliest := by
  induction l generalizing acc with
  | nil => unfold pointsAgainstFaces at h; cases h; exact ha
  | cons p l ih =>
    unfold pointsAgainstFaces at h
    obtain ⟨a, h1, h⟩ := Res.bind_eq_ok.mp h
    exact ih h (sharp_pointFaces _ h1 ha)

theorem sharp_meshPoints {acc acc' : Earliest XReal} {ps : List (Vec3 XReal × Vec3 XReal)} {m : MeshCollider XReal} {qs : List (Vec3 XReal × Vec3 XReal)}
    {x : ℝ} (hx : x * x = 1) (h : collideMeshPointsFaces acc ps m qs (fin x) = .ok acc') (ha : Sharp acc.earliest) : Sharp acc'.earliest := by
  unfold collideMeshPointsFaces at h
  obtain ⟨a, h1, h⟩ := Res.bind_eq_ok.mp h
  have s := sharp_pointsFaces _ h1 .none
  simp only at h
  split at h
  · rename_i c hc
    cases h
    refine ha.consider ?_
    intro y hy
    cases hy
    have hcn := s c hc
    simp only
    split
    · exact hcn.scale_neg.signed hx
    · exact hcn.signed hx
  · cases h; exact ha

theorem sharp_meshMesh {m : MeshCollider XReal} {a b : Orientation XReal} {m' : MeshCollider XReal} {a' b' : Orientation XReal}
    {x : Option (Collision XReal)} (h : collideMeshMesh m a b m' a' b' = .ok x) : Sharp x := by
  unfold collideMeshMesh at h
  simp only [show (lit (-1) 1 : XReal) = fin (-1) by simp, one_eq] at h
  obtain ⟨acc, h1, h⟩ := Res.bind_eq_ok.mp h
  obtain ⟨acc', h2, h⟩ := Res.bind_eq_ok.mp h
  cases h
  exact sharp_meshPoints (by norm_num) h2 (sharp_meshPoints (by norm_num) h1 .none)

theorem unit_surface {c a b : Vec3 XReal} : UnitIfFinite (boxSurfaceNormal c a b) := by
  have e : ∀ x : XReal, Scalar.isFinite (Scalar.signum x) = true → Scalar.signum x * Scalar.signum x = fin 1 := by
    intro x hx
    cases x with
    | nan => exact absurd hx (by decide)
    | fin r => rw [fin_signum, fin_mul]; split <;> norm_num
    | posInf => show fin 1 * fin 1 = fin 1; rw [fin_mul]; norm_num
    | negInf => show fin (-1) * fin (-1) = fin 1; rw [fin_mul]; norm_num
  unfold boxSurfaceNormal
  simp only
  split <;> split <;> rintro ⟨h1, h2, h3⟩ <;> unfold UnitVec <;> simp only at h1 h2 h3 ⊢
  · rw [e _ h3]; simp
  · rw [e _ h2]; simp
  · rw [e _ h3]; simp
  · rw [e _ h1]; simp

theorem sharp_sphereBox {s : SphereCollider XReal} {a b : Orientation XReal} {m : BoxCollider XReal} {a' b' : Orientation XReal}
    {x : Option (Collision XReal)} (h : dispatchSphereBox s a b m a' b' = .ok x) : Sharp x := by
  unfold dispatchSphereBox at h
  obtain ⟨r, hr, h⟩ := Res.bind_eq_ok.mp h
  cases h
  have : Sharp r := by
    unfold collideSphereBox at hr
    obtain ⟨acc, h1, h⟩ := Res.bind_eq_ok.mp hr
    cases h
    refine sharp_vertices _ (sharp_edges _ h1 (Sharp.none.consider ?_))
    intro y hy
    unfold boxSurfaceCollision at hy
    simp only at hy
    split at hy
    · cases hy; exact unit_surface
    · cases hy
  intro y hy
  obtain ⟨z, rfl, rfl⟩ := Option.map_eq_some_iff.mp hy
  exact (this z rfl).intoWorld _ _ _

/-- The collider is no plane, or one whose normal is a unit vector. -/
def NormalOk (c : Collider XReal) : Prop := ∀ p, c = .plane p → UnitVec p.normal

/-- Any contact of any two colliders, in any poses, has a unit normal or one that is not finite. -/
theorem sharp_collide {c1 c2 : Collider XReal} (h1 : NormalOk c1) (h2 : NormalOk c2) {a b a' b' : Orientation XReal} {x : Option (Collision XReal)}
    (h : collide c1 a b c2 a' b' = .ok x) : Sharp x := by
  unfold collide at h
  split at h
  · cases h; exact sharp_sphereSphere
  · cases h; exact sharp_spherePlane (h2 _ rfl).toIf
  · cases h; exact (sharp_spherePlane (h1 _ rfl).toIf).flip
  · exact sharp_sphereMesh h
  · obtain ⟨r, hr, h⟩ := Res.bind_eq_ok.mp h
    cases h; exact (sharp_sphereMesh hr).flip
  · cases h; exact sharp_meshPlane (h2 _ rfl).toIf
  · cases h; exact (sharp_meshPlane (h1 _ rfl).toIf).flip
  · exact sharp_meshMesh h
  · exact sharp_sphereBox h
  · obtain ⟨r, hr, h⟩ := Res.bind_eq_ok.mp h
    cases h; exact (sharp_sphereBox hr).flip
  · cases h; exact .none

/-! ### Steps and histories -/

section
variable {γ : Type} [ForceGenerator XReal γ]

/-- **C68 (partial).** If the planes of the system have unit normals, the normal of every collision a step reports is a unit vector, unless it is not finite
at all (`C68_false` shows that this happens, `C68_long_false` that the planes must be restricted). -/
theorem C68_records_partial {s s' : System XReal γ} {ord : IterOrder} {dt : XReal} (hdt : Proper dt) (h : s.step ord dt = .ok s')
    (hp : ∀ k p, s.getCollider k = some (.plane p) → UnitVec p.normal) : ∀ r ∈ s'.collisionRecords, Finite3 r.normal → UnitVec r.normal := by
  intro r hr
  obtain ⟨i, hi⟩ := List.mem_iff_getElem?.mp hr
  obtain ⟨mid, infos, st, k, h1, h2, ⟨n, m, i1, i2, -, -, -, fe, se, -, -, -, -, -, c1, -, c2, -, C1, C2, C, g1, g2, hC, -, rfl⟩, -, -, -, -, -, hn, -⟩ :=
    C55_records hdt h hi
  obtain ⟨ph⟩ := step_phases hdt h
  have hint := ph.integrate
  rw [h1] at hint
  cases hint
  have hcol := (iterate_inv (Arena.handles_nodup _) ph.inv0 h2).frame.colliders
  rw [hcol] at g1 g2
  have ok : ∀ {j : Handle} {c : Collider XReal}, s.colliders.get j = some c → NormalOk c := by
    intro j c hj p e
    exact hp j p (by rw [getCollider_eq, hj, e])
  rw [hn]
  exact sharp_collide (ok g1) (ok g2) hC C rfl

/-- **C68 (partial), for whole histories:** so it is in every step of a history in which `add_collider` was given finite normals for planes and
`update_collider` unit normals. -/
theorem C68_history_partial {s s' : System XReal γ} {tr : List (Op XReal γ × Out γ)} (ht : Steps System.new tr s)
    (hadd : ∀ p out, (Op.addCollider (.plane p), out) ∈ tr → Finite3 p.normal)
    (hupd : ∀ k p out, (Op.updateCollider k (.plane p), out) ∈ tr → UnitVec p.normal)
    {ord : IterOrder} {dt : XReal} (hdt : Proper dt) (h : s.step ord dt = .ok s') : ∀ r ∈ s'.collisionRecords, Finite3 r.normal → UnitVec r.normal := by
  refine C68_records_partial hdt h ?_
  intro k p hk
  rcases C08_normal_partial ht k p hk with h | ⟨q, out, hq, e⟩ | ⟨q, out, hq, e⟩
  · exact h
  · rw [← e]; exact hupd k q out hq
  · exact absurd (hadd q out hq) e

end
end Fluffy.Props

namespace Fluffy.Scene
open XReal Demo Step Props InternalEntity
variable {γ : Type} [ForceGenerator XReal γ]

/-- The ground with a normal of length two. -/
noncomputable def longGround : PlaneCollider XReal :=
  { groundPlane with normal := (⟨0, 2, 0⟩ : Vec3 ℝ).f, material := ⟨fin 1, fin (1 / 4), fin 0, fin 0⟩ }

theorem longGround_valid : longGround.isValid = true := by
  have hl : (⟨0, 2, 0⟩ : Vec3 ℝ).len = 2 := by
    show Real.sqrt _ = 2
    rw [Vec3.dot_def, Real.sqrt_eq_iff_mul_self_eq] <;> norm_num
  simp only [PlaneCollider.isValid, longGround, groundPlane, Vec3.f_magnitude, hl, XReal.EPSILON_eq]
  simp; norm_num

/-- `update_collider` stores it. -/
theorem long_exec (a : InternalEntity XReal) (q w : Vec3 ℝ) (c : Collider XReal) (n : Nat) (e t : XReal) :
    (scene (γ := γ) a (dot posInf q w [h1] up) c ground n e t).exec .id (.updateCollider h1 (.plane longGround)) =
      .ok (scene a (dot posInf q w [h1] up) c (.plane longGround) n e t, .ok true) := by
  have hu : (ground.setEntity (some h1)).updateFrom (.plane longGround) = .updated ((Collider.plane longGround).setEntity (some h1)) := by
    simp only [ground, Collider.setEntity, Collider.updateFrom, longGround_valid]
    rfl
  have hrec := weightless (m := posInf) (c := (Collider.plane longGround).setEntity (some h1)) (Or.inr ⟨rfl, rfl⟩)
    (cs := two (c.setEntity (some h0)) ((Collider.plane longGround).setEntity (some h1))) (ch := h1) rfl q w
  have hent : (ground.setEntity (some h1)).entity = some h1 := rfl
  have hcs : (dot posInf q w [h1] up).colliders = [h1] := rfl
  simp only [System.exec, System.updateCollider, scene, two_get1, hu, hent, System.refreshEntity, IterOrder.id, hcs, two_set1, hrec, Res.ok_bind]

theorem long_contact : ∃ C : Collision XReal, collideSpherePlane (fin 1) (⟨0, 2, 0⟩ : Vec3 ℝ).f (⟨0, -2, 0⟩ : Vec3 ℝ).f (Vec3.o).f (⟨0, 2, 0⟩ : Vec3 ℝ).f (Vec3.o).f = some C ∧
    C.times.min = fin 0 ∧ C.position = (Vec3.o).f ∧ C.normal = (⟨0, -2, 0⟩ : Vec3 ℝ).f := by
  have e1 : ((⟨0, 2, 0⟩ : Vec3 ℝ) + (⟨0, 2, 0⟩ : Vec3 ℝ).scale (-1)) = .o := by ext <;> simp
  have e2 : ((⟨0, 2, 0⟩ : Vec3 ℝ) + (⟨0, 2, 0⟩ : Vec3 ℝ).scale 1).dot ⟨0, 2, 0⟩ = 8 := by simp [Vec3.dot_def]; norm_num
  have e3 : (Vec3.o : Vec3 ℝ).dot ⟨0, 2, 0⟩ = 0 := by simp [Vec3.dot_def]
  have e4 : (⟨0, -2, 0⟩ : Vec3 ℝ).dot ⟨0, 2, 0⟩ = -4 := by simp [Vec3.dot_def]; norm_num
  have hn : (-(⟨0, 2, 0⟩ : Vec3 ℝ)) = ⟨0, -2, 0⟩ := by ext <;> simp
  have ho : spherePlaneOverlapTime (fin 1) (⟨0, 2, 0⟩ : Vec3 ℝ).f (⟨0, -2, 0⟩ : Vec3 ℝ).f (Vec3.o).f (⟨0, 2, 0⟩ : Vec3 ℝ).f (Vec3.o).f true = ⟨fin 0, posInf⟩ := by
    unfold spherePlaneOverlapTime
    simp only [fin_neg, Vec3.f_scale, Vec3.f_add, Vec3.f_dot, e1, e2, e3, e4, fin_sub, if_true, inf_eq, neg_posInf]
    have r1 : Range.range (fin 0) (fin 8) = ⟨fin 0, fin 8⟩ := by simp [Range.range]
    have r2 : Range.range (fin 0) negInf = ⟨negInf, fin 0⟩ := by simp [Range.range]
    rw [r1, r2]
    have d1 : (fin 0 / fin 4 : XReal) = fin 0 := by rw [fin_div (by norm_num)]; norm_num
    have d2 : (fin 8 / fin 4 : XReal) = fin 2 := by rw [fin_div (by norm_num)]; norm_num
    have d3 : (posInf / fin 4 : XReal) = posInf := by show (if (0 : ℝ) ≤ 4 then posInf else negInf) = posInf; norm_num
    have h4 : (0 - -4 : ℝ) = 4 := by norm_num
    have m1 : ∀ a : ℝ, (fin a - negInf : XReal) = posInf := fun _ => rfl
    simp only [Range.linearOverlap, h4, fin_abs, XReal.EPSILON_eq, fin_lt, Range.min, Range.max, Range.isEmpty, isNaN_fin, m1, fin_sub, d1, d2, d3]
    norm_num
    rw [d1, d2, d3]
    simp [Range.range, Range.contain, Range.isEmpty]
  have hi : (⟨fin 0, posInf⟩ : Range XReal).intersect unitRange = ⟨fin 0, fin 1⟩ := by
    simp [Range.intersect, Range.isEmpty, unitRange, Range.range]
  refine ⟨⟨⟨fin 0, fin 1⟩, (Vec3.o).f, (⟨0, -2, 0⟩ : Vec3 ℝ).f⟩, ?_, rfl, rfl, rfl⟩
  unfold collideSpherePlane
  simp only [ho, hi, fin_neg, Vec3.f_scale, Vec3.f_add, e1]
  simp [Range.isEmpty, Range.min, hn]

end Fluffy.Scene

namespace Fluffy.Props
open Fluffy XReal InternalEntity Step Demo Scene
section
variable {γ : Type} [ForceGenerator XReal γ]

/-- **C68 is false:** two balls at rest in the same place make a contact without a normal, and it is reported. -/
theorem C68_false (G : γ → Prop) : ∃ (tr : List (Op XReal γ × Out γ)) (s s' : System XReal γ), Steps System.new tr s ∧ (∀ x ∈ tr, FiniteCall G x.1) ∧
    s.step .id (fin 1) = .ok s' ∧ ∃ r ∈ s'.collisionRecords, r.normal.x = nan ∧ r.normal.y = nan ∧ r.normal.z = nan := by
  obtain ⟨C, hC, ht, hp, hnn⟩ := concentric
  have hK := consider_balls 0 0 (mx (some 1)) (mx (some 1)) .o .o .o .o up up .o .o [] [] hC (fun C' h => by cases h; exact ⟨_, hp⟩)
  have hclose : Scalar.lt (((Vec3.o).f - (Vec3.o).f).dot C.normal) EPSILON = false := by simp [Vec3.dot, hnn]
  simp only [hclose, ht, fin_lt, Bool.false_eq_true, if_false] at hK
  rw [if_pos (by simp)] at hK
  obtain ⟨s', E, rt, ta, i1, i2, h1', h2', h3', hent, h4'⟩ := one_hit (γ := γ) .id (e := fin 1) hK rfl rfl rfl rfl rfl
  obtain ⟨tr, hs, hf, -⟩ := start_finite (γ := γ) (m := some 1) (k := some 1) (by rintro _ ⟨⟩; norm_num) (by rintro _ ⟨⟩; norm_num) .o .o .o .o 0 0 1 (fin 1) (fin 1) G
  exact ⟨tr, _, s', hs, hf, h1', _, by rw [h4']; exact List.mem_singleton.mpr rfl, hnn⟩

/-- A ball of mass 1 that falls with speed 2 onto a floor whose normal has length two. -/
noncomputable def longScene : System XReal γ :=
  scene (dot (mx (some 1)) ⟨0, 2, 0⟩ ⟨0, -2, 0⟩ [h0] up) (dot (mx none) .o .o [h1] up) (sphere 0) (.plane longGround) 1 (fin 1) (fin 1)

theorem long_history (G : γ → Prop) : ∃ tr : List (Op XReal γ × Out γ), Steps System.new tr (longScene (γ := γ)) ∧ ∀ x ∈ tr, FiniteCall G x.1 := by
  have hst := scene_steps (γ := γ) (m := mx (some 1)) (k := mx none) (by simp [mx]) (by simp [mx]) ⟨0, 2, 0⟩ ⟨0, -2, 0⟩ .o .o (sphere_newFrom 0) ground_newFrom
    (sphere_weightless _ 0) ground_weightless 1 (fin 1) (fin 1)
  refine ⟨_, .snoc .id _ _ hst (long_exec _ _ _ _ _ _ _), ?_⟩
  have hso : ∀ (m : Option ℝ) (p v : Vec3 ℝ), FiniteEntity (source (mx m) p v) := by
    intro m p v
    refine ⟨finite3_f p, ⟨rfl, rfl, rfl⟩, finite3_f v, ⟨rfl, rfl, rfl⟩, ⟨rfl, rfl, rfl⟩, ?_⟩
    cases m <;> exact fun h => by cases h
  simp only [List.mem_cons, List.not_mem_nil, or_false]
  rintro x (rfl | rfl | rfl | rfl | rfl | rfl | rfl | rfl)
  · exact ⟨finite3_f _, finite3_f _, rfl, rfl, rfl⟩
  · trivial
  · trivial
  · trivial
  · exact ⟨finite3_f _, finite3_f _, rfl, rfl, rfl⟩
  · exact ⟨finite3_f _, rfl, rfl, rfl, rfl⟩
  · exact hso none _ _
  · exact hso (some 1) _ _

/-- What a step of it does. -/
theorem long_step : ∃ (s' : System XReal γ) (r : CollisionRecord XReal) (E F : InternalEntity XReal), (longScene (γ := γ)).step .id (fin 1) = .ok s' ∧
    s'.collisionRecords = [r] ∧ r.firstEntity = h0 ∧ r.secondEntity = h1 ∧ r.position = (Vec3.o).f ∧ r.normal = (⟨0, -2, 0⟩ : Vec3 ℝ).f ∧ r.restitution = fin 0 ∧
    s'.entities.get h0 = some E ∧ E.velocity = (⟨0, 6, 0⟩ : Vec3 ℝ).f ∧
    entitiesOf s'.toWorld = [(dot (fin 1) ⟨0, 2, 0⟩ ⟨0, 6, 0⟩ [h0] up).makePub, F.makePub] ∧ F.totalMass = posInf := by
  obtain ⟨C, hC, ht, hp, hn⟩ := long_contact
  have hK : considerPair (Scene.two ((sphere 0).setEntity (some h0)) ((Collider.plane longGround).setEntity (some h1)))
      (dot (mx (some 1)) ⟨0, 2, 0⟩ ⟨0, -2, 0⟩ [h0] up) (dot (mx none) .o .o [h1] up) ⟨h0, (⟨0, -2, 0⟩ : Vec3 ℝ).f, (Vec3.o).f, []⟩
      ⟨h1, (Vec3.o).f, (Vec3.o).f, []⟩ 0 1 h0 h1 none = .ok (some ⟨fin 0, C, fin 0, fin 0, fin 0, fin (1 / 4 * (1 / 4)), h0, h1, 0, 1⟩) := by
    have hw : ∀ p : Vec3 ℝ, (pose p).f.positionIntoWorld (Vec3.o).f = p.f := by
      intro p
      rw [Orientation.f_positionIntoWorld _ _ (pose_unit p)]
      simp [Orientation.toWorld, pose]
    have hsub : ∀ p l : Vec3 ℝ, p + l - p = l := fun p l => by ext <;> simp
    have hcol : collide ((sphere 0).setEntity (some h0)) (pose ⟨0, 2, 0⟩).f ((pose ⟨0, 2, 0⟩).f.afterAffected (⟨0, -2, 0⟩ : Vec3 ℝ).f (Vec3.o).f)
        ((Collider.plane longGround).setEntity (some h1)) (pose .o).f ((pose .o).f.afterAffected (Vec3.o).f (Vec3.o).f) = .ok (some C) := by
      rw [Orientation.f_afterAffected, Orientation.f_afterAffected, pose_after, pose_after]
      simp only [sphere, longGround, groundPlane, Collider.setEntity, collide, dispatchSpherePlane, hw, Vec3.f_sub, hsub, hC]
    unfold considerPair
    simp only [two_get0, two_get1, unwrap, Res.ok_bind]
    have e1 : ∀ m p v cs z, (dot m p v cs z).orientation = (pose p).f := fun _ _ _ _ _ => rfl
    rw [e1, e1, hcol]
    simp only [Res.ok_bind, hp, dot_at, hn, ht, Vec3.f_sub, Vec3.f_dot, percentOf, one_eq, XReal.EPSILON_eq, fin_lt]
    rw [if_neg (by norm_num [Vec3.dot_def]), if_pos (by norm_num)]
    simp [sphere, longGround, groundPlane, Collider.setEntity, Collider.material]
  obtain ⟨s', E, rt, ta, i1, i2, h1', h2', h3', hent, h4'⟩ := one_hit (γ := γ) .id (e := fin 1) hK rfl rfl rfl rfl rfl
  have d1 := dot_of (some 1) (⟨0, 2, 0⟩ + (⟨0, -2, 0⟩ : Vec3 ℝ).scale 0) ⟨0, -2, 0⟩ [h0] up
  have d2 := dot_of none (.o + (Vec3.o : Vec3 ℝ).scale 0) .o [h1] up
  have p1 := body_physical (m := some 1) (by rintro _ ⟨⟩; norm_num) (⟨0, 2, 0⟩ + (⟨0, -2, 0⟩ : Vec3 ℝ).scale 0) ⟨0, -2, 0⟩
  have p2 := body_physical (m := none) (by rintro _ ⟨⟩) (.o + (Vec3.o : Vec3 ℝ).scale 0) .o
  have hden : Body.denom (body (some 1) (⟨0, 2, 0⟩ + (⟨0, -2, 0⟩ : Vec3 ℝ).scale 0) ⟨0, -2, 0⟩) (body none (.o + (Vec3.o : Vec3 ℝ).scale 0) .o) .o ⟨0, -2, 0⟩ = 1 := by
    unfold Body.denom Body.comply; rw [body_W, body_W]; simp [Body.im, body]
  have hJ : Body.normalImpulse (body (some 1) (⟨0, 2, 0⟩ + (⟨0, -2, 0⟩ : Vec3 ℝ).scale 0) ⟨0, -2, 0⟩) (body none (.o + (Vec3.o : Vec3 ℝ).scale 0) .o) 0 .o ⟨0, -2, 0⟩ =
      ⟨0, 8, 0⟩ := by
    unfold Body.normalImpulse; rw [hden]
    ext <;> simp [Body.closing, Body.at', body, Vec3.dot_def] <;> norm_num
  obtain ⟨μ, F, hμ, hF, f1, -⟩ := Body.respondPair d1 d2 p1 p2 (p := .o) (n := ⟨0, -2, 0⟩) (by rw [hden]; norm_num)
    (k := ⟨fin 0, C, fin 0, fin 0, fin 0, fin (1 / 4 * (1 / 4)), h0, h1, 0, 1⟩) hp hn rfl rfl rfl rt ta i1 i2
  have hμ0 : μ = 0 := by rcases hμ with h | h <;> exact h
  have hF0 : F = .o := by rw [hF, hμ0]; unfold Body.frictionImpulse; ext <;> simp
  rw [hF0, hJ, Body.kick_o] at f1
  have hk : (body (some 1) (⟨0, 2, 0⟩ + (⟨0, -2, 0⟩ : Vec3 ℝ).scale 0) ⟨0, -2, 0⟩).kick .o ⟨0, 8, 0⟩ = body (some 1) ⟨0, 2, 0⟩ ⟨0, 6, 0⟩ := by
    unfold Body.kick; rw [body_W]; simp [body, Body.im]; ext <;> simp <;> norm_num
  rw [hk] at f1
  have hpos : (⟨0, 2, 0⟩ + (⟨0, -2, 0⟩ : Vec3 ℝ).scale 0) = ⟨0, 2, 0⟩ := by ext <;> simp
  have v1 := respondPair_first (⟨fin 0, C, fin 0, fin 0, fin 0, fin (1 / 4 * (1 / 4)), h0, h1, 0, 1⟩ : Candidate XReal) rt ta
    (dot (mx (some 1)) (⟨0, 2, 0⟩ + (⟨0, -2, 0⟩ : Vec3 ℝ).scale 0) ⟨0, -2, 0⟩ [h0] up) (dot (mx none) (.o + (Vec3.o : Vec3 ℝ).scale 0) .o [h1] up) i1 i2
  have v2 := respondPair_second (⟨fin 0, C, fin 0, fin 0, fin 0, fin (1 / 4 * (1 / 4)), h0, h1, 0, 1⟩ : Candidate XReal) rt ta
    (dot (mx (some 1)) (⟨0, 2, 0⟩ + (⟨0, -2, 0⟩ : Vec3 ℝ).scale 0) ⟨0, -2, 0⟩ [h0] up) (dot (mx none) (.o + (Vec3.o : Vec3 ℝ).scale 0) .o [h1] up) i1 i2
  unfold VelRel at v1 v2
  have hR1 : (respondPair (⟨fin 0, C, fin 0, fin 0, fin 0, fin (1 / 4 * (1 / 4)), h0, h1, 0, 1⟩ : Candidate XReal) rt ta
    (dot (mx (some 1)) (⟨0, 2, 0⟩ + (⟨0, -2, 0⟩ : Vec3 ℝ).scale 0) ⟨0, -2, 0⟩ [h0] up) (dot (mx none) (.o + (Vec3.o : Vec3 ℝ).scale 0) .o [h1] up) i1 i2).first =
      dot (fin 1) ⟨0, 2, 0⟩ ⟨0, 6, 0⟩ [h0] up := by
    rw [v1, f1.vel, f1.ang, hpos]; rfl
  refine ⟨s', _, E, _, h1', h4', rfl, rfl, hp, hn, rfl, h2', ?_, by rw [hR1] at hent; exact hent, ?_⟩
  · rw [h3', hR1]; rfl
  · rw [v2]; rfl

/-- **C68 is false** in another way: `update_collider` takes the normal of a plane as it is given. A ball of mass 1 that falls with speed 2 onto a floor whose normal
was given with length two touches it while it is still a radius away; the reported normal has length two, and although the restitution is zero the ball
leaves with speed 6. -/
theorem C68_long_false (G : γ → Prop) : ∃ (tr : List (Op XReal γ × Out γ)) (s s' : System XReal γ) (r : CollisionRecord XReal) (e e' : Entity XReal),
    Steps System.new tr s ∧ (∀ x ∈ tr, FiniteCall G x.1) ∧ s.step .id (fin 1) = .ok s' ∧ s'.collisionRecords = [r] ∧
    r.normal = (⟨0, -2, 0⟩ : Vec3 ℝ).f ∧ r.restitution = fin 0 ∧
    s.getEntity r.firstEntity = some e ∧ e.velocity = (⟨0, -2, 0⟩ : Vec3 ℝ).f ∧ e.lastTotalMass = fin 1 ∧
    s'.getEntity r.firstEntity = some e' ∧ e'.velocity = (⟨0, 6, 0⟩ : Vec3 ℝ).f := by
  obtain ⟨tr, hs, hf⟩ := long_history G
  obtain ⟨s', r, E, F, h1, h2, h3, -, -, h4, h5, h6, h7, -⟩ := long_step (γ := γ)
  exact ⟨tr, _, s', r, _, _, hs, hf, h1, h2, h4, h5, by rw [h3]; exact getEntity_iff.mpr ⟨_, rfl, rfl⟩, rfl, rfl,
    by rw [h3]; exact getEntity_iff.mpr ⟨E, h6, rfl⟩, h7⟩

/-- **C67 is false** if normals of planes are not restricted: everything else `C67_energy_partial` asks for is there, and a step turns a kinetic energy of 2 into 18. -/
theorem C67_false : ∃ s s' : System XReal γ, s.step .id (fin 1) = .ok s' ∧ FreeOfForces s ∧ (∀ k p, s.getEntity k = some p → RegularEntity p) ∧
    (∀ j c, s.getCollider j = some c → Frictionless c.material) ∧ (∀ r ∈ s'.collisionRecords, SoundContact s' r) ∧
    totalKinetic s.toWorld = fin 2 ∧ totalKinetic s'.toWorld = fin 18 := by
  obtain ⟨tr, hs, -⟩ := long_history (γ := γ) (fun _ => True)
  obtain ⟨s', r, E, F, g1, g2, g3, g4, g5, g6, -, -, -, g7, g8⟩ := long_step (γ := γ)
  have hinf : ∀ x : Entity XReal, x.lastTotalMass = posInf → kineticOf x = fin 0 := by
    intro x hx; unfold kineticOf; rw [hx]
  refine ⟨_, s', g1, ⟨⟨tr, hs⟩, rfl, ?_, ?_⟩, ?_, ?_, ?_, ?_, ?_⟩
  · intro j c hc
    rw [getCollider_eq] at hc
    rcases two_either hc with ⟨-, rfl⟩ | ⟨-, rfl⟩
    · exact ⟨finite3_f _, rfl, rfl, rfl, rfl⟩
    · exact ⟨finite3_f _, finite3_f _, rfl, rfl, rfl⟩
  · intro j x hx
    obtain ⟨E, hE, rfl⟩ := getEntity_iff.mp hx
    rcases two_either hE with ⟨-, rfl⟩ | ⟨-, rfl⟩ <;>
      exact ⟨⟨finite3_f _, finite3_f .o, rfl, finite3_f .o⟩, finite3_f _, finite3_f _, fun h => by cases h⟩
  · intro j x hx
    obtain ⟨E, hE, rfl⟩ := getEntity_iff.mp hx
    rcases two_either hE with ⟨-, rfl⟩ | ⟨-, rfl⟩
    · exact dot_regular
    · exact ⟨.o, dot_moment (mx none) .o .o [h1] up, Or.inr (Or.inr ⟨rfl, by simp [Mat3.det, Mat3.o, Vec3.o], rfl, rfl⟩)⟩
  · intro j c hc
    rw [getCollider_eq] at hc
    rcases two_either hc with ⟨-, rfl⟩ | ⟨-, rfl⟩
    · exact ⟨rfl, rfl, 0, rfl, le_refl _, zero_le_one⟩
    · exact ⟨rfl, rfl, 1, rfl, zero_le_one, le_refl _⟩
  · intro x hx
    rw [g2, List.mem_singleton] at hx
    subst hx
    refine ⟨by rw [g5]; exact finite3_f _, by rw [g6]; exact finite3_f _, ?_⟩
    rw [g3, g4]
    intro a b ha hb
    obtain ⟨A, hA, rfl⟩ := getEntity_iff.mp ha
    obtain ⟨B, hB, rfl⟩ := getEntity_iff.mp hb
    obtain ⟨A', hA', ra⟩ := (step_frame g1).1.entities.get (h := h0) (x := dot (mx (some 1)) ⟨0, 2, 0⟩ ⟨0, -2, 0⟩ [h0] up) rfl
    obtain ⟨B', hB', rb⟩ := (step_frame g1).1.entities.get (h := h1) (x := dot (mx none) .o .o [h1] up) rfl
    rw [hA] at hA'; rw [hB] at hB'
    cases hA'; cases hB'
    have ma : A.totalMass = fin 1 := (staticRel_iff.mp ra).2.2.1
    have mb : B.totalMass = posInf := (staticRel_iff.mp rb).2.2.1
    simp [makePub, ma, mb]
  · have : entitiesOf (longScene (γ := γ)).toWorld = [(dot (fin 1) ⟨0, 2, 0⟩ ⟨0, -2, 0⟩ [h0] up).makePub, (dot posInf .o .o [h1] up).makePub] := rfl
    unfold totalKinetic
    rw [this]
    simp only [List.map_cons, List.map_nil, List.foldr_cons, List.foldr_nil, dot_kinetic, hinf (dot posInf .o .o [h1] up).makePub rfl, fin_add]
    norm_num [Vec3.dot_def]
  · unfold totalKinetic
    rw [g7]
    simp only [List.map_cons, List.map_nil, List.foldr_cons, List.foldr_nil, dot_kinetic, hinf F.makePub g8, fin_add]
    norm_num [Vec3.dot_def]

/-- **C67 with the planes restricted instead of the contacts:** without force generators and without friction, and with unit normals on all planes, a step never
increases the total kinetic energy; if all collisions are elastic and nothing is asleep it keeps the energy exactly. -/
theorem C67_planes_partial {s s' : System XReal γ} {ord : IterOrder} {d : ℝ} (h0 : 0 ≤ d) (hdt : Proper (fin d)) (hh : s.step ord (fin d) = .ok s')
    (hs : FreeOfForces s) (hreg : ∀ k p, s.getEntity k = some p → RegularEntity p) (hfr : ∀ j c, s.getCollider j = some c → Frictionless c.material)
    (hp : ∀ k p, s.getCollider k = some (.plane p) → UnitVec p.normal) (hrec : ∀ r ∈ s'.collisionRecords, SoundContact s' r) :
    ∃ a b : ℝ, totalKinetic s.toWorld = fin a ∧ totalKinetic s'.toWorld = fin b ∧ 0 ≤ b ∧ b ≤ a ∧
      ((∀ j c, s.getCollider j = some c → c.material.restitution = fin 1) → (∀ k p, s.getEntity k = some p → p.asleep = false) → b = a) :=
  C67_energy_partial h0 hh hs hreg hfr (fun r hr => ⟨hrec r hr, C68_records_partial hdt hh hp r hr (hrec r hr).2.1⟩)

/-- A case of `C68_records_partial`, `C68_history_partial` and `C67_planes_partial` with a collision: two balls; no plane at all. -/
example : ∃ (s s' : System XReal γ) (tr : List (Op XReal γ × Out γ)), Proper (fin 1) ∧ Steps System.new tr s ∧
    (∀ p out, (Op.addCollider (.plane p), out) ∈ tr → Finite3 p.normal) ∧ (∀ k p out, (Op.updateCollider k (.plane p), out) ∈ tr → UnitVec p.normal) ∧
    s.step .id (fin 1) = .ok s' ∧ (∀ k p, s.getCollider k = some (.plane p) → UnitVec p.normal) ∧ ∃ r ∈ s'.collisionRecords, Finite3 r.normal := by
  obtain ⟨s', hs, he, hc, hg, hrec⟩ := Scene.rest (γ := γ) .id (k := 1) (by norm_num) (u := ⟨1, 0, 0⟩) (by ext <;> norm_num) (E := 1)
    (by norm_num [Vec3.dot_def]) (by norm_num [Vec3.dot_def]) 3
  refine ⟨_, s', _, by simp [Proper, abs_one]; norm_num, scene_steps (by simp) (by simp) _ _ _ _ (sphere_newFrom _) (sphere_newFrom _) (sphere_weightless _ _)
    (sphere_weightless _ _) _ _ _, ?_, ?_, hs, ?_, _, by rw [hrec]; exact List.mem_singleton.mpr rfl, finite3_f _⟩
  · intro p out h
    simp [sphere] at h
  · intro k p out h
    simp at h
  · intro k p hk
    rw [getCollider_eq] at hk
    rcases two_either hk with ⟨-, h⟩ | ⟨-, h⟩ <;> simp [sphere, Collider.setEntity] at h

end
end Fluffy.Props
