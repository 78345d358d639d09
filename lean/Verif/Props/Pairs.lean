import Verif.Props.Box
import Verif.Props.MeshMesh
import Verif.Props.MeshPlane
/-
C45: what swapping the two colliders changes.  C46: which kinds of colliders can collide.
-/
set_option linter.unusedSectionVars false
set_option linter.unusedSimpArgs false
namespace Fluffy.Props
open Fluffy XReal

/-! ### C45 -/

/-- Two answers that agree but for the direction of the normal: both panic alike, both report nothing, or both report the same times and the same
place with opposite normals. -/
inductive Mirror : Res (Option (Collision XReal)) → Res (Option (Collision XReal)) → Prop
  | panic (p : Panic) : Mirror (.error p) (.error p)
  | nothing : Mirror (.ok none) (.ok none)
  | hit (c d : Collision XReal) (ht : d.times = c.times) (hp : d.position = c.position) (hx : d.normal.x = -c.normal.x) (hy : d.normal.y = -c.normal.y)
      (hz : d.normal.z = -c.normal.z) : Mirror (.ok (some c)) (.ok (some d))

theorem xneg_neg (x : XReal) : - -x = x := by
  cases x <;> first | rfl | simp
theorem xmul_neg_one (x : XReal) : x * lit (-1) 1 = -x := by
  cases x with
  | fin r => simp
  | nan => rfl
  | posInf => show infSign _ = negInf; unfold infSign; norm_num
  | negInf => show infSign _ = posInf; unfold infSign; norm_num

theorem Mirror.symm {a b : Res (Option (Collision XReal))} (h : Mirror a b) : Mirror b a := by
  cases h with
  | panic p => exact .panic p
  | nothing => exact .nothing
  | hit c d ht hp hx hy hz => exact .hit d c ht.symm hp.symm (by rw [hx, xneg_neg]) (by rw [hy, xneg_neg]) (by rw [hz, xneg_neg])

theorem mirror_flip (r : Option (Collision XReal)) : Mirror (.ok r) (.ok (r.map Collision.flip)) := by
  cases r with
  | none => exact .nothing
  | some c => exact .hit _ _ rfl rfl (xmul_neg_one _) (xmul_neg_one _) (xmul_neg_one _)
theorem mirror_flip' (r : Res (Option (Collision XReal))) : Mirror r (r >>= fun r => .ok (r.map Collision.flip)) := by
  cases r with
  | error p => exact .panic p
  | ok r => exact mirror_flip r

/-- **C45**, colliders of different kinds: the answers of the two orders are the same but for the direction of the normal. -/
theorem C45_kinds_partial (c1 c2 : Collider XReal) (h : c1.type ≠ c2.type) (o1 e1 o2 e2 : Orientation XReal) :
    Mirror (collide c1 o1 e1 c2 o2 e2) (collide c2 o2 e2 c1 o1 e1) := by
  cases c1 <;> cases c2 <;> first
    | exact absurd rfl h
    | exact .nothing
    | exact mirror_flip _
    | exact (mirror_flip _).symm
    | exact mirror_flip' _
    | exact (mirror_flip' _).symm

theorem xadd_comm (a b : XReal) : a + b = b + a := by
  cases a <;> cases b <;> first | rfl | (simp [add_comm])
theorem xmul_comm (a b : XReal) : a * b = b * a := by
  cases a <;> cases b <;> first | rfl | (simp [mul_comm])
theorem xsub_swap (a b : XReal) : b - a = -(a - b) := by
  cases a <;> cases b <;> first | rfl | (simp)
theorem xneg_mul_neg (a b : XReal) : -a * -b = a * b := by
  cases a <;> cases b <;> first | rfl | (simp) | skip
  all_goals
    first
    | (show infSign _ = infSign _; simp)
    | rfl
theorem xdot_swap (a b c d : Vec3 XReal) : (b - a).dot (d - c) = (a - b).dot (c - d) := by
  show (b.x - a.x) * (d.x - c.x) + (b.y - a.y) * (d.y - c.y) + (b.z - a.z) * (d.z - c.z) = (a.x - b.x) * (c.x - d.x) + (a.y - b.y) * (c.y - d.y) + (a.z - b.z) * (c.z - d.z)
  rw [xsub_swap a.x, xsub_swap a.y, xsub_swap a.z, xsub_swap c.x, xsub_swap c.y, xsub_swap c.z]
  simp only [xneg_mul_neg]

/-- **C45**, two spheres, times and position: swapping them changes neither whether a contact is reported nor its times and place, whatever the numbers. -/
theorem C45_spheres_partial (r1 r2 : XReal) (c1 m1 c2 m2 : Vec3 XReal) :
    (collideSphereSphere r1 c1 m1 r2 c2 m2).map (fun c => (c.times, c.position)) = (collideSphereSphere r2 c2 m2 r1 c1 m1).map (fun c => (c.times, c.position)) := by
  unfold collideSphereSphere
  simp only [xdot_swap m1 m2 m1 m2, xdot_swap m1 m2 c1 c2, xdot_swap c1 c2 c1 c2, xadd_comm r2 r1]
  have e : ∀ a b : Vec3 XReal, a + b = b + a := fun a b => by
    show (⟨a.x + b.x, a.y + b.y, a.z + b.z⟩ : Vec3 XReal) = ⟨b.x + a.x, b.y + a.y, b.z + a.z⟩
    rw [xadd_comm a.x, xadd_comm a.y, xadd_comm a.z]
  split
  · simp only [Option.map_some]
    rw [e (Vec3.scale _ r2)]
  · rfl

theorem Pointing.opposite {a b n n' : Vec3 ℝ} (h : Pointing a b n) (h' : Pointing b a n') : n' = -n := by
  obtain ⟨hl, k, hk, e⟩ := h
  obtain ⟨hl', j, hj, e'⟩ := h'
  have hx := congrArg Vec3.x e; have hy := congrArg Vec3.y e; have hz := congrArg Vec3.z e
  have hx' := congrArg Vec3.x e'; have hy' := congrArg Vec3.y e'; have hz' := congrArg Vec3.z e'
  simp only [Vec3.sub_x, Vec3.sub_y, Vec3.sub_z, Vec3.scale_x, Vec3.scale_y, Vec3.scale_z] at hx hy hz hx' hy' hz'
  have l1 : n.dot n = 1 := by rw [← Vec3.len_sq, hl]; norm_num
  have l2 : n'.dot n' = 1 := by rw [← Vec3.len_sq, hl']; norm_num
  simp only [Vec3.dot_def] at l1 l2
  have hkj : k = j := by
    have e1 : (b.x - a.x) ^ 2 + (b.y - a.y) ^ 2 + (b.z - a.z) ^ 2 = k ^ 2 := by
      rw [hx, hy, hz]; linear_combination k ^ 2 * l1
    have e2 : (b.x - a.x) ^ 2 + (b.y - a.y) ^ 2 + (b.z - a.z) ^ 2 = j ^ 2 := by
      have : (b.x - a.x) ^ 2 + (b.y - a.y) ^ 2 + (b.z - a.z) ^ 2 = (a.x - b.x) ^ 2 + (a.y - b.y) ^ 2 + (a.z - b.z) ^ 2 := by ring
      rw [this, hx', hy', hz']; linear_combination j ^ 2 * l2
    nlinarith
  subst hkj
  ext <;> simp <;> nlinarith [hk]

/-- **C45**, two spheres, normals: opposite if neither centre has moved by the time of contact (in particular for a contact at time 0). Missing: moving
spheres, for which it is false (`C45_false`). -/
theorem C45_normals_partial {r1 r2 : ℝ} (hr1 : 0 < r1) (hr2 : 0 < r2) {c1 m1 c2 m2 : Vec3 ℝ} {C D : Collision XReal} {t : ℝ}
    (hC : collideSphereSphere (fin r1) c1.f m1.f (fin r2) c2.f m2.f = some C) (hD : collideSphereSphere (fin r2) c2.f m2.f (fin r1) c1.f m1.f = some D)
    (ht : C.times.min = fin t) (hs1 : along c1 m1 t = c1) (hs2 : along c2 m2 t = c2) (hne : c1 ≠ c2) :
    Mirror (.ok (some C)) (.ok (some D)) := by
  have h := C45_spheres_partial (fin r1) (fin r2) c1.f m1.f c2.f m2.f
  rw [hC, hD] at h
  simp only [Option.map_some, Option.some.injEq, Prod.mk.injEq] at h
  obtain ⟨n, hn, p1⟩ := C44_sphereSphere_partial hr1 hr2.le hC ht hs1 (by rw [hs1, hs2]; exact hne.symm)
  obtain ⟨n', hn', p2⟩ := C44_sphereSphere_partial hr2 hr1.le hD (by rw [← h.1]; exact ht) hs2 (by rw [hs1, hs2]; exact hne)
  have e := p1.opposite p2
  refine .hit _ _ h.1.symm h.2.symm ?_ ?_ ?_ <;> rw [hn, hn', e] <;> simp [Vec3.f]

namespace Crate
/-- At the given place, not turned. -/
noncomputable def put (p : Vec3 ℝ) : Orientation ℝ := ⟨p, Quat.e, .o⟩
theorem put_unit (p : Vec3 ℝ) : (put p).Unit := by simp [Orientation.Unit, put, Quat.e, Quat.normSq]
theorem put_world (p v : Vec3 ℝ) : (put p).f.positionIntoWorld v.f = (p + v).f := by
  rw [Orientation.f_positionIntoWorld _ _ (put_unit p)]
  congr 1
  ext <;> simp [Orientation.toWorld, put, Quat.e, Quat.rot, Quat.vec] <;> ring
end Crate

/-- A ball in two places, for `C45_false` and C46. -/
theorem balls_collide (p1 q1 p2 q2 : Vec3 ℝ) :
    collide (.sphere Crate.ball) (Crate.put p1).f (Crate.put q1).f (.sphere Crate.ball) (Crate.put p2).f (Crate.put q2).f =
      .ok (collideSphereSphere (fin 1) p1.f (q1 - p1).f (fin 1) p2.f (q2 - p2).f) := by
  have e : ∀ p : Vec3 ℝ, (Crate.put p).f.positionIntoWorld Crate.ball.center = p.f := fun p => by
    show (Crate.put p).f.positionIntoWorld (Vec3.o).f = _
    rw [Crate.put_world]; congr 1; ext <;> simp
  unfold collide
  simp only [e, Vec3.f_sub]
  rfl

/-- **C45 is false** for moving spheres: for the ball of `C44_false` the two orders report normals along `(8/5, 4/5, 0)` and `(-3/5, -4/5, 0)`. -/
theorem C45_false : ∃ (s1 s2 : SphereCollider XReal) (o1 e1 o2 e2 : Orientation ℝ) (C D : Collision XReal),
    Collider.newFrom (.sphere s1) = some (.sphere s1) ∧ Collider.newFrom (.sphere s2) = some (.sphere s2) ∧ o1.Unit ∧ e1.Unit ∧ o2.Unit ∧ e2.Unit ∧
    collide (.sphere s1) o1.f e1.f (.sphere s2) o2.f e2.f = .ok (some C) ∧ collide (.sphere s2) o2.f e2.f (.sphere s1) o1.f e1.f = .ok (some D) ∧
    ¬ Mirror (.ok (some C)) (.ok (some D)) := by
  have e1 : ((⟨2, 0, 0⟩ : Vec3 ℝ) - .o).dot (⟨2, 0, 0⟩ - .o) = 4 := by norm_num [Vec3.dot_def]
  have e2 : 2 * ((⟨2, 0, 0⟩ : Vec3 ℝ) - .o).dot (.o - ⟨11 / 5, 8 / 5, 0⟩) = -44 / 5 := by norm_num [Vec3.dot_def]
  have e3 : (.o - (⟨11 / 5, 8 / 5, 0⟩ : Vec3 ℝ)).dot (.o - ⟨11 / 5, 8 / 5, 0⟩) - (1 + 1) * (1 + 1) = 17 / 5 := by norm_num [Vec3.dot_def]
  have z : ∀ a : Vec3 ℝ, a - .o = a := fun a => by ext <;> simp
  rcases sphereSphere_first (r1 := 1) (r2 := 1) (c1 := .o) (m1 := ⟨2, 0, 0⟩) (c2 := ⟨11 / 5, 8 / 5, 0⟩) (m2 := .o) (by norm_num)
      (P := fun t => 4 * t ^ 2 + -44 / 5 * t + 17 / 5 ≤ 0) (fun t _ _ => by
        rw [e1, e2, e3]
        exact (C40_quadratic_partial _ _ _ (by unfold eps; norm_num)).1 (Or.inr (by unfold eps; norm_num)) t) with h | ⟨C, t, q, hC, ht, hf, hq, hp, hn⟩
  · exact absurd (by norm_num) (h.2 (1 / 2) (by norm_num) (by norm_num))
  have hle := hf.2 (1 / 2) (by norm_num) (by norm_num) (by norm_num)
  have hP := hf.1.2.2
  have ht' : t = 1 / 2 := by
    apply le_antisymm hle
    by_contra hlt
    push Not at hlt
    simp only at hP
    nlinarith
  subst ht'
  have hq' : q = ⟨8 / 5, 4 / 5, 0⟩ := by rw [hq]; ext <;> simp [along] <;> norm_num
  have hs := C45_spheres_partial (fin 1) (fin 1) (Vec3.o).f (⟨2, 0, 0⟩ : Vec3 ℝ).f (⟨11 / 5, 8 / 5, 0⟩ : Vec3 ℝ).f (Vec3.o).f
  rw [hC] at hs
  rcases sphereSphere_first (r1 := 1) (r2 := 1) (c1 := ⟨11 / 5, 8 / 5, 0⟩) (m1 := .o) (c2 := .o) (m2 := ⟨2, 0, 0⟩) (by norm_num) (fun t _ _ => Iff.rfl) with h | ⟨D, u, q2, hD, hu, -, -, hp2, hn2⟩
  · rw [h.1] at hs; cases hs
  rw [hD] at hs
  simp only [Option.map_some, Option.some.injEq, Prod.mk.injEq] at hs
  have hqq : q2 = ⟨8 / 5, 4 / 5, 0⟩ := by
    have := hs.2; rw [hp, hp2, Vec3.f_inj, hq'] at this; exact this.symm
  have n1 : (⟨8 / 5, 4 / 5, 0⟩ : Vec3 ℝ) - .o ≠ .o := fun h => by have := congrArg Vec3.x h; norm_num at this
  have n2 : (⟨8 / 5, 4 / 5, 0⟩ : Vec3 ℝ) - ⟨11 / 5, 8 / 5, 0⟩ ≠ .o := fun h => by have := congrArg Vec3.x h; norm_num at this
  rw [hq', Vec3.f_normalize n1] at hn
  rw [hqq, Vec3.f_normalize n2] at hn2
  obtain ⟨-, k, hk, g⟩ := normalize_pointing n1
  obtain ⟨-, j, hj, g'⟩ := normalize_pointing n2
  refine ⟨Crate.ball, Crate.ball, Crate.put .o, Crate.put ⟨2, 0, 0⟩, Crate.put ⟨11 / 5, 8 / 5, 0⟩, Crate.put ⟨11 / 5, 8 / 5, 0⟩, C, D, Crate.ball_valid, Crate.ball_valid,
    Crate.put_unit _, Crate.put_unit _, Crate.put_unit _, Crate.put_unit _, ?_, ?_, ?_⟩
  · rw [balls_collide, Vec3.sub_self', z, hC]
  · rw [balls_collide, Vec3.sub_self', z, hD]
  · intro h
    cases h with
    | hit _ _ _ _ hx hy _ =>
      rw [hn, hn2] at hx hy
      generalize ((⟨8 / 5, 4 / 5, 0⟩ : Vec3 ℝ) - .o).scale ((⟨8 / 5, 4 / 5, 0⟩ : Vec3 ℝ) - .o).len⁻¹ = n at *
      generalize ((⟨8 / 5, 4 / 5, 0⟩ : Vec3 ℝ) - ⟨11 / 5, 8 / 5, 0⟩).scale ((⟨8 / 5, 4 / 5, 0⟩ : Vec3 ℝ) - ⟨11 / 5, 8 / 5, 0⟩).len⁻¹ = n' at *
      simp only [Vec3.f, fin_neg, fin_inj] at hx hy
      have x1 := congrArg Vec3.x g
      have y1 := congrArg Vec3.y g
      have x2 := congrArg Vec3.x g'
      have y2 := congrArg Vec3.y g'
      simp only [Vec3.sub_x, Vec3.sub_y, Vec3.o_x, Vec3.o_y, Vec3.scale_x, Vec3.scale_y, sub_zero] at x1 y1 x2 y2
      rw [hx] at x2
      rw [hy] at y2
      have a1 : n.x = 2 * n.y := by
        have : k * (n.x - 2 * n.y) = 0 := by linarith
        linarith [(mul_eq_zero.mp this).resolve_left hk.ne']
      have a2 : 4 * n.x = 3 * n.y := by
        have : j * (4 * n.x - 3 * n.y) = 0 := by linarith
        linarith [(mul_eq_zero.mp this).resolve_left hj.ne']
      have : n.y = 0 := by linarith
      rw [this] at y1
      norm_num at y1

/-- Two resting balls meet the hypotheses of `C45_normals_partial`. -/
example : ∃ C D, collideSphereSphere (fin 1) (Vec3.o).f (Vec3.o).f (fin 1) (⟨1, 0, 0⟩ : Vec3 ℝ).f (Vec3.o).f = some C ∧
    collideSphereSphere (fin 1) (⟨1, 0, 0⟩ : Vec3 ℝ).f (Vec3.o).f (fin 1) (Vec3.o).f (Vec3.o).f = some D ∧ Mirror (.ok (some C)) (.ok (some D)) := by
  rcases C43_resting (r1 := 1) (r2 := 1) (by norm_num) (c1 := .o) (m1 := .o) (c2 := ⟨1, 0, 0⟩) (m2 := .o) (by norm_num [Vec3.dot_def, eps]) (by norm_num [Vec3.dot_def, eps]) with ⟨-, h⟩ | ⟨C, hC, ht, -⟩
  · norm_num [Vec3.dot_def, eps] at h
  have hs := C45_spheres_partial (fin 1) (fin 1) (Vec3.o).f (Vec3.o).f (⟨1, 0, 0⟩ : Vec3 ℝ).f (Vec3.o).f
  rw [hC] at hs
  cases hD : collideSphereSphere (fin 1) (⟨1, 0, 0⟩ : Vec3 ℝ).f (Vec3.o).f (fin 1) (Vec3.o).f (Vec3.o).f with
  | none => rw [hD] at hs; cases hs
  | some D => exact ⟨C, D, hC, rfl, C45_normals_partial one_pos one_pos hC hD ht (along_still _ _) (along_still _ _) (fun h => by have := congrArg Vec3.x h; norm_num at this)⟩

/-! ### C46 -/

/-- The README's table: what can collide with what. -/
def Supported : ColliderType → ColliderType → Prop
  | .sphere, .sphere => True
  | .sphere, .plane => True
  | .plane, .sphere => True
  | .sphere, .mesh => True
  | .mesh, .sphere => True
  | .sphere, .alignedBox => True
  | .alignedBox, .sphere => True
  | .mesh, .mesh => True
  | .mesh, .plane => True
  | .plane, .mesh => True
  | _, _ => False

/-- **C46**, first half, for every number type: nothing is ever reported for the other pairs. -/
theorem C46_unsupported {α : Type} [Scalar α] (c1 c2 : Collider α) (h : ¬ Supported c1.type c2.type) (o1 e1 o2 e2 : Orientation α) :
    collide c1 o1 e1 c2 o2 e2 = .ok none := by
  cases c1 <;> cases c2 <;> first
    | rfl
    | exact absurd trivial h

/-! Totality of the mesh-mesh check, for meshes whose faces have a normal half way. -/
section
variable {α : Type} [Scalar α]
theorem pointPolygon_ok {p q n a : Vec3 α} {poly : List (Vec3 α)} (hn : polygonNormal poly = .ok n) (ha : index poly 0 = .ok a) :
    ∃ x, collidePointPolygon p q poly = .ok x := by
  unfold collidePointPolygon
  simp only [hn, ha, Res.ok_bind]
  split
  · split <;> exact ⟨_, rfl⟩
  · split
    · exact ⟨_, rfl⟩
    · split <;> exact ⟨_, rfl⟩

/-- A point that goes through the plane of the polygon at a time in the step. -/
theorem pointPolygon_through {p q n a : Vec3 α} {poly : List (Vec3 α)} {t : α} (hn : polygonNormal poly = .ok n) (ha : index poly 0 = .ok a)
    (hoff : (pointIsOnPlane p n a && pointIsOnPlane q n a) = false) (ht : (p - a).dot n / -((q - p).dot n) = t)
    (hin : (!Scalar.isFinite t || Scalar.lt t zero || Scalar.lt one t) = false) :
    collidePointPolygon p q poly = .ok (if pointInsideLoop (p + (q - p).scale t) (orientNormal p q a n) (cyclicPairs poly) zero then
      some ⟨Range.single t, p + (q - p).scale t, orientNormal p q a n⟩ else none) := by
  subst ht
  unfold collidePointPolygon
  simp only [hn, ha, Res.ok_bind, hoff, hin]
  simp only [Bool.false_eq_true, if_false]
  split <;> rfl

/-- Every face has a normal half way through the step. -/
def MidNormal (points : List (Vec3 α × Vec3 α)) (faces : List (List Nat)) : Prop :=
  ∀ f ∈ faces, ∃ poly n a, midFace points f = .ok poly ∧ polygonNormal poly = .ok n ∧ index poly 0 = .ok a

theorem pointFaces_ok {p : Vec3 α × Vec3 α} {qs : List (Vec3 α × Vec3 α)} : ∀ (fs : List (List Nat)) (acc : Earliest α), MidNormal qs fs →
    ∃ x, pointAgainstFaces p qs fs acc = .ok x
  | [], acc, _ => ⟨acc, rfl⟩
  | f :: fs, acc, h => by
    obtain ⟨poly, n, a, h1, h2, h3⟩ := h f (by simp)
    obtain ⟨x, hx⟩ := pointPolygon_ok (p := p.1) (q := p.2) h2 h3
    simp only [pointAgainstFaces, h1, hx, Res.ok_bind]
    exact pointFaces_ok fs _ (fun f hf => h f (by simp [hf]))

theorem pointsFaces_ok {qs : List (Vec3 α × Vec3 α)} {fs : List (List Nat)} (h : MidNormal qs fs) : ∀ (ps : List (Vec3 α × Vec3 α)) (acc : Earliest α),
    ∃ x, pointsAgainstFaces qs fs ps acc = .ok x
  | [], acc => ⟨acc, rfl⟩
  | p :: ps, acc => by
    obtain ⟨x, hx⟩ := pointFaces_ok (p := p) fs acc h
    simp only [pointsAgainstFaces, hx, Res.ok_bind]
    exact pointsFaces_ok h ps x

theorem meshPoints_ok {out : Earliest α} {ps qs : List (Vec3 α × Vec3 α)} {m : MeshCollider α} {k : α} (h : MidNormal qs m.faces) :
    ∃ x, collideMeshPointsFaces out ps m qs k = .ok x := by
  unfold collideMeshPointsFaces
  obtain ⟨a, ha⟩ := pointsFaces_ok h ps Earliest.new
  simp only [ha, Res.ok_bind]
  split <;> exact ⟨_, rfl⟩

/-- Two meshes whose faces have normals half way through the step are checked without panic. -/
theorem meshMesh_ok {m1 m2 : MeshCollider α} {o1 e1 o2 e2 : Orientation α} (h1 : MidNormal (meshPointPairs m1 o1 e1) m1.faces)
    (h2 : MidNormal (meshPointPairs m2 o2 e2) m2.faces) : ∃ x, collideMeshMesh m1 o1 e1 m2 o2 e2 = .ok x := by
  unfold collideMeshMesh
  obtain ⟨a, ha⟩ := meshPoints_ok (out := Earliest.new) (ps := meshPointPairs m1 o1 e1) (k := lit (-1) 1) h2
  obtain ⟨b, hb⟩ := meshPoints_ok (out := a) (ps := meshPointPairs m2 o2 e2) (k := one) h1
  simp only [ha, hb, Res.ok_bind]
  exact ⟨_, rfl⟩
end

theorem triangle_normal {a b c : Vec3 ℝ} (h : eps < ((c - a).cross (b - a)).len) :
    polygonNormal [a.f, b.f, c.f] = .ok (((c - a).cross (b - a)).scale ((c - a).cross (b - a)).len⁻¹).f := by
  have hne : ((c - a).cross (b - a)).len ≠ 0 := fun h0 => by rw [h0] at h; unfold eps at h; norm_num at h
  unfold polygonNormal
  simp only [List.length_cons, List.length_nil, List.drop, List.take, List.zip, List.zipWith, List.append, List.cons_append, List.nil_append, polygonNormalLoop,
    Vec3.f_sub, Vec3.f_cross, Vec3.f_magnitude]
  rw [if_pos, Vec3.f_unscale _ hne]
  simp only [EPSILON_eq, fin_lt, Bool.and_eq_true, decide_eq_true_eq]
  exact ⟨rfl, h⟩

namespace Slab
/-- A mesh of one triangle. -/
noncomputable def triangle (vs : List (Vec3 ℝ)) : MeshCollider XReal := ⟨none, (Vec3.o).f, vs.map Vec3.f, [[0, 1, 2]], [(0, 1), (1, 2), (0, 2)], .default⟩
theorem triangle_valid {vs : List (Vec3 ℝ)} (h : vs.length = 3) : Collider.newFrom (.mesh (triangle vs)) = some (.mesh (triangle vs)) := by
  simp [Collider.newFrom, MeshCollider.isValid, triangle, h]
theorem triangle_good {vs : List (Vec3 ℝ)} (h : vs.length = 3) : (triangle vs).Good := by
  constructor <;> simp [triangle, h]
theorem triangle_pairs (a b c p q : Vec3 ℝ) : meshPointPairs (triangle [a, b, c]) (Crate.put p).f (Crate.put q).f =
    [((p + a).f, (q + a).f), ((p + b).f, (q + b).f), ((p + c).f, (q + c).f)] := by
  have e : ∀ a : Vec3 ℝ, (Vec3.o).f + a.f = a.f := fun a => by rw [Vec3.f_add]; congr 1; ext <;> simp
  simp [meshPointPairs, triangle, e, Crate.put_world]
theorem triangle_mid {a b c p q : Vec3 ℝ} (h : eps < ((c - a).cross (b - a)).len) :
    midFace (meshPointPairs (triangle [a, b, c]) (Crate.put p).f (Crate.put q).f) [0, 1, 2] =
      .ok [(a + (p + q).scale 2⁻¹).f, (b + (p + q).scale 2⁻¹).f, (c + (p + q).scale 2⁻¹).f] := by
  have e : ∀ a : Vec3 ℝ, ((p + a).f + (q + a).f).unscale (fin 2) = (a + (p + q).scale 2⁻¹).f := fun a => by
    rw [Vec3.f_add, Vec3.f_unscale_two]; congr 1; ext <;> simp <;> ring
  rw [triangle_pairs]
  simp only [midFace, index, List.getElem?_cons_zero, List.getElem?_cons_succ, Res.ok_bind, two_eq, e]
theorem triangle_midNormal {a b c p q : Vec3 ℝ} (h : eps < ((c - a).cross (b - a)).len) :
    MidNormal (meshPointPairs (triangle [a, b, c]) (Crate.put p).f (Crate.put q).f) (triangle [a, b, c]).faces := by
  intro f hf
  have hf : f = [0, 1, 2] := by simpa [triangle] using hf
  subst hf
  refine ⟨_, _, _, triangle_mid h, triangle_normal ?_, rfl⟩
  have e : ∀ d : Vec3 ℝ, c + d - (a + d) = c - a := fun d => by ext <;> simp
  have e' : ∀ d : Vec3 ℝ, b + d - (a + d) = b - a := fun d => by ext <;> simp
  rw [e, e']; exact h
end Slab

theorem unit_cross_len {v : Vec3 ℝ} (h : v.dot v = 1) : eps < v.len := by
  have : v.len = 1 := by show Real.sqrt _ = 1; rw [h]; exact Real.sqrt_one
  rw [this]; unfold eps; norm_num

/-- A triangle standing on its tip that falls through a triangle at rest is reported. -/
theorem triangles_collide : ∃ C, collide (.mesh (Slab.triangle Slab.tipped)) (Crate.put ⟨0, 1, 0⟩).f (Crate.put ⟨0, -1, 0⟩).f
    (.mesh (Slab.triangle Slab.corners)) (Crate.put .o).f (Crate.put .o).f = .ok (some C) := by
  have l1 : eps < (((⟨1, 1, 0⟩ : Vec3 ℝ) - ⟨0, 0, 0⟩).cross (⟨0, 1, 0⟩ - ⟨0, 0, 0⟩)).len := unit_cross_len (by norm_num [Vec3.dot_def, Vec3.cross])
  have l2 : eps < (((⟨1, 0, 0⟩ : Vec3 ℝ) - ⟨0, 0, 0⟩).cross (⟨0, 0, 1⟩ - ⟨0, 0, 0⟩)).len := unit_cross_len (by norm_num [Vec3.dot_def, Vec3.cross])
  obtain ⟨o, ho⟩ := meshMesh_ok (Slab.triangle_midNormal (p := ⟨0, 1, 0⟩) (q := ⟨0, -1, 0⟩) l1) (Slab.triangle_midNormal (p := .o) (q := .o) l2)
  have h := (C47_meshMesh ho).2
  cases o with
  | some C => exact ⟨C, ho⟩
  | none =>
    exfalso
    have hn := triangle_normal l2
    have hl : (((⟨1, 0, 0⟩ : Vec3 ℝ) - ⟨0, 0, 0⟩).cross (⟨0, 0, 1⟩ - ⟨0, 0, 0⟩)).scale
        (((⟨1, 0, 0⟩ : Vec3 ℝ) - ⟨0, 0, 0⟩).cross (⟨0, 0, 1⟩ - ⟨0, 0, 0⟩)).len⁻¹ = ⟨0, -1, 0⟩ := by
      have : (((⟨1, 0, 0⟩ : Vec3 ℝ) - ⟨0, 0, 0⟩).cross (⟨0, 0, 1⟩ - ⟨0, 0, 0⟩)).len = 1 := by
        show Real.sqrt _ = 1
        rw [show (((⟨1, 0, 0⟩ : Vec3 ℝ) - ⟨0, 0, 0⟩).cross (⟨0, 0, 1⟩ - ⟨0, 0, 0⟩)).dot (((⟨1, 0, 0⟩ : Vec3 ℝ) - ⟨0, 0, 0⟩).cross (⟨0, 0, 1⟩ - ⟨0, 0, 0⟩)) = 1 by
          norm_num [Vec3.dot_def, Vec3.cross]]
        exact Real.sqrt_one
      rw [this]; ext <;> norm_num [Vec3.cross]
    rw [hl] at hn
    have hc : ∃ C, collidePointPolygon (⟨0, 1, 0⟩ : Vec3 ℝ).f (⟨0, -1, 0⟩ : Vec3 ℝ).f [(⟨0, 0, 0⟩ : Vec3 ℝ).f, (⟨0, 0, 1⟩ : Vec3 ℝ).f, (⟨1, 0, 0⟩ : Vec3 ℝ).f] = .ok (some C) := by
      have e2 : (⟨0, 1, 0⟩ : Vec3 ℝ).f + ((⟨0, -1, 0⟩ : Vec3 ℝ).f - (⟨0, 1, 0⟩ : Vec3 ℝ).f).scale (fin (1 / 2)) = (⟨0, 0, 0⟩ : Vec3 ℝ).f := by
        rw [Vec3.f_sub, Vec3.f_scale, Vec3.f_add]; congr 1; ext <;> norm_num
      rw [pointPolygon_through (t := fin (1 / 2)) hn rfl, e2, if_pos]
      · exact ⟨_, rfl⟩
      · have e3 : ((⟨0, 0, 0⟩ : Vec3 ℝ) - ⟨0, 0, 0⟩).len = 0 := by
          rw [Vec3.len_eq_zero]; ext <;> simp
        simp only [cyclicPairs, List.drop, List.take, List.zip, List.zipWith, List.cons_append, List.nil_append, pointInsideLoop, Vec3.f_sub, Vec3.f_magnitude, e3]
        rw [if_pos (by simp)]
      · simp [pointIsOnPlane, Vec3.dot_def]; norm_num
      · rw [Vec3.f_sub, Vec3.f_sub, Vec3.f_dot, Vec3.f_dot, fin_neg, fin_div (by norm_num [Vec3.dot_def])]; norm_num [Vec3.dot_def]
      · simp; norm_num
    obtain ⟨C, hC⟩ := hc
    refine (h.mp rfl) C (.inl ⟨((⟨0, 1, 0⟩ : Vec3 ℝ).f, (⟨0, -1, 0⟩ : Vec3 ℝ).f), ?_, [0, 1, 2], by simp [Slab.triangle], _, midFace_ok ?_, hC⟩)
    · have := Slab.triangle_pairs ⟨0, 0, 0⟩ ⟨0, 1, 0⟩ ⟨1, 1, 0⟩ ⟨0, 1, 0⟩ ⟨0, -1, 0⟩
      unfold meshPointPairs at this
      have e : ∀ a : Vec3 ℝ, a + ⟨0, 0, 0⟩ = a := fun a => by ext <;> simp
      rw [this, e, e]
      simp
    · have := Slab.triangle_mid (p := .o) (q := .o) l2
      unfold meshPointPairs at this
      have e : ∀ a : Vec3 ℝ, a + (Vec3.o + Vec3.o).scale 2⁻¹ = a := fun a => by ext <;> simp
      rw [e, e, e] at this
      exact this

/-- A ball resting on a corner of a triangle is reported. -/
theorem ball_triangle : ∃ C, collide (.sphere Crate.ball) (Crate.put .o).f (Crate.put .o).f (.mesh (Slab.triangle Slab.corners)) (Crate.put .o).f (Crate.put .o).f = .ok (some C) := by
  obtain ⟨o, ho⟩ := dispatchSphereMesh_ok (s := Crate.ball) (o1 := (Crate.put .o).f) (o2 := (Crate.put .o).f) (o3 := (Crate.put .o).f) (o4 := (Crate.put .o).f)
    (Slab.triangle_good (vs := Slab.corners) rfl)
  cases o with
  | some C => exact ⟨C, ho⟩
  | none =>
    exfalso
    have h := ho
    unfold dispatchSphereMesh at h
    have hw : ∀ v : Vec3 ℝ, (Crate.put .o).f.positionIntoWorld v.f = v.f := fun v => by
      rw [Crate.put_world]; congr 1; ext <;> simp
    have hb : Crate.ball.center = (Vec3.o).f := rfl
    have hm : (Slab.triangle Slab.corners).position = (Vec3.o).f := rfl
    have ho' : (Vec3.o).f - (Vec3.o).f = (Vec3.o : Vec3 ℝ).f := by rw [Vec3.f_sub]; congr 1; ext <;> simp
    simp only [hb, hm, hw, ho'] at h
    rcases C43_resting (r1 := 1) (r2 := 0) (by norm_num) (c1 := .o) (m1 := .o) (c2 := ⟨0, 0, 0⟩) (m2 := .o) (by norm_num [Vec3.dot_def, eps]) (by norm_num [Vec3.dot_def, eps]) with ⟨-, h'⟩ | ⟨C, hC, -⟩
    · norm_num [Vec3.dot_def, eps] at h'
    · refine (C47_sphereMesh h).2.mp rfl C (.vertex (⟨0, 0, 0⟩ : Vec3 ℝ).f ?_ (by rw [zero_eq]; exact hC))
      unfold MeshCollider.verticesInWorld
      refine List.mem_map.mpr ⟨(⟨0, 0, 0⟩ : Vec3 ℝ).f, by simp [Slab.triangle, Slab.corners], ?_⟩
      rw [hm, Vec3.f_add, hw]; congr 1; ext <;> simp

namespace Crate
/-- The floor. -/
noncomputable def floor : PlaneCollider XReal := ⟨none, (Vec3.o).f, (⟨0, 1, 0⟩ : Vec3 ℝ).f, fin 0, .default⟩
theorem up_len : (⟨0, 1, 0⟩ : Vec3 ℝ).len = 1 := by
  show Real.sqrt _ = 1
  rw [show (⟨0, 1, 0⟩ : Vec3 ℝ).dot ⟨0, 1, 0⟩ = 1 by norm_num [Vec3.dot_def]]
  exact Real.sqrt_one
theorem floor_valid : Collider.newFrom (.plane floor) = some (.plane floor) := by
  have h : (⟨0, 1, 0⟩ : Vec3 ℝ).f.normalize = (⟨0, 1, 0⟩ : Vec3 ℝ).f := by
    rw [Vec3.f_normalize (fun h => by have := congrArg Vec3.y h; norm_num at this), up_len]; congr 1; ext <;> simp
  simp only [Collider.newFrom, PlaneCollider.isValid, floor, Vec3.f_magnitude, up_len, h]
  simp
  norm_num
end Crate

theorem put_o (v : Vec3 ℝ) : (Crate.put .o).f.positionIntoWorld v.f = v.f := by
  rw [Crate.put_world]; congr 1; ext <;> simp
theorem ball_floor : ∃ C, collide (.sphere Crate.ball) (Crate.put .o).f (Crate.put .o).f (.plane Crate.floor) (Crate.put .o).f (Crate.put .o).f = .ok (some C) := by
  have ho' : (Vec3.o).f - (Vec3.o).f = (Vec3.o : Vec3 ℝ).f := by rw [Vec3.f_sub]; congr 1; ext <;> simp
  have hb : Crate.ball.center = (Vec3.o).f := rfl
  have hm : Crate.floor.position = (Vec3.o).f := rfl
  rcases C42_spherePlane_slow (r := 1) zero_le_one (c := .o) (m := .o) (p := .o) (n := ⟨0, 1, 0⟩) (v := .o) (by norm_num [Vec3.dot_def]) (by norm_num [Vec3.dot_def, eps]) with ⟨-, h⟩ | ⟨C, hC, -⟩
  · refine absurd ?_ h
    exact ⟨.o, by rw [inBall_iff zero_le_one]; simp [along, Vec3.dot_def], by simp [along, Behind, Vec3.dot_def]⟩
  · refine ⟨C, ?_⟩
    show Except.ok (dispatchSpherePlane _ _ _ _ _ _) = _
    unfold dispatchSpherePlane
    simp only [hb, hm, put_o, ho']
    rw [← hC]; rfl
theorem tip_floor : ∃ C, collide (.mesh (Slab.triangle Slab.tipped)) (Slab.level 1).f (Slab.level (-1)).f (.plane Crate.floor) (Crate.put .o).f (Crate.put .o).f = .ok (some C) := by
  obtain ⟨C, hC, -⟩ := tipped_hits
  refine ⟨C, ?_⟩
  show Except.ok (dispatchMeshPlane _ _ _ _ _ _) = _
  unfold dispatchMeshPlane
  have hm : Crate.floor.position = (Vec3.o).f := rfl
  simp only [hm, put_o]
  rw [← hC]; rfl

/-- **C46.** A pair of kinds is supported exactly if some valid colliders of these kinds collide in some motion between proper poses. -/
theorem C46_exactly (k1 k2 : ColliderType) : Supported k1 k2 ↔ ∃ (c1 c2 : Collider XReal) (o1 e1 o2 e2 : Orientation ℝ) (C : Collision XReal),
    c1.type = k1 ∧ c2.type = k2 ∧ Collider.newFrom c1 = some c1 ∧ Collider.newFrom c2 = some c2 ∧ o1.Unit ∧ e1.Unit ∧ o2.Unit ∧ e2.Unit ∧
    collide c1 o1.f e1.f c2 o2.f e2.f = .ok (some C) := by
  constructor
  · have swap : ∀ {c1 c2 : Collider XReal} {o1 e1 o2 e2 : Orientation XReal} {C : Collision XReal}, c1.type ≠ c2.type → collide c1 o1 e1 c2 o2 e2 = .ok (some C) →
        ∃ D, collide c2 o2 e2 c1 o1 e1 = .ok (some D) := by
      intro c1 c2 o1 e1 o2 e2 C hk h
      have hm := C45_kinds_partial c1 c2 hk o1 e1 o2 e2
      rw [h] at hm
      revert hm
      generalize collide c2 o2 e2 c1 o1 e1 = R
      intro hm
      cases hm with
      | hit _ d => exact ⟨d, rfl⟩
    obtain ⟨C1, h1⟩ := ball_floor
    obtain ⟨C1', h1'⟩ := swap (by simp [Collider.type]) h1
    obtain ⟨C2, h2⟩ := ball_triangle
    obtain ⟨C2', h2'⟩ := swap (by simp [Collider.type]) h2
    obtain ⟨C3, h3⟩ := tip_floor
    obtain ⟨C3', h3'⟩ := swap (by simp [Collider.type]) h3
    obtain ⟨C4, h4⟩ := triangles_collide
    obtain ⟨s, bx, o, p, a, b, C5, hs, hbx, ho, -, -, -, -, h5, -⟩ := C49_false
    obtain ⟨C5', h5'⟩ := swap (by simp [Collider.type]) h5
    have u := Crate.put_unit
    have l := Slab.level_unit
    have v1 := Crate.ball_valid
    have v2 := Crate.floor_valid
    have v3 := Slab.triangle_valid (vs := Slab.corners) rfl
    have v4 := Slab.triangle_valid (vs := Slab.tipped) rfl
    intro h
    cases k1 <;> cases k2 <;> first | exact h.elim | skip
    · rcases C43_resting (r1 := 1) (r2 := 1) (by norm_num) (c1 := .o) (m1 := .o - .o) (c2 := .o) (m2 := .o - .o) (by norm_num [Vec3.dot_def, eps]) (by norm_num [Vec3.dot_def, eps]) with ⟨-, h'⟩ | ⟨C, hC, -⟩
      · norm_num [Vec3.dot_def, eps] at h'
      · exact ⟨_, _, _, _, _, _, C, rfl, rfl, v1, v1, u _, u _, u _, u _, (balls_collide .o .o .o .o).trans (by rw [hC])⟩
    · exact ⟨_, _, _, _, _, _, _, rfl, rfl, v1, v2, u _, u _, u _, u _, h1⟩
    · exact ⟨_, _, _, _, _, _, _, rfl, rfl, v1, v3, u _, u _, u _, u _, h2⟩
    · exact ⟨_, _, _, _, _, _, _, rfl, rfl, hs, hbx, ho, ho, ho, ho, h5⟩
    · exact ⟨_, _, _, _, _, _, _, rfl, rfl, v2, v1, u _, u _, u _, u _, h1'⟩
    · exact ⟨_, _, _, _, _, _, _, rfl, rfl, v2, v4, u _, u _, l _, l _, h3'⟩
    · exact ⟨_, _, _, _, _, _, _, rfl, rfl, v3, v1, u _, u _, u _, u _, h2'⟩
    · exact ⟨_, _, _, _, _, _, _, rfl, rfl, v4, v2, l _, l _, u _, u _, h3⟩
    · exact ⟨_, _, _, _, _, _, _, rfl, rfl, v4, v3, u _, u _, u _, u _, h4⟩
    · exact ⟨_, _, _, _, _, _, _, rfl, rfl, hbx, hs, ho, ho, ho, ho, h5'⟩
  · rintro ⟨c1, c2, o1, e1, o2, e2, C, rfl, rfl, -, -, -, -, -, -, h⟩
    by_contra hn
    rw [C46_unsupported c1 c2 hn] at h
    cases h

end Fluffy.Props
