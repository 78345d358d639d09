import Verif.Num.Body
import Verif.Proofs.Entity
import Mathlib.Data.List.Forall2
/- Mass, centre of mass and inertia over exact numbers. -/
set_option linter.unusedSectionVars false
set_option linter.unusedSimpArgs false
namespace Fluffy
open XReal

/-! ### `recalculate_mass` as sums (any scalar type) -/

namespace InternalEntity
variable {α : Type} [Scalar α]

/-- The colliders with the given handles. -/
def found (cs : Arena (Collider α)) (order : List Handle) : List (Collider α) := order.filterMap cs.get

theorem found_cons {cs : Arena (Collider α)} {h : Handle} {hs : List Handle} {c : Collider α} (hc : cs.get h = some c) :
    found cs (h :: hs) = c :: found cs hs := by simp [found, hc]

theorem massesOf_found (cs : Arena (Collider α)) (order : List Handle) :
    massesOf cs order = (found cs order).map Collider.mass := by
  simp [massesOf, found, List.map_filterMap]

theorem mem_found {cs : Arena (Collider α)} {order : List Handle} {c : Collider α} :
    c ∈ found cs order ↔ ∃ h ∈ order, cs.get h = some c := by simp [found]

theorem massLoop_fold {o : Orientation α} {cs : Arena (Collider α)} : ∀ {order : List Handle} {acc : MassSum α},
    (∀ h ∈ order, ∃ c, cs.get h = some c) → (∀ c ∈ found cs order, Scalar.isInfinite c.mass = false) →
    massLoop o cs order acc = .ok
      ⟨(found cs order).foldl (fun a c => a + (o.positionIntoWorld c.localCenterOfMass).scale c.mass) acc.centerOfMass,
       (found cs order).foldl (fun a c => a + c.mass) acc.totalOtherMass, acc.foundInfinite⟩
  | [], acc, _, _ => rfl
  | h :: hs, acc, hl, hf => by
    obtain ⟨c, hc⟩ := hl h (by simp)
    rw [found_cons hc] at hf ⊢
    unfold massLoop
    rw [hc]
    simp only [unwrap_some, Res.ok_bind]
    rw [if_neg (by simp [hf c (by simp)])]
    rw [massLoop_fold (fun k hk => hl k (by simp [hk])) (fun d hd => hf d (by simp [hd]))]
    rfl

theorem momentLoop_fold {o : Orientation α} {cs : Arena (Collider α)} : ∀ {order : List Handle} {acc : Mat3 α},
    (∀ h ∈ order, ∃ c, cs.get h = some c) →
    momentLoop o cs order acc = .ok
      ((found cs order).foldl (fun a c => a + o.prepMomentOfInertia c.localCenterOfMass c.mass c.momentOfInertia) acc)
  | [], acc, _ => rfl
  | h :: hs, acc, hl => by
    obtain ⟨c, hc⟩ := hl h (by simp)
    rw [found_cons hc]
    unfold momentLoop
    rw [hc]
    simp only [unwrap_some, Res.ok_bind]
    rw [momentLoop_fold (fun k hk => hl k (by simp [hk]))]
    rfl

/-- The outcome when one of the colliders has infinite mass. -/
def fixed (e : InternalEntity α) : InternalEntity α :=
  { e.recenter ⟨Vec3.zeros, zero, true⟩ with preppedMoment := Mat3.zeros }

theorem recenter_infinite (e : InternalEntity α) {s : MassSum α} (h : s.foundInfinite = true) :
    e.recenter s = e.recenter ⟨Vec3.zeros, zero, true⟩ := by
  unfold recenter; simp [h]

theorem recalculateMass_infinite {order : List Handle} {cs : Arena (Collider α)} (e : InternalEntity α)
    (hl : ∀ h ∈ order, ∃ c, cs.get h = some c) (hi : ∃ c ∈ found cs order, Scalar.isInfinite c.mass = true) :
    recalculateMass order cs e = .ok e.fixed := by
  obtain ⟨s, hs⟩ := massLoop_ok (o := e.orientation) ⟨Vec3.zeros, zero, false⟩ hl
  have hf : s.foundInfinite = true := by
    rw [(massLoop_spec hs).1, massesOf_found]
    obtain ⟨c, hc, hi⟩ := hi
    simp only [Bool.false_or, List.any_map, List.any_eq_true, Function.comp]
    exact ⟨c, hc, hi⟩
  unfold recalculateMass
  rw [hs]
  simp only [Res.ok_bind, hf, if_true, fixed, recenter_infinite e hf]

/-- The outcome when all colliders have finite mass. -/
def loose (e : InternalEntity α) (l : List (Collider α)) : InternalEntity α :=
  let e1 := e.recenter
    ⟨l.foldl (fun a c => a + (e.orientation.positionIntoWorld c.localCenterOfMass).scale c.mass) Vec3.zeros,
     l.foldl (fun a c => a + c.mass) zero, false⟩
  { e1 with preppedMoment :=
      l.foldl (fun a c => a + e1.orientation.prepMomentOfInertia c.localCenterOfMass c.mass c.momentOfInertia) Mat3.zeros }

theorem recalculateMass_loose {order : List Handle} {cs : Arena (Collider α)} (e : InternalEntity α)
    (hl : ∀ h ∈ order, ∃ c, cs.get h = some c) (hf : ∀ c ∈ found cs order, Scalar.isInfinite c.mass = false) :
    recalculateMass order cs e = .ok (e.loose (found cs order)) := by
  unfold recalculateMass
  rw [massLoop_fold hl hf]
  simp only [Res.ok_bind, Bool.false_eq_true, if_false]
  rw [momentLoop_fold hl]
  rfl

end InternalEntity

/-! ### Sums of exact numbers do not depend on the order -/

namespace XReal
theorem add_comm' (a b : XReal) : a + b = b + a := by
  cases a <;> cases b <;> simp [add_comm]
theorem add_assoc' (a b c : XReal) : a + b + c = a + (b + c) := by
  cases a <;> cases b <;> cases c <;> simp [add_assoc]
theorem add_right_comm' (a b c : XReal) : a + b + c = a + c + b := by
  rw [add_assoc', add_comm' b c, ← add_assoc']
@[simp] theorem add_zero' (a : XReal) : a + fin 0 = a := by cases a <;> simp
@[simp] theorem zero_add' (a : XReal) : fin 0 + a = a := by cases a <;> simp

theorem fin_of_add {a b : XReal} (h : Scalar.isFinite (a + b) = true) :
    Scalar.isFinite a = true ∧ Scalar.isFinite b = true := by
  cases a <;> cases b <;> simp_all
theorem fin_of_neg {a : XReal} (h : Scalar.isFinite (-a) = true) : Scalar.isFinite a = true := by
  cases a <;> simp_all
theorem fin_of_sub {a b : XReal} (h : Scalar.isFinite (a - b) = true) :
    Scalar.isFinite a = true ∧ Scalar.isFinite b = true := by
  cases a <;> cases b <;> simp_all
theorem infSign_infinite (a : ℝ) : Scalar.isFinite (infSign a) = false := by
  unfold infSign; split <;> [rfl; split <;> rfl]
theorem fin_of_mul {a b : XReal} (h : Scalar.isFinite (a * b) = true) :
    Scalar.isFinite a = true ∧ Scalar.isFinite b = true := by
  cases a with
  | nan => simp at h
  | fin x =>
    cases b with
    | nan => simp at h
    | fin y => simp
    | posInf => rw [show fin x * posInf = infSign x from rfl, infSign_infinite] at h; cases h
    | negInf => rw [show fin x * negInf = infSign (-x) from rfl, infSign_infinite] at h; cases h
  | posInf =>
    cases b with
    | fin y => rw [show posInf * fin y = infSign y from rfl, infSign_infinite] at h; cases h
    | _ => cases h
  | negInf =>
    cases b with
    | fin y => rw [show negInf * fin y = infSign (-y) from rfl, infSign_infinite] at h; cases h
    | _ => cases h
end XReal

theorem Vec3.add_right_commX (a b c : Vec3 XReal) : a + b + c = a + c + b := by
  apply Vec3.ext <;> exact add_right_comm' _ _ _
theorem Mat3.add_right_commX (a b c : Mat3 XReal) : a + b + c = a + c + b := by
  apply Mat3.ext <;> exact Vec3.add_right_commX _ _ _

namespace InternalEntity

theorem loose_perm (e : InternalEntity XReal) {l l' : List (Collider XReal)} (h : l.Perm l') : e.loose l = e.loose l' := by
  have h1 : l.foldl (fun a c => a + c.mass) (zero : XReal) = l'.foldl (fun a c => a + c.mass) zero :=
    h.foldl_eq' (fun x _ y _ z => add_right_comm' _ _ _) _
  have h2 : l.foldl (fun a c => a + (e.orientation.positionIntoWorld c.localCenterOfMass).scale c.mass) Vec3.zeros =
      l'.foldl (fun a c => a + (e.orientation.positionIntoWorld c.localCenterOfMass).scale c.mass) Vec3.zeros :=
    h.foldl_eq' (fun x _ y _ z => Vec3.add_right_commX _ _ _) _
  have h3 : ∀ o : Orientation XReal,
      l.foldl (fun a c => a + o.prepMomentOfInertia c.localCenterOfMass c.mass c.momentOfInertia) Mat3.zeros =
      l'.foldl (fun a c => a + o.prepMomentOfInertia c.localCenterOfMass c.mass c.momentOfInertia) Mat3.zeros :=
    fun o => h.foldl_eq' (fun x _ y _ z => Mat3.add_right_commX _ _ _) _
  unfold loose
  rw [h1, h2]
  simp only [h3]

theorem recalculateMass_perm {order order' : List Handle} {cs : Arena (Collider XReal)} (e : InternalEntity XReal)
    (h : order.Perm order') (hl : ∀ h ∈ order, ∃ c, cs.get h = some c) :
    recalculateMass order cs e = recalculateMass order' cs e := by
  have hp : (found cs order).Perm (found cs order') := h.filterMap _
  have hl' : ∀ h ∈ order', ∃ c, cs.get h = some c := fun k hk => hl k (h.mem_iff.mpr hk)
  by_cases hi : ∃ c ∈ found cs order, Scalar.isInfinite c.mass = true
  · rw [recalculateMass_infinite e hl hi, recalculateMass_infinite e hl']
    obtain ⟨c, hc, h'⟩ := hi
    exact ⟨c, hp.mem_iff.mp hc, h'⟩
  · push Not at hi
    simp only [Bool.not_eq_true] at hi
    rw [recalculateMass_loose e hl hi, recalculateMass_loose e hl' (fun c hc => hi c (hp.mem_iff.mpr hc)),
      loose_perm e hp]

end InternalEntity

/-! ### Real bodies made of lumps -/

namespace Vec3
/-- The sum of a list of vectors. -/
def sum (l : List (Vec3 ℝ)) : Vec3 ℝ := l.foldr (· + ·) o
@[simp] theorem sum_nil : sum [] = o := rfl
@[simp] theorem sum_cons (a : Vec3 ℝ) (l : List (Vec3 ℝ)) : sum (a :: l) = a + sum l := rfl
theorem sum_dot {τ : Type} (l : List τ) (g : τ → Vec3 ℝ) (v : Vec3 ℝ) :
    (sum (l.map g)).dot v = (l.map (fun t => (g t).dot v)).sum := by
  induction l with
  | nil => simp
  | cons a l ih => simp [add_dot, ih]
theorem dot_sum {τ : Type} (l : List τ) (g : τ → Vec3 ℝ) (v : Vec3 ℝ) :
    v.dot (sum (l.map g)) = (l.map (fun t => v.dot (g t))).sum := by
  induction l with
  | nil => simp
  | cons a l ih => simp [dot_add, ih]
end Vec3

namespace Mat3
/-- The sum of a list of matrices. -/
def sum (l : List (Mat3 ℝ)) : Mat3 ℝ := l.foldr (· + ·) o
@[simp] theorem sum_nil : sum [] = o := rfl
@[simp] theorem sum_cons (a : Mat3 ℝ) (l : List (Mat3 ℝ)) : sum (a :: l) = a + sum l := rfl
theorem add_mulVec (a b : Mat3 ℝ) (u : Vec3 ℝ) : (a + b).mulVec u = a.mulVec u + b.mulVec u := by ext <;> simp <;> ring
theorem sum_mulVec {τ : Type} (l : List τ) (g : τ → Mat3 ℝ) (u : Vec3 ℝ) :
    (sum (l.map g)).mulVec u = Vec3.sum (l.map (fun t => (g t).mulVec u)) := by
  induction l with
  | nil => simp
  | cons a l ih => simp [add_mulVec, ih]
theorem mul_mulVec (a b : Mat3 ℝ) (u : Vec3 ℝ) : (a.mul b).mulVec u = a.mulVec (b.mulVec u) := by
  ext <;> simp [mul, transpose, Vec3.dot_def] <;> ring
theorem ext_mulVec {a b : Mat3 ℝ} (h : ∀ u, a.mulVec u = b.mulVec u) : a = b := by
  have h1 := h ⟨1, 0, 0⟩
  have h2 := h ⟨0, 1, 0⟩
  have h3 := h ⟨0, 0, 1⟩
  rw [Vec3.ext_iff] at h1 h2 h3
  simp at h1 h2 h3
  ext <;> simp [*]
theorem add_assoc' (a b c : Mat3 ℝ) : a + b + c = a + (b + c) := by
  apply Mat3.ext <;> exact Vec3.add_assoc' _ _ _
@[simp] theorem add_o (a : Mat3 ℝ) : a + o = a := by apply Mat3.ext <;> exact Vec3.add_o _
@[simp] theorem o_add (a : Mat3 ℝ) : o + a = a := by apply Mat3.ext <;> exact Vec3.o_add _
end Mat3

namespace Quat
theorem matrix_transpose_mulVec {q : Quat ℝ} (h : q.normSq = 1) (u : Vec3 ℝ) :
    q.matrix.transpose.mulVec u = q.conj.rot u := by
  rw [rot_eq_matrix q.conj u (by simpa using h)]
  ext <;> simp [Mat3.transpose, matrix, conj] <;> ring
end Quat

/-- The mass data of a collider as real numbers: mass, centre and tensor. -/
structure Lump where
  m : ℝ
  c : Vec3 ℝ
  t : Mat3 ℝ

namespace Lump
/-- The collider has these mass data. -/
def Of (l : Lump) (c : Collider XReal) : Prop :=
  c.mass = fin l.m ∧ c.localCenterOfMass = l.c.f ∧ c.momentOfInertia = l.t.f

/-- The total mass of a list of lumps. -/
def total (ls : List Lump) : ℝ := (ls.map Lump.m).sum
/-- Their centre of mass, or the origin if they have no mass. -/
noncomputable def mean (ls : List Lump) : Vec3 ℝ :=
  if 0 < total ls then (Vec3.sum (ls.map fun l => l.c.scale l.m)).scale (total ls)⁻¹ else Vec3.o
/-- The tensor of the lump about a point at distance `-d` from its centre. -/
def about (l : Lump) (d : Vec3 ℝ) : Mat3 ℝ :=
  l.t + (Mat3.diag ⟨d.dot d, d.dot d, d.dot d⟩ - Mat3.outer d d).scale l.m

theorem foldl_mass {ls : List Lump} {cs : List (Collider XReal)} (h : List.Forall₂ Of ls cs) (b : ℝ) :
    cs.foldl (fun a c => a + c.mass) (fin b) = fin (b + total ls) := by
  induction h generalizing b with
  | nil => simp [total]
  | cons h _ ih => rw [List.foldl_cons, h.1, fin_add, ih]; simp [total, add_assoc]

theorem foldl_world {o : Orientation ℝ} (ho : o.Unit) {ls : List Lump} {cs : List (Collider XReal)}
    (h : List.Forall₂ Of ls cs) (v : Vec3 ℝ) :
    cs.foldl (fun a c => a + (o.f.positionIntoWorld c.localCenterOfMass).scale c.mass) v.f =
      (v + Vec3.sum (ls.map fun l => (o.toWorld l.c).scale l.m)).f := by
  induction h generalizing v with
  | nil => simp
  | cons h _ ih =>
    rw [List.foldl_cons, h.1, h.2.1, Orientation.f_positionIntoWorld _ _ ho, Vec3.f_scale, Vec3.f_add, ih]
    simp [Vec3.add_assoc']

theorem foldl_moment (o : Orientation ℝ) {ls : List Lump} {cs : List (Collider XReal)}
    (h : List.Forall₂ Of ls cs) (a : Mat3 ℝ) :
    cs.foldl (fun a c => a + o.f.prepMomentOfInertia c.localCenterOfMass c.mass c.momentOfInertia) a.f =
      (a + Mat3.sum (ls.map fun l => l.about (o.internalOriginOffset + l.c))).f := by
  induction h generalizing a with
  | nil => simp
  | cons h _ ih =>
    rw [List.foldl_cons, h.1, h.2.1, h.2.2, Orientation.prepMomentOfInertia, translateMomentOfInertia]
    simp only [Orientation.f_offset, Vec3.f_add, Vec3.f_dot, Mat3.f_diagonalElement, Mat3.f_outer, Mat3.f_sub, Mat3.f_scale,
      Mat3.f_add]
    rw [ih]
    simp [Mat3.add_assoc', about]

theorem sum_world (o : Orientation ℝ) (ls : List Lump) :
    Vec3.sum (ls.map fun l => (o.toWorld l.c).scale l.m) = o.position.scale (total ls) +
      o.rotation.rot (Vec3.sum (ls.map fun l => l.c.scale l.m) + o.internalOriginOffset.scale (total ls)) := by
  induction ls with
  | nil => simp [total]
  | cons l ls ih =>
    rw [List.map_cons, Vec3.sum_cons, ih, List.map_cons, Vec3.sum_cons]
    have ht : total (l :: ls) = l.m + total ls := by simp [total]
    rw [ht]
    simp only [Orientation.toWorld, Quat.rot_add, Quat.rot_scale]
    ext <;> simp <;> ring

theorem world_mean (o : Orientation ℝ) {ls : List Lump} (h : 0 < total ls) :
    (Vec3.sum (ls.map fun l => (o.toWorld l.c).scale l.m)).scale (total ls)⁻¹ = o.toWorld (mean ls) := by
  rw [sum_world, mean, if_pos h, Orientation.toWorld]
  have h0 := h.ne'
  simp only [Quat.rot_add, Quat.rot_scale]
  ext <;> simp <;> field_simp
end Lump

namespace Orientation
/-- The same map from local to world coordinates, with the position at the image of the local point `c`. -/
def recentered (o : Orientation ℝ) (c : Vec3 ℝ) : Orientation ℝ := ⟨o.toWorld c, o.rotation, -c⟩
@[simp] theorem recentered_rotation (o : Orientation ℝ) (c : Vec3 ℝ) : (o.recentered c).rotation = o.rotation := rfl
@[simp] theorem recentered_offset (o : Orientation ℝ) (c : Vec3 ℝ) : (o.recentered c).internalOriginOffset = -c := rfl
@[simp] theorem recentered_position (o : Orientation ℝ) (c : Vec3 ℝ) : (o.recentered c).position = o.toWorld c := rfl
theorem recentered_unit {o : Orientation ℝ} (h : o.Unit) (c : Vec3 ℝ) : (o.recentered c).Unit := h
theorem toWorld_recentered (o : Orientation ℝ) (c p : Vec3 ℝ) : (o.recentered c).toWorld p = o.toWorld p := by
  simp only [toWorld, recentered, Quat.rot_add, Quat.rot_neg]
  ext <;> simp <;> ring
end Orientation

namespace InternalEntity
theorem loose_real {e : InternalEntity XReal} {o : Orientation ℝ} (he : e.orientation = o.f) (ho : o.Unit)
    {ls : List Lump} {cs : List (Collider XReal)} (h : List.Forall₂ Lump.Of ls cs) :
    (e.loose cs).orientation = (o.recentered (Lump.mean ls)).f ∧
    (e.loose cs).totalMass = (if 0 < Lump.total ls then e.ownMass + fin (Lump.total ls) else e.ownMass) ∧
    (e.loose cs).preppedMoment = (Mat3.sum (ls.map fun l => l.about (l.c - Lump.mean ls))).f := by
  have hfold := Lump.foldl_moment (o := o.recentered (Lump.mean ls)) h Mat3.o
  rw [← Mat3.f_zeros, Mat3.o_add] at hfold
  have hmass := Lump.foldl_mass h 0
  have hworld := Lump.foldl_world ho h Vec3.o
  rw [zero_add, ← zero_eq] at hmass
  rw [← Vec3.f_zeros, Vec3.o_add] at hworld
  have hab : ∀ l : Lump, (o.recentered (Lump.mean ls)).internalOriginOffset + l.c = l.c - Lump.mean ls := by
    intro l; ext <;> simp <;> ring
  simp only [hab] at hfold
  unfold loose
  rw [he, hmass, hworld]
  by_cases hM : 0 < Lump.total ls
  · have hor : (e.recenter ⟨(Vec3.sum (ls.map fun l => (o.toWorld l.c).scale l.m)).f, fin (Lump.total ls), false⟩).orientation
        = (o.recentered (Lump.mean ls)).f := by
      unfold recenter
      simp only [zero_eq, fin_lt, hM, decide_true, Bool.not_false, Bool.and_true, if_true, he]
      rw [Vec3.f_unscale _ hM.ne', Lump.world_mean o hM]
      simp only [Orientation.f_position, Vec3.f_sub, Orientation.f_directionIntoLocal, Orientation.f_offset, Vec3.f_add]
      have e1 : o.position + (o.toWorld (Lump.mean ls) - o.position) = o.toWorld (Lump.mean ls) := by ext <;> simp
      have e2 : o.internalOriginOffset - o.rotation.conj.rot (o.toWorld (Lump.mean ls) - o.position) = -Lump.mean ls := by
        have : o.toWorld (Lump.mean ls) - o.position = o.rotation.rot (Lump.mean ls + o.internalOriginOffset) := by
          unfold Orientation.toWorld; ext <;> simp
        rw [this, Quat.rot_conj_rot _ ho]; ext <;> simp
      rw [e1, e2]
      rfl
    refine ⟨hor, ?_, ?_⟩
    · unfold recenter; simp [hM]
    · simp only [hor]; exact hfold
  · have hmean : Lump.mean ls = Vec3.o := by rw [Lump.mean, if_neg hM]
    have hor : (e.recenter ⟨(Vec3.sum (ls.map fun l => (o.toWorld l.c).scale l.m)).f, fin (Lump.total ls), false⟩).orientation
        = (o.recentered (Lump.mean ls)).f := by
      unfold recenter
      simp only [zero_eq, fin_lt, hM, decide_false, Bool.false_and, if_false, he, Bool.false_eq_true]
      rw [hmean, Orientation.recentered, Orientation.toWorld, Vec3.o_add]
      have : ({ o.f with internalOriginOffset := o.f.internalOriginOffset - o.f.internalOriginOffset } : Orientation XReal)
          = (⟨o.position, o.rotation, Vec3.o⟩ : Orientation ℝ).f := by
        simp [Orientation.f, Vec3.sub_self']
      rw [this, Orientation.f_offset, Orientation.f_directionIntoWorld]
      simp [Orientation.f, Vec3.sub_self']
    refine ⟨hor, ?_, ?_⟩
    · unfold recenter; simp [hM]
    · simp only [hor]; exact hfold

theorem fixed_real {e : InternalEntity XReal} {o : Orientation ℝ} (he : e.orientation = o.f) :
    e.fixed.orientation = (o.recentered Vec3.o).f ∧ e.fixed.totalMass = posInf ∧ e.fixed.preppedMoment = Mat3.o.f := by
  refine ⟨?_, ?_, ?_⟩
  · unfold fixed recenter
    simp only [Bool.not_true, Bool.and_false, Bool.false_eq_true, if_false, he]
    rw [Orientation.recentered, Orientation.toWorld, Vec3.o_add]
    have : ({ o.f with internalOriginOffset := o.f.internalOriginOffset - o.f.internalOriginOffset } : Orientation XReal)
        = (⟨o.position, o.rotation, Vec3.o⟩ : Orientation ℝ).f := by
      simp [Orientation.f, Vec3.sub_self']
    rw [this, Orientation.f_offset, Orientation.f_directionIntoWorld]
    simp [Orientation.f, Vec3.sub_self']
  · unfold fixed recenter; simp
  · simp [fixed]

/-- The finished tensor acts as the sum of the turned tensors and the parallel-axis terms. -/
theorem finalize_real {o : Orientation ℝ} (ho : o.Unit) (ls : List Lump) (g : Lump → Vec3 ℝ) :
    ∃ I : Mat3 ℝ, o.f.finalizeMomentOfInertia (Mat3.sum (ls.map fun l => l.about (g l))).f = I.f ∧
      ∀ w, I.mulVec w = Vec3.sum (ls.map fun l => o.rotation.rot (l.t.mulVec (o.rotation.conj.rot w)) +
        (w.scale ((g l).dot (g l)) - (o.rotation.rot (g l)).scale ((o.rotation.rot (g l)).dot w)).scale l.m) := by
  refine ⟨(o.rotation.matrix.mul (Mat3.sum (ls.map fun l => l.about (g l)))).mul o.rotation.matrix.transpose, ?_, ?_⟩
  · simp [Orientation.finalizeMomentOfInertia, rotateMomentOfInertia]
  · intro w
    rw [Mat3.mul_mulVec, Mat3.mul_mulVec, Quat.matrix_transpose_mulVec ho, Mat3.sum_mulVec, ← Quat.rot_eq_matrix _ _ ho]
    induction ls with
    | nil => simp
    | cons l ls ih =>
      simp only [List.map_cons, Vec3.sum_cons, Quat.rot_add] at ih ⊢
      rw [ih]
      congr 1
      have h1 : (l.about (g l)).mulVec (o.rotation.conj.rot w) = l.t.mulVec (o.rotation.conj.rot w) +
          ((o.rotation.conj.rot w).scale ((g l).dot (g l)) - (g l).scale ((g l).dot (o.rotation.conj.rot w))).scale l.m := by
        generalize o.rotation.conj.rot w = u
        unfold Lump.about
        ext <;> simp [Mat3.scale, Mat3.diag, Mat3.outer, Vec3.dot_def] <;> ring
      rw [h1, Quat.rot_add, Quat.rot_scale, Quat.rot_sub, Quat.rot_scale, Quat.rot_scale, Quat.rot_rot_conj _ ho]
      have h2 : (g l).dot (o.rotation.conj.rot w) = (o.rotation.rot (g l)).dot w := by
        have := Quat.rot_dot (g l) (o.rotation.conj.rot w) (q := o.rotation) ho
        rw [Quat.rot_rot_conj _ ho] at this
        exact this.symm
      rw [h2]
end InternalEntity
end Fluffy
