import Verif.Model.Step
import Verif.Num.XReal
import Verif.Num.F32
import Verif.Proofs.Basic
import Mathlib.Tactic.SplitIfs
/- A body whose position or rotation is not a number collides with nothing.  For every number type in which NaN spreads. -/
set_option linter.unusedSectionVars false
set_option linter.unusedSimpArgs false
namespace Fluffy

/-- How NaN behaves: what is made of it is NaN, it compares with nothing, and it is not finite. -/
class NaNLaws (α : Type) [Scalar α] : Prop where
  add_left {x y : α} : Scalar.isNaN x = true → Scalar.isNaN (x + y) = true
  add_right {x y : α} : Scalar.isNaN y = true → Scalar.isNaN (x + y) = true
  sub_left {x y : α} : Scalar.isNaN x = true → Scalar.isNaN (x - y) = true
  sub_right {x y : α} : Scalar.isNaN y = true → Scalar.isNaN (x - y) = true
  mul_left {x y : α} : Scalar.isNaN x = true → Scalar.isNaN (x * y) = true
  mul_right {x y : α} : Scalar.isNaN y = true → Scalar.isNaN (x * y) = true
  div_left {x y : α} : Scalar.isNaN x = true → Scalar.isNaN (x / y) = true
  div_right {x y : α} : Scalar.isNaN y = true → Scalar.isNaN (x / y) = true
  neg {x : α} : Scalar.isNaN x = true → Scalar.isNaN (-x) = true
  abs {x : α} : Scalar.isNaN x = true → Scalar.isNaN (Scalar.abs x) = true
  sqrt {x : α} : Scalar.isNaN x = true → Scalar.isNaN (Scalar.sqrt x) = true
  lt_left {x y : α} : Scalar.isNaN x = true → Scalar.lt x y = false
  lt_right {x y : α} : Scalar.isNaN y = true → Scalar.lt x y = false
  le_left {x y : α} : Scalar.isNaN x = true → Scalar.le x y = false
  finite {x : α} : Scalar.isNaN x = true → Scalar.isFinite x = false
  nan : Scalar.isNaN (Scalar.nan : α) = true

open XReal in
instance : NaNLaws XReal where
  add_left {x y} h := by revert h; cases x <;> cases y <;> simp
  add_right {x y} h := by revert h; cases x <;> cases y <;> simp
  sub_left {x y} h := by revert h; cases x <;> cases y <;> simp
  sub_right {x y} h := by revert h; cases x <;> cases y <;> simp
  mul_left {x y} h := by revert h; cases x <;> cases y <;> simp [HMul.hMul, Mul.mul, XReal.mul]
  mul_right {x y} h := by revert h; cases x <;> cases y <;> simp [HMul.hMul, Mul.mul, XReal.mul]
  div_left {x y} h := by revert h; cases x <;> cases y <;> simp [HDiv.hDiv, Div.div, XReal.div]
  div_right {x y} h := by revert h; cases x <;> cases y <;> simp [HDiv.hDiv, Div.div, XReal.div]
  neg {x} h := by revert h; cases x <;> simp
  abs {x} h := by revert h; cases x <;> simp
  sqrt {x} h := by revert h; cases x <;> simp [Scalar.sqrt]
  lt_left {x y} h := by revert h; cases x <;> cases y <;> simp
  lt_right {x y} h := by revert h; cases x <;> cases y <;> simp
  le_left {x y} h := by revert h; cases x <;> cases y <;> simp
  finite {x} h := by revert h; cases x <;> simp
  nan := rfl

namespace F32
variable [Libm]

theorem nan_of {x : F32} (h : Scalar.isNaN x = true) : x = nan := by
  cases x <;> first | rfl | (simp [Scalar.isNaN] at h)

instance : NaNLaws F32 where
  add_left {x y} h := by cases nan_of h; rfl
  add_right {x y} h := by cases nan_of h; cases x <;> rfl
  sub_left {x y} h := by cases nan_of h; rfl
  sub_right {x y} h := by cases nan_of h; cases x <;> rfl
  mul_left {x y} h := by cases nan_of h; rfl
  mul_right {x y} h := by cases nan_of h; cases x <;> rfl
  div_left {x y} h := by cases nan_of h; rfl
  div_right {x y} h := by cases nan_of h; cases x <;> rfl
  neg {x} h := by cases nan_of h; rfl
  abs {x} h := by cases nan_of h; rfl
  sqrt {x} h := by cases nan_of h; rfl
  lt_left {x y} h := by cases nan_of h; rfl
  lt_right {x y} h := by cases nan_of h; cases x <;> rfl
  le_left {x y} h := by cases nan_of h; rfl
  finite {x} h := by cases nan_of h; rfl
  nan := rfl
end F32

variable {α : Type} [Scalar α]

/-- Some coordinate is not a number. -/
def Vec3.Astray (v : Vec3 α) : Prop := Scalar.isNaN v.x = true ∨ Scalar.isNaN v.y = true ∨ Scalar.isNaN v.z = true
/-- No coordinate is a number. -/
def Vec3.Void (v : Vec3 α) : Prop := Scalar.isNaN v.x = true ∧ Scalar.isNaN v.y = true ∧ Scalar.isNaN v.z = true

variable [NaNLaws α]

open Lean in
macro "spread" : tactic => `(tactic| solve_by_elim (maxDepth := 14) [NaNLaws.add_left, NaNLaws.add_right, NaNLaws.sub_left, NaNLaws.sub_right,
  NaNLaws.mul_left, NaNLaws.mul_right, NaNLaws.div_left, NaNLaws.div_right, NaNLaws.neg])

namespace Vec3

theorem Void.astray {v : Vec3 α} (h : v.Void) : v.Astray := .inl h.1

theorem Void.add_left {v : Vec3 α} (h : v.Void) (w : Vec3 α) : (v + w).Void :=
  ⟨NaNLaws.add_left h.1, NaNLaws.add_left h.2.1, NaNLaws.add_left h.2.2⟩
theorem Void.add_right {v : Vec3 α} (h : v.Void) (w : Vec3 α) : (w + v).Void :=
  ⟨NaNLaws.add_right h.1, NaNLaws.add_right h.2.1, NaNLaws.add_right h.2.2⟩
theorem Void.sub_left {v : Vec3 α} (h : v.Void) (w : Vec3 α) : (v - w).Void :=
  ⟨NaNLaws.sub_left h.1, NaNLaws.sub_left h.2.1, NaNLaws.sub_left h.2.2⟩
theorem Void.sub_right {v : Vec3 α} (h : v.Void) (w : Vec3 α) : (w - v).Void :=
  ⟨NaNLaws.sub_right h.1, NaNLaws.sub_right h.2.1, NaNLaws.sub_right h.2.2⟩
theorem Void.unscale {v : Vec3 α} (h : v.Void) (k : α) : (v.unscale k).Void :=
  ⟨NaNLaws.div_left h.1, NaNLaws.div_left h.2.1, NaNLaws.div_left h.2.2⟩
theorem Void.neg {v : Vec3 α} (h : v.Void) : (-v).Void := ⟨NaNLaws.neg h.1, NaNLaws.neg h.2.1, NaNLaws.neg h.2.2⟩
theorem Void.cross {v : Vec3 α} (h : v.Void) (w : Vec3 α) : (v.cross w).Void := by
  obtain ⟨h1, h2, h3⟩ := h
  refine ⟨?_, ?_, ?_⟩ <;> (simp only [Vec3.cross]; spread)
theorem Void.dot {v : Vec3 α} (h : v.Void) (w : Vec3 α) : Scalar.isNaN (v.dot w) = true := by
  obtain ⟨h1, h2, h3⟩ := h
  simp only [Vec3.dot]; spread
theorem Void.magnitude {v : Vec3 α} (h : v.Void) : Scalar.isNaN v.magnitude = true := NaNLaws.sqrt (h.dot v)

theorem Astray.neg {v : Vec3 α} (h : v.Astray) : (-v).Astray := h.imp NaNLaws.neg (Or.imp NaNLaws.neg NaNLaws.neg)
theorem Astray.add_left {v : Vec3 α} (h : v.Astray) (w : Vec3 α) : (v + w).Astray :=
  h.imp NaNLaws.add_left (Or.imp NaNLaws.add_left NaNLaws.add_left)
theorem Astray.add_right {v : Vec3 α} (h : v.Astray) (w : Vec3 α) : (w + v).Astray :=
  h.imp NaNLaws.add_right (Or.imp NaNLaws.add_right NaNLaws.add_right)
theorem Astray.scale {v : Vec3 α} (h : v.Astray) (k : α) : (v.scale k).Astray :=
  h.imp NaNLaws.mul_left (Or.imp NaNLaws.mul_left NaNLaws.mul_left)
end Vec3

theorem Vec3.Astray.unscale {v : Vec3 α} (h : v.Astray) (k : α) : (v.unscale k).Astray :=
  h.imp NaNLaws.div_left (Or.imp NaNLaws.div_left NaNLaws.div_left)
theorem Vec3.Astray.norm {v : Vec3 α} (h : v.Astray) : Scalar.isNaN (v.dot v) = true := by
  rcases h with h | h | h <;> (simp only [Vec3.dot]; spread)

/-- Some component is not a number. -/
def Quat.Astray (q : Quat α) : Prop := Scalar.isNaN q.w = true ∨ Scalar.isNaN q.i = true ∨ Scalar.isNaN q.j = true ∨ Scalar.isNaN q.k = true

namespace Quat

theorem rotate_spread (q : Quat α) {v : Vec3 α} (h : v.Astray ∨ q.Astray) : (q.rotate v).Void := by
  have ax : ∀ a b : Vec3 α, (a + b).x = a.x + b.x := fun _ _ => rfl
  have ay : ∀ a b : Vec3 α, (a + b).y = a.y + b.y := fun _ _ => rfl
  have az : ∀ a b : Vec3 α, (a + b).z = a.z + b.z := fun _ _ => rfl
  rcases h with (h | h | h) | h | h | h | h <;> refine ⟨?_, ?_, ?_⟩ <;>
    (simp only [Quat.rotate, Quat.vec, ax, ay, az, Vec3.scale, Vec3.cross]; clear ax ay az; spread)

/-- Turning a vector spreads a bad coordinate to all of them. -/
theorem rotate_void (q : Quat α) {v : Vec3 α} (h : v.Astray) : (q.rotate v).Void := q.rotate_spread (.inl h)

theorem Astray.conj {q : Quat α} (h : q.Astray) : q.conj.Astray := h.imp id (Or.imp NaNLaws.neg (Or.imp NaNLaws.neg NaNLaws.neg))

theorem Astray.mul_left {q : Quat α} (h : q.Astray) (r : Quat α) : (q.mul r).Astray := by
  left
  rcases h with h | h | h | h <;> (simp only [Quat.mul]; spread)

theorem Astray.mul_right {q : Quat α} (h : q.Astray) (r : Quat α) : (r.mul q).Astray := by
  left
  rcases h with h | h | h | h <;> (simp only [Quat.mul]; spread)

theorem fromScaledAxis_astray {v : Vec3 α} (h : v.Astray) : (Quat.fromScaledAxis v).Astray := by
  have h2 := h.unscale two
  simp only [Quat.fromScaledAxis, NaNLaws.le_left h2.norm]
  exact .inr (h2.scale _)
end Quat

namespace Orientation

/-- Some coordinate of the position, or some component of the rotation, is not a number. -/
def Astray (o : Orientation α) : Prop := o.position.Astray ∨ o.rotation.Astray

theorem intoLocal_void {o : Orientation α} (h : o.Astray) : o.intoLocal.translation.Void :=
  (Quat.rotate_spread _ (h.imp Vec3.Astray.neg Quat.Astray.conj)).add_left _

theorem local_void {o : Orientation α} (h : o.Astray) (p : Vec3 α) : (o.positionIntoLocal p).Void :=
  (intoLocal_void h).add_right _

theorem world_void {o : Orientation α} (h : o.Astray) (p : Vec3 α) : (o.positionIntoWorld p).Void :=
  (Quat.rotate_void _ (intoLocal_void h).neg.astray).add_right _

theorem local_point_void (o : Orientation α) {p : Vec3 α} (h : p.Void) : (o.positionIntoLocal p).Void :=
  (Quat.rotate_void _ h.astray).add_left _

/-- Moving a body does not bring it back, and moving it by what is not a number loses it. -/
theorem after_astray {o : Orientation α} {l a : Vec3 α} (h : o.Astray ∨ l.Astray ∨ a.Astray) : (o.afterAffected l a).Astray := by
  rcases h with (h | h) | h | h
  · exact .inl (h.add_left _)
  · exact .inr (h.mul_right _)
  · exact .inl (h.add_right _)
  · exact .inr ((Quat.fromScaledAxis_astray h).mul_left _)
end Orientation

namespace Range

theorem empty_isEmpty : (Range.empty : Range α).isEmpty = true := by simp [Range.isEmpty, Range.empty, NaNLaws.nan]

theorem isEmpty_range {x y : α} (hx : Scalar.isNaN x = true) : (Range.range x y).isEmpty = true := by
  simp only [Range.range, NaNLaws.lt_left hx]; simp [Range.isEmpty, hx]

theorem isEmpty_intersect {r : Range α} (o : Range α) (h : r.isEmpty = true) : (r.intersect o).isEmpty = true := by
  simp only [Range.intersect, h, Bool.true_or, if_true]; exact empty_isEmpty

theorem isEmpty_contain {r o : Range α} (h : r.isEmpty = true) (h' : o.isEmpty = true) : (r.contain o).isEmpty = true := by
  simp only [Range.contain, h, if_true]; exact h'

theorem isEmpty_overlap (r o : Range α) {m : α} (h : Scalar.isNaN m = true) : (r.linearOverlap o m).isEmpty = true := by
  simp only [Range.linearOverlap, NaNLaws.lt_left (NaNLaws.abs h)]
  exact isEmpty_contain (isEmpty_range (NaNLaws.div_right h)) (isEmpty_range (NaNLaws.div_right h))

theorem isEmpty_quadratic {a : α} (b c : α) (h : Scalar.isNaN a = true) : (Range.quadraticZeros a b c).isEmpty = true := by
  have hd : Scalar.isNaN (b * b - lit 4 1 * a * c) = true := NaNLaws.sub_right (NaNLaws.mul_left (NaNLaws.mul_right h))
  simp only [Range.quadraticZeros, NaNLaws.lt_left (NaNLaws.abs h), NaNLaws.lt_left hd]
  exact isEmpty_range (NaNLaws.div_right (NaNLaws.mul_right h))

theorem min_nan {r : Range α} (h : r.isEmpty = true) : Scalar.isNaN r.min = true := by
  simp only [Range.min, h, if_true]; exact NaNLaws.nan
end Range

theorem planeTime_void (radius : α) (c : Vec3 α) {m1 m2 : Vec3 α} (p n : Vec3 α) (b : Bool) (h : m1.Void ∨ m2.Void) :
    (spherePlaneOverlapTime radius c m1 p n m2 b).isEmpty = true :=
  Range.isEmpty_overlap _ _ (h.elim (fun h => NaNLaws.sub_right (h.dot _)) (fun h => NaNLaws.sub_left (h.dot _)))

theorem spherePlane_void (radius : α) (c : Vec3 α) {m1 m2 : Vec3 α} (p n : Vec3 α) (h : m1.Void ∨ m2.Void) :
    collideSpherePlane radius c m1 p n m2 = none := by
  simp [collideSpherePlane, Range.isEmpty_intersect unitRange (planeTime_void radius c p n true h)]

theorem Vec3.Void.of_sub {m1 m2 : Vec3 α} (h : m1.Void ∨ m2.Void) : (m1 - m2).Void :=
  h.elim (fun h => h.sub_left _) (fun h => h.sub_right _)

theorem sphereSphere_void (r1 : α) (c1 : Vec3 α) {m1 m2 : Vec3 α} (r2 : α) (c2 : Vec3 α) (h : m1.Void ∨ m2.Void) :
    collideSphereSphere r1 c1 m1 r2 c2 m2 = none := by
  have := Range.isEmpty_intersect unitRange (Range.isEmpty_quadratic (two * (m1 - m2).dot (c1 - c2))
    ((c1 - c2).dot (c1 - c2) - (r1 + r2) * (r1 + r2)) ((Vec3.Void.of_sub h).dot (m1 - m2)))
  simp [collideSphereSphere, this]

theorem sphereLine_void (r1 : α) (c1 : Vec3 α) {m1 m2 : Vec3 α} (s d : Vec3 α) (h : m1.Void ∨ m2.Void) :
    collideSphereLine r1 c1 m1 s d m2 = none := by
  have := fun x y => Range.isEmpty_intersect unitRange (Range.isEmpty_quadratic x y
    (((Vec3.Void.of_sub h).cross d.normalize).dot ((m1 - m2).cross d.normalize)))
  simp [collideSphereLine, this]

theorem midSegment_void (r1 : α) (c1 : Vec3 α) {m1 m2 : Vec3 α} (s d : Vec3 α) (h : m1.Void ∨ m2.Void) :
    collideSphereMidSegment r1 c1 m1 s d m2 = none := by
  simp [collideSphereMidSegment, sphereLine_void _ _ _ _ h]

theorem spherePolygon_void (r1 : α) (c1 : Vec3 α) {m1 m2 : Vec3 α} {cs : List (Vec3 α)} (h : m1.Void ∨ m2.Void)
    {r : Option (Collision α)} (hr : collideSpherePolygon r1 c1 m1 cs m2 = .ok r) : r = none := by
  unfold collideSpherePolygon at hr
  split at hr
  · simp [Range.isEmpty_intersect unitRange (planeTime_void r1 c1 _ _ false h)] at hr
    exact hr.symm
  · cases hr

theorem vertices_void (r1 : α) (c1 : Vec3 α) {m1 m2 : Vec3 α} (h : m1.Void ∨ m2.Void) (vs : List (Vec3 α)) (acc : Earliest α) :
    considerVertices r1 c1 m1 m2 vs acc = acc := by
  induction vs with
  | nil => rfl
  | cons v vs ih => simp [considerVertices, sphereSphere_void _ _ _ _ h, Earliest.consider, ih]

theorem edges_void (r1 : α) (c1 : Vec3 α) {m1 m2 : Vec3 α} (h : m1.Void ∨ m2.Void) (vs : List (Vec3 α)) {es : List (Nat × Nat)}
    {acc acc' : Earliest α} (hr : considerEdges r1 c1 m1 vs m2 es acc = .ok acc') : acc' = acc := by
  induction es with
  | nil => exact (Except.ok.inj hr).symm
  | cons e es ih =>
    obtain ⟨i, j⟩ := e
    obtain ⟨a, _, hr⟩ := Res.bind_eq_ok.mp hr
    obtain ⟨b, _, hr⟩ := Res.bind_eq_ok.mp hr
    rw [midSegment_void _ _ _ _ h] at hr
    exact ih hr

theorem faces_void (r1 : α) (c1 : Vec3 α) {m1 m2 : Vec3 α} (h : m1.Void ∨ m2.Void) (vs : List (Vec3 α)) {fs : List (List Nat)}
    {acc acc' : Earliest α} (hr : considerFaces r1 c1 m1 vs m2 fs acc = .ok acc') : acc' = acc := by
  induction fs with
  | nil => exact (Except.ok.inj hr).symm
  | cons f fs ih =>
    obtain ⟨a, _, hr⟩ := Res.bind_eq_ok.mp hr
    obtain ⟨b, hb, hr⟩ := Res.bind_eq_ok.mp hr
    rw [spherePolygon_void _ _ h hb] at hr
    exact ih hr

theorem sphereMesh_void (r1 : α) (c1 : Vec3 α) {m1 m2 : Vec3 α} (h : m1.Void ∨ m2.Void) {vs : List (Vec3 α)} {es : List (Nat × Nat)}
    {fs : List (List Nat)} {r : Option (Collision α)} (hr : collideSphereMesh r1 c1 m1 vs es fs m2 = .ok r) : r = none := by
  obtain ⟨a, ha, hr⟩ := Res.bind_eq_ok.mp hr
  obtain ⟨b, hb, hr⟩ := Res.bind_eq_ok.mp hr
  rw [edges_void _ _ h _ ha, vertices_void _ _ h] at hb
  rw [faces_void _ _ h _ hb] at hr
  exact (Except.ok.inj hr).symm

theorem hull_void {l : List α} (h : ∀ x ∈ l, Scalar.isNaN x = true) : (hull l).isEmpty = true := by
  have : ∀ (l : List α) (r : Range α), (∀ x ∈ l, Scalar.isNaN x = true) → r.isEmpty = true →
      (l.foldl (fun r d => r.contain (Range.single d)) r).isEmpty = true := by
    intro l
    induction l with
    | nil => intro r _ hr; exact hr
    | cons x l ih =>
      intro r hx hr
      refine ih _ (fun y hy => hx y (List.mem_cons_of_mem _ hy)) (Range.isEmpty_contain hr ?_)
      simp [Range.isEmpty, Range.single, hx x List.mem_cons_self]
  exact this l _ h Range.empty_isEmpty

theorem meshPlane_void (vs : List (Vec3 α)) (mp : Vec3 α) (start : Orientation α) {stop : Orientation α} (ps : Vec3 α) {pe : Vec3 α} (n : Vec3 α)
    (h : stop.Astray ∨ pe.Void) : collideMeshPlane vs mp start stop ps pe n = none := by
  have hh : (hull ((vs.map (meshInfo mp start stop ps pe n)).map (·.endDistance))).isEmpty = true := by
    apply hull_void
    intro x hx
    simp only [List.map_map, List.mem_map, Function.comp] at hx
    obtain ⟨v, _, rfl⟩ := hx
    rcases h with h | h
    · exact ((Orientation.world_void h _).sub_left _).dot _
    · exact (h.sub_right _).dot _
  have := fun r o => Range.isEmpty_intersect (unitRange : Range α) (Range.isEmpty_overlap r o (NaNLaws.sub_left
    (y := (hull ((vs.map (meshInfo mp start stop ps pe n)).map (·.startDistance))).min) (Range.min_nan hh)))
  unfold collideMeshPlane
  simp only [this]
  rfl

theorem normalLoop_void {l : List (Vec3 α × Vec3 α × Vec3 α)} (h : ∀ t ∈ l, t.2.1.Void) (v : Vec3 α) : polygonNormalLoop l ≠ .ok v := by
  induction l with
  | nil => simp [polygonNormalLoop]
  | cons t l ih =>
    obtain ⟨a, b, c⟩ := t
    have hb : b.Void := h _ List.mem_cons_self
    simp only [polygonNormalLoop, NaNLaws.finite ((hb.sub_right a).cross (c - b)).magnitude, Bool.false_and]
    exact ih (fun t ht => h t (List.mem_cons_of_mem _ ht))

theorem polygonNormal_void {l : List (Vec3 α)} (h : ∀ p ∈ l, p.Void) (v : Vec3 α) : polygonNormal l ≠ .ok v := by
  apply normalLoop_void
  rintro ⟨a, b, c⟩ ht
  exact h b (List.of_mem_zip (List.of_mem_zip ht).2).1

theorem pointPolygon_void {s e : Vec3 α} {l : List (Vec3 α)} (h : e.Void ∨ ∀ p ∈ l, p.Void) {r : Option (Collision α)}
    (hr : collidePointPolygon s e l = .ok r) : r = none := by
  obtain ⟨n, hn, hr⟩ := Res.bind_eq_ok.mp hr
  obtain ⟨p, _, hr⟩ := Res.bind_eq_ok.mp hr
  rcases h with h | h
  · have h1 : pointIsOnPlane e n p = false := NaNLaws.lt_left (NaNLaws.abs ((h.sub_left p).dot n))
    have h2 : Scalar.isFinite ((s - p).dot n / -((e - s).dot n)) = false :=
      NaNLaws.finite (NaNLaws.div_right (NaNLaws.neg ((h.sub_left s).dot n)))
    simp only [h1, Bool.and_false, h2, Bool.not_false, Bool.true_or, if_true] at hr
    exact (Except.ok.inj hr).symm
  · exact absurd hn (polygonNormal_void h n)

theorem midFace_void {pts : List (Vec3 α × Vec3 α)} (h : ∀ p ∈ pts, p.2.Void) {f : List Nat} {l : List (Vec3 α)}
    (hl : midFace pts f = .ok l) : ∀ p ∈ l, p.Void := by
  induction f generalizing l with
  | nil => cases hl; simp
  | cons i f ih =>
    obtain ⟨p, hp, hl⟩ := Res.bind_eq_ok.mp hl
    obtain ⟨ps, hps, hl⟩ := Res.bind_eq_ok.mp hl
    cases hl
    rintro q (_ | ⟨_, hq⟩)
    · exact ((h p (List.mem_of_getElem? (index_eq_ok.mp hp))).add_right _).unscale _
    · exact ih hps q hq

theorem pointFaces_void {p : Vec3 α × Vec3 α} {pts : List (Vec3 α × Vec3 α)} (h : p.2.Void ∨ ∀ q ∈ pts, q.2.Void) {fs : List (List Nat)}
    {acc acc' : Earliest α} (hr : pointAgainstFaces p pts fs acc = .ok acc') : acc' = acc := by
  induction fs with
  | nil => exact (Except.ok.inj hr).symm
  | cons f fs ih =>
    obtain ⟨l, hl, hr⟩ := Res.bind_eq_ok.mp hr
    obtain ⟨c, hc, hr⟩ := Res.bind_eq_ok.mp hr
    rw [pointPolygon_void (h.imp_right (fun h => midFace_void h hl)) hc] at hr
    exact ih hr

theorem pointsFaces_void {ps pts : List (Vec3 α × Vec3 α)} (h : (∀ p ∈ ps, p.2.Void) ∨ ∀ q ∈ pts, q.2.Void) {fs : List (List Nat)}
    {acc acc' : Earliest α} (hr : pointsAgainstFaces pts fs ps acc = .ok acc') : acc' = acc := by
  induction ps with
  | nil => exact (Except.ok.inj hr).symm
  | cons p ps ih =>
    obtain ⟨a, ha, hr⟩ := Res.bind_eq_ok.mp hr
    rw [pointFaces_void (h.imp_left (fun h => h p List.mem_cons_self)) ha] at hr
    exact ih (h.imp_left (fun h q hq => h q (List.mem_cons_of_mem _ hq))) hr

theorem meshPoints_void {ps pts : List (Vec3 α × Vec3 α)} (h : (∀ p ∈ ps, p.2.Void) ∨ ∀ q ∈ pts, q.2.Void) {m : MeshCollider α} {k : α}
    {acc acc' : Earliest α} (hr : collideMeshPointsFaces acc ps m pts k = .ok acc') : acc' = acc := by
  obtain ⟨a, ha, hr⟩ := Res.bind_eq_ok.mp hr
  cases pointsFaces_void h ha
  exact (Except.ok.inj hr).symm

theorem pairs_void (m : MeshCollider α) (start : Orientation α) {stop : Orientation α} (h : stop.Astray) :
    ∀ p ∈ meshPointPairs m start stop, p.2.Void := by
  intro p hp
  obtain ⟨v, _, rfl⟩ := List.mem_map.mp hp
  exact Orientation.world_void h _

theorem meshMesh_void {m1 m2 : MeshCollider α} {s1 e1 s2 e2 : Orientation α} (h : e1.Astray ∨ e2.Astray)
    {r : Option (Collision α)} (hr : collideMeshMesh m1 s1 e1 m2 s2 e2 = .ok r) : r = none := by
  obtain ⟨a, ha, hr⟩ := Res.bind_eq_ok.mp hr
  obtain ⟨b, hb, hr⟩ := Res.bind_eq_ok.mp hr
  have h' := h.imp (pairs_void m1 s1) (pairs_void m2 s2)
  rw [meshPoints_void h' ha] at hb
  rw [meshPoints_void h'.symm hb] at hr
  exact (Except.ok.inj hr).symm

theorem sphereBox_void (r1 : α) (c : Vec3 α) {m : Vec3 α} (a b : Vec3 α) (h : m.Void) {r : Option (Collision α)}
    (hr : collideSphereBox r1 c m a b = .ok r) : r = none := by
  have ht : (boxSurfaceTimes r1 c m a b).isEmpty = true := by
    refine Range.isEmpty_intersect _ (Range.isEmpty_contain (Range.isEmpty_contain ?_ ?_) ?_)
    · exact Range.isEmpty_intersect _ (Range.isEmpty_intersect _ (Range.isEmpty_overlap _ _ h.1))
    · exact Range.isEmpty_intersect _ (Range.isEmpty_intersect _ (Range.isEmpty_overlap _ _ h.1))
    · exact Range.isEmpty_intersect _ (Range.isEmpty_intersect _ (Range.isEmpty_overlap _ _ h.1))
  have hs : boxSurfaceCollision r1 c m a b = none := by simp [boxSurfaceCollision, ht]
  obtain ⟨x, hx, hr⟩ := Res.bind_eq_ok.mp hr
  rw [vertices_void _ _ (.inl h), edges_void _ _ (.inl h) _ hx, hs] at hr
  exact (Except.ok.inj hr).symm

/-- Nothing collides with a body that ends up nowhere. -/
theorem collide_lost {c1 c2 : Collider α} {s1 e1 s2 e2 : Orientation α} (h : e1.Astray ∨ e2.Astray)
    {r : Option (Collision α)} (hr : collide c1 s1 e1 c2 s2 e2 = .ok r) : r = none := by
  have mv : ∀ {e : Orientation α} (s : Orientation α) (p : Vec3 α), e.Astray →
      (e.positionIntoWorld p - s.positionIntoWorld p).Void := fun s p h => (Orientation.world_void h p).sub_left _
  have sp : ∀ {s e s' e' : Orientation α} {x : SphereCollider α} {p : PlaneCollider α}, e.Astray ∨ e'.Astray →
      dispatchSpherePlane x s e p s' e' = none := fun h => spherePlane_void _ _ _ _ (h.imp (mv _ _) (mv _ _))
  have sm : ∀ {s e s' e' : Orientation α} {x : SphereCollider α} {p : MeshCollider α} {r : Option (Collision α)},
      e.Astray ∨ e'.Astray → dispatchSphereMesh x s e p s' e' = .ok r → r = none :=
    fun h hr => sphereMesh_void _ _ (h.imp (mv _ _) (mv _ _)) hr
  have mp : ∀ {s e s' e' : Orientation α} {x : MeshCollider α} {p : PlaneCollider α}, e.Astray ∨ e'.Astray →
      dispatchMeshPlane x s e p s' e' = none := fun h => meshPlane_void _ _ _ _ _ (h.imp_right (fun h => Orientation.world_void h _))
  have sb : ∀ {s e s' e' : Orientation α} {x : SphereCollider α} {p : BoxCollider α} {r : Option (Collision α)},
      e.Astray ∨ e'.Astray → dispatchSphereBox x s e p s' e' = .ok r → r = none := by
    intro s e s' e' x p r h hr
    obtain ⟨a, ha, hr⟩ := Res.bind_eq_ok.mp hr
    have := sphereBox_void _ _ _ _ (Vec3.Void.sub_left (h.elim
      (fun h => Orientation.local_point_void _ (Orientation.world_void h _)) (fun h => Orientation.local_void h _)) _) ha
    subst this
    exact (Except.ok.inj hr).symm
  unfold collide at hr
  split at hr
  · exact (Except.ok.inj hr).symm.trans (sphereSphere_void _ _ _ _ (h.imp (mv _ _) (mv _ _)))
  · exact (Except.ok.inj hr).symm.trans (sp h)
  · rw [sp h.symm] at hr; exact (Except.ok.inj hr).symm
  · exact sm h hr
  · obtain ⟨a, ha, hr⟩ := Res.bind_eq_ok.mp hr
    cases sm h.symm ha; exact (Except.ok.inj hr).symm
  · exact (Except.ok.inj hr).symm.trans (mp h)
  · rw [mp h.symm] at hr; exact (Except.ok.inj hr).symm
  · exact meshMesh_void h hr
  · exact sb h hr
  · obtain ⟨a, ha, hr⟩ := Res.bind_eq_ok.mp hr
    cases sb h.symm ha; exact (Except.ok.inj hr).symm
  · exact (Except.ok.inj hr).symm

end Fluffy
