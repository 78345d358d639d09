import Verif.Num.Shift
/-
Exact numbers in another guise: other axes (turned by quarter turns) and another unit of mass.  Nothing here assumes that the
numbers are finite, except where said.
-/
set_option linter.unusedSectionVars false
set_option linter.unusedSimpArgs false
namespace Fluffy

namespace XReal
theorem infSign_neg (r : ℝ) : infSign (-r) = -infSign r := by
  unfold infSign
  rcases lt_trichotomy r 0 with h | h | h
  · rw [if_neg (neg_ne_zero.mpr h.ne), if_pos (neg_pos.mpr h), if_neg h.ne, if_neg (not_lt.mpr h.le)]; rfl
  · simp [h]
  · rw [if_neg (neg_ne_zero.mpr h.ne'), if_neg (by linarith), if_neg h.ne', if_pos h]; rfl
theorem infSign_mul {m : ℝ} (hm : 0 < m) (r : ℝ) : infSign (r * m) = infSign r := by
  unfold infSign
  rcases lt_trichotomy r 0 with h | h | h
  · rw [if_neg (mul_ne_zero h.ne hm.ne'), if_neg (by nlinarith), if_neg h.ne, if_neg (not_lt.mpr h.le)]
  · simp [h]
  · rw [if_neg (mul_ne_zero h.ne' hm.ne'), if_pos (by positivity), if_neg h.ne', if_pos h]
theorem infSign_times {m : ℝ} (hm : 0 < m) (r : ℝ) : infSign r * fin m = infSign r := by
  have h1 : (posInf : XReal) * fin m = posInf := by rw [posInf_mul_fin, infSign, if_neg hm.ne', if_pos hm]
  have h2 : (negInf : XReal) * fin m = negInf := by
    show infSign (-m) = _; rw [infSign, if_neg (by simpa using hm.ne'), if_neg (by linarith)]
  unfold infSign
  split
  · rfl
  · split
    · exact h1
    · exact h2
theorem neg_neg' (a : XReal) : - -a = a := by cases a <;> simp
theorem mul_cm (a b : XReal) : a * b = b * a := by
  cases a <;> cases b <;> first | rfl | exact congrArg fin (mul_comm _ _)
theorem neg_mul' (a b : XReal) : -a * b = -(a * b) := by
  cases a with
  | nan => simp
  | fin x =>
    cases b with
    | nan => simp
    | fin y => simp
    | posInf => exact infSign_neg x
    | negInf => exact infSign_neg (-x)
  | posInf =>
    cases b with
    | nan => simp
    | fin y => exact infSign_neg y
    | posInf => rfl
    | negInf => rfl
  | negInf =>
    cases b with
    | nan => simp
    | fin y => show infSign y = -infSign (-y); rw [infSign_neg, neg_neg']
    | posInf => rfl
    | negInf => rfl
theorem mul_neg' (a b : XReal) : a * -b = -(a * b) := by rw [mul_cm, neg_mul', mul_cm]
theorem neg_div' (a b : XReal) : -a / b = -(a / b) := by
  cases a with
  | nan => simp
  | fin x =>
    cases b with
    | nan => simp
    | fin y =>
      rw [fin_neg, fin_div', fin_div']
      split
      · exact infSign_neg x
      · simp [neg_div]
    | posInf => simp
    | negInf => simp
  | posInf =>
    cases b with
    | nan => simp
    | fin y => simp only [neg_posInf, negInf_div_fin, posInf_div_fin]; split <;> simp
    | posInf => rfl
    | negInf => rfl
  | negInf =>
    cases b with
    | nan => simp
    | fin y => simp only [neg_negInf, negInf_div_fin, posInf_div_fin]; split <;> simp
    | posInf => rfl
    | negInf => rfl
theorem neg_sub' (a b : XReal) : -(a - b) = b - a := by rw [sub_add, neg_sum, neg_neg', sub_add, add_cm]
theorem neg_sub_neg' (a b : XReal) : -a - -b = -(a - b) := by rw [sub_add, sub_add, neg_sum]
theorem abs_neg' (a : XReal) : Scalar.abs (-a) = Scalar.abs a := by cases a <;> simp

/-! ### Times a positive number -/

section
variable {m : ℝ} (hm : 0 < m) (a b : XReal)
include hm
theorem posInf_times : posInf * fin m = posInf := by rw [posInf_mul_fin, infSign, if_neg hm.ne', if_pos hm]
theorem negInf_times : negInf * fin m = negInf := by
  show infSign (-m) = _; rw [infSign, if_neg (by simpa using hm.ne'), if_neg (by linarith)]
theorem isFinite_times : Scalar.isFinite (a * fin m) = Scalar.isFinite a := by
  cases a <;> simp [posInf_times hm, negInf_times hm]
theorem isInfinite_times : Scalar.isInfinite (a * fin m) = Scalar.isInfinite a := by
  cases a <;> simp [posInf_times hm, negInf_times hm]
theorem isNaN_times : Scalar.isNaN (a * fin m) = Scalar.isNaN a := by
  cases a <;> simp [posInf_times hm, negInf_times hm]
theorem lt_times : Scalar.lt (a * fin m) (b * fin m) = Scalar.lt a b := by
  cases a <;> cases b <;> simp [posInf_times hm, negInf_times hm, hm]
theorem eq_zero_times : Scalar.eq (a * fin m) zero = Scalar.eq a zero := by
  cases a <;> simp [posInf_times hm, negInf_times hm, hm.ne'] <;> rfl
theorem add_times : (a + b) * fin m = a * fin m + b * fin m := by
  cases a <;> cases b <;> simp [posInf_times hm, negInf_times hm, add_mul]
theorem neg_times : (-a) * fin m = -(a * fin m) := neg_mul' _ _
theorem sub_times : (a - b) * fin m = a * fin m - b * fin m := by
  rw [sub_add, sub_add, add_times hm, neg_times hm]
theorem times_mul : a * fin m * b = a * b * fin m := by
  cases a with
  | nan => simp
  | fin x =>
    cases b with
    | nan => simp
    | fin y => simp; ring
    | posInf => show infSign (x * m) = infSign x * fin m; rw [infSign_mul hm, infSign_times hm]
    | negInf => show infSign (-(x * m)) = infSign (-x) * fin m; rw [infSign_times hm, ← neg_mul, infSign_mul hm]
  | posInf =>
    rw [posInf_times hm]
    cases b with
    | nan => simp
    | fin y => exact (infSign_times hm y).symm
    | posInf => exact (posInf_times hm).symm
    | negInf => exact (negInf_times hm).symm
  | negInf =>
    rw [negInf_times hm]
    cases b with
    | nan => simp
    | fin y => exact (infSign_times hm (-y)).symm
    | posInf => exact (negInf_times hm).symm
    | negInf => exact (posInf_times hm).symm
theorem mul_times : a * (b * fin m) = a * b * fin m := by rw [mul_cm, times_mul hm, mul_cm b a]
theorem times_div : a * fin m / b = a / b * fin m := by
  cases a with
  | nan => simp
  | fin x =>
    cases b with
    | nan => simp
    | fin y =>
      rw [fin_mul, fin_div', fin_div']
      split
      · rw [infSign_mul hm, infSign_times hm]
      · simp; ring
    | posInf => simp
    | negInf => simp
  | posInf =>
    rw [posInf_times hm]
    cases b with
    | nan => simp
    | fin y => rw [posInf_div_fin]; split <;> simp [posInf_times hm, negInf_times hm]
    | posInf => rfl
    | negInf => rfl
  | negInf =>
    rw [negInf_times hm]
    cases b with
    | nan => simp
    | fin y => rw [negInf_div_fin]; split <;> simp [posInf_times hm, negInf_times hm]
    | posInf => rfl
    | negInf => rfl
theorem div_times : a / (b * fin m) = a / b * fin m⁻¹ := by
  have hi : 0 < m⁻¹ := inv_pos.mpr hm
  cases b with
  | nan => simp
  | posInf => rw [posInf_times hm]; cases a <;> first | rfl | simp
  | negInf => rw [negInf_times hm]; cases a <;> first | rfl | simp
  | fin y =>
    rw [fin_mul]
    cases a with
    | nan => simp
    | fin x =>
      rw [fin_div', fin_div']
      by_cases h : y = 0
      · rw [if_pos h, if_pos (by simp [h]), infSign_times hi]
      · rw [if_neg h, if_neg (mul_ne_zero h hm.ne')]; simp; field_simp
    | posInf =>
      rw [posInf_div_fin, posInf_div_fin]
      by_cases h : 0 ≤ y
      · rw [if_pos h, if_pos (by positivity), posInf_times hi]
      · rw [if_neg h, if_neg (by push Not at h; nlinarith), negInf_times hi]
    | negInf =>
      rw [negInf_div_fin, negInf_div_fin]
      by_cases h : 0 ≤ y
      · rw [if_pos h, if_pos (by positivity), negInf_times hi]
      · rw [if_neg h, if_neg (by push Not at h; nlinarith), posInf_times hi]
theorem times_inv : a * fin m⁻¹ * fin m = a := by
  cases a <;> simp [posInf_times hm, negInf_times hm, posInf_times (inv_pos.mpr hm), negInf_times (inv_pos.mpr hm), hm.ne']
theorem inv_times : a * fin m * fin m⁻¹ = a := by
  cases a <;> simp [posInf_times hm, negInf_times hm, posInf_times (inv_pos.mpr hm), negInf_times (inv_pos.mpr hm), hm.ne']
theorem sqrt_times : Scalar.sqrt (a * fin m * fin m) = Scalar.sqrt a * fin m := by
  cases a with
  | nan => simp
  | fin x =>
    rw [fin_mul, fin_mul, fin_sqrt', fin_sqrt']
    by_cases h : x < 0
    · rw [if_pos h, if_pos (by nlinarith [mul_pos hm hm])]; simp
    · rw [if_neg h, if_neg (by push Not at h ⊢; positivity), mul_assoc, Real.sqrt_mul (not_lt.mp h), Real.sqrt_mul_self hm.le]; rfl
  | posInf => rw [posInf_times hm, posInf_times hm]; exact (posInf_times hm).symm
  | negInf => rw [negInf_times hm, negInf_times hm]; rfl
end
end XReal
open XReal

/-! ### Other axes -/

/-- Turns of the axes: none, the turn about the diagonal that permutes the axes, a quarter turn about the last axis.  Every
turn that takes axes to axes is made of these. -/
inductive Turn where
  | stay | cycle | quarter
  deriving DecidableEq

/-- A vector in the turned axes. -/
def Vec3.turn {α : Type} [Neg α] : Turn → Vec3 α → Vec3 α
  | .stay, v => v
  | .cycle, v => ⟨v.z, v.x, v.y⟩
  | .quarter, v => ⟨-v.y, v.x, v.z⟩

namespace Vec3
variable (t : Turn) (a b v : Vec3 XReal) (k : XReal)
theorem turn_add : (a + b).turn t = a.turn t + b.turn t := by
  cases t <;> first | rfl | (ext <;> first | rfl | exact neg_sum _ _)
theorem turn_neg : (-a).turn t = -a.turn t := by cases t <;> rfl
theorem turn_sub : (a - b).turn t = a.turn t - b.turn t := by
  rw [sub_add, turn_add, turn_neg]; rfl
theorem turn_scale : (v.scale k).turn t = (v.turn t).scale k := by
  cases t <;> first | rfl | (ext <;> first | rfl | exact (neg_mul' _ _).symm)
theorem turn_unscale : (v.unscale k).turn t = (v.turn t).unscale k := by
  cases t <;> first | rfl | (ext <;> first | rfl | exact (neg_div' _ _).symm)
theorem turn_zeros : (zeros : Vec3 XReal).turn t = zeros := by
  cases t <;> first | rfl | (ext <;> simp [turn, zeros])
theorem turn_dot : (a.turn t).dot (b.turn t) = a.dot b := by
  cases t
  · rfl
  · show a.z * b.z + a.x * b.x + a.y * b.y = a.x * b.x + a.y * b.y + a.z * b.z
    ac_rfl
  · show -a.y * -b.y + a.x * b.x + a.z * b.z = a.x * b.x + a.y * b.y + a.z * b.z
    rw [neg_mul', mul_neg', XReal.neg_neg']
    ac_rfl
theorem turn_cross : (a.turn t).cross (b.turn t) = (a.cross b).turn t := by
  cases t
  · rfl
  · rfl
  · ext
    · show a.x * b.z - a.z * b.x = -(a.z * b.x - a.x * b.z)
      rw [neg_sub']
    · show a.z * -b.y - -a.y * b.z = a.y * b.z - a.z * b.y
      rw [neg_mul', mul_neg', neg_sub_neg', neg_sub']
    · show -a.y * b.x - a.x * -b.y = a.x * b.y - a.y * b.x
      rw [neg_mul', mul_neg', neg_sub_neg', neg_sub']
theorem turn_magnitude : (v.turn t).magnitude = v.magnitude := by unfold magnitude; rw [turn_dot]
theorem turn_normalize : (v.turn t).normalize = v.normalize.turn t := by
  unfold normalize; rw [turn_magnitude, turn_unscale]
theorem xneg_dot : (-a).dot b = -(a.dot b) := by
  show -a.x * b.x + -a.y * b.y + -a.z * b.z = -(a.x * b.x + a.y * b.y + a.z * b.z)
  rw [neg_mul', neg_mul', neg_mul', neg_sum, neg_sum]
theorem xdot_neg : a.dot (-b) = -(a.dot b) := by
  show a.x * -b.x + a.y * -b.y + a.z * -b.z = -(a.x * b.x + a.y * b.y + a.z * b.z)
  rw [mul_neg', mul_neg', mul_neg', neg_sum, neg_sum]
end Vec3

/-- A matrix of inertia in the turned axes. -/
def Mat3.turn {α : Type} [Neg α] : Turn → Mat3 α → Mat3 α
  | .stay, m => m
  | .cycle, m => ⟨m.r3.turn .cycle, m.r1.turn .cycle, m.r2.turn .cycle⟩
  | .quarter, m => ⟨-m.r2.turn .quarter, m.r1.turn .quarter, m.r3.turn .quarter⟩

namespace Mat3
variable (t : Turn) (a b : Mat3 XReal) (v : Vec3 XReal) (k : XReal)
theorem turn_mulVec : (a.turn t).mulVec (v.turn t) = (a.mulVec v).turn t := by
  cases t
  · rfl
  · ext <;> exact Vec3.turn_dot _ _ _
  · ext
    · exact (Vec3.xneg_dot _ _).trans (congrArg _ (Vec3.turn_dot .quarter a.r2 v))
    · exact Vec3.turn_dot .quarter a.r1 v
    · exact Vec3.turn_dot .quarter a.r3 v
theorem turn_transpose : (a.turn t).transpose = a.transpose.turn t := by
  cases t <;> rfl
theorem turn_mul : (a.turn t).mul (b.turn t) = (a.mul b).turn t := by
  unfold mul
  rw [turn_transpose]
  generalize b.transpose = c
  cases t
  · rfl
  · show Mat3.mk _ _ _ = Mat3.mk _ _ _
    rw [Mat3.mk.injEq]
    refine ⟨?_, ?_, ?_⟩ <;> ext <;> exact Vec3.turn_dot .cycle _ _
  · have h := Vec3.turn_dot .quarter
    have h1 := fun x y => (Vec3.xneg_dot (Vec3.turn .quarter x) (Vec3.turn .quarter y)).trans (congrArg _ (h x y))
    have h2 := fun x y => (Vec3.xdot_neg (Vec3.turn .quarter x) (Vec3.turn .quarter y)).trans (congrArg _ (h x y))
    have h3 := fun x y => (Vec3.xneg_dot (Vec3.turn .quarter x) (-Vec3.turn .quarter y)).trans (congrArg _ (h2 x y))
    show Mat3.mk _ _ _ = Mat3.mk _ _ _
    rw [Mat3.mk.injEq]
    refine ⟨?_, ?_, ?_⟩ <;> ext <;> first | exact h _ _ | exact h1 _ _ | exact h2 _ _ | exact h3 _ _
theorem turn_scale : (a.scale k).turn t = (a.turn t).scale k := by
  cases t
  · rfl
  · rfl
  · show Mat3.mk _ _ _ = Mat3.mk _ _ _
    rw [Mat3.mk.injEq]
    refine ⟨?_, ?_, ?_⟩ <;> ext <;> first | rfl | exact (neg_mul' _ _).symm | exact (congrArg _ (neg_mul' _ _).symm).trans (neg_mul' _ _).symm
theorem turn_zeros : (zeros : Mat3 XReal).turn t = zeros := by
  cases t <;> first | rfl | (simp only [turn, zeros, Vec3.turn_zeros]; rw [Mat3.mk.injEq]; refine ⟨?_, rfl, rfl⟩; ext <;> (show -(fin _) = fin _; simp))
end Mat3

/-- A rotation in the turned axes. -/
def Quat.turned {α : Type} [Neg α] (t : Turn) (q : Quat α) : Quat α :=
  let v := q.vec.turn t
  ⟨q.w, v.x, v.y, v.z⟩

namespace Mat3
variable (t : Turn) (a b : Mat3 XReal) (u v : Vec3 XReal) (k : XReal)
theorem turn_add : (a + b).turn t = a.turn t + b.turn t := by
  cases t
  · rfl
  · rfl
  · show Mat3.mk _ _ _ = Mat3.mk _ _ _
    rw [Mat3.mk.injEq]
    refine ⟨?_, ?_, ?_⟩ <;> ext <;> first | rfl | exact neg_sum _ _ | exact (congrArg _ (neg_sum _ _)).trans (neg_sum _ _)
theorem turn_sub : (a - b).turn t = a.turn t - b.turn t := by
  cases t
  · rfl
  · rfl
  · show Mat3.mk _ _ _ = Mat3.mk _ _ _
    rw [Mat3.mk.injEq]
    refine ⟨?_, ?_, ?_⟩ <;> ext <;> first | rfl | exact neg_sum _ _ | exact (congrArg _ (neg_sum _ _)).trans (neg_sum _ _)
theorem turn_diagonalElement : (diagonalElement k).turn t = diagonalElement k := by
  cases t
  · rfl
  · rfl
  · show Mat3.mk _ _ _ = Mat3.mk _ _ _
    rw [Mat3.mk.injEq]
    refine ⟨?_, ?_, ?_⟩ <;> ext <;> first
      | rfl | exact XReal.neg_neg' _ | (show -(fin _) = fin _; simp) | (show - -(fin _) = fin _; simp)
theorem turn_outer : outer (u.turn t) (v.turn t) = (outer u v).turn t := by
  cases t
  · rfl
  · rfl
  · show Mat3.mk _ _ _ = Mat3.mk _ _ _
    rw [Mat3.mk.injEq]
    refine ⟨?_, ?_, ?_⟩ <;> ext <;> first | rfl | exact neg_mul' _ _ | exact mul_neg' _ _ | exact (neg_mul' _ _).trans (congrArg _ (mul_neg' _ _))
end Mat3

theorem translateMoment_turn (t : Turn) (a : Mat3 XReal) (k : XReal) (d : Vec3 XReal) :
    translateMomentOfInertia (a.turn t) k (d.turn t) = (translateMomentOfInertia a k d).turn t := by
  unfold translateMomentOfInertia
  rw [Vec3.turn_dot, Mat3.turn_outer, Mat3.turn_add, Mat3.turn_scale, Mat3.turn_sub, Mat3.turn_diagonalElement]

namespace Quat
variable (t : Turn) (p q : Quat XReal) (v : Vec3 XReal)
theorem turned_vec : (q.turned t).vec = q.vec.turn t := rfl
theorem turned_w : (q.turned t).w = q.w := rfl
theorem turned_conj : (q.turned t).conj = q.conj.turned t := by cases t <;> rfl
theorem turned_identity : (identity : Quat XReal).turned t = identity := by
  have := Vec3.turn_zeros t
  show Quat.mk one (Vec3.turn t Vec3.zeros).x (Vec3.turn t Vec3.zeros).y (Vec3.turn t Vec3.zeros).z = _
  rw [this]; rfl
/-- The product by scalar and vector parts. -/
theorem mul_parts : p.mul q = ⟨p.w * q.w - p.vec.dot q.vec, (q.vec.scale p.w + p.vec.scale q.w + p.vec.cross q.vec).x,
    (q.vec.scale p.w + p.vec.scale q.w + p.vec.cross q.vec).y, (q.vec.scale p.w + p.vec.scale q.w + p.vec.cross q.vec).z⟩ := by
  unfold mul
  rw [Quat.mk.injEq]
  refine ⟨?_, ?_, ?_, ?_⟩
  · show _ = p.w * q.w - (p.i * q.i + p.j * q.j + p.k * q.k)
    simp only [XReal.sub_add, neg_sum]; ac_rfl
  · show _ = q.i * p.w + p.i * q.w + (p.j * q.k - p.k * q.j)
    simp only [XReal.sub_add, mul_cm q.i]; ac_rfl
  · show _ = q.j * p.w + p.j * q.w + (p.k * q.i - p.i * q.k)
    simp only [XReal.sub_add, mul_cm q.j]; ac_rfl
  · show _ = q.k * p.w + p.k * q.w + (p.i * q.j - p.j * q.i)
    simp only [XReal.sub_add, mul_cm q.k]; ac_rfl
theorem turned_mul : (p.turned t).mul (q.turned t) = (p.mul q).turned t := by
  rw [mul_parts, mul_parts]
  simp only [turned_vec, turned_w, Vec3.turn_dot, Vec3.turn_cross, ← Vec3.turn_scale, ← Vec3.turn_add]
  rfl
theorem turned_rotate : (q.turned t).rotate (v.turn t) = (q.rotate v).turn t := by
  unfold rotate
  simp only [turned_vec, turned_w, Vec3.turn_cross, ← Vec3.turn_scale, ← Vec3.turn_add]
theorem turned_fromScaledAxis : fromScaledAxis (v.turn t) = (fromScaledAxis v).turned t := by
  unfold fromScaledAxis
  simp only [← Vec3.turn_unscale, Vec3.turn_dot]
  split
  · exact (turned_identity t).symm
  · simp only [← Vec3.turn_scale]; rfl
theorem turned_scaledAxis : (q.turned t).scaledAxis = q.scaledAxis.turn t := by
  unfold scaledAxis
  simp only [turned_vec, turned_w, ← Vec3.turn_neg]
  have h : (if Scalar.le zero q.w = true then q.vec.turn t else (-q.vec).turn t) = (if Scalar.le zero q.w = true then q.vec else -q.vec).turn t := by split <;> rfl
  rw [h]
  generalize (if Scalar.le zero q.w = true then q.vec else -q.vec) = u
  rw [Vec3.turn_dot]
  split
  · rw [Vec3.turn_scale, Vec3.turn_unscale]; rfl
  · rw [Vec3.turn_zeros]
theorem turned_toRotationMatrix : (q.turned t).toRotationMatrix = q.toRotationMatrix.turn t := by
  cases t
  · rfl
  · unfold toRotationMatrix
    show Mat3.mk _ _ _ = Mat3.mk _ _ _
    rw [Mat3.mk.injEq]
    simp only [turned, Vec3.turn, vec, XReal.sub_add, mul_cm q.k q.j, mul_cm q.k q.i, mul_cm q.j q.i]
    refine ⟨?_, ?_, ?_⟩ <;> ext <;> first | rfl | ac_rfl
  · unfold toRotationMatrix
    show Mat3.mk _ _ _ = Mat3.mk _ _ _
    rw [Mat3.mk.injEq]
    simp only [turned, Vec3.turn, vec, XReal.sub_add, neg_mul', mul_neg', XReal.neg_neg', neg_sum, mul_cm q.k q.j, mul_cm q.k q.i, mul_cm q.j q.i]
    refine ⟨?_, ?_, ?_⟩ <;> ext <;> first
      | rfl
      | ac_rfl
      | (show _ = -_; simp only [neg_sum, XReal.neg_neg']; ac_rfl)
      | (show _ = - -_; simp only [neg_sum, XReal.neg_neg']; ac_rfl)
end Quat

theorem rotateMoment_turn (t : Turn) (a : Mat3 XReal) (q : Quat XReal) :
    rotateMomentOfInertia (a.turn t) (q.turned t) = (rotateMomentOfInertia a q).turn t := by
  unfold rotateMomentOfInertia
  simp only [Quat.turned_toRotationMatrix, Mat3.turn_transpose, Mat3.turn_mul]

/-- A pose in the turned axes; the local frame is turned too. -/
def Orientation.turn {α : Type} [Neg α] (t : Turn) (o : Orientation α) : Orientation α :=
  ⟨o.position.turn t, o.rotation.turned t, o.internalOriginOffset.turn t⟩

namespace Orientation
variable (t : Turn) (o o' : Orientation XReal) (p v a b : Vec3 XReal)
theorem turn_intoLocal : (o.turn t).intoLocal = ⟨o.intoLocal.translation.turn t, o.intoLocal.rotation.turned t⟩ := by
  unfold intoLocal Isometry.appendRotation Isometry.appendTranslation turn
  simp only [← Vec3.turn_neg, Quat.turned_conj, Quat.turned_rotate, ← Vec3.turn_add]
  have := Quat.turned_mul t o.rotation.conj Quat.identity
  rw [Quat.turned_identity] at this
  rw [this]
theorem turn_intoWorld : (o.turn t).intoWorld = ⟨o.intoWorld.translation.turn t, o.intoWorld.rotation.turned t⟩ := by
  unfold intoWorld Isometry.inverse
  simp only [turn_intoLocal, ← Vec3.turn_neg, Quat.turned_conj, Quat.turned_rotate]
theorem turn_positionIntoWorld : (o.turn t).positionIntoWorld (p.turn t) = (o.positionIntoWorld p).turn t := by
  unfold positionIntoWorld Isometry.point
  simp only [turn_intoWorld, Quat.turned_rotate, ← Vec3.turn_add]
theorem turn_directionIntoWorld : (o.turn t).directionIntoWorld (p.turn t) = (o.directionIntoWorld p).turn t := by
  unfold directionIntoWorld Isometry.vector
  simp only [turn_intoWorld, Quat.turned_rotate, ← Vec3.turn_add]
theorem turn_positionIntoLocal : (o.turn t).positionIntoLocal (p.turn t) = (o.positionIntoLocal p).turn t := by
  unfold positionIntoLocal Isometry.point
  simp only [turn_intoLocal, Quat.turned_rotate, ← Vec3.turn_add]
theorem turn_directionIntoLocal : (o.turn t).directionIntoLocal (p.turn t) = (o.directionIntoLocal p).turn t := by
  unfold directionIntoLocal Isometry.vector
  simp only [turn_intoLocal, Quat.turned_rotate, ← Vec3.turn_add]
theorem turn_new : new (p.turn t) (a.turn t) (b.turn t) = (new p a b).turn t := by
  unfold new; rw [Quat.turned_fromScaledAxis]; rfl
theorem turn_rotationVec : (o.turn t).rotationVec = o.rotationVec.turn t := Quat.turned_scaledAxis t o.rotation
theorem turn_afterAffected : (o.turn t).afterAffected (a.turn t) (b.turn t) = (o.afterAffected a b).turn t := by
  unfold afterAffected turn
  simp only [← Vec3.turn_add, Quat.turned_fromScaledAxis, Quat.turned_mul]
theorem turn_lerp (k : XReal) : lerp k (o.turn t) (o'.turn t) = (lerp k o o').turn t := by
  unfold lerp
  simp only [turn_rotationVec]
  simp only [turn, ← Vec3.turn_scale, ← Vec3.turn_add, Quat.turned_fromScaledAxis]
theorem turn_finalize (m : Mat3 XReal) : (o.turn t).finalizeMomentOfInertia (m.turn t) = (o.finalizeMomentOfInertia m).turn t :=
  rotateMoment_turn t m o.rotation
theorem turn_prep (k : XReal) (m : Mat3 XReal) : (o.turn t).prepMomentOfInertia (p.turn t) k (m.turn t) = (o.prepMomentOfInertia p k m).turn t := by
  unfold prepMomentOfInertia
  rw [← translateMoment_turn, Vec3.turn_add]
  rfl
end Orientation

/-! ### Inverse matrices -/

theorem Mat3.turn_f (t : Turn) (m : Mat3 ℝ) : (Mat3.f m).turn t = Mat3.f (m.turn t) := by
  cases t <;> rfl

/-- The inverse in turned axes is the turned inverse, for a finite matrix or one of nothing but NaN. -/
theorem Mat3.tryInverse_turn (t : Turn) {m : Mat3 XReal} (h : (∃ r : Mat3 ℝ, m = Mat3.f r) ∨ m = ⟨⟨nan, nan, nan⟩, ⟨nan, nan, nan⟩, ⟨nan, nan, nan⟩⟩) :
    (m.turn t).tryInverse = m.tryInverse.map (Mat3.turn t) := by
  rcases h with ⟨r, rfl⟩ | rfl
  · rw [Mat3.turn_f]
    cases t
    · show (Mat3.f r).tryInverse = (Mat3.f r).tryInverse.map id
      simp
    · have hd : r.r3.z * (r.r1.x * r.r2.y - r.r2.x * r.r1.y) - r.r3.x * (r.r1.z * r.r2.y - r.r2.z * r.r1.y) + r.r3.y * (r.r1.z * r.r2.x - r.r2.z * r.r1.x) =
          r.r1.x * (r.r2.y * r.r3.z - r.r3.y * r.r2.z) - r.r1.y * (r.r2.x * r.r3.z - r.r3.x * r.r2.z) + r.r1.z * (r.r2.x * r.r3.y - r.r3.x * r.r2.y) := by ring
      unfold Mat3.tryInverse
      simp only [Mat3.turn, Mat3.f, Vec3.f, Vec3.turn, fin_mul, fin_sub, fin_add, hd]
      generalize r.r1.x * (r.r2.y * r.r3.z - r.r3.y * r.r2.z) - r.r1.y * (r.r2.x * r.r3.z - r.r3.x * r.r2.z) + r.r1.z * (r.r2.x * r.r3.y - r.r3.x * r.r2.y) = D
      split
      · rfl
      · simp only [Option.map_some, Mat3.turn, Vec3.turn, fin_neg]
        congr 6 <;> ring
    · have hd : - -r.r2.y * (r.r1.x * r.r3.z - r.r3.x * r.r1.z) - -r.r2.x * (-r.r1.y * r.r3.z - -r.r3.y * r.r1.z) + -r.r2.z * (-r.r1.y * r.r3.x - -r.r3.y * r.r1.x) =
          r.r1.x * (r.r2.y * r.r3.z - r.r3.y * r.r2.z) - r.r1.y * (r.r2.x * r.r3.z - r.r3.x * r.r2.z) + r.r1.z * (r.r2.x * r.r3.y - r.r3.x * r.r2.y) := by ring
      unfold Mat3.tryInverse
      simp only [Mat3.turn, Mat3.f, Vec3.f, Vec3.turn, Vec3.neg_x, Vec3.neg_y, Vec3.neg_z, fin_mul, fin_sub, fin_add, fin_neg, hd]
      generalize r.r1.x * (r.r2.y * r.r3.z - r.r3.y * r.r2.z) - r.r1.y * (r.r2.x * r.r3.z - r.r3.x * r.r2.z) + r.r1.z * (r.r2.x * r.r3.y - r.r3.x * r.r2.y) = D
      split
      · rfl
      · simp only [Option.map_some, Mat3.turn, Vec3.turn, fin_neg, ← neg_div']
        show some (Mat3.mk _ _ _) = some (Mat3.mk ⟨-(-fin _ / fin D), -(fin _ / fin D), -(fin _ / fin D)⟩ _ _)
        simp only [← neg_div', fin_neg]
        congr 6 <;> ring
  · cases t <;> simp [Mat3.tryInverse, Mat3.turn, Vec3.turn] <;> rfl

section
variable {m : ℝ} (hm : 0 < m)
include hm
theorem Vec3.times_dot (a b : Vec3 XReal) : (a.scale (fin m)).dot b = a.dot b * fin m := by
  show a.x * fin m * b.x + a.y * fin m * b.y + a.z * fin m * b.z = (a.x * b.x + a.y * b.y + a.z * b.z) * fin m
  simp only [times_mul hm, add_times hm]
theorem Vec3.dot_times (a b : Vec3 XReal) : a.dot (b.scale (fin m)) = a.dot b * fin m := by
  show a.x * (b.x * fin m) + a.y * (b.y * fin m) + a.z * (b.z * fin m) = (a.x * b.x + a.y * b.y + a.z * b.z) * fin m
  simp only [mul_times hm, add_times hm]
theorem Vec3.add_times (a b : Vec3 XReal) : (a + b).scale (fin m) = a.scale (fin m) + b.scale (fin m) := by
  ext <;> exact XReal.add_times hm _ _
theorem Vec3.times_scale (a : Vec3 XReal) (k : XReal) : (a.scale (fin m)).scale k = (a.scale k).scale (fin m) := by
  ext <;> exact XReal.times_mul hm _ _
theorem Vec3.scale_times (a : Vec3 XReal) (k : XReal) : a.scale (k * fin m) = (a.scale k).scale (fin m) := by
  ext <;> exact XReal.mul_times hm _ _
theorem Vec3.times_inv (a : Vec3 XReal) : (a.scale (fin m⁻¹)).scale (fin m) = a := by
  ext <;> exact XReal.times_inv hm _
theorem Vec3.inv_times (a : Vec3 XReal) : (a.scale (fin m)).scale (fin m⁻¹) = a := by
  ext <;> exact XReal.inv_times hm _
theorem Vec3.cross_times (a b : Vec3 XReal) : a.cross (b.scale (fin m)) = (a.cross b).scale (fin m) := by
  ext <;> exact (by
    show _ * (_ * fin m) - _ * (_ * fin m) = (_ * _ - _ * _) * fin m
    rw [mul_times hm, mul_times hm, XReal.sub_times hm])
theorem Vec3.magnitude_times (a : Vec3 XReal) : (a.scale (fin m)).magnitude = a.magnitude * fin m := by
  unfold Vec3.magnitude
  rw [Vec3.times_dot hm, Vec3.dot_times hm, sqrt_times hm]
theorem Mat3.times_mulVec (a : Mat3 XReal) (v : Vec3 XReal) : (a.scale (fin m)).mulVec v = (a.mulVec v).scale (fin m) := by
  ext <;> exact Vec3.times_dot hm _ _
theorem Mat3.mulVec_times (a : Mat3 XReal) (v : Vec3 XReal) : a.mulVec (v.scale (fin m)) = (a.mulVec v).scale (fin m) := by
  ext <;> exact Vec3.dot_times hm _ _
theorem rotateMoment_times (a : Mat3 XReal) (q : Quat XReal) :
    rotateMomentOfInertia (a.scale (fin m)) q = (rotateMomentOfInertia a q).scale (fin m) := by
  have h1 : ∀ x y : Mat3 XReal, x.mul (y.scale (fin m)) = (x.mul y).scale (fin m) := by
    intro x y
    have ht : (y.scale (fin m)).transpose = y.transpose.scale (fin m) := rfl
    unfold Mat3.mul
    rw [ht]
    show Mat3.mk _ _ _ = Mat3.mk _ _ _
    rw [Mat3.mk.injEq]
    refine ⟨?_, ?_, ?_⟩ <;> ext <;> exact Vec3.dot_times hm _ _
  have h2 : ∀ x y : Mat3 XReal, (x.scale (fin m)).mul y = (x.mul y).scale (fin m) := by
    intro x y
    show Mat3.mk _ _ _ = Mat3.mk _ _ _
    rw [Mat3.mk.injEq]
    refine ⟨?_, ?_, ?_⟩ <;> ext <;> exact Vec3.times_dot hm _ _
  unfold rotateMomentOfInertia
  dsimp only
  rw [h1, h2]
theorem Mat3.tryInverse_times (a : Mat3 XReal) : (a.scale (fin m)).tryInverse = a.tryInverse.map (Mat3.scale · (fin m⁻¹)) := by
  unfold Mat3.tryInverse
  simp only [Mat3.scale, Vec3.scale, times_mul hm, mul_times hm, ← XReal.sub_times hm, ← XReal.add_times hm, eq_zero_times hm]
  split
  · rfl
  · simp only [Option.map_some, times_div hm, div_times hm, XReal.times_inv hm, ← neg_times hm]
end

end Fluffy
