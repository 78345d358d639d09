import Verif.Num.Fin
/- Rotations and poses of exact finite numbers. -/
set_option linter.unusedSectionVars false
namespace Fluffy
open XReal

namespace Vec3
variable (a b c : Vec3 ℝ) (k l : ℝ)
theorem dot_comm : a.dot b = b.dot a := by simp only [dot_def]; ring
theorem dot_add : a.dot (b + c) = a.dot b + a.dot c := by simp only [dot_def, add_x, add_y, add_z]; ring
theorem add_dot : (a + b).dot c = a.dot c + b.dot c := by simp only [dot_def, add_x, add_y, add_z]; ring
theorem dot_sub : a.dot (b - c) = a.dot b - a.dot c := by simp only [dot_def, sub_x, sub_y, sub_z]; ring
theorem sub_dot : (a - b).dot c = a.dot c - b.dot c := by simp only [dot_def, sub_x, sub_y, sub_z]; ring
theorem dot_scale : a.dot (b.scale k) = a.dot b * k := by simp only [dot_def, scale_x, scale_y, scale_z]; ring
theorem scale_dot : (a.scale k).dot b = a.dot b * k := by simp only [dot_def, scale_x, scale_y, scale_z]; ring
theorem dot_neg : a.dot (-b) = -a.dot b := by simp only [dot_def, neg_x, neg_y, neg_z]; ring
theorem neg_dot : (-a).dot b = -a.dot b := by simp only [dot_def, neg_x, neg_y, neg_z]; ring
theorem add_comm' : a + b = b + a := by ext <;> simp <;> ring
theorem add_assoc' : a + b + c = a + (b + c) := by ext <;> simp <;> ring
@[simp] theorem add_o : a + o = a := by ext <;> simp
@[simp] theorem o_add : o + a = a := by ext <;> simp
@[simp] theorem sub_o : a - o = a := by ext <;> simp
@[simp] theorem o_sub : o - a = -a := by ext <;> simp
@[simp] theorem neg_o : -o = o := by ext <;> simp
@[simp] theorem scale_o : o.scale k = o := by ext <;> simp
@[simp] theorem scale_zero : a.scale 0 = o := by ext <;> simp
@[simp] theorem scale_one : a.scale 1 = a := by ext <;> simp
@[simp] theorem dot_o : a.dot o = 0 := by simp [dot_def]
@[simp] theorem o_dot : o.dot a = 0 := by simp [dot_def]
@[simp] theorem cross_o : a.cross o = o := by ext <;> simp
@[simp] theorem o_cross : o.cross a = o := by ext <;> simp
theorem sub_self' : a - a = o := by ext <;> simp
theorem scale_scale : (a.scale k).scale l = a.scale (k * l) := by ext <;> simp <;> ring
@[simp] theorem neg_neg' : - -a = a := by ext <;> simp
theorem len_scale : (a.scale k).len = a.len * |k| := by
  unfold len
  rw [scale_dot, dot_scale, show a.dot a * k * k = a.dot a * (k * k) by ring,
    Real.sqrt_mul (dot_self_nonneg a), Real.sqrt_mul_self_eq_abs]
theorem len_neg : (-a).len = a.len := by unfold len; rw [neg_dot, dot_neg, neg_neg]
@[simp] theorem len_o : o.len = 0 := (len_eq_zero o).mpr rfl
theorem len_pos {a : Vec3 ℝ} (h : a ≠ o) : 0 < a.len :=
  lt_of_le_of_ne (len_nonneg a) (fun hc => h ((len_eq_zero a).mp hc.symm))
theorem unit_normalize {a : Vec3 ℝ} (h : a ≠ o) : (a.scale a.len⁻¹).dot (a.scale a.len⁻¹) = 1 := by
  rw [scale_dot, dot_scale, ← len_sq]
  have := len_pos h
  field_simp
/-- Cauchy-Schwarz. -/
theorem dot_mul_le : a.dot b * a.dot b ≤ a.dot a * b.dot b := by
  have h1 := dot_self_nonneg (a.cross b)
  have h2 : (a.cross b).dot (a.cross b) = a.dot a * b.dot b - a.dot b * a.dot b := by
    simp only [dot_def, cross_x, cross_y, cross_z]; ring
  linarith
theorem abs_dot_le : |a.dot b| ≤ a.len * b.len := by
  unfold len
  rw [← Real.sqrt_mul (dot_self_nonneg a), ← Real.sqrt_mul_self_eq_abs]
  exact Real.sqrt_le_sqrt (dot_mul_le a b)
theorem dot_le : a.dot b ≤ a.len * b.len := le_trans (le_abs_self _) (abs_dot_le a b)
end Vec3

namespace Quat
variable (p q : Quat ℝ) (u v w : Vec3 ℝ) (k : ℝ)

theorem rot_add : q.rot (u + v) = q.rot u + q.rot v := by
  ext <;> simp [rot, vec] <;> ring
theorem rot_sub : q.rot (u - v) = q.rot u - q.rot v := by
  ext <;> simp [rot, vec] <;> ring
theorem rot_neg : q.rot (-v) = -q.rot v := by
  ext <;> simp [rot, vec] <;> ring
theorem rot_scale : q.rot (v.scale k) = (q.rot v).scale k := by
  ext <;> simp [rot, vec] <;> ring
@[simp] theorem rot_o : q.rot Vec3.o = Vec3.o := by ext <;> simp [rot, vec]
@[simp] theorem conj_conj : q.conj.conj = q := by ext <;> simp [conj]

theorem rot_conj_rot {q : Quat ℝ} (h : q.normSq = 1) : q.conj.rot (q.rot v) = v := by
  unfold normSq at h
  have hw : q.w * q.w = 1 - q.i * q.i - q.j * q.j - q.k * q.k := by linarith
  rw [rot_eq_matrix q v (by simpa [normSq] using h), rot_eq_matrix q.conj _ (by rw [conj_normSq]; simpa [normSq] using h)]
  have key : ∀ x : ℝ, x = x * (q.w * q.w + q.i * q.i + q.j * q.j + q.k * q.k) ^ 2 := by intro x; rw [h]; ring
  ext
  · rw [key v.x]; simp only [matrix, Mat3.mulVec, Vec3.dot_def, conj]; ring
  · rw [key v.y]; simp only [matrix, Mat3.mulVec, Vec3.dot_def, conj]; ring
  · rw [key v.z]; simp only [matrix, Mat3.mulVec, Vec3.dot_def, conj]; ring
theorem rot_rot_conj {q : Quat ℝ} (h : q.normSq = 1) : q.rot (q.conj.rot v) = v := by
  have := rot_conj_rot v (q := q.conj) (by rw [conj_normSq]; exact h)
  rwa [conj_conj] at this
theorem rot_dot {q : Quat ℝ} (h : q.normSq = 1) : (q.rot u).dot (q.rot v) = u.dot v := by
  unfold normSq at h
  rw [rot_eq_matrix q u (by simpa [normSq] using h), rot_eq_matrix q v (by simpa [normSq] using h)]
  have key : u.dot v = u.dot v * (q.w * q.w + q.i * q.i + q.j * q.j + q.k * q.k) ^ 2 := by rw [h]; ring
  rw [key]
  simp only [matrix, Mat3.mulVec, Vec3.dot_def]; ring
theorem rot_len {q : Quat ℝ} (h : q.normSq = 1) : (q.rot v).len = v.len := by unfold Vec3.len; rw [rot_dot v v h]
theorem rot_mul {p q : Quat ℝ} (hp : p.normSq = 1) (hq : q.normSq = 1) : (p.mul q).rot v = p.rot (q.rot v) := by
  have hm : (p.mul q).normSq = 1 := by rw [mul_mul_normSq, hp, hq]; ring
  rw [rot_eq_matrix _ _ hm, rot_eq_matrix _ _ hp, rot_eq_matrix _ _ hq]
  ext <;> simp only [matrix, Mat3.mulVec, Vec3.dot_def, mul] <;> ring
theorem rot_cross {q : Quat ℝ} (h : q.normSq = 1) : q.rot (u.cross v) = (q.rot u).cross (q.rot v) := by
  have h' := h
  unfold normSq at h
  have hw : q.w * q.w = 1 - q.i * q.i - q.j * q.j - q.k * q.k := by linarith
  rw [rot_eq_matrix q u h', rot_eq_matrix q v h', rot_eq_matrix q _ h']
  have key : ∀ x : ℝ, x = x * (q.w * q.w + q.i * q.i + q.j * q.j + q.k * q.k) := by intro x; rw [h]; ring
  ext
  · rw [key (q.matrix.mulVec (u.cross v)).x]
    simp only [matrix, Mat3.mulVec, Vec3.dot_def, Vec3.cross_x, Vec3.cross_y, Vec3.cross_z]; ring
  · rw [key (q.matrix.mulVec (u.cross v)).y]
    simp only [matrix, Mat3.mulVec, Vec3.dot_def, Vec3.cross_x, Vec3.cross_y, Vec3.cross_z]; ring
  · rw [key (q.matrix.mulVec (u.cross v)).z]
    simp only [matrix, Mat3.mulVec, Vec3.dot_def, Vec3.cross_x, Vec3.cross_y, Vec3.cross_z]; ring

/-- `f32::EPSILON`. -/
noncomputable def meps : ℝ := 1 / 8388608
@[simp] theorem machineEps_eq : (machineEps : XReal) = fin meps := by simp [machineEps, meps]
theorem meps_pos : 0 < meps := by unfold meps; norm_num

/-- The rotation by a rotation vector, as the code computes it: none for vectors of length at most `2^-22`. -/
noncomputable def exp (r : Vec3 ℝ) : Quat ℝ :=
  if (r.scale 2⁻¹).dot (r.scale 2⁻¹) ≤ meps * meps then e
  else
    let n := (r.scale 2⁻¹).len
    let s := (r.scale 2⁻¹).scale (Real.sin n / n)
    ⟨Real.cos n, s.x, s.y, s.z⟩
@[simp] theorem f_fromScaledAxis (r : Vec3 ℝ) : fromScaledAxis r.f = f (exp r) := by
  simp only [fromScaledAxis, two_eq, Vec3.f_unscale_two, Vec3.f_dot, machineEps_eq, fin_mul, fin_le, exp]
  split
  · rename_i h; rw [if_pos (by simpa using h)]; simp
  · rename_i h
    have h' : ¬ (r.scale 2⁻¹).dot (r.scale 2⁻¹) ≤ meps * meps := by simpa using h
    rw [if_neg h']
    have hn : (r.scale 2⁻¹).len ≠ 0 := by
      intro hc
      have := Vec3.len_sq (r.scale 2⁻¹)
      rw [hc] at this
      apply h'; rw [← this]
      have := meps_pos; nlinarith
    rw [fin_sqrt (Vec3.dot_self_nonneg _)]
    rw [show Real.sqrt ((r.scale 2⁻¹).dot (r.scale 2⁻¹)) = (r.scale 2⁻¹).len from rfl]
    generalize r.scale 2⁻¹ = u at hn
    simp [fin_div hn, f, Vec3.scale]
theorem exp_normSq (r : Vec3 ℝ) : (exp r).normSq = 1 := by
  unfold exp
  split
  · simp
  · rename_i h
    have hn : (r.scale 2⁻¹).len ≠ 0 := by
      intro hc
      have := Vec3.len_sq (r.scale 2⁻¹)
      rw [hc] at this
      apply h; rw [← this]
      have := meps_pos; nlinarith
    have h2 := Vec3.len_sq (r.scale 2⁻¹)
    simp only [normSq]
    clear h
    generalize (r.scale 2⁻¹) = u at *
    have h3 := Real.sin_sq_add_cos_sq u.len
    rw [Vec3.dot_def] at h2
    simp only [Vec3.scale_x, Vec3.scale_y, Vec3.scale_z]
    have : (u.x * u.x + u.y * u.y + u.z * u.z) * (Real.sin u.len / u.len) ^ 2 = Real.sin u.len ^ 2 := by
      rw [← h2]; field_simp
    linear_combination h3 + this
@[simp] theorem exp_o : exp Vec3.o = e := by
  unfold exp; rw [if_pos]; have := meps_pos; simp; nlinarith

/-- The rotation vector of a quaternion, as the code computes it. -/
noncomputable def log (q : Quat ℝ) : Vec3 ℝ :=
  let v := if 0 ≤ q.w then q.vec else -q.vec
  if 0 < v.dot v then
    (v.scale v.len⁻¹).scale (if 1 ≤ |q.w| then 0 else Real.arccos |q.w| * 2)
  else .o
theorem f_scaledAxis (q : Quat ℝ) : (f q).scaledAxis = (log q).f := by
  simp only [scaledAxis, zero_eq, f_w, fin_le, f_vec, Vec3.f_neg, one_eq, fin_abs, two_eq, log]
  have : (if decide (0 ≤ q.w) = true then q.vec.f else (-q.vec).f) = (if 0 ≤ q.w then q.vec else -q.vec).f := by
    by_cases h : 0 ≤ q.w <;> simp [h]
  rw [this]
  generalize (if 0 ≤ q.w then q.vec else -q.vec) = v
  simp only [Vec3.f_dot, fin_lt, decide_eq_true_eq]
  split
  · rename_i h
    have hv : v ≠ Vec3.o := by intro hc; rw [hc] at h; simp at h
    rw [fin_sqrt (Vec3.dot_self_nonneg _)]
    rw [show Real.sqrt (v.dot v) = v.len from rfl, Vec3.f_unscale v (ne_of_gt (Vec3.len_pos hv))]
    by_cases h1 : 1 ≤ |q.w|
    · simp [h1]
    · simp only [h1, if_false]
      rw [fin_acos (by rw [abs_abs]; linarith), fin_mul, Vec3.f_scale]
  · simp
end Quat

namespace Orientation
/-- Finite poses of exact numbers. -/
def f (o : Orientation ℝ) : Orientation XReal := ⟨o.position.f, o.rotation.f, o.internalOriginOffset.f⟩
/-- The world point of a local point: position + R (p + offset). -/
def toWorld (o : Orientation ℝ) (p : Vec3 ℝ) : Vec3 ℝ := o.position + o.rotation.rot (p + o.internalOriginOffset)
/-- The local point of a world point. -/
def toLocal (o : Orientation ℝ) (p : Vec3 ℝ) : Vec3 ℝ := o.rotation.conj.rot (p - o.position) - o.internalOriginOffset
/-- The quaternion is a unit quaternion. -/
def Unit (o : Orientation ℝ) : Prop := o.rotation.normSq = 1
/-- A finite pose with a unit quaternion. -/
def Rigid (o : Orientation XReal) : Prop := ∃ r : Orientation ℝ, o = r.f ∧ r.Unit

variable (o : Orientation ℝ) (p q : Vec3 ℝ)
@[simp] theorem f_position : o.f.position = o.position.f := rfl
@[simp] theorem f_rotation : o.f.rotation = o.rotation.f := rfl
@[simp] theorem f_offset : o.f.internalOriginOffset = o.internalOriginOffset.f := rfl
theorem f_inj (a b : Orientation ℝ) : a.f = b.f ↔ a = b := by
  cases a; cases b; simp [f]

theorem f_intoLocal : o.f.intoLocal = ⟨(o.rotation.conj.rot (-o.position) - o.internalOriginOffset).f, o.rotation.conj.f⟩ := by
  simp only [intoLocal, Isometry.appendRotation, Isometry.appendTranslation, f_position, f_rotation, f_offset,
    Vec3.f_neg, Quat.f_conj, Quat.f_rotate, Quat.f_identity, Quat.f_mul, Quat.mul_e, Vec3.f_add]
  congr 2
theorem f_positionIntoLocal : o.f.positionIntoLocal p.f = (o.toLocal p).f := by
  simp only [positionIntoLocal, f_intoLocal, Isometry.point, Quat.f_rotate, Vec3.f_add, toLocal, Vec3.f_inj]
  rw [Quat.rot_sub, Quat.rot_neg]; ext <;> simp <;> ring
theorem f_directionIntoLocal : o.f.directionIntoLocal p.f = (o.rotation.conj.rot p).f := by
  simp only [directionIntoLocal, f_intoLocal, Isometry.vector, Quat.f_rotate]
theorem f_directionIntoWorld : o.f.directionIntoWorld p.f = (o.rotation.rot p).f := by
  simp only [directionIntoWorld, intoWorld, f_intoLocal, Isometry.vector, Isometry.inverse, Quat.f_conj, Quat.conj_conj,
    Quat.f_rotate]
theorem f_positionIntoWorld (h : o.Unit) : o.f.positionIntoWorld p.f = (o.toWorld p).f := by
  simp only [positionIntoWorld, intoWorld, f_intoLocal, Isometry.point, Isometry.inverse, Quat.f_conj, Quat.conj_conj,
    Quat.f_rotate, Vec3.f_neg, Vec3.f_add, toWorld, Vec3.f_inj]
  rw [Quat.rot_neg, Quat.rot_sub, Quat.rot_rot_conj _ h, Quat.rot_add]
  ext <;> simp <;> ring
theorem f_localOriginInWorld (h : o.Unit) :
    o.f.localOriginInWorld = (o.position + o.rotation.rot o.internalOriginOffset).f := by
  rw [localOriginInWorld, Vec3.f_zeros, f_positionIntoWorld o _ h]; simp [toWorld]
theorem f_new (a b c : Vec3 ℝ) : Orientation.new a.f b.f c.f = (⟨a, Quat.exp b, c⟩ : Orientation ℝ).f := by
  simp [Orientation.new, f]
/-- The pose after a movement. -/
noncomputable def after (o : Orientation ℝ) (l a : Vec3 ℝ) : Orientation ℝ :=
  ⟨o.position + l, (Quat.exp a).mul o.rotation, o.internalOriginOffset⟩
theorem f_afterAffected (l a : Vec3 ℝ) : o.f.afterAffected l.f a.f = (o.after l a).f := by
  simp [afterAffected, f, after]
theorem after_unit (h : o.Unit) (l a : Vec3 ℝ) : (o.after l a).Unit := by
  unfold Unit after; rw [Quat.mul_mul_normSq, Quat.exp_normSq, h]; ring
theorem f_rotationVec : o.f.rotationVec = (Quat.log o.rotation).f := Quat.f_scaledAxis _
theorem toLocal_toWorld (h : o.Unit) : o.toLocal (o.toWorld p) = p := by
  unfold toLocal toWorld
  rw [show o.position + o.rotation.rot (p + o.internalOriginOffset) - o.position = o.rotation.rot (p + o.internalOriginOffset)
    by ext <;> simp, Quat.rot_conj_rot _ h]
  ext <;> simp
theorem toWorld_toLocal (h : o.Unit) : o.toWorld (o.toLocal p) = p := by
  unfold toLocal toWorld
  rw [show o.rotation.conj.rot (p - o.position) - o.internalOriginOffset + o.internalOriginOffset =
    o.rotation.conj.rot (p - o.position) by ext <;> simp, Quat.rot_rot_conj _ h]
  ext <;> simp
end Orientation
end Fluffy
