import Verif.Num.XReal
import Verif.Model.Entity
/-
Finite vectors, matrices and quaternions of exact numbers: every operation of the model on finite values is the
corresponding operation on real numbers.
-/
set_option linter.unusedSectionVars false
namespace Fluffy
open XReal

attribute [ext] Vec3 Mat3 Quat

namespace Vec3
/-- The zero vector of reals. -/
def o : Vec3 ℝ := ⟨0, 0, 0⟩
section
variable (a b : Vec3 ℝ) (k : ℝ)
@[simp] theorem add_x : (a + b).x = a.x + b.x := rfl
@[simp] theorem add_y : (a + b).y = a.y + b.y := rfl
@[simp] theorem add_z : (a + b).z = a.z + b.z := rfl
@[simp] theorem sub_x : (a - b).x = a.x - b.x := rfl
@[simp] theorem sub_y : (a - b).y = a.y - b.y := rfl
@[simp] theorem sub_z : (a - b).z = a.z - b.z := rfl
@[simp] theorem neg_x : (-a).x = -a.x := rfl
@[simp] theorem neg_y : (-a).y = -a.y := rfl
@[simp] theorem neg_z : (-a).z = -a.z := rfl
@[simp] theorem scale_x : (a.scale k).x = a.x * k := rfl
@[simp] theorem scale_y : (a.scale k).y = a.y * k := rfl
@[simp] theorem scale_z : (a.scale k).z = a.z * k := rfl
@[simp] theorem cross_x : (a.cross b).x = a.y * b.z - a.z * b.y := rfl
@[simp] theorem cross_y : (a.cross b).y = a.z * b.x - a.x * b.z := rfl
@[simp] theorem cross_z : (a.cross b).z = a.x * b.y - a.y * b.x := rfl
@[simp] theorem o_x : o.x = 0 := rfl
@[simp] theorem o_y : o.y = 0 := rfl
@[simp] theorem o_z : o.z = 0 := rfl
theorem dot_def : a.dot b = a.x * b.x + a.y * b.y + a.z * b.z := rfl
end

/-- Finite vectors of exact numbers. -/
def f (v : Vec3 ℝ) : Vec3 XReal := ⟨fin v.x, fin v.y, fin v.z⟩
variable (a b : Vec3 ℝ) (k : ℝ)
@[simp] theorem f_inj : f a = f b ↔ a = b :=
  ⟨fun h => by cases a; cases b; simp only [f, mk.injEq, fin_inj] at h; simp [h], fun h => by rw [h]⟩
@[simp] theorem f_x : (f a).x = fin a.x := rfl
@[simp] theorem f_y : (f a).y = fin a.y := rfl
@[simp] theorem f_z : (f a).z = fin a.z := rfl
@[simp] theorem f_add : f a + f b = f (a + b) := rfl
@[simp] theorem f_sub : f a - f b = f (a - b) := by
  show (⟨fin a.x - fin b.x, fin a.y - fin b.y, fin a.z - fin b.z⟩ : Vec3 XReal) = _
  simp [f]
@[simp] theorem f_neg : -f a = f (-a) := rfl
@[simp] theorem f_scale : (f a).scale (fin k) = f (a.scale k) := rfl
@[simp] theorem f_dot : (f a).dot (f b) = fin (a.dot b) := rfl
@[simp] theorem f_cross : (f a).cross (f b) = f (a.cross b) := by simp [cross, f]
@[simp] theorem f_zeros : (zeros : Vec3 XReal) = f o := by simp [zeros, f, o]
theorem f_unscale {k : ℝ} (h : k ≠ 0) : (f a).unscale (fin k) = f (a.scale k⁻¹) := by
  simp [unscale, f, fin_div h, div_eq_mul_inv]
@[simp] theorem f_unscale_two : (f a).unscale (fin 2) = f (a.scale 2⁻¹) := f_unscale a (by norm_num)
theorem dot_self_nonneg : 0 ≤ a.dot a := by
  rw [dot_def]; nlinarith [mul_self_nonneg a.x, mul_self_nonneg a.y, mul_self_nonneg a.z]
/-- The length of a vector. -/
noncomputable def len : ℝ := Real.sqrt (a.dot a)
@[simp] theorem f_magnitude : (f a).magnitude = fin a.len := by
  simp only [magnitude, f_dot]; rw [fin_sqrt (dot_self_nonneg a), len]
theorem len_nonneg : 0 ≤ a.len := Real.sqrt_nonneg _
theorem len_sq : a.len * a.len = a.dot a := Real.mul_self_sqrt (dot_self_nonneg a)
theorem dot_self_eq_zero : a.dot a = 0 ↔ a = o := by
  constructor
  · intro h
    rw [dot_def] at h
    have hx : a.x = 0 := by nlinarith [mul_self_nonneg a.x, mul_self_nonneg a.y, mul_self_nonneg a.z]
    have hy : a.y = 0 := by nlinarith [mul_self_nonneg a.x, mul_self_nonneg a.y, mul_self_nonneg a.z]
    have hz : a.z = 0 := by nlinarith [mul_self_nonneg a.x, mul_self_nonneg a.y, mul_self_nonneg a.z]
    ext <;> simpa
  · rintro rfl; simp [dot_def]
theorem len_eq_zero : a.len = 0 ↔ a = o := by
  rw [← dot_self_eq_zero, ← len_sq]; exact ⟨fun h => by rw [h]; ring, fun h => by simpa using h⟩
theorem f_normalize {a : Vec3 ℝ} (h : a ≠ o) : (f a).normalize = f (a.scale a.len⁻¹) := by
  simp only [normalize, f_magnitude]
  exact f_unscale a (fun hc => h ((len_eq_zero a).mp hc))

theorem exists_f {v : Vec3 XReal} (hx : Scalar.isFinite v.x = true) (hy : Scalar.isFinite v.y = true)
    (hz : Scalar.isFinite v.z = true) : ∃ a, v = f a := by
  obtain ⟨x, hx⟩ := isFinite_iff.mp hx
  obtain ⟨y, hy⟩ := isFinite_iff.mp hy
  obtain ⟨z, hz⟩ := isFinite_iff.mp hz
  exact ⟨⟨x, y, z⟩, by ext <;> simp [f, hx, hy, hz]⟩
end Vec3

namespace Mat3
/-- The zero matrix of reals. -/
def o : Mat3 ℝ := ⟨.o, .o, .o⟩
/-- The identity matrix of reals. -/
def i : Mat3 ℝ := ⟨⟨1, 0, 0⟩, ⟨0, 1, 0⟩, ⟨0, 0, 1⟩⟩
/-- Finite matrices of exact numbers. -/
def f (m : Mat3 ℝ) : Mat3 XReal := ⟨m.r1.f, m.r2.f, m.r3.f⟩
variable (a b : Mat3 ℝ) (u v : Vec3 ℝ) (k : ℝ)
@[simp] theorem add_r1 : (a + b).r1 = a.r1 + b.r1 := rfl
@[simp] theorem add_r2 : (a + b).r2 = a.r2 + b.r2 := rfl
@[simp] theorem add_r3 : (a + b).r3 = a.r3 + b.r3 := rfl
@[simp] theorem sub_r1 : (a - b).r1 = a.r1 - b.r1 := rfl
@[simp] theorem sub_r2 : (a - b).r2 = a.r2 - b.r2 := rfl
@[simp] theorem sub_r3 : (a - b).r3 = a.r3 - b.r3 := rfl
@[simp] theorem f_inj : f a = f b ↔ a = b :=
  ⟨fun h => by cases a; cases b; simp only [f, mk.injEq, Vec3.f_inj] at h; simp [h], fun h => by rw [h]⟩
@[simp] theorem f_add : f a + f b = f (a + b) := rfl
@[simp] theorem f_sub : f a - f b = f (a - b) := by
  show (⟨a.r1.f - b.r1.f, a.r2.f - b.r2.f, a.r3.f - b.r3.f⟩ : Mat3 XReal) = _
  simp [f]
@[simp] theorem f_scale : (f a).scale (fin k) = f (a.scale k) := rfl
@[simp] theorem f_mulVec : (f a).mulVec v.f = (a.mulVec v).f := rfl
@[simp] theorem f_transpose : (f a).transpose = f a.transpose := rfl
@[simp] theorem f_mul : (f a).mul (f b) = f (a.mul b) := rfl
@[simp] theorem f_outer : outer u.f v.f = f (outer u v) := rfl
@[simp] theorem f_zeros : (zeros : Mat3 XReal) = f o := by simp [zeros, f, o]
/-- A diagonal matrix of reals. -/
def diag (v : Vec3 ℝ) : Mat3 ℝ := ⟨⟨v.x, 0, 0⟩, ⟨0, v.y, 0⟩, ⟨0, 0, v.z⟩⟩
@[simp] theorem f_diagonal : diagonal v.f = f (diag v) := by simp [diagonal, f, diag, Vec3.f]
@[simp] theorem f_diagonalElement : diagonalElement (fin k) = f (diag ⟨k, k, k⟩) := f_diagonal ⟨k, k, k⟩

/-- The determinant. -/
def det : ℝ :=
  a.r1.x * (a.r2.y * a.r3.z - a.r3.y * a.r2.z) - a.r1.y * (a.r2.x * a.r3.z - a.r3.x * a.r2.z) +
    a.r1.z * (a.r2.x * a.r3.y - a.r3.x * a.r2.y)
/-- The inverse by cofactors; the zero matrix if singular (as `get_inverse_moment_of_inertia`). -/
noncomputable def inv : Mat3 ℝ :=
  if a.det = 0 then o else
  (Mat3.mk ⟨a.r2.y * a.r3.z - a.r3.y * a.r2.z, a.r1.z * a.r3.y - a.r3.z * a.r1.y, a.r1.y * a.r2.z - a.r2.y * a.r1.z⟩
    ⟨-(a.r2.x * a.r3.z - a.r3.x * a.r2.z), a.r1.x * a.r3.z - a.r3.x * a.r1.z, a.r1.z * a.r2.x - a.r2.z * a.r1.x⟩
    ⟨a.r2.x * a.r3.y - a.r3.x * a.r2.y, a.r1.y * a.r3.x - a.r3.y * a.r1.x, a.r1.x * a.r2.y - a.r2.x * a.r1.y⟩).scale a.det⁻¹
theorem f_tryInverse : (match (f a).tryInverse with | some m => m | none => zeros) = f a.inv := by
  unfold tryInverse inv
  simp only [f, Vec3.f_x, Vec3.f_y, Vec3.f_z, fin_mul, fin_sub, fin_add, zero_eq, fin_eq, fin_neg]
  by_cases h : a.det = 0
  · have h' := h
    unfold det at h'
    simp only [h', h, decide_true, if_true, f_zeros]; rfl
  · have h' := h
    unfold det at h'
    simp only [h', h, decide_false, if_false, fin_div (b := a.r1.x * (a.r2.y * a.r3.z - a.r3.y * a.r2.z) -
      a.r1.y * (a.r2.x * a.r3.z - a.r3.x * a.r2.z) + a.r1.z * (a.r2.x * a.r3.y - a.r3.x * a.r2.y)) h']
    simp [det, scale, Vec3.f, Vec3.scale, div_eq_mul_inv]
theorem exists_f {m : Mat3 XReal} (h1 : ∃ r, m.r1 = Vec3.f r) (h2 : ∃ r, m.r2 = Vec3.f r) (h3 : ∃ r, m.r3 = Vec3.f r) :
    ∃ r, m = f r := by
  obtain ⟨a, ha⟩ := h1; obtain ⟨b, hb⟩ := h2; obtain ⟨c, hc⟩ := h3
  exact ⟨⟨a, b, c⟩, by cases m; simp_all [f]⟩
end Mat3

namespace Quat
/-- Finite quaternions of exact numbers. -/
def f (q : Quat ℝ) : Quat XReal := ⟨fin q.w, fin q.i, fin q.j, fin q.k⟩
/-- The identity rotation. -/
def e : Quat ℝ := ⟨1, 0, 0, 0⟩
variable (p q : Quat ℝ) (v : Vec3 ℝ)
/-- The rotation of a vector by a quaternion, on reals. -/
def rot : Vec3 ℝ :=
  let t := (q.vec.cross v).scale 2
  t.scale q.w + q.vec.cross t + v
/-- The rotation matrix of a quaternion, on reals. -/
def matrix : Mat3 ℝ :=
  ⟨⟨q.w * q.w + q.i * q.i - q.j * q.j - q.k * q.k, q.i * q.j * 2 - q.w * q.k * 2, q.w * q.j * 2 + q.i * q.k * 2⟩,
   ⟨q.w * q.k * 2 + q.i * q.j * 2, q.w * q.w - q.i * q.i + q.j * q.j - q.k * q.k, q.j * q.k * 2 - q.w * q.i * 2⟩,
   ⟨q.i * q.k * 2 - q.w * q.j * 2, q.w * q.i * 2 + q.j * q.k * 2, q.w * q.w - q.i * q.i - q.j * q.j + q.k * q.k⟩⟩
/-- Squared norm. -/
def normSq : ℝ := q.w * q.w + q.i * q.i + q.j * q.j + q.k * q.k
@[simp] theorem f_inj : f p = f q ↔ p = q :=
  ⟨fun h => by cases p; cases q; simp only [f, mk.injEq, fin_inj] at h; simp [h], fun h => by rw [h]⟩
@[simp] theorem f_w : (f q).w = fin q.w := rfl
@[simp] theorem f_vec : (f q).vec = q.vec.f := rfl
@[simp] theorem f_mul : (f p).mul (f q) = f (p.mul q) := by simp [mul, f]
@[simp] theorem f_conj : (f q).conj = f q.conj := rfl
@[simp] theorem f_rotate : (f q).rotate v.f = (q.rot v).f := by simp [rotate, rot]
@[simp] theorem f_matrix : (f q).toRotationMatrix = (q.matrix).f := by
  simp [toRotationMatrix, matrix, f, Mat3.f, Vec3.f]
@[simp] theorem f_identity : (identity : Quat XReal) = f e := by simp [identity, f, e]
theorem rot_eq_matrix (h : q.normSq = 1) : q.rot v = q.matrix.mulVec v := by
  unfold normSq at h
  ext <;> simp only [rot, matrix, Mat3.mulVec, Vec3.add_x, Vec3.add_y, Vec3.add_z, Vec3.scale_x, Vec3.scale_y,
    Vec3.scale_z, Vec3.cross_x, Vec3.cross_y, Vec3.cross_z, Vec3.dot_def, vec]
  · linear_combination (-v.x) * h
  · linear_combination (-v.y) * h
  · linear_combination (-v.z) * h
@[simp] theorem rot_e : e.rot v = v := by ext <;> simp [rot, e, vec]
@[simp] theorem e_mul : e.mul q = q := by ext <;> simp [mul, e]
@[simp] theorem mul_e : q.mul e = q := by ext <;> simp [mul, e]
@[simp] theorem conj_e : e.conj = e := by ext <;> simp [conj, e]
theorem mul_mul_normSq : (p.mul q).normSq = p.normSq * q.normSq := by simp only [mul, normSq]; ring
@[simp] theorem conj_normSq : q.conj.normSq = q.normSq := by simp [conj, normSq]
@[simp] theorem e_normSq : e.normSq = 1 := by simp [e, normSq]
theorem exists_f {q : Quat XReal} (hw : Scalar.isFinite q.w = true) (hi : Scalar.isFinite q.i = true)
    (hj : Scalar.isFinite q.j = true) (hk : Scalar.isFinite q.k = true) : ∃ r, q = f r := by
  obtain ⟨w, hw⟩ := isFinite_iff.mp hw
  obtain ⟨i, hi⟩ := isFinite_iff.mp hi
  obtain ⟨j, hj⟩ := isFinite_iff.mp hj
  obtain ⟨k, hk⟩ := isFinite_iff.mp hk
  exact ⟨⟨w, i, j, k⟩, by ext <;> simp [f, hw, hi, hj, hk]⟩
end Quat
end Fluffy
