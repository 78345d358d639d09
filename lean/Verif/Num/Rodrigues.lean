import Verif.Num.Pose
/- What a rotation vector means, and that the quaternion functions of the model agree with it. -/
set_option linter.unusedSectionVars false
namespace Fluffy
open XReal

/-- Rodrigues' formula: `v` turned about the axis `r` by the angle `|r|`. -/
noncomputable def rodrigues (r v : Vec3 ℝ) : Vec3 ℝ :=
  let k := r.scale r.len⁻¹
  v.scale (Real.cos r.len) + (k.cross v).scale (Real.sin r.len) + k.scale (k.dot v * (1 - Real.cos r.len))

@[simp] theorem rodrigues_o (v : Vec3 ℝ) : rodrigues .o v = v := by
  unfold rodrigues; simp

namespace Quat

/-- A quaternion `cos n + k sin n` turns by `2 n` about `k`. -/
theorem rot_axis {q : Quat ℝ} {k : Vec3 ℝ} (hk : k.dot k = 1) {c s : ℝ} (h : c * c + s * s = 1) (hw : q.w = c)
    (hv : q.vec = k.scale s) (v : Vec3 ℝ) :
    q.rot v = v.scale (c * c - s * s) + (k.cross v).scale (2 * s * c) + k.scale (k.dot v * (1 - (c * c - s * s))) := by
  unfold rot
  simp only [hv, hw]
  rw [Vec3.dot_def] at hk
  have hc : c * c = 1 - s * s := by linarith
  have hx : k.x * k.x = 1 - k.y * k.y - k.z * k.z := by linarith
  ext <;> simp only [Vec3.add_x, Vec3.add_y, Vec3.add_z, Vec3.scale_x, Vec3.scale_y, Vec3.scale_z, Vec3.cross_x,
    Vec3.cross_y, Vec3.cross_z, Vec3.dot_def]
  · linear_combination (-v.x + k.x * (k.x * v.x + k.y * v.y + k.z * v.z)) * h + (-2 * s * s * v.x) * hk
  · linear_combination (-v.y + k.y * (k.x * v.x + k.y * v.y + k.z * v.z)) * h + (-2 * s * s * v.y) * hk
  · linear_combination (-v.z + k.z * (k.x * v.x + k.y * v.y + k.z * v.z)) * h + (-2 * s * s * v.z) * hk

theorem rodrigues_axis {r k : Vec3 ℝ} {θ : ℝ} (hθ : 0 < θ) (hk : k.dot k = 1) (hr : r = k.scale θ) (v : Vec3 ℝ) :
    rodrigues r v = v.scale (Real.cos θ) + (k.cross v).scale (Real.sin θ) + k.scale (k.dot v * (1 - Real.cos θ)) := by
  have hl : r.len = θ := by
    rw [hr, Vec3.len_scale, abs_of_pos hθ]
    unfold Vec3.len; rw [hk]; simp
  have hk' : r.scale r.len⁻¹ = k := by
    rw [hl, hr, Vec3.scale_scale, mul_inv_cancel₀ (ne_of_gt hθ), Vec3.scale_one]
  unfold rodrigues
  rw [hl] at hk'
  simp only [hl, hk']

/-- The code's exponential is the rotation by the given vector, except that rotations by at most `2^-22` are dropped. -/
theorem exp_rot {r : Vec3 ℝ} (h : 2 * meps < r.len) (v : Vec3 ℝ) : (exp r).rot v = rodrigues r v := by
  have hlen : (r.scale 2⁻¹).len = r.len / 2 := by
    rw [Vec3.len_scale, abs_of_pos (by norm_num : (0 : ℝ) < 2⁻¹)]; ring
  have h0 : 0 < r.len := by have := meps_pos; linarith
  have hne : ¬ (r.scale 2⁻¹).dot (r.scale 2⁻¹) ≤ meps * meps := by
    rw [← Vec3.len_sq, hlen]; have := meps_pos; nlinarith
  have hr : r ≠ Vec3.o := by rintro rfl; simp at h0
  have hk := Vec3.unit_normalize hr
  rw [rodrigues_axis h0 hk (by rw [Vec3.scale_scale, inv_mul_cancel₀ (ne_of_gt h0), Vec3.scale_one]) v]
  have hq : exp r = ⟨Real.cos (r.len / 2), ((r.scale 2⁻¹).scale (Real.sin (r.len / 2) / (r.len / 2))).x,
      ((r.scale 2⁻¹).scale (Real.sin (r.len / 2) / (r.len / 2))).y,
      ((r.scale 2⁻¹).scale (Real.sin (r.len / 2) / (r.len / 2))).z⟩ := by
    unfold exp; rw [if_neg hne]; simp only [hlen]
  have hsc : (Real.cos (r.len / 2)) * Real.cos (r.len / 2) + Real.sin (r.len / 2) * Real.sin (r.len / 2) = 1 := by
    have := Real.sin_sq_add_cos_sq (r.len / 2); nlinarith
  rw [rot_axis (c := Real.cos (r.len / 2)) (s := Real.sin (r.len / 2)) hk hsc (by rw [hq]) (by
    rw [hq]
    ext <;> simp only [vec, Vec3.scale_x, Vec3.scale_y, Vec3.scale_z] <;> field_simp) v]
  have h1 : Real.cos r.len = Real.cos (r.len / 2) * Real.cos (r.len / 2) - Real.sin (r.len / 2) * Real.sin (r.len / 2) := by
    rw [← Real.cos_add]; congr 1; ring
  have h2 : Real.sin r.len = 2 * Real.sin (r.len / 2) * Real.cos (r.len / 2) := by
    rw [← Real.sin_two_mul]; congr 1; ring
  rw [h1, h2]

theorem exp_small {r : Vec3 ℝ} (h : r.len ≤ 2 * meps) : exp r = e := by
  unfold exp
  rw [if_pos]
  rw [← Vec3.len_sq, Vec3.len_scale, abs_of_pos (by norm_num : (0 : ℝ) < 2⁻¹)]
  have := Vec3.len_nonneg r
  have := meps_pos
  nlinarith

/-- The rotation vector of a unit quaternion denotes its rotation. -/
theorem log_rot {q : Quat ℝ} (hq : q.normSq = 1) (v : Vec3 ℝ) : rodrigues (log q) v = q.rot v := by
  -- the representative with non-negative scalar part
  have key : ∀ p : Quat ℝ, p.normSq = 1 → 0 ≤ p.w →
      rodrigues (if 0 < p.vec.dot p.vec then
        (p.vec.scale p.vec.len⁻¹).scale (if 1 ≤ p.w then 0 else Real.arccos p.w * 2) else .o) v = p.rot v := by
    intro p hp hw
    have hsum : p.w * p.w + p.vec.dot p.vec = 1 := by
      rw [← hp]; simp only [normSq, Vec3.dot_def, vec]; ring
    split
    · rename_i hpos
      have hne : p.vec ≠ Vec3.o := by intro hc; rw [hc] at hpos; simp at hpos
      have hw1 : p.w < 1 := by nlinarith
      rw [if_neg (not_le.mpr hw1)]
      have hk := Vec3.unit_normalize hne
      have hacos : 0 < Real.arccos p.w := Real.arccos_pos.mpr hw1
      rw [rodrigues_axis (θ := Real.arccos p.w * 2) (by linarith) hk rfl v]
      have hcos := Real.cos_arccos (x := p.w) (by linarith) (le_of_lt hw1)
      have hsin : Real.sin (Real.arccos p.w) = p.vec.len := by
        rw [Real.sin_arccos]
        unfold Vec3.len; congr 1; linarith
      have hcs : p.w * p.w + p.vec.len * p.vec.len = 1 := by rw [Vec3.len_sq]; exact hsum
      rw [rot_axis (c := p.w) (s := p.vec.len) hk hcs rfl (by
        rw [Vec3.scale_scale, inv_mul_cancel₀ (ne_of_gt (Vec3.len_pos hne)), Vec3.scale_one]) v]
      have h1 : Real.cos (Real.arccos p.w * 2) = p.w * p.w - p.vec.len * p.vec.len := by
        rw [mul_comm, Real.cos_two_mul, hcos]; linarith
      have h2 : Real.sin (Real.arccos p.w * 2) = 2 * p.vec.len * p.w := by
        rw [mul_comm, Real.sin_two_mul, hcos, hsin]
      rw [h1, h2]
    · rename_i hpos
      have h0 : p.vec = Vec3.o := (Vec3.dot_self_eq_zero _).mp (le_antisymm (not_lt.mp hpos) (Vec3.dot_self_nonneg _))
      rw [rodrigues_o]
      unfold rot
      rw [h0]; simp
  unfold log
  by_cases hw : 0 ≤ q.w
  · simp only [hw, if_true, abs_of_nonneg hw]
    exact key q hq hw
  · have hw' : q.w < 0 := not_le.mp hw
    have := key ⟨-q.w, -q.i, -q.j, -q.k⟩ (by rw [← hq]; simp [normSq]) (by simp; linarith)
    simp only [hw, if_false, abs_of_neg hw']
    have hvec : (⟨-q.w, -q.i, -q.j, -q.k⟩ : Quat ℝ).vec = -q.vec := rfl
    rw [hvec] at this
    rw [this]
    ext <;> simp [rot, vec] <;> ring

/-- Rebuilding a quaternion from its rotation vector gives the same rotation, or none if the angle is at most
`2^-22`. -/
theorem exp_log_rot {q : Quat ℝ} (hq : q.normSq = 1) (h : 2 * meps < (log q).len) (v : Vec3 ℝ) :
    (exp (log q)).rot v = q.rot v := by rw [exp_rot h, log_rot hq]

theorem log_e : log e = Vec3.o := by simp [log, e, vec, Vec3.dot_def]
end Quat
end Fluffy
