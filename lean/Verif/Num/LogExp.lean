import Verif.Num.Rodrigues
import Mathlib.Analysis.SpecialFunctions.Trigonometric.Bounds
/- Rebuilding a quaternion from its rotation vector. -/
set_option linter.unusedSectionVars false
set_option linter.unusedSimpArgs false
namespace Fluffy.Quat
open XReal

/-- The distance of two quaternions as points of four-dimensional space. -/
noncomputable def gap (a b : Quat ℝ) : ℝ :=
  Real.sqrt ((a.w - b.w) ^ 2 + (a.i - b.i) ^ 2 + (a.j - b.j) ^ 2 + (a.k - b.k) ^ 2)

theorem gap_self (a : Quat ℝ) : gap a a = 0 := by simp [gap]

/-- A unit quaternion with non-negative scalar part survives the round trip, up to dropped angles. -/
theorem exp_log {q : Quat ℝ} (hq : q.normSq = 1) (hw : 0 ≤ q.w) :
    (2 * meps < (log q).len → exp (log q) = q) ∧ gap (exp (log q)) q ≤ meps := by
  have hm := meps_pos
  have hsum : q.w * q.w + q.vec.dot q.vec = 1 := by
    rw [← hq]; simp only [normSq, Vec3.dot_def, vec]; ring
  by_cases hpos : 0 < q.vec.dot q.vec
  · have hne : q.vec ≠ Vec3.o := by intro hc; rw [hc] at hpos; simp at hpos
    have hw1 : q.w < 1 := by nlinarith
    have hlog : log q = (q.vec.scale q.vec.len⁻¹).scale (Real.arccos q.w * 2) := by
      unfold log
      simp only [hw, if_true, abs_of_nonneg hw, hpos, if_neg (not_le.mpr hw1)]
    have hacos : 0 < Real.arccos q.w := Real.arccos_pos.mpr hw1
    have hk := Vec3.unit_normalize hne
    have hklen : (q.vec.scale q.vec.len⁻¹).len = 1 := by show Real.sqrt _ = 1; rw [hk]; simp
    have hlen : (log q).len = Real.arccos q.w * 2 := by
      rw [hlog, Vec3.len_scale, hklen, abs_of_pos (by linarith), one_mul]
    have hcos := Real.cos_arccos (x := q.w) (by linarith) (le_of_lt hw1)
    have hsin : Real.sin (Real.arccos q.w) = q.vec.len := by
      rw [Real.sin_arccos]
      unfold Vec3.len; congr 1; linarith
    have hbig : 2 * meps < (log q).len → exp (log q) = q := by
      intro hl
      have hhalf : (log q).scale 2⁻¹ = (q.vec.scale q.vec.len⁻¹).scale (Real.arccos q.w) := by
        rw [hlog, Vec3.scale_scale]; congr 1; ring
      have hhl : ((log q).scale 2⁻¹).len = Real.arccos q.w := by
        rw [hhalf, Vec3.len_scale, hklen, abs_of_pos hacos, one_mul]
      unfold exp
      rw [if_neg]
      · simp only [hhl, hcos, hsin]
        rw [hhalf, Vec3.scale_scale, Vec3.scale_scale]
        have hvl := Vec3.len_pos hne
        have : q.vec.len⁻¹ * (Real.arccos q.w * (q.vec.len / Real.arccos q.w)) = 1 := by field_simp
        rw [this, Vec3.scale_one]
        rfl
      · rw [← Vec3.len_sq, hhl]
        rw [hlen] at hl
        nlinarith
    refine ⟨hbig, ?_⟩
    by_cases hl : 2 * meps < (log q).len
    · rw [hbig hl, gap_self]; exact hm.le
    · rw [exp_small (not_lt.mp hl)]
      rw [hlen] at hl
      have h1 := Real.one_sub_sq_div_two_le_cos (x := Real.arccos q.w)
      rw [hcos] at h1
      unfold gap
      rw [← Real.sqrt_sq hm.le]
      apply Real.sqrt_le_sqrt
      have : (e.w - q.w) ^ 2 + (e.i - q.i) ^ 2 + (e.j - q.j) ^ 2 + (e.k - q.k) ^ 2 = 2 * (1 - q.w) := by
        simp only [e, normSq] at hq ⊢
        linear_combination hq
      rw [this]
      nlinarith
  · have h0 : q.vec = Vec3.o := (Vec3.dot_self_eq_zero _).mp (le_antisymm (not_lt.mp hpos) (Vec3.dot_self_nonneg _))
    have hlog : log q = .o := by
      unfold log
      simp only [hw, if_true, hpos, if_false]
    have hq' : q = e := by
      rw [h0] at hsum
      have : q.w = 1 := by simp at hsum; nlinarith
      have h1 : q.i = 0 := congrArg Vec3.x h0
      have h2 : q.j = 0 := congrArg Vec3.y h0
      have h3 : q.k = 0 := congrArg Vec3.z h0
      cases q; simp_all [e]
    rw [hlog, exp_o, hq', gap_self]
    exact ⟨fun _ => rfl, hm.le⟩

end Fluffy.Quat
