import Verif.Proofs.Rest
import Verif.Props.Times

/-!
An immovable body: the laws of numbers that are needed for it, which hold for exact arithmetic and for binary32, and what impulses do to it.
-/

set_option linter.unusedSectionVars false
set_option linter.unusedSimpArgs false

namespace Fluffy

/-- What is not finite stays so, and what dividing by infinity does. -/
class InfLaws (α : Type) [Scalar α] : Prop extends ZeroLaws α where
  finite_add {x y : α} : Scalar.isFinite (x + y) = true → Scalar.isFinite x = true ∧ Scalar.isFinite y = true
  finite_mul {x y : α} : Scalar.isFinite (x * y) = true → Scalar.isFinite x = true ∧ Scalar.isFinite y = true
  div_inf {x : α} : Scalar.isInfinite x = true → Scalar.eq (one / x) zero = true
  inf_infinite {x : α} : Scalar.isInfinite x = true → Scalar.isFinite x = false
  unit_finite {x : α} : Scalar.le zero x = true → Scalar.le x one = true → Scalar.isFinite x = true
  sub_finite {x : α} : Scalar.le zero x = true → Scalar.le x one = true → Scalar.isFinite (one - x) = true
  mul_finite {x y : α} : Scalar.isFinite y = true → Scalar.le zero x = true → Scalar.le x one = true → Scalar.isFinite (y * (one - x)) = true
  zero_le_one : Scalar.le (zero : α) one = true
  one_le_one : Scalar.le (one : α) one = true

open XReal in
instance : InfLaws XReal where
  finite_add {x y} h := by
    revert h; cases x <;> cases y <;> simp
  finite_mul {x y} h := by
    revert h
    cases x <;> cases y <;> simp [HMul.hMul, Mul.mul, XReal.mul, infSign]
    all_goals (split <;> try split) <;> simp
  div_inf {x} h := by
    revert h; cases x <;> simp
  inf_infinite {x} h := by
    revert h; cases x <;> simp
  unit_finite {x} h h' := by
    revert h h'; cases x <;> simp
  sub_finite {x} h h' := by
    revert h h'; cases x <;> simp
  mul_finite {x y} h h' h'' := by
    obtain ⟨b, rfl⟩ := XReal.finite_iff.mp h
    revert h' h''; cases x <;> simp
  zero_le_one := by simp
  one_le_one := by simp

namespace F32
variable [Libm]

theorem unit_val {x : F32} (h : Scalar.le zero x = true) (h' : Scalar.le x one = true) : ∃ a : ℚ, Val x a ∧ 0 ≤ a ∧ a ≤ 1 := by
  obtain ⟨k0, e0⟩ := zero_val
  obtain ⟨k1, e1⟩ := one_val
  cases x with
  | nan => rw [e0] at h; simp [Scalar.le, F32.le] at h
  | inf a =>
    rw [e0] at h; rw [e1] at h'
    cases a <;> simp [Scalar.le, F32.le] at h h'
  | fin x a k =>
    have hv : Val (fin x a k) x := ⟨_, _, rfl⟩
    rw [val_zero.le hv] at h
    rw [hv.le val_one] at h'
    exact ⟨x, hv, by simpa using h, by simpa using h'⟩

theorem unit_sub_val {x : F32} (h : Scalar.le zero x = true) (h' : Scalar.le x one = true) :
    ∃ a : ℚ, Val (one - x) a ∧ 0 ≤ a ∧ a ≤ 1 := by
  obtain ⟨a, ha, h0, h1⟩ := unit_val h h'
  have l : 0 ≤ rnd (1 - a) := by rw [← rnd_zero]; exact rnd_mono (by linarith)
  have u : rnd (1 - a) ≤ 1 := (rnd_mono (by linarith)).trans_eq rnd_one
  exact ⟨rnd (1 - a), val_one.sub ha (by rw [abs_of_nonneg l]; exact lt_of_le_of_lt u (by norm_num)), l, u⟩

theorem finite_pack {q : ℚ} {z : Bool} (h : |rnd q| < 2 ^ 128) : Scalar.isFinite (pack q z) = true := by
  rw [pack_small h]; rfl

instance : InfLaws F32 where
  finite_add {x y} h := by
    revert h; rw [add_def]
    cases x <;> cases y <;> simp [F32.add, Scalar.isFinite]
    rename_i a b; by_cases h : a = b <;> simp [h]
  finite_mul {x y} h := by
    revert h; rw [mul_def]
    cases x <;> cases y <;> simp [F32.mul, Scalar.isFinite]
    · rename_i q _ _; by_cases h : q = 0 <;> simp [h]
    · rename_i q _ _ _; by_cases h : q = 0 <;> simp [h]
  div_inf {x} h := by
    revert h
    cases x with
    | inf a =>
      intro _
      obtain ⟨k1, e1⟩ := one_val
      rw [e1, div_def, eq_zero_iff]
      simp only [F32.div]
      have := val_pack (q := 0) (z := xor false a) small_zero
      rwa [rnd_zero] at this
    | _ => intro h; simp [Scalar.isInfinite, Scalar.isFinite, Scalar.isNaN] at h
  inf_infinite {x} h := by
    revert h; cases x <;> simp [Scalar.isInfinite, Scalar.isFinite]
  unit_finite {x} h h' := by
    obtain ⟨a, ha, -⟩ := unit_val h h'; exact finite_iff.mpr ⟨a, ha⟩
  sub_finite {x} h h' := by
    obtain ⟨a, ha, -⟩ := unit_sub_val h h'; exact finite_iff.mpr ⟨a, ha⟩
  mul_finite {x y} h h' h'' := by
    obtain ⟨b, hb⟩ := finite_iff.mp h
    obtain ⟨a, ha, h0, h1⟩ := unit_sub_val h' h''
    have hs : |rnd (b * a)| < 2 ^ 128 := by
      have hb' := hb.small
      have key : |b * a| ≤ |b| := by
        rw [abs_mul, abs_of_nonneg h0]; exact mul_le_of_le_one_right (abs_nonneg _) h1
      have hr := hb.rnd
      have hu : rnd (b * a) ≤ rnd |b| := rnd_mono ((le_abs_self _).trans key)
      have hl : rnd (-|b|) ≤ rnd (b * a) := rnd_mono (by have := neg_abs_le (b * a); linarith)
      have hra : rnd |b| = |b| := by
        rcases abs_cases b with ⟨e, -⟩ | ⟨e, -⟩ <;> rw [e]
        · exact hr
        · rw [rnd_neg, hr]
      rw [rnd_neg, hra] at hl
      rw [hra] at hu
      exact lt_of_le_of_lt (abs_le.mpr ⟨hl, hu⟩) hb'
    exact finite_iff.mpr ⟨_, hb.mul ha hs⟩
  zero_le_one := by rw [val_zero.le val_one]; norm_num
  one_le_one := by rw [val_one.le val_one]; norm_num

end F32
end Fluffy
