import Verif.Proofs.Search
import Verif.Num.F32

/-!
A world at rest: the laws of numbers that are needed for it, which hold for exact arithmetic and for binary32, and what a step
does to a world in which nothing moves.
-/

set_option linter.unusedSectionVars false
set_option linter.unusedSimpArgs false

namespace Fluffy

/-- Equal numbers, or both not a number.  (In binary32 the two zeros are equal but not the same.) -/
def Sim {α : Type} [Scalar α] (x y : α) : Prop := Scalar.eq x y = true ∨ (Scalar.isNaN x = true ∧ Scalar.isNaN y = true)

/-- What adding zeros and multiplying by them does. -/
class ZeroLaws (α : Type) [Scalar α] : Prop where
  eq_refl {x : α} : Scalar.isFinite x = true → Scalar.eq x x = true
  eq_symm {x y : α} : Scalar.eq x y = true → Scalar.eq y x = true
  eq_trans {x y z : α} : Scalar.eq x y = true → Scalar.eq y z = true → Scalar.eq x z = true
  finite_of_eq {x y : α} : Scalar.eq x y = true → Scalar.isFinite y = true → Scalar.isFinite x = true
  zero_finite : Scalar.isFinite (zero : α) = true
  one_finite : Scalar.isFinite (one : α) = true
  mul_zero {x y : α} : Scalar.isFinite x = true → Scalar.eq y zero = true → Scalar.eq (x * y) zero = true
  zero_mul {x y : α} : Scalar.eq x zero = true → Scalar.isFinite y = true → Scalar.eq (x * y) zero = true
  add_zero {x y z : α} : Scalar.eq x z = true → Scalar.isFinite z = true → Scalar.eq y zero = true → Scalar.eq (x + y) z = true
  sub_zero {x y z : α} : Scalar.eq x z = true → Scalar.isFinite z = true → Scalar.eq y zero = true → Scalar.eq (x - y) z = true
  one_mul {x : α} : Scalar.isFinite x = true → Scalar.eq (one * x) x = true
  half_zero {x : α} : Scalar.eq x zero = true → Scalar.eq (x / two) zero = true
  lt_eps {x : α} : Scalar.eq x zero = true → Scalar.lt x EPSILON = true
  le_eps {x : α} : Scalar.eq x zero = true → Scalar.le x (Quat.machineEps * Quat.machineEps) = true
  sim_refl (x : α) : Sim x x
  sim_add {x y x' y' : α} : Sim x x' → Sim y y' → Sim (x + y) (x' + y')
  sim_sub {x y x' y' : α} : Sim x x' → Sim y y' → Sim (x - y) (x' - y')
  sim_mul {x y x' y' : α} : Sim x x' → Sim y y' → Sim (x * y) (x' * y')
  sim_neg {x x' : α} : Sim x x' → Sim (-x) (-x')
  sim_div {x y x' y' : α} : Sim x x' → Sim y y' → Scalar.eq y zero = false → Sim (x / y) (x' / y')
  sim_eq {x x' : α} : Sim x x' → Scalar.eq x zero = Scalar.eq x' zero
  sim_finite {x x' : α} : Sim x x' → Scalar.isFinite x = Scalar.isFinite x'

namespace XReal

theorem eq_iff {x y : XReal} : Scalar.eq x y = true ↔ x ≠ nan ∧ x = y := by
  cases x <;> cases y <;> simp [Scalar.eq, XReal.eq]

theorem sim_iff {x y : XReal} : Sim x y ↔ x = y := by
  unfold Sim
  rw [eq_iff]
  constructor
  · rintro (⟨-, h⟩ | ⟨h, h'⟩)
    · exact h
    · cases x <;> cases y <;> simp_all
  · rintro rfl
    cases x <;> simp

theorem finite_iff {x : XReal} : Scalar.isFinite x = true ↔ ∃ a, x = fin a := by
  cases x <;> simp

end XReal

open XReal in
instance : ZeroLaws XReal where
  eq_refl {x} h := by obtain ⟨a, rfl⟩ := XReal.finite_iff.mp h; simp
  eq_symm {x y} h := by rw [eq_iff] at h ⊢; exact ⟨h.2 ▸ h.1, h.2.symm⟩
  eq_trans {x y z} h h' := by rw [eq_iff] at h h' ⊢; exact ⟨h.1, h.2.trans h'.2⟩
  finite_of_eq {x y} h h' := by rw [eq_iff] at h; rw [h.2]; exact h'
  zero_finite := by simp
  one_finite := by simp
  mul_zero {x y} h h' := by
    obtain ⟨a, rfl⟩ := XReal.finite_iff.mp h; obtain ⟨-, rfl⟩ := eq_iff.mp h'; simp
  zero_mul {x y} h h' := by
    obtain ⟨a, rfl⟩ := XReal.finite_iff.mp h'; obtain ⟨-, rfl⟩ := eq_iff.mp h; simp
  add_zero {x y z} h h' h'' := by
    obtain ⟨a, rfl⟩ := XReal.finite_iff.mp h'; obtain ⟨-, rfl⟩ := eq_iff.mp h; obtain ⟨-, rfl⟩ := eq_iff.mp h''; simp
  sub_zero {x y z} h h' h'' := by
    obtain ⟨a, rfl⟩ := XReal.finite_iff.mp h'; obtain ⟨-, rfl⟩ := eq_iff.mp h; obtain ⟨-, rfl⟩ := eq_iff.mp h''; simp
  one_mul {x} h := by obtain ⟨a, rfl⟩ := XReal.finite_iff.mp h; simp
  half_zero {x} h := by obtain ⟨-, rfl⟩ := eq_iff.mp h; simp [fin_div]
  lt_eps {x} h := by obtain ⟨-, rfl⟩ := eq_iff.mp h; simp
  le_eps {x} h := by obtain ⟨-, rfl⟩ := eq_iff.mp h; simp [Quat.machineEps]
  sim_refl x := sim_iff.mpr rfl
  sim_add h h' := by rw [sim_iff] at *; rw [h, h']
  sim_sub h h' := by rw [sim_iff] at *; rw [h, h']
  sim_mul h h' := by rw [sim_iff] at *; rw [h, h']
  sim_neg h := by rw [sim_iff] at *; rw [h]
  sim_div h h' _ := by rw [sim_iff] at *; rw [h, h']
  sim_eq h := by rw [sim_iff.mp h]
  sim_finite h := by rw [sim_iff.mp h]

namespace F32
variable [Libm]

theorem eq_zero_iff {x : F32} : Scalar.eq x zero = true ↔ Val x 0 := by
  obtain ⟨h, e⟩ := zero_val
  rw [e]
  cases x with
  | nan => simp [Scalar.eq, F32.eq, Val]
  | inf a => simp [Scalar.eq, F32.eq, Val]
  | fin x a k =>
    simp only [Scalar.eq, F32.eq, Val, decide_eq_true_eq]
    constructor
    · rintro rfl; exact ⟨_, _, rfl⟩
    · rintro ⟨z, h, e⟩; cases e; rfl

theorem eq_val {x y : F32} {a : ℚ} (hy : Val y a) : Scalar.eq x y = true ↔ Val x a := by
  obtain ⟨z, k, rfl⟩ := hy
  cases x with
  | nan => simp [Scalar.eq, F32.eq, Val]
  | inf a => simp [Scalar.eq, F32.eq, Val]
  | fin x b k =>
    simp only [Scalar.eq, F32.eq, Val, decide_eq_true_eq]
    constructor
    · rintro rfl; exact ⟨_, _, rfl⟩
    · rintro ⟨z, h, e⟩; cases e; rfl

/-- The sign of a zero does not matter for the value of a rounded result. -/
theorem pack_sim (q : ℚ) (z z' : Bool) : Sim (pack q z) (pack q z') := by
  by_cases h : 2 ^ 128 ≤ |rnd q|
  · rw [pack_large h, pack_large h]
    have : q ≠ 0 := by rintro rfl; rw [rnd_zero] at h; norm_num at h
    have : signBit q z = signBit q z' := by
      unfold signBit; rcases lt_or_gt_of_ne this with h | h
      · simp [h]
      · simp [h, not_lt.mpr h.le]
    rw [this]; simp [Sim, Scalar.eq, F32.eq]
  · have h := not_le.mp h
    rw [pack_small h, pack_small h]; simp [Sim, Scalar.eq, F32.eq]

/-- What `Sim` means: the same number, except for the sign of a zero. -/
theorem sim_cases {x y : F32} (h : Sim x y) : (x = nan ∧ y = nan) ∨ (∃ a, x = inf a ∧ y = inf a) ∨
    ∃ q a b k l, x = fin q a k ∧ y = fin q b l := by
  unfold Sim at h
  cases x with
  | nan => cases y <;> simp [Scalar.eq, F32.eq, Scalar.isNaN] at h ⊢
  | inf a => cases y <;> simp [Scalar.eq, F32.eq, Scalar.isNaN] at h ⊢; exact h.symm
  | fin x a k =>
    cases y with
    | nan => simp [Scalar.eq, F32.eq, Scalar.isNaN] at h
    | inf a => simp [Scalar.eq, F32.eq, Scalar.isNaN] at h
    | fin y b l =>
      simp [Scalar.eq, F32.eq, Scalar.isNaN] at h
      subst h
      exact Or.inr (Or.inr ⟨x, a, b, k, l, rfl, rfl⟩)

theorem sim_nan : Sim (nan : F32) nan := Or.inr ⟨rfl, rfl⟩
theorem sim_inf (a : Bool) : Sim (inf a : F32) (inf a) := Or.inl (by simp [Scalar.eq, F32.eq])

theorem sim_fin {q : ℚ} {a b : Bool} (k : Rep q a) (l : Rep q b) : Sim (fin q a k) (fin q b l) :=
  Or.inl (by simp [Scalar.eq, F32.eq])

/-- The sign of a number other than zero. -/
theorem sign_unique {q : ℚ} {a b : Bool} (k : Rep q a) (l : Rep q b) (h : q ≠ 0) : a = b := by
  rcases lt_or_gt_of_ne h with h | h
  · rw [k.2.2.1 h, l.2.2.1 h]
  · rw [k.2.2.2 h, l.2.2.2 h]

theorem add_def (x y : F32) : x + y = F32.add x y := rfl
theorem sub_def (x y : F32) : x - y = F32.add x (F32.neg y) := rfl
theorem mul_def (x y : F32) : x * y = F32.mul x y := rfl
theorem div_def (x y : F32) : x / y = F32.div x y := rfl
theorem neg_def (x : F32) : -x = F32.neg x := rfl

theorem sim_add' {x y x' y' : F32} (h : Sim x x') (h' : Sim y y') : Sim (x + y) (x' + y') := by
  rw [add_def, add_def]
  rcases sim_cases h with ⟨rfl, rfl⟩ | ⟨a, rfl, rfl⟩ | ⟨q, a, b, k, l, rfl, rfl⟩
  · exact sim_nan
  · rcases sim_cases h' with ⟨rfl, rfl⟩ | ⟨a', rfl, rfl⟩ | ⟨q', a', b', k', l', rfl, rfl⟩
    · exact sim_nan
    · simp only [F32.add]; split
      · exact sim_inf _
      · exact sim_nan
    · exact sim_inf _
  · rcases sim_cases h' with ⟨rfl, rfl⟩ | ⟨a', rfl, rfl⟩ | ⟨q', a', b', k', l', rfl, rfl⟩
    · exact sim_nan
    · exact sim_inf _
    · exact pack_sim _ _ _

theorem sim_neg' {x x' : F32} (h : Sim x x') : Sim (F32.neg x) (F32.neg x') := by
  rcases sim_cases h with ⟨rfl, rfl⟩ | ⟨a, rfl, rfl⟩ | ⟨q, a, b, k, l, rfl, rfl⟩
  · exact sim_nan
  · exact sim_inf _
  · exact sim_fin _ _

theorem sim_mul' {x y x' y' : F32} (h : Sim x x') (h' : Sim y y') : Sim (x * y) (x' * y') := by
  rw [mul_def, mul_def]
  rcases sim_cases h with ⟨rfl, rfl⟩ | ⟨a, rfl, rfl⟩ | ⟨q, a, b, k, l, rfl, rfl⟩
  · exact sim_nan
  · rcases sim_cases h' with ⟨rfl, rfl⟩ | ⟨a', rfl, rfl⟩ | ⟨q', a', b', k', l', rfl, rfl⟩
    · exact sim_nan
    · exact sim_inf _
    · simp only [F32.mul]; split
      · exact sim_nan
      · rename_i hq; rw [sign_unique k' l' hq]; exact sim_inf _
  · rcases sim_cases h' with ⟨rfl, rfl⟩ | ⟨a', rfl, rfl⟩ | ⟨q', a', b', k', l', rfl, rfl⟩
    · exact sim_nan
    · simp only [F32.mul]; split
      · exact sim_nan
      · rename_i hq; rw [sign_unique k l hq]; exact sim_inf _
    · exact pack_sim _ _ _

theorem sim_div' {x y x' y' : F32} (h : Sim x x') (h' : Sim y y') (hy : Scalar.eq y zero = false) : Sim (x / y) (x' / y') := by
  rw [div_def, div_def]
  have h0 : ¬Val y 0 := by rw [← eq_zero_iff, hy]; simp
  rcases sim_cases h with ⟨rfl, rfl⟩ | ⟨a, rfl, rfl⟩ | ⟨q, a, b, k, l, rfl, rfl⟩
  · exact sim_nan
  · rcases sim_cases h' with ⟨rfl, rfl⟩ | ⟨a', rfl, rfl⟩ | ⟨q', a', b', k', l', rfl, rfl⟩
    · exact sim_nan
    · exact sim_nan
    · have hq : q' ≠ 0 := by rintro rfl; exact h0 ⟨_, _, rfl⟩
      simp only [F32.div]
      rw [sign_unique k' l' hq]; exact sim_inf _
  · rcases sim_cases h' with ⟨rfl, rfl⟩ | ⟨a', rfl, rfl⟩ | ⟨q', a', b', k', l', rfl, rfl⟩
    · exact sim_nan
    · exact pack_sim _ _ _
    · have hq : q' ≠ 0 := by rintro rfl; exact h0 ⟨_, _, rfl⟩
      simp only [F32.div, if_neg hq]
      exact pack_sim _ _ _

theorem val_eps_pos : ∃ e : ℚ, 0 < e ∧ Val (EPSILON : F32) e := by
  have h1 : rnd (1 * 2 ^ (-20 : ℤ)) = 1 * 2 ^ (-20 : ℤ) := by
    exact_mod_cast rnd_exact (m := 1) (e := -20) (by norm_num) (by norm_num)
  have hl : 1 * 2 ^ (-20 : ℤ) ≤ rnd (1 / 1000000) := by
    rw [← h1]; exact rnd_mono (by norm_num [zpow_neg])
  have hu : rnd (1 / 1000000) ≤ 1 := (rnd_mono (show (1 / 1000000 : ℚ) ≤ 1 by norm_num)).trans_eq rnd_one
  have h0 : (0 : ℚ) < 1 * 2 ^ (-20 : ℤ) := by positivity
  refine ⟨rnd (1 / 1000000), lt_of_lt_of_le h0 hl, ?_⟩
  have : (EPSILON : F32) = pack (1 / 1000000) false := by
    show pack (((1 : ℤ) : ℚ) / ((1000000 : ℕ) : ℚ)) false = _
    norm_num
  rw [this]
  refine val_pack ?_
  rw [abs_of_nonneg (by linarith)]
  exact lt_of_le_of_lt hu (by norm_num)

theorem val_machineEps : ∃ e : ℚ, 0 < e ∧ Val (Quat.machineEps * Quat.machineEps : F32) e := by
  have h1 : rnd (2 ^ (-23 : ℤ)) = 2 ^ (-23 : ℤ) := by
    have := rnd_exact (m := 1) (e := -23) (by norm_num) (by norm_num)
    simpa using this
  have h2 : rnd (2 ^ (-46 : ℤ)) = 2 ^ (-46 : ℤ) := by
    have := rnd_exact (m := 1) (e := -46) (by norm_num) (by norm_num)
    simpa using this
  have hv : Val (Quat.machineEps : F32) (2 ^ (-23 : ℤ)) := by
    have : (Quat.machineEps : F32) = pack (2 ^ (-23 : ℤ)) false := by
      show pack (((1 : ℤ) : ℚ) / ((8388608 : ℕ) : ℚ)) false = _
      norm_num [zpow_neg]
    rw [this, ← h1]
    nth_rw 1 [h1]
    refine val_pack ?_
    rw [h1, abs_of_nonneg (by positivity)]
    norm_num [zpow_neg]
  have h3 : (2 : ℚ) ^ (-23 : ℤ) * 2 ^ (-23 : ℤ) = 2 ^ (-46 : ℤ) := by rw [← zpow_add₀ (by norm_num)]; rfl
  have := hv.mul hv (by rw [h3, h2, abs_of_nonneg (by positivity)]; norm_num [zpow_neg])
  rw [h3, h2] at this
  exact ⟨2 ^ (-46 : ℤ), by positivity, this⟩

theorem small_zero : |rnd 0| < 2 ^ 128 := by rw [rnd_zero]; norm_num

instance : ZeroLaws F32 where
  eq_refl {x} h := by obtain ⟨a, ha⟩ := finite_iff.mp h; exact (eq_val ha).mpr ha
  eq_symm {x y} h := by
    cases x <;> cases y <;> simp_all [Scalar.eq, F32.eq]
  eq_trans {x y z} h h' := by
    cases x <;> cases y <;> cases z <;> simp_all [Scalar.eq, F32.eq]
  finite_of_eq {x y} h h' := by
    obtain ⟨a, ha⟩ := finite_iff.mp h'; exact finite_iff.mpr ⟨a, (eq_val ha).mp h⟩
  zero_finite := finite_iff.mpr ⟨_, val_zero⟩
  one_finite := finite_iff.mpr ⟨_, val_one⟩
  mul_zero {x y} h h' := by
    obtain ⟨a, ha⟩ := finite_iff.mp h
    rw [eq_zero_iff] at *
    have := ha.mul h' (by rw [mul_zero]; exact small_zero)
    rwa [mul_zero, rnd_zero] at this
  zero_mul {x y} h h' := by
    obtain ⟨a, ha⟩ := finite_iff.mp h'
    rw [eq_zero_iff] at *
    have := h.mul ha (by rw [zero_mul]; exact small_zero)
    rwa [zero_mul, rnd_zero] at this
  add_zero {x y z} h h' h'' := by
    obtain ⟨a, ha⟩ := finite_iff.mp h'
    rw [eq_val ha] at *
    rw [eq_zero_iff] at h''
    have := h.add h'' (by rw [add_zero, ha.rnd]; exact ha.small)
    rwa [add_zero, ha.rnd] at this
  sub_zero {x y z} h h' h'' := by
    obtain ⟨a, ha⟩ := finite_iff.mp h'
    rw [eq_val ha] at *
    rw [eq_zero_iff] at h''
    have := h.sub h'' (by rw [sub_zero, ha.rnd]; exact ha.small)
    rwa [sub_zero, ha.rnd] at this
  one_mul {x} h := by
    obtain ⟨a, ha⟩ := finite_iff.mp h
    rw [eq_val ha]
    have := val_one.mul ha (by rw [one_mul, ha.rnd]; exact ha.small)
    rwa [one_mul, ha.rnd] at this
  half_zero {x} h := by
    rw [eq_zero_iff] at *
    obtain ⟨k, e⟩ := two_val
    have := h.div ⟨_, _, e⟩ (by norm_num) (by rw [zero_div]; exact small_zero)
    rwa [zero_div, rnd_zero] at this
  lt_eps {x} h := by
    rw [eq_zero_iff] at h
    obtain ⟨e, he, hv⟩ := val_eps_pos
    rw [h.lt hv]; simpa using he
  le_eps {x} h := by
    rw [eq_zero_iff] at h
    obtain ⟨e, he, hv⟩ := val_machineEps
    rw [h.le hv]; simpa using he.le
  sim_refl x := by
    cases x
    · exact sim_nan
    · exact sim_inf _
    · exact sim_fin _ _
  sim_add := sim_add'
  sim_sub h h' := sim_add' h (sim_neg' h')
  sim_mul := sim_mul'
  sim_neg := sim_neg'
  sim_div := sim_div'
  sim_eq {x x'} h := by
    rcases sim_cases h with ⟨rfl, rfl⟩ | ⟨a, rfl, rfl⟩ | ⟨q, a, b, k, l, rfl, rfl⟩
    · rfl
    · rfl
    · obtain ⟨h, e⟩ := zero_val
      rw [e]; simp [Scalar.eq, F32.eq]
  sim_finite {x x'} h := by
    rcases sim_cases h with ⟨rfl, rfl⟩ | ⟨a, rfl, rfl⟩ | ⟨q, a, b, k, l, rfl, rfl⟩ <;> rfl

end F32

/-! ### Vectors -/

namespace Rest
variable {α : Type} [Scalar α]

/-- All components are finite. -/
def Fin (v : Vec3 α) : Prop := Scalar.isFinite v.x = true ∧ Scalar.isFinite v.y = true ∧ Scalar.isFinite v.z = true
/-- All components are zero. -/
def Zero (v : Vec3 α) : Prop := Scalar.eq v.x zero = true ∧ Scalar.eq v.y zero = true ∧ Scalar.eq v.z zero = true
/-- Equal components. -/
def Same (v w : Vec3 α) : Prop := Scalar.eq v.x w.x = true ∧ Scalar.eq v.y w.y = true ∧ Scalar.eq v.z w.z = true
/-- All components are finite. -/
def QFin (q : Quat α) : Prop := Scalar.isFinite q.w = true ∧ Fin q.vec
/-- Equal components. -/
def QSame (q r : Quat α) : Prop := Scalar.eq q.w r.w = true ∧ Same q.vec r.vec
/-- All components are finite. -/
def MFin (m : Mat3 α) : Prop := Fin m.r1 ∧ Fin m.r2 ∧ Fin m.r3

variable [ZeroLaws α]
open ZeroLaws

theorem Zero.fin {v : Vec3 α} (h : Zero v) : Fin v :=
  ⟨finite_of_eq h.1 zero_finite, finite_of_eq h.2.1 zero_finite, finite_of_eq h.2.2 zero_finite⟩

theorem zeros_zero : Zero (Vec3.zeros : Vec3 α) := ⟨eq_refl zero_finite, eq_refl zero_finite, eq_refl zero_finite⟩

theorem Fin.same {v : Vec3 α} (h : Fin v) : Same v v := ⟨eq_refl h.1, eq_refl h.2.1, eq_refl h.2.2⟩
theorem QFin.same {v : Quat α} (h : QFin v) : QSame v v := ⟨eq_refl h.1, h.2.same⟩
theorem Same.trans {u v w : Vec3 α} (h : Same u v) (h' : Same v w) : Same u w :=
  ⟨eq_trans h.1 h'.1, eq_trans h.2.1 h'.2.1, eq_trans h.2.2 h'.2.2⟩
theorem QSame.trans {u v w : Quat α} (h : QSame u v) (h' : QSame v w) : QSame u w := ⟨eq_trans h.1 h'.1, h.2.trans h'.2⟩
theorem Same.fin {v w : Vec3 α} (h : Same v w) (h' : Fin w) : Fin v :=
  ⟨finite_of_eq h.1 h'.1, finite_of_eq h.2.1 h'.2.1, finite_of_eq h.2.2 h'.2.2⟩
theorem QSame.fin {v w : Quat α} (h : QSame v w) (h' : QFin w) : QFin v := ⟨finite_of_eq h.1 h'.1, h.2.fin h'.2⟩

theorem Zero.scale {v : Vec3 α} (h : Zero v) {k : α} (hk : Scalar.isFinite k = true) : Zero (v.scale k) :=
  ⟨zero_mul h.1 hk, zero_mul h.2.1 hk, zero_mul h.2.2 hk⟩

theorem Zero.add {v w : Vec3 α} (h : Zero v) (h' : Zero w) : Zero (v + w) :=
  ⟨add_zero h.1 zero_finite h'.1, add_zero h.2.1 zero_finite h'.2.1, add_zero h.2.2 zero_finite h'.2.2⟩

theorem Zero.sub {v w : Vec3 α} (h : Zero v) (h' : Zero w) : Zero (v - w) :=
  ⟨sub_zero h.1 zero_finite h'.1, sub_zero h.2.1 zero_finite h'.2.1, sub_zero h.2.2 zero_finite h'.2.2⟩

theorem Fin.add_zero {v w : Vec3 α} (h : Fin v) (h' : Zero w) : Same (v + w) v :=
  ⟨ZeroLaws.add_zero (eq_refl h.1) h.1 h'.1, ZeroLaws.add_zero (eq_refl h.2.1) h.2.1 h'.2.1,
    ZeroLaws.add_zero (eq_refl h.2.2) h.2.2 h'.2.2⟩

theorem Fin.dot_zero {v w : Vec3 α} (h : Fin v) (h' : Zero w) : Scalar.eq (v.dot w) zero = true :=
  ZeroLaws.add_zero (ZeroLaws.add_zero (mul_zero h.1 h'.1) zero_finite (mul_zero h.2.1 h'.2.1)) zero_finite (mul_zero h.2.2 h'.2.2)

theorem Zero.dot {v w : Vec3 α} (h : Zero v) (h' : Fin w) : Scalar.eq (v.dot w) zero = true :=
  ZeroLaws.add_zero (ZeroLaws.add_zero (zero_mul h.1 h'.1) zero_finite (zero_mul h.2.1 h'.2.1)) zero_finite (zero_mul h.2.2 h'.2.2)

theorem Zero.cross {v w : Vec3 α} (h : Zero v) (h' : Fin w) : Zero (v.cross w) :=
  ⟨sub_zero (zero_mul h.2.1 h'.2.2) zero_finite (zero_mul h.2.2 h'.2.1),
    sub_zero (zero_mul h.2.2 h'.1) zero_finite (zero_mul h.1 h'.2.2),
    sub_zero (zero_mul h.1 h'.2.1) zero_finite (zero_mul h.2.1 h'.1)⟩

theorem MFin.mulVec {m : Mat3 α} (h : MFin m) {v : Vec3 α} (h' : Zero v) : Zero (m.mulVec v) :=
  ⟨h.1.dot_zero h', h.2.1.dot_zero h', h.2.2.dot_zero h'⟩

/-- No rotation. -/
theorem fromScaledAxis_zero {v : Vec3 α} (h : Zero v) : Quat.fromScaledAxis v = Quat.identity := by
  unfold Quat.fromScaledAxis
  have hz : Zero (v.unscale two) := ⟨half_zero h.1, half_zero h.2.1, half_zero h.2.2⟩
  simp only
  rw [if_pos (le_eps (hz.dot hz.fin))]

theorem identity_mul {q : Quat α} (h : QFin q) : QSame (Quat.identity.mul q) q := by
  obtain ⟨hw, hi, hj, hk⟩ := h
  have z : Scalar.eq (zero : α) zero = true := eq_refl zero_finite
  refine ⟨?_, ?_, ?_, ?_⟩
  · exact sub_zero (sub_zero (sub_zero (one_mul hw) hw (zero_mul z hi)) hw (zero_mul z hj)) hw (zero_mul z hk)
  · exact sub_zero (ZeroLaws.add_zero (ZeroLaws.add_zero (one_mul hi) hi (zero_mul z hw)) hi (zero_mul z hk)) hi (zero_mul z hj)
  · exact ZeroLaws.add_zero (ZeroLaws.add_zero (sub_zero (one_mul hj) hj (zero_mul z hk)) hj (zero_mul z hw)) hj (zero_mul z hi)
  · exact ZeroLaws.add_zero (sub_zero (ZeroLaws.add_zero (one_mul hk) hk (zero_mul z hj)) hk (zero_mul z hi)) hk (zero_mul z hw)

/-! ### The inverse moment of inertia is the same for equal rotations -/

/-- `Sim` by components. -/
def VSim (v w : Vec3 α) : Prop := Sim v.x w.x ∧ Sim v.y w.y ∧ Sim v.z w.z
/-- `Sim` by components. -/
def MSim (m n : Mat3 α) : Prop := VSim m.r1 n.r1 ∧ VSim m.r2 n.r2 ∧ VSim m.r3 n.r3

theorem VSim.dot {v w v' w' : Vec3 α} (h : VSim v v') (h' : VSim w w') : Sim (v.dot w) (v'.dot w') :=
  sim_add (sim_add (sim_mul h.1 h'.1) (sim_mul h.2.1 h'.2.1)) (sim_mul h.2.2 h'.2.2)

theorem MSim.transpose {m m' : Mat3 α} (h : MSim m m') : MSim m.transpose m'.transpose :=
  ⟨⟨h.1.1, h.2.1.1, h.2.2.1⟩, ⟨h.1.2.1, h.2.1.2.1, h.2.2.2.1⟩, ⟨h.1.2.2, h.2.1.2.2, h.2.2.2.2⟩⟩

theorem MSim.mul {m n m' n' : Mat3 α} (h : MSim m m') (h' : MSim n n') : MSim (m.mul n) (m'.mul n') := by
  have t := h'.transpose
  exact ⟨⟨h.1.dot t.1, h.1.dot t.2.1, h.1.dot t.2.2⟩, ⟨h.2.1.dot t.1, h.2.1.dot t.2.1, h.2.1.dot t.2.2⟩,
    ⟨h.2.2.dot t.1, h.2.2.dot t.2.1, h.2.2.dot t.2.2⟩⟩

theorem MSim.refl (m : Mat3 α) : MSim m m :=
  ⟨⟨sim_refl _, sim_refl _, sim_refl _⟩, ⟨sim_refl _, sim_refl _, sim_refl _⟩, ⟨sim_refl _, sim_refl _, sim_refl _⟩⟩

theorem QSame.matrix {q r : Quat α} (h : QSame q r) : MSim q.toRotationMatrix r.toRotationMatrix := by
  obtain ⟨hw, hi, hj, hk⟩ := h
  have hw : Sim q.w r.w := Or.inl hw
  have hi : Sim q.i r.i := Or.inl hi
  have hj : Sim q.j r.j := Or.inl hj
  have hk : Sim q.k r.k := Or.inl hk
  have h2 : Sim (two : α) two := sim_refl _
  exact ⟨⟨sim_sub (sim_sub (sim_add (sim_mul hw hw) (sim_mul hi hi)) (sim_mul hj hj)) (sim_mul hk hk),
      sim_sub (sim_mul (sim_mul hi hj) h2) (sim_mul (sim_mul hw hk) h2),
      sim_add (sim_mul (sim_mul hw hj) h2) (sim_mul (sim_mul hi hk) h2)⟩,
    ⟨sim_add (sim_mul (sim_mul hw hk) h2) (sim_mul (sim_mul hi hj) h2),
      sim_sub (sim_add (sim_sub (sim_mul hw hw) (sim_mul hi hi)) (sim_mul hj hj)) (sim_mul hk hk),
      sim_sub (sim_mul (sim_mul hj hk) h2) (sim_mul (sim_mul hw hi) h2)⟩,
    ⟨sim_sub (sim_mul (sim_mul hi hk) h2) (sim_mul (sim_mul hw hj) h2),
      sim_add (sim_mul (sim_mul hw hi) h2) (sim_mul (sim_mul hj hk) h2),
      sim_add (sim_sub (sim_sub (sim_mul hw hw) (sim_mul hi hi)) (sim_mul hj hj)) (sim_mul hk hk)⟩⟩

theorem VSim.fin {v w : Vec3 α} (h : VSim v w) (h' : Fin w) : Fin v :=
  ⟨by rw [sim_finite h.1]; exact h'.1, by rw [sim_finite h.2.1]; exact h'.2.1, by rw [sim_finite h.2.2]; exact h'.2.2⟩

theorem MSim.fin {v w : Mat3 α} (h : MSim v w) (h' : MFin w) : MFin v :=
  ⟨h.1.fin h'.1, h.2.1.fin h'.2.1, h.2.2.fin h'.2.2⟩

/-- Inverses of equal matrices. -/
theorem MSim.inverse {m n : Mat3 α} (h : MSim m n) : MSim (m.tryInverse.getD Mat3.zeros) (n.tryInverse.getD Mat3.zeros) := by
  obtain ⟨⟨h11, h12, h13⟩, ⟨h21, h22, h23⟩, ⟨h31, h32, h33⟩⟩ := h
  have a := sim_sub (sim_mul h22 h33) (sim_mul h32 h23)
  have b := sim_sub (sim_mul h21 h33) (sim_mul h31 h23)
  have c := sim_sub (sim_mul h21 h32) (sim_mul h31 h22)
  have d := sim_add (sim_sub (sim_mul h11 a) (sim_mul h12 b)) (sim_mul h13 c)
  unfold Mat3.tryInverse
  simp only
  rw [sim_eq d]
  split
  · exact MSim.refl _
  · rename_i hd
    rw [← sim_eq d, Bool.not_eq_true] at hd
    exact ⟨⟨sim_div a d hd, sim_div (sim_sub (sim_mul h13 h32) (sim_mul h33 h12)) d hd,
        sim_div (sim_sub (sim_mul h12 h23) (sim_mul h22 h13)) d hd⟩,
      ⟨sim_div (sim_neg b) d hd, sim_div (sim_sub (sim_mul h11 h33) (sim_mul h31 h13)) d hd,
        sim_div (sim_sub (sim_mul h13 h21) (sim_mul h23 h11)) d hd⟩,
      ⟨sim_div c d hd, sim_div (sim_sub (sim_mul h12 h31) (sim_mul h32 h11)) d hd,
        sim_div (sim_sub (sim_mul h11 h22) (sim_mul h21 h12)) d hd⟩⟩

/-! ### Entities -/

/-- An entity at rest with finite numbers. -/
structure Resting (e : InternalEntity α) : Prop where
  velocity : Zero e.velocity
  angularVelocity : Zero e.angularVelocity
  position : Fin e.orientation.position
  rotation : QFin e.orientation.rotation
  /-- Its inverse moment of inertia has finite entries. -/
  inverse : MFin e.inverseMomentOfInertia

/-- An entity in the same place. -/
structure Still (e e' : InternalEntity α) : Prop where
  position : Same e'.orientation.position e.orientation.position
  rotation : QSame e'.orientation.rotation e.orientation.rotation
  moment : e'.preppedMoment = e.preppedMoment

theorem Still.inverse {e e' : InternalEntity α} (h : Still e e') (hi : MFin e.inverseMomentOfInertia) :
    MFin e'.inverseMomentOfInertia := by
  have key : ∀ x : InternalEntity α, x.inverseMomentOfInertia = x.momentOfInertia.tryInverse.getD Mat3.zeros := by
    intro x; unfold InternalEntity.inverseMomentOfInertia; cases x.momentOfInertia.tryInverse <;> rfl
  rw [key] at hi ⊢
  refine MSim.fin (MSim.inverse ?_) hi
  unfold InternalEntity.momentOfInertia Orientation.finalizeMomentOfInertia rotateMomentOfInertia
  rw [h.moment]
  have hm := h.rotation.matrix
  exact (hm.mul (.refl _)).mul hm.transpose

theorem Resting.still {e : InternalEntity α} (h : Resting e) : Still e e := ⟨h.position.same, h.rotation.same, rfl⟩
theorem Still.trans {a b c : InternalEntity α} (h : Still a b) (h' : Still b c) : Still a c :=
  ⟨h'.position.trans h.position, h'.rotation.trans h.rotation, h'.moment.trans h.moment⟩

theorem Resting.velocityAt {e : InternalEntity α} (h : Resting e) {p : Vec3 α} (hp : Fin (p - e.orientation.position)) :
    Zero (e.velocityAt p) := h.velocity.add (h.angularVelocity.cross hp)

end Rest

end Fluffy
