import Verif.Model.Scalar
import Mathlib.Analysis.Real.Sqrt
import Mathlib.Analysis.SpecialFunctions.Trigonometric.Inverse
import Mathlib.Tactic.Linarith
import Mathlib.Tactic.NormNum
import Mathlib.Tactic.Ring
import Mathlib.Tactic.FieldSimp
/-
Extended real numbers with the IEEE-754 rules for infinities and NaN, without rounding, without
overflow and with one zero (taken as `+0`).  The second number type of the model, see DESIGN.md section 1.
-/
namespace Fluffy
open Classical

/-- An exact real number, an infinity or not-a-number. -/
inductive XReal where
  | nan
  | negInf
  | fin (r : ℝ)
  | posInf

namespace XReal

/-- IEEE negation -/
noncomputable def neg : XReal → XReal
  | nan => nan | negInf => posInf | fin r => fin (-r) | posInf => negInf

/-- IEEE addition, exact -/
noncomputable def add : XReal → XReal → XReal
  | nan, _ => nan
  | _, nan => nan
  | fin a, fin b => fin (a + b)
  | fin _, posInf => posInf
  | fin _, negInf => negInf
  | posInf, negInf => nan
  | posInf, _ => posInf
  | negInf, posInf => nan
  | negInf, _ => negInf

/-- an infinity with the sign of `r`, NaN for `0` -/
noncomputable def infSign (r : ℝ) : XReal := if r = 0 then nan else if 0 < r then posInf else negInf

/-- IEEE multiplication, exact -/
noncomputable def mul : XReal → XReal → XReal
  | nan, _ => nan
  | _, nan => nan
  | fin a, fin b => fin (a * b)
  | fin a, posInf => infSign a
  | fin a, negInf => infSign (-a)
  | posInf, fin b => infSign b
  | negInf, fin b => infSign (-b)
  | posInf, posInf => posInf
  | posInf, negInf => negInf
  | negInf, posInf => negInf
  | negInf, negInf => posInf

/-- IEEE division, exact; a zero divisor counts as `+0` -/
noncomputable def div : XReal → XReal → XReal
  | nan, _ => nan
  | _, nan => nan
  | fin a, fin b => if b = 0 then infSign a else fin (a / b)
  | fin _, posInf => fin 0
  | fin _, negInf => fin 0
  | posInf, fin b => if 0 ≤ b then posInf else negInf
  | negInf, fin b => if 0 ≤ b then negInf else posInf
  | posInf, posInf => nan
  | posInf, negInf => nan
  | negInf, posInf => nan
  | negInf, negInf => nan

/-- IEEE `<` -/
noncomputable def lt : XReal → XReal → Bool
  | nan, _ => false
  | _, nan => false
  | fin a, fin b => decide (a < b)
  | fin _, posInf => true
  | negInf, fin _ => true
  | negInf, posInf => true
  | _, _ => false

/-- IEEE `<=` -/
noncomputable def le : XReal → XReal → Bool
  | nan, _ => false
  | _, nan => false
  | fin a, fin b => decide (a ≤ b)
  | _, posInf => true
  | negInf, _ => true
  | _, _ => false

/-- IEEE `==` -/
noncomputable def eq : XReal → XReal → Bool
  | fin a, fin b => decide (a = b)
  | posInf, posInf => true
  | negInf, negInf => true
  | _, _ => false

noncomputable instance : Scalar XReal where
  add := add
  sub a b := add a (neg b)
  mul := mul
  div := div
  neg := neg
  lit n d := fin (n / d)
  inf := posInf
  nan := nan
  abs | nan => nan | fin r => fin |r| | _ => posInf
  sqrt | fin r => if r < 0 then nan else fin (Real.sqrt r) | posInf => posInf | _ => nan
  sin | fin r => fin (Real.sin r) | _ => nan
  cos | fin r => fin (Real.cos r) | _ => nan
  acos | fin r => if |r| ≤ 1 then fin (Real.arccos r) else nan | _ => nan
  signum | nan => nan | fin r => fin (if 0 ≤ r then 1 else -1) | posInf => fin 1 | negInf => fin (-1)
  lt := lt
  le := le
  eq := eq
  isNaN | nan => true | _ => false
  isFinite | fin _ => true | _ => false
  isInfinite | posInf => true | negInf => true | _ => false

/-! ### Arithmetic on finite numbers -/

@[simp] theorem fin_inj {a b : ℝ} : fin a = fin b ↔ a = b := ⟨fun h => by cases h; rfl, fun h => by rw [h]⟩
@[simp] theorem fin_add (a b : ℝ) : fin a + fin b = fin (a + b) := rfl
@[simp] theorem fin_sub (a b : ℝ) : fin a - fin b = fin (a - b) := by
  show fin (a + -b) = _; rw [sub_eq_add_neg]
@[simp] theorem fin_mul (a b : ℝ) : fin a * fin b = fin (a * b) := rfl
@[simp] theorem fin_neg (a : ℝ) : -fin a = fin (-a) := rfl
theorem fin_div' (a b : ℝ) : fin a / fin b = if b = 0 then infSign a else fin (a / b) := rfl
theorem fin_div {a b : ℝ} (h : b ≠ 0) : fin a / fin b = fin (a / b) := by rw [fin_div', if_neg h]
@[simp] theorem lit_eq (n : Int) (d : Nat) : (lit n d : XReal) = fin (n / d) := rfl
@[simp] theorem zero_eq : (zero : XReal) = fin 0 := by simp [zero]
@[simp] theorem one_eq : (one : XReal) = fin 1 := by simp [one]
@[simp] theorem two_eq : (two : XReal) = fin 2 := by simp [two]
@[simp] theorem EPSILON_eq : (EPSILON : XReal) = fin (1 / 1000000) := by simp [EPSILON]
@[simp] theorem fin_abs (a : ℝ) : Scalar.abs (fin a) = fin |a| := rfl
theorem fin_sqrt' (a : ℝ) : Scalar.sqrt (fin a) = if a < 0 then nan else fin (Real.sqrt a) := rfl
theorem fin_sqrt {a : ℝ} (h : 0 ≤ a) : Scalar.sqrt (fin a) = fin (Real.sqrt a) := by
  rw [fin_sqrt', if_neg (not_lt.mpr h)]
@[simp] theorem fin_sin (a : ℝ) : Scalar.sin (fin a) = fin (Real.sin a) := rfl
@[simp] theorem fin_cos (a : ℝ) : Scalar.cos (fin a) = fin (Real.cos a) := rfl
theorem fin_acos {a : ℝ} (h : |a| ≤ 1) : Scalar.acos (fin a) = fin (Real.arccos a) := if_pos h
@[simp] theorem fin_signum (a : ℝ) : Scalar.signum (fin a) = fin (if 0 ≤ a then 1 else -1) := rfl
@[simp] theorem fin_lt (a b : ℝ) : Scalar.lt (fin a) (fin b) = decide (a < b) := rfl
@[simp] theorem fin_le (a b : ℝ) : Scalar.le (fin a) (fin b) = decide (a ≤ b) := rfl
@[simp] theorem fin_eq (a b : ℝ) : Scalar.eq (fin a) (fin b) = decide (a = b) := rfl
@[simp] theorem isNaN_fin (a : ℝ) : Scalar.isNaN (fin a) = false := rfl
@[simp] theorem isNaN_nan : Scalar.isNaN nan = true := rfl
@[simp] theorem isNaN_posInf : Scalar.isNaN posInf = false := rfl
@[simp] theorem isNaN_negInf : Scalar.isNaN negInf = false := rfl
@[simp] theorem isFinite_fin (a : ℝ) : Scalar.isFinite (fin a) = true := rfl
@[simp] theorem isFinite_nan : Scalar.isFinite nan = false := rfl
@[simp] theorem isFinite_posInf : Scalar.isFinite posInf = false := rfl
@[simp] theorem isFinite_negInf : Scalar.isFinite negInf = false := rfl
@[simp] theorem isInfinite_fin (a : ℝ) : Scalar.isInfinite (fin a) = false := rfl
@[simp] theorem isInfinite_nan : Scalar.isInfinite nan = false := rfl
@[simp] theorem isInfinite_posInf : Scalar.isInfinite posInf = true := rfl
@[simp] theorem isInfinite_negInf : Scalar.isInfinite negInf = true := rfl
@[simp] theorem inf_eq : (Scalar.inf : XReal) = posInf := rfl
@[simp] theorem nan_eq : (Scalar.nan : XReal) = nan := rfl
@[simp] theorem neg_posInf : -posInf = negInf := rfl
@[simp] theorem neg_negInf : -negInf = posInf := rfl
@[simp] theorem neg_nan : -nan = nan := rfl

/-! ### Special values -/

@[simp] theorem nan_add (a : XReal) : nan + a = nan := by cases a <;> rfl
@[simp] theorem add_nan (a : XReal) : a + nan = nan := by cases a <;> rfl
@[simp] theorem nan_sub (a : XReal) : nan - a = nan := by cases a <;> rfl
@[simp] theorem sub_nan (a : XReal) : a - nan = nan := by cases a <;> rfl
@[simp] theorem nan_mul (a : XReal) : nan * a = nan := by cases a <;> rfl
@[simp] theorem mul_nan (a : XReal) : a * nan = nan := by cases a <;> rfl
@[simp] theorem nan_div (a : XReal) : nan / a = nan := by cases a <;> rfl
@[simp] theorem div_nan (a : XReal) : a / nan = nan := by cases a <;> rfl
@[simp] theorem lt_nan (a : XReal) : Scalar.lt a nan = false := by cases a <;> rfl
@[simp] theorem nan_lt (a : XReal) : Scalar.lt nan a = false := by cases a <;> rfl
@[simp] theorem le_nan (a : XReal) : Scalar.le a nan = false := by cases a <;> rfl
@[simp] theorem nan_le (a : XReal) : Scalar.le nan a = false := by cases a <;> rfl
@[simp] theorem eq_nan (a : XReal) : Scalar.eq a nan = false := by cases a <;> rfl
@[simp] theorem nan_eq' (a : XReal) : Scalar.eq nan a = false := by cases a <;> rfl
@[simp] theorem abs_nan : Scalar.abs nan = nan := rfl
@[simp] theorem sqrt_nan : Scalar.sqrt nan = nan := rfl
@[simp] theorem abs_posInf : Scalar.abs posInf = posInf := rfl
@[simp] theorem abs_negInf : Scalar.abs negInf = posInf := rfl
@[simp] theorem fin_add_posInf (a : ℝ) : fin a + posInf = posInf := rfl
@[simp] theorem posInf_add_fin (a : ℝ) : posInf + fin a = posInf := rfl
@[simp] theorem fin_add_negInf (a : ℝ) : fin a + negInf = negInf := rfl
@[simp] theorem negInf_add_fin (a : ℝ) : negInf + fin a = negInf := rfl
@[simp] theorem fin_sub_posInf (a : ℝ) : fin a - posInf = negInf := rfl
@[simp] theorem posInf_sub_fin (a : ℝ) : posInf - fin a = posInf := rfl
@[simp] theorem fin_sub_negInf (a : ℝ) : fin a - negInf = posInf := rfl
@[simp] theorem negInf_sub_fin (a : ℝ) : negInf - fin a = negInf := rfl
@[simp] theorem posInf_add_posInf : posInf + posInf = posInf := rfl
@[simp] theorem negInf_add_negInf : negInf + negInf = negInf := rfl
@[simp] theorem posInf_add_negInf : posInf + negInf = nan := rfl
@[simp] theorem negInf_add_posInf : negInf + posInf = nan := rfl
@[simp] theorem posInf_sub_posInf : posInf - posInf = nan := rfl
@[simp] theorem negInf_sub_negInf : negInf - negInf = nan := rfl
@[simp] theorem posInf_sub_negInf : posInf - negInf = posInf := rfl
@[simp] theorem negInf_sub_posInf : negInf - posInf = negInf := rfl
@[simp] theorem fin_div_posInf (a : ℝ) : fin a / posInf = fin 0 := rfl
@[simp] theorem fin_div_negInf (a : ℝ) : fin a / negInf = fin 0 := rfl
theorem posInf_div_fin (b : ℝ) : posInf / fin b = if 0 ≤ b then posInf else negInf := rfl
theorem negInf_div_fin (b : ℝ) : negInf / fin b = if 0 ≤ b then negInf else posInf := rfl
theorem posInf_mul_fin (b : ℝ) : posInf * fin b = infSign b := rfl
theorem fin_mul_posInf (b : ℝ) : fin b * posInf = infSign b := rfl
@[simp] theorem fin_lt_posInf (a : ℝ) : Scalar.lt (fin a) posInf = true := rfl
@[simp] theorem posInf_lt (a : XReal) : Scalar.lt posInf a = false := by cases a <;> rfl
@[simp] theorem lt_negInf (a : XReal) : Scalar.lt a negInf = false := by cases a <;> rfl
@[simp] theorem negInf_lt_fin (a : ℝ) : Scalar.lt negInf (fin a) = true := rfl
@[simp] theorem negInf_lt_posInf : Scalar.lt negInf posInf = true := rfl
@[simp] theorem fin_le_posInf (a : ℝ) : Scalar.le (fin a) posInf = true := rfl
@[simp] theorem negInf_le_fin (a : ℝ) : Scalar.le negInf (fin a) = true := rfl
@[simp] theorem posInf_le_fin (a : ℝ) : Scalar.le posInf (fin a) = false := rfl
@[simp] theorem fin_le_negInf (a : ℝ) : Scalar.le (fin a) negInf = false := rfl
@[simp] theorem posInf_le_posInf : Scalar.le posInf posInf = true := rfl
@[simp] theorem negInf_le_negInf : Scalar.le negInf negInf = true := rfl
@[simp] theorem negInf_le_posInf : Scalar.le negInf posInf = true := rfl
@[simp] theorem posInf_le_negInf : Scalar.le posInf negInf = false := rfl

theorem isFinite_iff {a : XReal} : Scalar.isFinite a = true ↔ ∃ r, a = fin r := by
  cases a <;> simp

end XReal

/-- The laws of IEEE-754 comparison that do not involve arithmetic.  True of binary32 (all values, NaN and signed
zeros included); theorems from this class hold for `f32` as far as the hardware's comparisons are IEEE. -/
class LawfulOrder (α : Type) [Scalar α] : Prop where
  lt_irrefl : ∀ a : α, Scalar.lt a a = false
  lt_trans : ∀ a b c : α, Scalar.lt a b = true → Scalar.lt b c = true → Scalar.lt a c = true
  lt_of_not : ∀ a b c : α, Scalar.lt a c = true → Scalar.isNaN b = false → Scalar.lt a b = true ∨ Scalar.lt b c = true
  lt_notNaN : ∀ a b : α, Scalar.lt a b = true → Scalar.isNaN a = false ∧ Scalar.isNaN b = false
  le_iff : ∀ a b : α, Scalar.le a b = true ↔ (Scalar.lt b a = false ∧ Scalar.isNaN a = false ∧ Scalar.isNaN b = false)
  isNaN_nan : Scalar.isNaN (Scalar.nan : α) = true
  isNaN_lit : ∀ n d, Scalar.isNaN (lit n d : α) = false
  zero_lt_one : Scalar.lt (zero : α) one = true
  one_lt_two : Scalar.lt (one : α) two = true
  lt_inf : ∀ a : α, Scalar.isFinite a = true → Scalar.lt a Scalar.inf = true
  inf_max : ∀ a : α, Scalar.lt Scalar.inf a = false
  neg_inf_min : ∀ a : α, Scalar.lt a (-Scalar.inf) = false
  inf_notNaN : Scalar.isNaN (Scalar.inf : α) = false
  neg_inf_notNaN : Scalar.isNaN (-Scalar.inf : α) = false

noncomputable instance : LawfulOrder XReal where
  lt_irrefl a := by cases a <;> simp
  lt_trans a b c := by
    cases a <;> cases b <;> cases c <;> simp <;> exact fun h1 h2 => _root_.lt_trans h1 h2
  lt_of_not a b c := by
    cases a <;> cases b <;> cases c <;> simp
    intro h; by_contra hh; push Not at hh; linarith
  lt_notNaN a b := by cases a <;> cases b <;> simp
  le_iff a b := by cases a <;> cases b <;> simp
  isNaN_nan := rfl
  isNaN_lit _ _ := rfl
  zero_lt_one := by simp
  one_lt_two := by simp
  lt_inf a := by cases a <;> simp
  inf_max a := by simp
  neg_inf_min a := by simp
  inf_notNaN := rfl
  neg_inf_notNaN := rfl

end Fluffy
