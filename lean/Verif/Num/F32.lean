import Verif.Num.XReal
import Mathlib.Data.Int.Log
import Mathlib.Data.Rat.Floor
/-
IEEE-754 binary32 with rounding to nearest, ties to even: the numbers the code computes with.
Signed zeros, subnormal numbers, overflow to infinity and NaN (one NaN; payloads are not modelled).
The third number type of the model, see DESIGN.md section 1.
-/
set_option linter.unusedSectionVars false
set_option linter.unusedSimpArgs false
namespace Fluffy

/-! ### Rounding -/

/-- The nearest integer, the even one of two. -/
def nearest (x : ℚ) : ℤ :=
  if x - ⌊x⌋ < 1 / 2 then ⌊x⌋ else if 1 / 2 < x - ⌊x⌋ then ⌊x⌋ + 1 else if ⌊x⌋ % 2 = 0 then ⌊x⌋ else ⌊x⌋ + 1

/-- The exponent of the last bit of a binary32 number of the size of `x`. -/
def ulpExp (x : ℚ) : ℤ := max (-149) (Int.log 2 |x| - 23)

/-- Rounding to 24 significant bits, or to a multiple of the smallest subnormal number; no upper limit. -/
def rnd (x : ℚ) : ℚ := nearest (x / 2 ^ ulpExp x) * 2 ^ ulpExp x

theorem nearest_abs (x : ℚ) : |nearest x - x| ≤ 1 / 2 := by
  have h1 := Int.floor_le x
  have h2 := Int.lt_floor_add_one x
  unfold nearest
  split_ifs <;> rw [abs_le] <;> push_cast <;> constructor <;> linarith

theorem nearest_int (n : ℤ) : nearest n = n := by
  unfold nearest; simp

theorem nearest_mono {x y : ℚ} (h : x ≤ y) : nearest x ≤ nearest y := by
  have hf := Int.floor_le_floor h
  have h1 := Int.floor_le x
  have h2 := Int.lt_floor_add_one x
  have h3 := Int.floor_le y
  have h4 := Int.lt_floor_add_one y
  rcases eq_or_lt_of_le hf with e | e
  · unfold nearest
    rw [← e] at h3 h4 ⊢
    split_ifs <;> first | omega | (exfalso; linarith)
  · unfold nearest
    split_ifs <;> omega

theorem nearest_neg (x : ℚ) : nearest (-x) = -nearest x := by
  by_cases hx : (⌊x⌋ : ℚ) = x
  · rw [← hx, ← Int.cast_neg, nearest_int, nearest_int]
  have h1 := lt_of_le_of_ne (Int.floor_le x) hx
  have h2 := Int.lt_floor_add_one x
  have hf : ⌊-x⌋ = -⌊x⌋ - 1 := by
    rw [Int.floor_eq_iff]; push_cast; constructor <;> linarith
  unfold nearest
  rw [hf]
  push_cast
  split_ifs <;> first | omega | (exfalso; linarith)

theorem ulpExp_neg (x : ℚ) : ulpExp (-x) = ulpExp x := by unfold ulpExp; rw [abs_neg]

theorem rnd_neg (x : ℚ) : rnd (-x) = -rnd x := by
  unfold rnd; rw [ulpExp_neg, neg_div, nearest_neg]; push_cast; ring

@[simp] theorem rnd_zero : rnd 0 = 0 := by
  unfold rnd; rw [zero_div]
  have := nearest_int 0
  push_cast at this
  rw [this]; simp

theorem two_zpow_pos (e : ℤ) : (0 : ℚ) < 2 ^ e := zpow_pos (by norm_num) e

theorem rnd_nonneg {x : ℚ} (h : 0 ≤ x) : 0 ≤ rnd x := by
  have h1 := nearest_mono (div_nonneg h (two_zpow_pos (ulpExp x)).le)
  have h2 := nearest_int 0
  push_cast at h2
  rw [h2] at h1
  exact mul_nonneg (by exact_mod_cast h1) (two_zpow_pos _).le

/-- A number is below the power of two after its leading bit. -/
theorem lt_ulp {x : ℚ} : |x| < 2 ^ (ulpExp x + 24) := by
  have h1 := Int.lt_zpow_succ_log_self (b := 2) (by norm_num) |x|
  refine lt_of_lt_of_le h1 ?_
  push_cast
  apply zpow_le_zpow_right₀ (by norm_num)
  unfold ulpExp
  omega

theorem ulp_le {x : ℚ} (h : x ≠ 0) (he : -149 < ulpExp x) : 2 ^ (ulpExp x + 23) ≤ |x| := by
  have h1 := Int.zpow_log_le_self (b := 2) (r := |x|) (by norm_num) (abs_pos.mpr h)
  have e : ulpExp x + 23 = Int.log 2 |x| := by unfold ulpExp at he ⊢; omega
  rw [e]; exact_mod_cast h1

theorem ulpExp_mono {x y : ℚ} (hx : x ≠ 0) (h : |x| ≤ |y|) : ulpExp x ≤ ulpExp y := by
  have := Int.log_mono_right (b := 2) (abs_pos.mpr hx) h
  unfold ulpExp; omega

theorem rnd_le_pow {x : ℚ} (h : 0 ≤ x) : rnd x ≤ 2 ^ (ulpExp x + 24) := by
  have hx := lt_ulp (x := x)
  rw [abs_of_nonneg h, zpow_add₀ (by norm_num)] at hx
  have h1 : x / 2 ^ ulpExp x ≤ ((2 ^ 24 : ℤ) : ℚ) := by
    rw [div_le_iff₀ (two_zpow_pos _)]; push_cast; rw [mul_comm]; exact hx.le
  have h2 := nearest_mono h1
  rw [nearest_int] at h2
  unfold rnd
  rw [zpow_add₀ (by norm_num), mul_comm (2 ^ ulpExp x)]
  refine mul_le_mul_of_nonneg_right ?_ (two_zpow_pos _).le
  have : ((nearest (x / 2 ^ ulpExp x) : ℤ) : ℚ) ≤ ((2 ^ 24 : ℤ) : ℚ) := by exact_mod_cast h2
  refine this.trans (le_of_eq ?_)
  norm_num

theorem pow_le_rnd {x : ℚ} (h : 0 < x) (he : -149 < ulpExp x) : 2 ^ (ulpExp x + 23) ≤ rnd x := by
  have hx := ulp_le h.ne' he
  rw [abs_of_pos h, zpow_add₀ (by norm_num)] at hx
  have h1 : ((2 ^ 23 : ℤ) : ℚ) ≤ x / 2 ^ ulpExp x := by
    rw [le_div_iff₀ (two_zpow_pos _)]; push_cast; rw [mul_comm]; exact hx
  have h2 := nearest_mono h1
  rw [nearest_int] at h2
  unfold rnd
  rw [zpow_add₀ (by norm_num), mul_comm (2 ^ ulpExp x)]
  refine mul_le_mul_of_nonneg_right ?_ (two_zpow_pos _).le
  have : ((2 ^ 23 : ℤ) : ℚ) ≤ ((nearest (x / 2 ^ ulpExp x) : ℤ) : ℚ) := by exact_mod_cast h2
  refine le_trans (le_of_eq ?_) this
  norm_num

theorem rnd_mono_pos {x y : ℚ} (hx : 0 < x) (h : x ≤ y) : rnd x ≤ rnd y := by
  have hy : 0 < y := lt_of_lt_of_le hx h
  have he : ulpExp x ≤ ulpExp y := ulpExp_mono hx.ne' (by rw [abs_of_pos hx, abs_of_pos hy]; exact h)
  rcases eq_or_lt_of_le he with e | e
  · unfold rnd
    rw [e]
    refine mul_le_mul_of_nonneg_right ?_ (two_zpow_pos _).le
    exact_mod_cast nearest_mono (div_le_div_of_nonneg_right h (two_zpow_pos _).le)
  · refine (rnd_le_pow hx.le).trans (le_trans ?_ (pow_le_rnd hy (lt_of_le_of_lt (le_max_left _ _) e)))
    apply zpow_le_zpow_right₀ (by norm_num)
    omega

/-- Rounding keeps the order. -/
theorem rnd_mono {x y : ℚ} (h : x ≤ y) : rnd x ≤ rnd y := by
  rcases lt_trichotomy x 0 with hx | rfl | hx
  · rcases lt_or_ge y 0 with hy | hy
    · have := rnd_mono_pos (x := -y) (y := -x) (by linarith) (by linarith)
      rw [rnd_neg, rnd_neg] at this; linarith
    · have := rnd_nonneg (x := -x) (by linarith)
      rw [rnd_neg] at this
      linarith [rnd_nonneg hy]
  · rw [rnd_zero]; exact rnd_nonneg h
  · exact rnd_mono_pos hx h

theorem rnd_abs (x : ℚ) : |rnd x| = rnd |x| := by
  rcases le_total 0 x with h | h
  · rw [abs_of_nonneg h, abs_of_nonneg (rnd_nonneg h)]
  · have := rnd_mono h
    rw [rnd_zero] at this
    rw [abs_of_nonpos h, abs_of_nonpos this, rnd_neg]

/-- The error is at most half a unit in the last place. -/
theorem rnd_error (x : ℚ) : |rnd x - x| ≤ 2 ^ (ulpExp x - 1) := by
  have h := nearest_abs (x / 2 ^ ulpExp x)
  have hp := two_zpow_pos (ulpExp x)
  have e : rnd x - x = (nearest (x / 2 ^ ulpExp x) - x / 2 ^ ulpExp x) * 2 ^ ulpExp x := by
    unfold rnd; field_simp
  rw [e, abs_mul, abs_of_pos hp, zpow_sub₀ (by norm_num)]
  calc _ ≤ 1 / 2 * 2 ^ ulpExp x := mul_le_mul_of_nonneg_right h hp.le
    _ = _ := by ring

/-- Multiples of a power of two with at most 24 bits are not changed. -/
theorem rnd_exact {m e : ℤ} (hm : |m| ≤ 2 ^ 24) (he : -149 ≤ e) : rnd (m * 2 ^ e) = m * 2 ^ e := by
  by_cases h0 : m = 0
  · simp [h0]
  by_cases hmm : |m| = 2 ^ 24
  · -- the leading bit alone
    have key : ∀ f : ℤ, -149 ≤ f → rnd (2 ^ (f + 24)) = 2 ^ (f + 24) := by
      intro f hf
      have hp := two_zpow_pos (f + 24)
      have hl : Int.log 2 |(2 : ℚ) ^ (f + 24)| = f + 24 := by
        rw [abs_of_pos hp]; exact_mod_cast Int.log_zpow (R := ℚ) (b := 2) (by norm_num) (f + 24)
      have hu : ulpExp (2 ^ (f + 24)) = f + 1 := by unfold ulpExp; rw [hl]; omega
      unfold rnd
      rw [hu]
      have : (2 : ℚ) ^ (f + 24) / 2 ^ (f + 1) = ((2 ^ 23 : ℤ) : ℚ) := by
        rw [← zpow_sub₀ (by norm_num)]
        have : f + 24 - (f + 1) = 23 := by ring
        rw [this]; norm_num
      rw [this, nearest_int]
      have : f + 24 = 23 + (f + 1) := by ring
      rw [this, zpow_add₀ (by norm_num) 23]
      norm_num
    have e24 : (16777216 : ℚ) * 2 ^ e = 2 ^ (e + 24) := by rw [zpow_add₀ (by norm_num), mul_comm]; norm_num
    rcases abs_eq (by norm_num : (0 : ℤ) ≤ 2 ^ 24) |>.mp hmm with h | h
    · rw [h]; push_cast; rw [e24]; exact key e he
    · rw [h]; push_cast; rw [neg_mul, rnd_neg, e24, key e he]
  have hlt : |m| < 2 ^ 24 := lt_of_le_of_ne hm hmm
  have hx : (m : ℚ) * 2 ^ e ≠ 0 := mul_ne_zero (by exact_mod_cast h0) (two_zpow_pos e).ne'
  have hle : ulpExp (m * 2 ^ e) ≤ e := by
    by_contra hc
    push Not at hc
    have h1 := ulp_le hx (lt_of_le_of_lt he hc)
    have h2 : |(m : ℚ) * 2 ^ e| < 2 ^ (24 + e) := by
      rw [abs_mul, abs_of_pos (two_zpow_pos e), zpow_add₀ (by norm_num)]
      refine mul_lt_mul_of_pos_right ?_ (two_zpow_pos e)
      have : ((|m| : ℤ) : ℚ) < ((2 ^ 24 : ℤ) : ℚ) := by exact_mod_cast hlt
      rw [← Int.cast_abs]
      refine lt_of_lt_of_eq this ?_
      norm_num
    have h3 := lt_of_le_of_lt h1 h2
    rw [zpow_lt_zpow_iff_right₀ (by norm_num)] at h3
    omega
  obtain ⟨k, hk⟩ := Int.eq_ofNat_of_zero_le (sub_nonneg.mpr hle)
  have hd : (m : ℚ) * 2 ^ e / 2 ^ ulpExp (m * 2 ^ e) = ((m * 2 ^ k : ℤ) : ℚ) := by
    rw [mul_div_assoc, ← zpow_sub₀ (by norm_num), hk]; push_cast; simp
  unfold rnd
  rw [hd, nearest_int, ← hd, div_mul_cancel₀ _ (two_zpow_pos _).ne']

/-- What rounding gives. -/
theorem rnd_form (x : ℚ) : ∃ m e : ℤ, |m| ≤ 2 ^ 24 ∧ -149 ≤ e ∧ rnd x = m * 2 ^ e := by
  refine ⟨_, ulpExp x, ?_, by unfold ulpExp; omega, rfl⟩
  have h := rnd_le_pow (abs_nonneg x)
  have hu : ulpExp |x| = ulpExp x := by unfold ulpExp; rw [abs_abs]
  rw [← rnd_abs, hu, zpow_add₀ (by norm_num)] at h
  unfold rnd at h
  rw [abs_mul, abs_of_pos (two_zpow_pos _), mul_comm (2 ^ ulpExp x)] at h
  have h2 := le_of_mul_le_mul_right h (two_zpow_pos _)
  rw [← Int.cast_abs] at h2
  have : ((|nearest (x / 2 ^ ulpExp x)| : ℤ) : ℚ) ≤ ((2 ^ 24 : ℤ) : ℚ) := by
    refine h2.trans (le_of_eq ?_); norm_num
  exact_mod_cast this

@[simp] theorem rnd_rnd (x : ℚ) : rnd (rnd x) = rnd x := by
  obtain ⟨m, e, h1, h2, h3⟩ := rnd_form x
  rw [h3]; exact rnd_exact h1 h2

/-! ### The numbers -/

/-- The finite numbers: the value and the sign bit. -/
def Rep (x : ℚ) (neg : Bool) : Prop := rnd x = x ∧ |x| < 2 ^ 128 ∧ (x < 0 → neg = true) ∧ (0 < x → neg = false)

/-- binary32 -/
inductive F32 where
  | nan
  | inf (neg : Bool)
  | fin (x : ℚ) (neg : Bool) (h : Rep x neg)

/-- The sign bit of a result: that of the exact result, or the given one if that is zero. -/
def signBit (q : ℚ) (z : Bool) : Bool := if q < 0 then true else if 0 < q then false else z

theorem rep_rnd {q : ℚ} {z : Bool} (h : ¬2 ^ 128 ≤ |rnd q|) : Rep (rnd q) (signBit q z) := by
  refine ⟨rnd_rnd q, not_le.mp h, fun hn => ?_, fun hp => ?_⟩
  · have : q < 0 := by by_contra hc; linarith [rnd_nonneg (not_lt.mp hc)]
    simp [signBit, this]
  · have : 0 < q := by
      by_contra hc
      have := rnd_mono (not_lt.mp hc)
      rw [rnd_zero] at this; linarith
    simp [signBit, this, not_lt.mpr this.le]

namespace F32

/-- The binary32 number for an exact result: rounded, infinite if too large. -/
def pack (q : ℚ) (z : Bool) : F32 :=
  if h : 2 ^ 128 ≤ |rnd q| then inf (signBit q z) else fin (rnd q) (signBit q z) (rep_rnd h)

theorem rep_neg {x : ℚ} {a : Bool} (h : Rep x a) : Rep (-x) (!a) :=
  ⟨by rw [rnd_neg, h.1], by rw [abs_neg]; exact h.2.1, fun hx => by rw [h.2.2.2 (by linarith)]; rfl, fun hx => by rw [h.2.2.1 (by linarith)]; rfl⟩

theorem rep_abs {x : ℚ} {a : Bool} (h : Rep x a) : Rep |x| false :=
  ⟨by rw [← rnd_abs, h.1], by rw [abs_abs]; exact h.2.1, fun hx => absurd hx (not_lt.mpr (abs_nonneg x)), fun _ => rfl⟩

def neg : F32 → F32
  | nan => nan | inf a => inf !a | fin x a h => fin (-x) (!a) (rep_neg h)

def add : F32 → F32 → F32
  | nan, _ => nan
  | _, nan => nan
  | inf a, inf b => if a = b then inf a else nan
  | inf a, fin _ _ _ => inf a
  | fin _ _ _, inf b => inf b
  | fin x a _, fin y b _ => pack (x + y) (a && b)

def mul : F32 → F32 → F32
  | nan, _ => nan
  | _, nan => nan
  | inf a, inf b => inf (a ^^ b)
  | inf a, fin y b _ => if y = 0 then nan else inf (a ^^ b)
  | fin x a _, inf b => if x = 0 then nan else inf (a ^^ b)
  | fin x a _, fin y b _ => pack (x * y) (a ^^ b)

def div : F32 → F32 → F32
  | nan, _ => nan
  | _, nan => nan
  | inf _, inf _ => nan
  | inf a, fin _ b _ => inf (a ^^ b)
  | fin _ a _, inf b => pack 0 (a ^^ b)
  | fin x a _, fin y b _ => if y = 0 then (if x = 0 then nan else inf (a ^^ b)) else pack (x / y) (a ^^ b)

/-- The square root rounded to 24 bits: `m * 2 ^ e`, where `m` is the integer part of the root of `x / 4 ^ e`, or one more. -/
def root (x : ℚ) : ℚ :=
  let e : ℤ := Int.log 2 x / 2 - 23
  let m : ℕ := Nat.sqrt ⌊x / 4 ^ e⌋₊
  (if x / 4 ^ e < (m + 1 / 2) ^ 2 then m else m + 1) * 2 ^ e

def sqrt : F32 → F32
  | nan => nan
  | inf a => if a then nan else inf false
  | fin x a h => if x < 0 then nan else if x = 0 then fin x a h else pack (root x) false

def abs : F32 → F32
  | nan => nan | inf _ => inf false | fin x _ h => fin |x| false (rep_abs h)

def signum : F32 → F32
  | nan => nan | inf a => pack (if a then -1 else 1) false | fin _ a _ => pack (if a then -1 else 1) false

def lt : F32 → F32 → Bool
  | nan, _ => false
  | _, nan => false
  | inf a, inf b => a && !b
  | inf a, fin _ _ _ => a
  | fin _ _ _, inf b => !b
  | fin x _ _, fin y _ _ => decide (x < y)

def le : F32 → F32 → Bool
  | nan, _ => false
  | _, nan => false
  | inf a, inf b => a || !b
  | inf a, fin _ _ _ => a
  | fin _ _ _, inf b => !b
  | fin x _ _, fin y _ _ => decide (x ≤ y)

def eq : F32 → F32 → Bool
  | inf a, inf b => a == b
  | fin x _ _, fin y _ _ => decide (x = y)
  | _, _ => false

end F32

/-- The functions of the mathematical library, whose accuracy IEEE-754 leaves open: any functions. -/
class Libm where
  sin : F32 → F32
  cos : F32 → F32
  acos : F32 → F32

namespace F32

instance [Libm] : Scalar F32 where
  add := add
  sub a b := add a (neg b)
  mul := mul
  div := div
  neg := neg
  lit n d := pack (n / d) false
  inf := inf false
  nan := nan
  abs := abs
  sqrt := sqrt
  sin := Libm.sin
  cos := Libm.cos
  acos := Libm.acos
  signum := signum
  lt := lt
  le := le
  eq := eq
  isNaN | nan => true | _ => false
  isFinite | fin _ _ _ => true | _ => false
  isInfinite | inf _ => true | _ => false

variable [Libm]

theorem pack_small {q : ℚ} {z : Bool} (h : |rnd q| < 2 ^ 128) : pack q z = fin (rnd q) (signBit q z) (rep_rnd (not_le.mpr h)) := by
  unfold pack; rw [dif_neg (not_le.mpr h)]

theorem pack_large {q : ℚ} {z : Bool} (h : 2 ^ 128 ≤ |rnd q|) : pack q z = inf (signBit q z) := by
  unfold pack; rw [dif_pos h]

theorem pack_not_nan (q : ℚ) (z : Bool) : Scalar.isNaN (pack q z) = false := by
  unfold pack; split <;> rfl

/-- The small integers. -/
theorem rnd_int {n : ℤ} (h : |n| ≤ 2 ^ 24) : rnd n = n := by
  have := rnd_exact (m := n) (e := 0) h (by norm_num)
  simpa using this

theorem lit_int {n : ℤ} (h : |n| ≤ 2 ^ 24) : ∃ h, (lit n 1 : F32) = fin n (signBit n false) h := by
  have e : rnd ((n : ℚ) / (1 : ℕ)) = n := by push_cast; rw [div_one, rnd_int h]
  have hs : |rnd ((n : ℚ) / (1 : ℕ))| < 2 ^ 128 := by
    rw [e, ← Int.cast_abs]
    have : ((|n| : ℤ) : ℚ) ≤ ((2 ^ 24 : ℤ) : ℚ) := by exact_mod_cast h
    refine lt_of_le_of_lt this ?_
    norm_num
  have : ∃ h, (lit n 1 : F32) = fin (rnd ((n : ℚ) / (1 : ℕ))) (signBit ((n : ℚ) / (1 : ℕ)) false) h := ⟨_, pack_small hs⟩
  rw [e] at this
  simpa using this

theorem zero_val : ∃ h, (zero : F32) = fin 0 false h := by
  have : ∃ h, (zero : F32) = fin (0 : ℤ) (signBit (0 : ℤ) false) h := lit_int (by norm_num)
  rw [show signBit ((0 : ℤ) : ℚ) false = false by norm_num [signBit], show (((0 : ℤ)) : ℚ) = 0 by norm_num] at this
  exact this
theorem one_val : ∃ h, (one : F32) = fin 1 false h := by
  have : ∃ h, (one : F32) = fin (1 : ℤ) (signBit (1 : ℤ) false) h := lit_int (by norm_num)
  rw [show signBit ((1 : ℤ) : ℚ) false = false by norm_num [signBit], show (((1 : ℤ)) : ℚ) = 1 by norm_num] at this
  exact this
theorem two_val : ∃ h, (two : F32) = fin 2 false h := by
  have : ∃ h, (two : F32) = fin (2 : ℤ) (signBit (2 : ℤ) false) h := lit_int (by norm_num)
  rw [show signBit ((2 : ℤ) : ℚ) false = false by norm_num [signBit], show (((2 : ℤ)) : ℚ) = 2 by norm_num] at this
  exact this

/-- Comparison of binary32 numbers obeys the laws that the theorems marked "order" rest on. -/
instance : LawfulOrder F32 where
  lt_irrefl a := by rcases a with _ | a | ⟨x, a, h⟩ <;> [rfl; (cases a <;> rfl); exact decide_eq_false (_root_.lt_irrefl x)]
  lt_trans a b c := by
    rcases a with _ | a | ⟨x, a, h⟩ <;> rcases b with _ | b | ⟨y, b, h'⟩ <;> rcases c with _ | c | ⟨z, c, h''⟩ <;> simp [Scalar.lt, lt] <;> try grind
  lt_of_not a b c := by
    rcases a with _ | a | ⟨x, a, h⟩ <;> rcases b with _ | b | ⟨y, b, h'⟩ <;> rcases c with _ | c | ⟨z, c, h''⟩ <;> simp [Scalar.lt, lt, Scalar.isNaN] <;> try grind
  lt_notNaN a b := by
    rcases a with _ | a | ⟨x, a, h⟩ <;> rcases b with _ | b | ⟨y, b, h'⟩ <;> simp [Scalar.lt, lt, Scalar.isNaN]
  le_iff a b := by
    rcases a with _ | a | ⟨x, a, h⟩ <;> rcases b with _ | b | ⟨y, b, h'⟩ <;> simp [Scalar.lt, lt, Scalar.isNaN, Scalar.le, le]
    cases a <;> cases b <;> simp
  isNaN_nan := rfl
  isNaN_lit _ _ := pack_not_nan _ _
  zero_lt_one := by
    obtain ⟨h, e⟩ := zero_val
    obtain ⟨h', e'⟩ := one_val
    rw [e, e']; show decide ((0 : ℚ) < 1) = true; norm_num
  one_lt_two := by
    obtain ⟨h, e⟩ := one_val
    obtain ⟨h', e'⟩ := two_val
    rw [e, e']; show decide ((1 : ℚ) < 2) = true; norm_num
  lt_inf a := by rcases a with _ | a | ⟨x, a, h⟩ <;> simp [Scalar.isFinite, Scalar.lt, lt, Scalar.inf]
  inf_max a := by rcases a with _ | a | ⟨x, a, h⟩ <;> simp [Scalar.lt, lt, Scalar.inf]
  neg_inf_min a := by
    show Scalar.lt a (inf true) = false
    rcases a with _ | a | ⟨x, a, h⟩ <;> simp [Scalar.lt, lt, Scalar.inf]
  inf_notNaN := rfl
  neg_inf_notNaN := rfl

/-! ### Finite numbers and their values -/

/-- `a` is a finite number of the value `x`. -/
def Val (a : F32) (x : ℚ) : Prop := ∃ z h, a = fin x z h

theorem Val.inj {a : F32} {x y : ℚ} (h : Val a x) (h' : Val a y) : x = y := by
  obtain ⟨z, k, rfl⟩ := h
  obtain ⟨z', k', e⟩ := h'
  cases e; rfl

theorem val_zero : Val (zero : F32) 0 := by obtain ⟨h, e⟩ := zero_val; exact ⟨_, h, e⟩
theorem val_one : Val (one : F32) 1 := by obtain ⟨h, e⟩ := one_val; exact ⟨_, h, e⟩

theorem finite_iff {a : F32} : Scalar.isFinite a = true ↔ ∃ x, Val a x := by
  constructor
  · rcases a with _ | b | ⟨x, b, h⟩
    · intro h; cases h
    · intro h; cases h
    · intro _; exact ⟨x, b, h, rfl⟩
  · rintro ⟨x, z, h, rfl⟩; rfl

theorem Val.rnd {a : F32} {x : ℚ} (h : Val a x) : Fluffy.rnd x = x := by obtain ⟨z, k, rfl⟩ := h; exact k.1
theorem Val.small {a : F32} {x : ℚ} (h : Val a x) : |x| < 2 ^ 128 := by obtain ⟨z, k, rfl⟩ := h; exact k.2.1

theorem val_pack {q : ℚ} {z : Bool} (h : |Fluffy.rnd q| < 2 ^ 128) : Val (pack q z) (Fluffy.rnd q) := ⟨_, _, pack_small h⟩

theorem Val.add {a b : F32} {x y : ℚ} (ha : Val a x) (hb : Val b y) (h : |Fluffy.rnd (x + y)| < 2 ^ 128) : Val (a + b) (Fluffy.rnd (x + y)) := by
  obtain ⟨z, k, rfl⟩ := ha; obtain ⟨z', k', rfl⟩ := hb
  exact val_pack h

theorem Val.neg {a : F32} {x : ℚ} (ha : Val a x) : Val (-a) (-x) := by
  obtain ⟨z, k, rfl⟩ := ha; exact ⟨_, _, rfl⟩

theorem Val.sub {a b : F32} {x y : ℚ} (ha : Val a x) (hb : Val b y) (h : |Fluffy.rnd (x - y)| < 2 ^ 128) : Val (a - b) (Fluffy.rnd (x - y)) := by
  rw [sub_eq_add_neg] at h ⊢
  exact Val.add ha hb.neg h

theorem Val.mul {a b : F32} {x y : ℚ} (ha : Val a x) (hb : Val b y) (h : |Fluffy.rnd (x * y)| < 2 ^ 128) : Val (a * b) (Fluffy.rnd (x * y)) := by
  obtain ⟨z, k, rfl⟩ := ha; obtain ⟨z', k', rfl⟩ := hb
  exact val_pack h

theorem Val.div {a b : F32} {x y : ℚ} (ha : Val a x) (hb : Val b y) (h0 : y ≠ 0) (h : |Fluffy.rnd (x / y)| < 2 ^ 128) : Val (a / b) (Fluffy.rnd (x / y)) := by
  obtain ⟨z, k, rfl⟩ := ha; obtain ⟨z', k', rfl⟩ := hb
  show Val (if y = 0 then _ else _) _
  rw [if_neg h0]
  exact val_pack h

theorem Val.abs {a : F32} {x : ℚ} (ha : Val a x) : Val (Scalar.abs a) |x| := by
  obtain ⟨z, k, rfl⟩ := ha; exact ⟨_, _, rfl⟩

theorem Val.lt {a b : F32} {x y : ℚ} (ha : Val a x) (hb : Val b y) : Scalar.lt a b = decide (x < y) := by
  obtain ⟨z, k, rfl⟩ := ha; obtain ⟨z', k', rfl⟩ := hb; rfl
theorem Val.le {a b : F32} {x y : ℚ} (ha : Val a x) (hb : Val b y) : Scalar.le a b = decide (x ≤ y) := by
  obtain ⟨z, k, rfl⟩ := ha; obtain ⟨z', k', rfl⟩ := hb; rfl
theorem Val.eq {a b : F32} {x y : ℚ} (ha : Val a x) (hb : Val b y) : Scalar.eq a b = decide (x = y) := by
  obtain ⟨z, k, rfl⟩ := ha; obtain ⟨z', k', rfl⟩ := hb; rfl

/-- A number between two binary32 numbers is rounded to a number between them. -/
theorem rnd_between {a x b : ℚ} (ha : rnd a = a) (hb : rnd b = b) (h1 : a ≤ x) (h2 : x ≤ b) : a ≤ rnd x ∧ rnd x ≤ b :=
  ⟨by rw [← ha]; exact rnd_mono h1, by rw [← hb]; exact rnd_mono h2⟩

/-- A number between two finite numbers. -/
theorem val_of_between {c : F32} {x y : ℚ} (h1 : Scalar.isNaN c = false) {a b : F32} (ha : Val a x) (hb : Val b y) (hl : Scalar.le a c = true)
    (hu : Scalar.le c b = true) : ∃ z, Val c z ∧ x ≤ z ∧ z ≤ y := by
  obtain ⟨s, k, rfl⟩ := ha; obtain ⟨s', k', rfl⟩ := hb
  rcases c with _ | c | ⟨z, c, h⟩
  · cases h1
  · cases c
    · cases hu
    · cases hl
  · exact ⟨z, ⟨c, h, rfl⟩, of_decide_eq_true hl, of_decide_eq_true hu⟩

theorem rnd_one : rnd 1 = 1 := by simpa using rnd_int (n := 1) (by norm_num)

/-- A number of at most one is rounded by at most `2 ^ -25`, so that it is `1` if it is that close to it. -/
theorem rnd_above_one {x : ℚ} (h : x ≤ 1 + 2 ^ (-24 : ℤ)) : rnd x ≤ 1 := by
  refine (rnd_mono h).trans (le_of_eq ?_)
  have hl : Int.log 2 |(1 : ℚ) + 2 ^ (-24 : ℤ)| = 0 := by
    rw [abs_of_pos (by positivity)]
    have h1 : (0 : ℤ) ≤ Int.log 2 ((1 : ℚ) + 2 ^ (-24 : ℤ)) := by
      rw [← Int.zpow_le_iff_le_log (by norm_num) (by positivity)]; norm_num
    have h2 : Int.log 2 ((1 : ℚ) + 2 ^ (-24 : ℤ)) < 1 := by
      rw [← Int.lt_zpow_iff_log_lt (by norm_num) (by positivity)]; norm_num
    omega
  have hu : ulpExp (1 + 2 ^ (-24 : ℤ)) = -23 := by unfold ulpExp; rw [hl]; norm_num
  unfold rnd
  rw [hu]
  have hf : ⌊((1 : ℚ) + 2 ^ (-24 : ℤ)) / 2 ^ (-23 : ℤ)⌋ = 8388608 := by rw [Int.floor_eq_iff]; norm_num
  have : nearest ((1 + 2 ^ (-24 : ℤ)) / 2 ^ (-23 : ℤ)) = 8388608 := by
    unfold nearest
    rw [hf]; norm_num
  rw [this]; norm_num

/-- Rounding down to half the size of the last place of the numbers up to one. -/
theorem rnd_error_one {x : ℚ} (h : |x| ≤ 1) : |rnd x - x| ≤ 2 ^ (-24 : ℤ) := by
  by_cases h0 : x = 0
  · rw [h0, rnd_zero]; norm_num
  refine (rnd_error x).trans ?_
  apply zpow_le_zpow_right₀ (by norm_num)
  have : Int.log 2 |x| ≤ 0 := by
    have := Int.log_mono_right (b := 2) (abs_pos.mpr h0) h
    simpa using this
  unfold ulpExp
  omega

end F32
end Fluffy
