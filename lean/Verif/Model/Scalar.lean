/-
The number type of the model.

The Rust code computes with `f32`.  Every function of the model is polymorphic in a
type `α` with the operations below and *no laws*.
-/
namespace Fluffy

/-- The `f32` operations used by the crate.  No laws: whatever is proved from this class alone
holds for IEEE-754 binary32 (rounding, NaN, infinities and signed zeros included). -/
class Scalar (α : Type) extends Add α, Sub α, Mul α, Div α, Neg α where
  /-- The literal `num / den`. -/
  lit : Int → Nat → α
  /-- `std::f32::INFINITY` -/
  inf : α
  /-- `std::f32::NAN` -/
  nan : α
  /-- `f32::abs` -/
  abs : α → α
  /-- `f32::sqrt` -/
  sqrt : α → α
  /-- `f32::sin` (inside nalgebra's quaternion exponential) -/
  sin : α → α
  /-- `f32::cos` (inside nalgebra's quaternion exponential) -/
  cos : α → α
  /-- `f32::acos` (inside nalgebra's quaternion angle) -/
  acos : α → α
  /-- `f32::signum` -/
  signum : α → α
  /-- `a < b`; `a > b` is written `lt b a`, which is the same for IEEE numbers. -/
  lt : α → α → Bool
  /-- `a <= b` -/
  le : α → α → Bool
  /-- `a == b` (IEEE equality) -/
  eq : α → α → Bool
  /-- `f32::is_nan` -/
  isNaN : α → Bool
  /-- `f32::is_finite` -/
  isFinite : α → Bool
  /-- `f32::is_infinite` -/
  isInfinite : α → Bool

export Scalar (lit)

variable {α : Type} [Scalar α]

/-- `0.0` -/
def zero : α := lit 0 1
/-- `1.0` -/
def one : α := lit 1 1
/-- `2.0` -/
def two : α := lit 2 1
/-- src/consts.rs:3 `EPSILON : f32 = 1e-6`.  (As an exact rational; in binary32 the nearest float.) -/
def EPSILON : α := lit 1 1000000

/-- src/types.rs:20-22 `min`. -/
def fmin (a b : α) : α := if Scalar.lt a b then a else b
/-- src/types.rs:25-27 `max`. -/
def fmax (a b : α) : α := if Scalar.lt b a then a else b

/-- The ways a call can panic. -/
inductive Panic where
  /-- `Option::unwrap()` on `None` -/
  | unwrapNone
  /-- a `RefCell` borrowed while mutably borrowed -/
  | borrow
  /-- a failing `assert!` or an explicit `panic!` -/
  | assert
  /-- a slice index out of range -/
  | index
  /-- not a Rust panic: the fuel of a modelled `while` loop ran out (proved unreachable) -/
  | diverge
  deriving DecidableEq, Repr

/-- A computation that may panic. -/
abbrev Res (τ : Type) := Except Panic τ

/-- `option.unwrap()` -/
def unwrap {τ : Type} : Option τ → Res τ
  | some a => .ok a
  | none => .error .unwrapNone

/-- `vec[i]` -/
def index {τ : Type} (l : List τ) (i : Nat) : Res τ :=
  match l[i]? with
  | some a => .ok a
  | none => .error .index

end Fluffy
