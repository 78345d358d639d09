import Verif.Model.Scalar
/- src/range.rs -/
namespace Fluffy

/-- src/range.rs:8-14 `Range`; the fields are private in Rust. -/
structure Range (α : Type) where
  lo : α
  hi : α
  deriving Repr

namespace Range
variable {α : Type} [Scalar α]

/-- src/range.rs:18-20 `Range::empty` -/
def empty : Range α := ⟨Scalar.nan, Scalar.nan⟩
/-- src/range.rs:23-25 `Range::single` -/
def single (v : α) : Range α := ⟨v, v⟩
/-- src/range.rs:28-34 `Range::range` -/
def range (b1 b2 : α) : Range α := if Scalar.lt b1 b2 then ⟨b1, b2⟩ else ⟨b2, b1⟩
/-- src/range.rs:37-39 `Range::everything` -/
def everything : Range α := ⟨-Scalar.inf, Scalar.inf⟩
/-- src/range.rs:42-44 `is_empty` -/
def isEmpty (r : Range α) : Bool := Scalar.isNaN r.lo || Scalar.isNaN r.hi
/-- src/range.rs:47-49 `min` -/
def min (r : Range α) : α := if r.isEmpty then Scalar.nan else r.lo
/-- src/range.rs:53-55 `max` -/
def max (r : Range α) : α := if r.isEmpty then Scalar.nan else r.hi
/-- src/range.rs:59-61 `size` -/
def size (r : Range α) : α := if r.isEmpty then zero else r.hi - r.lo
/-- src/range.rs:64-71 `intersect` -/
def intersect (s o : Range α) : Range α :=
  if s.isEmpty || o.isEmpty then empty
  else
    let lo := if Scalar.lt o.lo s.lo then s.lo else o.lo
    let hi := if Scalar.lt s.hi o.hi then s.hi else o.hi
    if Scalar.lt hi lo then empty else ⟨lo, hi⟩
/-- src/range.rs:75-84 `contain` -/
def contain (s o : Range α) : Range α :=
  if s.isEmpty then o
  else if o.isEmpty then s
  else ⟨if Scalar.lt s.lo o.lo then s.lo else o.lo, if Scalar.lt o.hi s.hi then s.hi else o.hi⟩
/-- src/range.rs:88-109 `quadratic_zeros` -/
def quadraticZeros (a b c : α) : Range α :=
  if Scalar.lt (Scalar.abs a) EPSILON then
    if Scalar.lt (Scalar.abs b) EPSILON then
      if Scalar.lt c EPSILON then everything else empty
    else single (-c / b)
  else
    let det := b * b - lit 4 1 * a * c
    if Scalar.lt det (-EPSILON) then empty
    else if Scalar.lt det EPSILON then single (lit (-1) 2 * b / a)
    else
      let det := Scalar.sqrt det
      let denom := two * a
      range ((-b + det) / denom) ((-b - det) / denom)
/-- src/range.rs:112-128 `linear_overlap` -/
def linearOverlap (s o : Range α) (movement : α) : Range α :=
  if Scalar.lt (Scalar.abs movement) EPSILON then
    if (s.intersect o).isEmpty then empty else everything
  else
    (range ((s.min - o.min) / movement) ((s.max - o.min) / movement)).contain
      (range ((s.min - o.max) / movement) ((s.max - o.max) / movement))
end Range
end Fluffy
