import Verif.Num.F32
/-
The model of binary32 (`Verif/Num/F32.lean`) against the arithmetic of the host, on pseudo-random bit patterns.
A test, not a proof; no theorem depends on it.
-/
namespace Fluffy.Binary32

instance : Libm := ⟨id, id, id⟩

/-- The number with these bits. -/
def ofBits (u : UInt32) : F32 :=
  let s := (u >>> 31) == 1
  let e := ((u >>> 23) &&& 0xff).toNat
  let m := (u &&& 0x7fffff).toNat
  if e == 255 then (if m == 0 then .inf s else .nan)
  else
    let v : ℚ := if e == 0 then m * 2 ^ (-149 : ℤ) else ((m + 2 ^ 23 : ℕ) : ℚ) * 2 ^ ((e : ℤ) - 150)
    F32.pack (if s then -v else v) s

def same (a : F32) (f : Float32) : Bool :=
  match a, ofBits f.toBits with
  | .nan, .nan => true
  | .inf a, .inf b => a == b
  | .fin x a _, .fin y b _ => x == y && a == b
  | _, _ => false

def next (s : UInt64) : UInt64 := s * 6364136223846793005 + 1442695040888963407

def special : Array UInt32 := #[0, 0x80000000, 0x7f800000, 0xff800000, 0x7fc00000, 1, 0x80000001, 0x7f7fffff, 0x3f800000, 0xbf800000, 0x00800000, 0x007fffff,
  0x3f7fffff, 0x4b800000, 0x34000000, 0x33800000]

/-- Special values, numbers of similar size, subnormal numbers, anything. -/
def draw (s : UInt64) (k : Nat) : UInt32 :=
  let r := (s >>> 32).toUInt32
  match k % 5 with
  | 0 => special[r.toNat % special.size]!
  | 1 => (r &&& 0x83ffffff) ||| 0x3c000000
  | 2 => r &&& 0x837fffff
  | _ => r

def agree (a b : UInt32) : Bool :=
  let x := ofBits a
  let y := ofBits b
  let f := Float32.ofBits a
  let g := Float32.ofBits b
  same x f && same (x + y) (f + g) && same (x - y) (f - g) && same (x * y) (f * g) && same (x / y) (f / g) && same (Scalar.sqrt x) f.sqrt &&
    same (Scalar.abs x) f.abs && same (-x) (-f) && Scalar.lt x y == decide (f < g) && Scalar.le x y == decide (f ≤ g) && Scalar.eq x y == (f == g) &&
    Scalar.isNaN x == f.isNaN && Scalar.isFinite x == f.isFinite && Scalar.isInfinite x == f.isInf

def run : Nat → UInt64 → Bool
  | 0, _ => true
  | k + 1, s =>
    let s1 := next s
    let s2 := next s1
    agree (draw s1 k) (draw s2 (k / 5)) && run k s2

#guard run 5000 12345

end Fluffy.Binary32
