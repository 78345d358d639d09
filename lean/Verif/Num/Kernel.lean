import Verif.Num.F32
import Verif.Props.Repeat
/-
Runs of the model on given binary32 numbers, computed by Lean's kernel.  Used for witnesses only.
-/
set_option linter.unusedSectionVars false
namespace Fluffy

open Lean Meta Elab Tactic in
/-- Proves an equation whose sides the kernel computes to the same value, with `Eq.refl`.  (`rfl` does the same but first
lets the elaborator compute, which takes too long here.)  It is the kernel that checks the result. -/
elab "kernel_refl" : tactic => liftMetaTactic fun g => do
  let t ← instantiateMVars (← g.getType)
  match t.eq? with
  | some (ty, a, _) =>
    let u ← getLevel ty
    g.assign (mkApp2 (mkConst ``Eq.refl [u]) ty a)
    return []
  | none => throwError "not an equation"

namespace F32
variable [Libm]

/-- The literal `n / d`, rounded. -/
def num (n : Int) (d : Nat := 1) : F32 := lit n d

/-- The same bits (as far as they can be observed: there is one NaN). -/
def same : F32 → F32 → Bool
  | .nan, .nan => true
  | .inf a, .inf b => a == b
  | .fin x a _, .fin y b _ => x == y && a == b
  | _, _ => false

theorem same_iff {a b : F32} : same a b = true ↔ a = b := by
  rcases a with _ | a | ⟨x, a, h⟩ <;> rcases b with _ | b | ⟨y, b, h'⟩ <;> simp [same]

/-- The value of a number is `q`. -/
def valued (a : F32) (q : ℚ) : Bool := match a with | .fin x _ _ => x == q | _ => false

theorem valued_iff {a : F32} {q : ℚ} : valued a q = true ↔ Val a q := by
  rcases a with _ | a | ⟨x, a, h⟩
  · simp [valued, Val]
  · simp [valued, Val]
  · simp only [valued, beq_iff_eq, Val]
    constructor
    · rintro rfl; exact ⟨a, h, rfl⟩
    · rintro ⟨z, h', e⟩; cases e; rfl

def vec (x y z : Int) : Vec3 F32 := ⟨num x, num y, num z⟩

/-- An entity to add, without rotation. -/
def thing (m : F32) (p v : Vec3 F32) : Entity F32 := { Entity.new with ownMass := m, position := p, velocity := v }

/-- A ball to add, with the given restitution. -/
def ball (c : Vec3 F32) (r m e : F32) : Collider F32 := .sphere ⟨none, c, r, m, ⟨e, num 0, num 0, num 0⟩⟩

end F32

/-- Whether a run ends well, with something true of the result. -/
def Res.test {σ : Type} (r : Res σ) (f : σ → Bool) : Bool := match r with | .ok s => f s | .error _ => false

theorem Res.of_test {σ : Type} {r : Res σ} {f : σ → Bool} (h : r.test f = true) : ∃ s, r = .ok s ∧ f s = true := by
  cases r with
  | ok s => exact ⟨s, rfl, h⟩
  | error p => cases h

namespace Props
variable {α : Type} [Scalar α] {γ : Type} [ForceGenerator α γ]

theorem play_steps : ∀ {l : List (IterOrder × Op α γ)} {s s' : System α γ} {outs : List (Out γ)} {tr : List (Op α γ × Out γ)} {s0 : System α γ},
    Steps s0 tr s → play l s = .ok (s', outs) → ∃ tr', Steps s0 tr' s'
  | [], s, s', outs, tr, s0, ht, h => by
    simp only [play] at h; cases h; exact ⟨tr, ht⟩
  | (o, op) :: l, s, s', outs, tr, s0, ht, h => by
    unfold play at h
    obtain ⟨⟨m, out⟩, h1, h⟩ := Res.bind_eq_ok.mp h
    obtain ⟨⟨q, outs'⟩, h2, h⟩ := Res.bind_eq_ok.mp h
    cases h
    exact play_steps (.snoc o op out ht h1) h2

/-- What calls lead to can be reached. -/
theorem play_reachable {l : List (IterOrder × Op α γ)} {s : System α γ} {outs : List (Out γ)} (h : play l System.new = .ok (s, outs)) : Reachable s :=
  play_steps .nil h

/-- The calls, with the hash sets in the order of insertion. -/
def plain (l : List (Op α γ)) : List (IterOrder × Op α γ) := l.map (fun op => (.id, op))

end Props
end Fluffy
