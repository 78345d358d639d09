import Verif.Props.Demo
import Verif.Proofs.ExecTotal
/- C29: panics. -/
set_option linter.unusedSectionVars false
set_option linter.unusedSimpArgs false
namespace Fluffy.Props
open InternalEntity Step System
variable {α : Type} [Scalar α] {γ : Type} [ForceGenerator α γ]

/-- Run a whole program: a list of calls, each with the hash-set iteration order it happens to see. -/
def runAll (s : System α γ) : List (IterOrder × Op α γ) → Res (System α γ)
  | [] => .ok s
  | (ord, op) :: rest => do
    let r ← s.exec ord op
    runAll r.1 rest

/-- Every call of the program is `Allowed` in the state in which it is made. -/
def AllAllowed (Q : Collider α → Prop) (s : System α γ) : List (IterOrder × Op α γ) → Prop
  | [] => True
  | (ord, op) :: rest => Allowed Q s op ∧ ∀ s' out, s.exec ord op = .ok (s', out) → AllAllowed Q s' rest

theorem runAll_total [SafeGenerator α γ] {Q : Collider α → Prop} (kq : Kept Q) :
    ∀ (l : List (IterOrder × Op α γ)) {s : System α γ}, Tidy Q s → AllAllowed Q s l →
    ∃ s', runAll s l = .ok s' ∧ Tidy Q s'
  | [], s, ht, _ => ⟨s, rfl, ht⟩
  | (ord, op) :: l, s, ht, ha => by
    obtain ⟨s', out, h1, h2⟩ := exec_total kq ord op ht ha.1
    obtain ⟨s'', h3, h4⟩ := runAll_total kq l h2 (ha.2 s' out h1)
    refine ⟨s'', ?_, h4⟩
    unfold runAll
    rw [h1]; exact h3

/-- **C29**, what holds.  A program does not panic if it never removes a linked collider nor an entity on which
a sleeping entity rests, gives only well-formed meshes (`add_face` makes no others, `C50`), never lets two entities have
meshes at the same time when stepping, and uses force generators that do not panic themselves.
Missing from the full statement: each of the first two conditions is needed (`C12_linked_collider_panics`,
`C29_false`); mesh against mesh can reach the `panic!` in `get_polygon_normal` (`C29_mesh_false`, and exactly when: `C29_exact`). -/
theorem C29_no_panic_partial [SafeGenerator α γ] (l : List (IterOrder × Op α γ))
    (h : AllAllowed Collider.Good (System.new : System α γ) l) : ∃ s, runAll System.new l = .ok s := by
  obtain ⟨s, hs, -⟩ := runAll_total kept_good l (tidy_new _) h
  exact ⟨s, hs⟩

/-- A call that removes nothing and stores no mesh. -/
def Plain : Op α γ → Prop
  | .removeEntity _ => False
  | .removeCollider _ => False
  | .addCollider c => ¬ c.IsMesh
  | .updateCollider _ c => ¬ c.IsMesh
  | _ => True

/-- **C29**, the static form: no program that removes nothing and uses no meshes panics, whatever numbers (NaN and
infinities included), handles and configuration it passes. -/
theorem C29_plain_partial [SafeGenerator α γ] (l : List (IterOrder × Op α γ)) (h : ∀ c ∈ l, Plain c.2) :
    ∃ s, runAll (System.new : System α γ) l = .ok s := by
  suffices ∀ (l : List (IterOrder × Op α γ)) (s : System α γ), (∀ c ∈ l, Plain c.2) →
      Tidy (fun c => ¬ c.IsMesh) s → ∃ s', runAll s l = .ok s' from this l _ h (tidy_new _)
  intro l
  induction l with
  | nil => exact fun s _ _ => ⟨s, rfl⟩
  | cons c l ih =>
    intro s hl ht
    obtain ⟨ord, op⟩ := c
    have hp := hl (ord, op) (by simp)
    have ha : Allowed (fun c => ¬ c.IsMesh) s op := by
      cases op <;> simp only [Plain] at hp <;> first | exact hp.elim | exact hp | skip
      · intro k1 k2 c1 c2 e1 e2 h1 _ _ _ _ hm
        exact ht.good _ _ h1 hm.1
    obtain ⟨s', out, h1, h2⟩ := exec_total kept_noMesh ord op ht ha
    obtain ⟨s'', h3⟩ := ih s' (fun c hc => hl c (by simp [hc])) h2
    refine ⟨s'', ?_⟩
    unfold runAll
    rw [h1]; exact h3

/-- The hypotheses are met by programs that use every kind of call they allow. -/
example : ∀ c ∈ ([(.id, .addEntity Demo.ball), (.id, .addCollider (.sphere { SphereCollider.new one with mass := one })),
    (.id, .linkCollider Demo.h0 (some Demo.h0)), (.id, .addGenerator ⟨⟨zero, -one, zero⟩⟩),
    (.id, .addEntity Demo.ball), (.id, .updateEntity Demo.h1 Demo.ball), (.id, .step one), (.id, .step Scalar.nan)] :
      List (IterOrder × Op XReal (GravityGenerator XReal))), Plain c.2 := by
  simp [Plain, Collider.IsMesh]

end Fluffy.Props
