import Verif.Proofs.Paired
import Verif.Props.Witness
/- Who is remembered as a neighbour. -/
set_option linter.unusedSectionVars false
set_option linter.unusedSimpArgs false
namespace Fluffy.Props
variable {α : Type} [Scalar α] {γ : Type} [ForceGenerator α γ]

/-- **C27, what does hold**: in every reachable state a neighbour remembered by an awake entity has been removed, or is
asleep and remembers the entity in turn.  Missing from C27: the set need not be empty, see `C27_false`. -/
theorem C27_partial {s : System α γ} (hr : Reachable s) {k n : Handle} {e x : InternalEntity α}
    (he : s.entities.get k = some e) (ha : e.asleep = false) (hn : n ∈ e.neighbors) (hx : s.entities.get n = some x) :
    x.asleep = true ∧ k ∈ x.neighbors :=
  (reachable_paired hr).pair k e n x he ha hn hx

/-- The reason the documentation gives for C27 is therefore respected: collision detection skips a pair of entities when
one is a remembered neighbour of the other, and in every reachable state two awake entities are not. -/
theorem C27_partial_awake_pairs {s : System α γ} (hr : Reachable s) {k n : Handle} {e x : InternalEntity α}
    (he : s.entities.get k = some e) (hx : s.entities.get n = some x) (ha : e.asleep = false) (hb : x.asleep = false) :
    n ∉ e.neighbors ∧ k ∉ x.neighbors := by
  constructor
  · intro h
    have := (C27_partial hr he ha h hx).1
    rw [hb] at this; cases this
  · intro h
    have := (C27_partial hr hx hb h he).1
    rw [ha] at this; cases this

open XReal Demo Step Scene in
/-- A reachable state with an awake entity whose remembered neighbour is live. -/
example : ∃ (s : System XReal (GravityGenerator XReal)) (k n : Handle) (e x : InternalEntity XReal), Reachable s ∧
    s.entities.get k = some e ∧ e.asleep = false ∧ n ∈ e.neighbors ∧ s.entities.get n = some x := by
  obtain ⟨s', hs, he, -, -⟩ := half_rest (γ := GravityGenerator XReal) .id (k := 3) (by norm_num) (u := ⟨1 / 2, 0, 0⟩)
    (by ext <;> norm_num) (E := 1 / 4) (by norm_num [Vec3.dot_def]) (by norm_num [Vec3.dot_def]) 3
  obtain ⟨tr, ht⟩ := start_reachable (γ := GravityGenerator XReal) (m := 1) (k := 3) (by norm_num) (by norm_num) .o
    ⟨2, 0, 0⟩ ⟨3, 0, 0⟩ .o 0 1 (3 + 2) (fin (1 / 4)) (fin 0)
  refine ⟨s', h1, h0, _, _, ⟨_, .snoc .id (.step (fin 1)) .unit ht ?_⟩, by rw [he]; exact two_get1 _ _, rfl, by simp [dot],
    by rw [he]; exact two_get0 _ _⟩
  simp only [System.exec, hs, Res.ok_bind]

end Fluffy.Props
