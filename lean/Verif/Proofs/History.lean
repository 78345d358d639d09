import Verif.Proofs.System
/- How the arenas grow and shrink over a history of calls. -/
set_option linter.unusedSectionVars false
set_option linter.unusedSimpArgs false
namespace Fluffy
open InternalEntity Step
variable {α : Type} [Scalar α] {γ : Type}

namespace Arena
variable {τ : Type}

/-- `b` is a later state of the arena `a`. -/
structure Grows (a b : Arena τ) : Prop where
  gen : a.generation ≤ b.generation
  born : ∀ h, a.get h = none → b.get h ≠ none → a.generation ≤ h.generation
  died : ∀ h, a.get h ≠ none → b.get h = none → h.generation < b.generation

theorem Grows.refl (a : Arena τ) : Grows a a := ⟨Nat.le_refl _, fun _ h h' => absurd h h', fun _ h h' => absurd h' h⟩

theorem Grows.trans {a b c : Arena τ} (h : Grows a b) (h' : Grows b c) : Grows a c := by
  refine ⟨Nat.le_trans h.gen h'.gen, ?_, ?_⟩
  · intro k ha hc
    by_cases hb : b.get k = none
    · exact Nat.le_trans h.gen (h'.born k hb hc)
    · exact h.born k ha hb
  · intro k ha hc
    by_cases hb : b.get k = none
    · exact Nat.lt_of_lt_of_le (h.died k ha hb) h'.gen
    · exact h'.died k hb hc

theorem SameShape.grows {a b : Arena τ} (h : SameShape b a) : Grows a b := by
  have hiff : ∀ k, b.get k = none ↔ a.get k = none := by
    intro k
    have := h.isSome k
    cases ha : a.get k <;> cases hb : b.get k <;> rw [ha, hb] at this <;> simp_all
  refine ⟨Nat.le_of_eq h.generation.symm, ?_, ?_⟩
  · intro k ha hb; exact absurd ((hiff k).mpr ha) hb
  · intro k ha hb; exact absurd ((hiff k).mp hb) ha

theorem grows_insert {a : Arena τ} (wf : a.WF) (v : τ) : Grows a (a.insert v).1 := by
  obtain ⟨-, h1, h2, h3, h4⟩ := insert_spec wf v
  refine ⟨Nat.le_of_eq h2.symm, ?_, ?_⟩
  · intro k ha hb
    rw [h4] at hb
    split at hb
    · rename_i hk; subst hk; exact Nat.le_of_eq h1.symm
    · exact absurd ha hb
  · intro k ha hb
    rw [h4] at hb
    split at hb
    · cases hb
    · exact absurd hb ha

theorem WF.gen_le' {a : Arena τ} (wf : a.WF) {h : Handle} (hh : a.get h ≠ none) : h.generation ≤ a.generation := by
  cases hg : a.get h with
  | none => exact absurd hg hh
  | some v => exact wf.gen_le _ _ v (get_eq_some.mp hg)

theorem grows_remove {a : Arena τ} (wf : a.WF) (h : Handle) : Grows a (a.remove h).1 := by
  by_cases hg : a.get h = none
  · rw [remove_of_none hg]; exact .refl a
  · have hgen := remove_generation hg
    refine ⟨by omega, ?_, ?_⟩
    · intro k ha hb
      rw [get_remove] at hb
      split at hb
      · exact absurd rfl hb
      · exact absurd ha hb
    · intro k ha hb
      rw [hgen]
      have := wf.gen_le' ha
      omega

/-- A dead handle of an old generation stays dead. -/
theorem Grows.dead {a b : Arena τ} (h : Grows a b) {k : Handle} (hk : a.get k = none) (hg : k.generation < a.generation) :
    b.get k = none ∧ k.generation < b.generation := by
  refine ⟨?_, Nat.lt_of_lt_of_le hg h.gen⟩
  refine Classical.byContradiction fun hb => ?_
  have := h.born k hk hb
  omega
end Arena

namespace System
open Arena (Grows)

theorem grows_removeAll {τ : Type} : ∀ (l : List Handle) {a : Arena τ}, a.WF → Grows a (removeAll a l)
  | [], a, _ => .refl a
  | h :: l, a, wf => (Arena.grows_remove wf h).trans (grows_removeAll l (Arena.wf_remove wf h))

theorem refreshEntity_shape {ord : IterOrder} {s s' : System α γ} {eh : Option Handle}
    (hh : refreshEntity ord s eh = .ok s') :
    Arena.SameShape s'.entities s.entities ∧ s'.colliders = s.colliders ∧ s'.generators = s.generators := by
  rcases refreshEntity_spec hh with ⟨rfl, -⟩ | ⟨h, E, E', -, hE, hr, rfl⟩
  · exact ⟨.refl _, rfl, rfl⟩
  · exact ⟨Arena.sameShape_set _ _ _, rfl, rfl⟩

theorem updateEntity_shape {ord : IterOrder} {s s' : System α γ} {h : Handle} {src : Entity α} {b : Bool}
    (hh : s.updateEntity ord h src = .ok (s', b)) :
    Arena.SameShape s'.entities s.entities ∧ s'.colliders = s.colliders ∧ s'.generators = s.generators := by
  rcases updateEntity_spec hh with ⟨-, rfl, -⟩ | ⟨-, E, E1, E2, w, hE, hu, hr, hw⟩
  · exact ⟨.refl _, rfl, rfl⟩
  · rcases hw with ⟨-, rfl⟩ | ⟨-, a, d, hwk, rfl⟩
    · exact ⟨Arena.sameShape_set _ _ _, rfl, rfl⟩
    · exact ⟨(wakeUp_spec hwk).1.shape.trans (Arena.sameShape_set _ _ _), rfl, rfl⟩

variable [ForceGenerator α γ]

/-- No call revives a handle or forgets that one has died. -/
theorem exec_grows {ord : IterOrder} {s s' : System α γ} {op : Op α γ} {out : Out γ} (inv : Inv s)
    (hh : s.exec ord op = .ok (s', out)) :
    Grows s.entities s'.entities ∧ Grows s.colliders s'.colliders ∧ Grows s.generators s'.generators := by
  cases op with
  | addEntity e =>
    simp only [exec] at hh; cases hh
    cases h : InternalEntity.newFrom e with
    | none => rw [addEntity_none h]; exact ⟨.refl _, .refl _, .refl _⟩
    | some x => rw [addEntity_some h]; exact ⟨Arena.grows_insert inv.wfE x, .refl _, .refl _⟩
  | removeEntity h =>
    simp only [exec] at hh
    obtain ⟨⟨m, b⟩, hr, hh⟩ := Res.bind_eq_ok.mp hh
    cases hh
    cases hE : s.entities.get h with
    | none => rw [removeEntity_none hE] at hr; cases hr; exact ⟨.refl _, .refl _, .refl _⟩
    | some E =>
      rw [removeEntity_some inv hE] at hr
      cases hr
      exact ⟨Arena.grows_remove inv.wfE h, grows_removeAll _ inv.wfC, .refl _⟩
  | updateEntity h e =>
    simp only [exec] at hh
    obtain ⟨⟨m, b⟩, hr, hh⟩ := Res.bind_eq_ok.mp hh
    cases hh
    obtain ⟨h1, h2, h3⟩ := updateEntity_shape hr
    simp only [h2, h3]
    exact ⟨h1.grows, .refl _, .refl _⟩
  | addCollider c =>
    simp only [exec] at hh; cases hh
    cases h : c.newFrom with
    | none => rw [addCollider_none h]; exact ⟨.refl _, .refl _, .refl _⟩
    | some x => rw [addCollider_some h]; exact ⟨.refl _, Arena.grows_insert inv.wfC x, .refl _⟩
  | removeCollider h =>
    simp only [exec] at hh
    obtain ⟨m, hr, hh⟩ := Res.bind_eq_ok.mp hh
    cases hh
    have := removeCollider_ok hr
    subst this
    exact ⟨.refl _, Arena.grows_remove inv.wfC h, .refl _⟩
  | updateCollider h c =>
    simp only [exec] at hh
    obtain ⟨⟨m, b⟩, hr, hh⟩ := Res.bind_eq_ok.mp hh
    cases hh
    rcases updateCollider_spec hr with ⟨-, rfl, -⟩ | ⟨-, C, hC, hu, hr⟩ | ⟨-, C, C', hC, hu, hr⟩
    · exact ⟨.refl _, .refl _, .refl _⟩
    · obtain ⟨h1, h2, h3⟩ := refreshEntity_shape hr
      simp only [h2, h3]
      exact ⟨h1.grows, .refl _, .refl _⟩
    · obtain ⟨h1, h2, h3⟩ := refreshEntity_shape hr
      simp only [h2, h3]
      exact ⟨h1.grows, (Arena.sameShape_set _ _ _).grows, .refl _⟩
  | linkCollider c e =>
    simp only [exec] at hh
    obtain ⟨⟨m, b⟩, hr, hh⟩ := Res.bind_eq_ok.mp hh
    cases hh
    rcases linkCollider_spec inv hr with ⟨-, rfl, -⟩ | ⟨-, C, hC, -, hs', hshape, -⟩
    · exact ⟨.refl _, .refl _, .refl _⟩
    · have h1 : m.colliders = s.colliders.set c (C.setEntity e) := by rw [hs']
      have h2 : m.generators = s.generators := by rw [hs']
      simp only [h1, h2]
      exact ⟨hshape.grows, (Arena.sameShape_set _ _ _).grows, .refl _⟩
  | addGenerator g =>
    simp only [exec] at hh; cases hh
    exact ⟨.refl _, .refl _, Arena.grows_insert inv.wfG g⟩
  | removeGenerator h =>
    simp only [exec] at hh; cases hh
    exact ⟨.refl _, .refl _, Arena.grows_remove inv.wfG h⟩
  | step dt =>
    simp only [exec] at hh
    obtain ⟨m, hr, hh⟩ := Res.bind_eq_ok.mp hh
    cases hh
    obtain ⟨f, g⟩ := step_frame hr
    rw [f.colliders]
    exact ⟨f.entities.shape.grows, .refl _, g.grows⟩
  | configure n e t rs d =>
    simp only [exec] at hh; cases hh
    exact ⟨.refl _, .refl _, .refl _⟩

theorem steps_grows {s s' : System α γ} {tr : List (Op α γ × Out γ)} (inv : Inv s) (h : Steps s tr s') :
    Grows s.entities s'.entities ∧ Grows s.colliders s'.colliders ∧ Grows s.generators s'.generators := by
  induction h with
  | nil => exact ⟨.refl _, .refl _, .refl _⟩
  | snoc ord op out hs hx ih =>
    obtain ⟨a, b, c⟩ := exec_grows (steps_inv inv hs) hx
    exact ⟨ih.1.trans a, ih.2.1.trans b, ih.2.2.trans c⟩

/-- The handle a call issues was never live before, has the current generation, and is live now. -/
theorem exec_issues {ord : IterOrder} {s s' : System α γ} {op : Op α γ} {out : Out γ} (inv : Inv s)
    (hh : s.exec ord op = .ok (s', out)) :
    (∀ h, out = .entity (some h) → s.entities.get h = none ∧ h.generation = s.entities.generation ∧ s'.entities.get h ≠ none) ∧
    (∀ h, out = .collider (some h) → s.colliders.get h = none ∧ h.generation = s.colliders.generation ∧ s'.colliders.get h ≠ none) ∧
    (∀ h, out = .generator h → s.generators.get h = none ∧ h.generation = s.generators.generation ∧ s'.generators.get h ≠ none) := by
  cases op with
  | addEntity e =>
    simp only [exec] at hh; cases hh
    refine ⟨?_, by simp, by simp⟩
    intro k hk
    cases h : InternalEntity.newFrom e with
    | none => rw [addEntity_none h] at hk; cases hk
    | some x =>
      rw [addEntity_some h] at hk ⊢; cases hk
      obtain ⟨-, h1, h2, h3, h4⟩ := Arena.insert_spec inv.wfE x
      exact ⟨h3, h1, by simp only [h4]; simp⟩
  | addCollider e =>
    simp only [exec] at hh; cases hh
    refine ⟨by simp, ?_, by simp⟩
    intro k hk
    cases h : e.newFrom with
    | none => rw [addCollider_none h] at hk; cases hk
    | some x =>
      rw [addCollider_some h] at hk ⊢; cases hk
      obtain ⟨-, h1, h2, h3, h4⟩ := Arena.insert_spec inv.wfC x
      exact ⟨h3, h1, by simp only [h4]; simp⟩
  | addGenerator g =>
    simp only [exec] at hh; cases hh
    refine ⟨by simp, by simp, ?_⟩
    intro k hk
    simp only [addGenerator] at hk ⊢; cases hk
    obtain ⟨-, h1, h2, h3, h4⟩ := Arena.insert_spec inv.wfG g
    exact ⟨h3, h1, by simp only [h4]; simp⟩
  | _ =>
    have : (∀ h, out ≠ .entity (some h)) ∧ (∀ h, out ≠ .collider (some h)) ∧ (∀ h, out ≠ .generator h) := by
      simp only [exec] at hh
      first
        | (cases hh; simp)
        | (obtain ⟨r, hr, hh⟩ := Res.bind_eq_ok.mp hh; cases hh; simp)
    exact ⟨fun h hk => absurd hk (this.1 h), fun h hk => absurd hk (this.2.1 h), fun h hk => absurd hk (this.2.2 h)⟩

end System
end Fluffy
