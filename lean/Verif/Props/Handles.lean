import Verif.Props.Demo
/- C01, C02, C58: handles. -/
set_option linter.unusedSectionVars false
namespace Fluffy.Props
open Fluffy
variable {α : Type} [Scalar α] {γ : Type} [ForceGenerator α γ]

/-! ### Specification: the handles handed out during a history -/

/-- The handles returned by successful `add_entity` calls of a history (latest first). -/
def issuedEntities (tr : List (Op α γ × Out γ)) : List Handle :=
  tr.filterMap fun x => match x.2 with | .entity h => h | _ => none
/-- The handles returned by successful `add_collider` calls. -/
def issuedColliders (tr : List (Op α γ × Out γ)) : List Handle :=
  tr.filterMap fun x => match x.2 with | .collider h => h | _ => none
/-- The handles returned by `add_unary_force_generator` calls. -/
def issuedGenerators (tr : List (Op α γ × Out γ)) : List Handle :=
  tr.filterMap fun x => match x.2 with | .generator h => some h | _ => none

/-- Issued handles are pairwise different, and each is still live or of an old generation. -/
private def Ledger {τ : Type} (l : List Handle) (a : Arena τ) : Prop :=
  l.Nodup ∧ ∀ h ∈ l, a.get h ≠ none ∨ h.generation < a.generation

private theorem Ledger.keep {τ : Type} {l : List Handle} {a b : Arena τ} (h : Ledger l a) (g : Arena.Grows a b) :
    Ledger l b := by
  refine ⟨h.1, fun k hk => ?_⟩
  by_cases hb : b.get k = none
  · right
    by_cases ha : a.get k = none
    · rcases h.2 k hk with h' | h'
      · exact absurd ha h'
      · exact Nat.lt_of_lt_of_le h' g.gen
    · exact g.died k ha hb
  · exact Or.inl hb

private theorem Ledger.add {τ : Type} {l : List Handle} {a b : Arena τ} {k : Handle} (h : Ledger l a)
    (g : Arena.Grows a b) (h1 : a.get k = none) (h2 : k.generation = a.generation) (h3 : b.get k ≠ none) :
    Ledger (k :: l) b := by
  refine ⟨List.nodup_cons.mpr ⟨fun hk => ?_, h.1⟩, ?_⟩
  · rcases h.2 k hk with h' | h'
    · exact h' h1
    · omega
  · intro x hx
    rcases List.mem_cons.mp hx with rfl | hx
    · exact Or.inl h3
    · exact (h.keep g).2 x hx

private theorem ledgers {s : System α γ} {tr : List (Op α γ × Out γ)} (h : Steps System.new tr s) :
    Ledger (issuedEntities tr) s.entities ∧ Ledger (issuedColliders tr) s.colliders ∧
    Ledger (issuedGenerators tr) s.generators := by
  induction h with
  | nil => exact ⟨⟨.nil, by simp [issuedEntities]⟩, ⟨.nil, by simp [issuedColliders]⟩, ⟨.nil, by simp [issuedGenerators]⟩⟩
  | snoc ord op out hs hx ih =>
    have inv := System.steps_inv System.inv_new hs
    obtain ⟨g1, g2, g3⟩ := System.exec_grows inv hx
    obtain ⟨i1, i2, i3⟩ := System.exec_issues inv hx
    obtain ⟨l1, l2, l3⟩ := ih
    simp only [issuedEntities, issuedColliders, issuedGenerators, List.filterMap_cons] at l1 l2 l3 ⊢
    cases out with
    | entity h =>
      cases h with
      | none => exact ⟨l1.keep g1, l2.keep g2, l3.keep g3⟩
      | some h =>
        obtain ⟨a, b, c⟩ := i1 h rfl
        exact ⟨l1.add g1 a b c, l2.keep g2, l3.keep g3⟩
    | collider h =>
      cases h with
      | none => exact ⟨l1.keep g1, l2.keep g2, l3.keep g3⟩
      | some h =>
        obtain ⟨a, b, c⟩ := i2 h rfl
        exact ⟨l1.keep g1, l2.add g2 a b c, l3.keep g3⟩
    | generator h =>
      obtain ⟨a, b, c⟩ := i3 h rfl
      exact ⟨l1.keep g1, l2.keep g2, l3.add g3 a b c⟩
    | removed g => exact ⟨l1.keep g1, l2.keep g2, l3.keep g3⟩
    | ok b => exact ⟨l1.keep g1, l2.keep g2, l3.keep g3⟩
    | unit => exact ⟨l1.keep g1, l2.keep g2, l3.keep g3⟩

/-- **C01.** Over the whole life of a system, no two additions of one kind return the same handle. -/
theorem C01_handles_never_reused {s : System α γ} {tr : List (Op α γ × Out γ)} (h : Steps System.new tr s) :
    (issuedEntities tr).Nodup ∧ (issuedColliders tr).Nodup ∧ (issuedGenerators tr).Nodup :=
  ⟨(ledgers h).1.1, (ledgers h).2.1.1, (ledgers h).2.2.1⟩

/-- The hypothesis of C01 is met by a history that issues three handles. -/
example : ∃ tr, Steps (System.new : Demo.Sys) tr Demo.s3 ∧ issuedEntities tr = [Demo.h1, Demo.h0] ∧
    issuedColliders tr = [Demo.h0] := ⟨_, Demo.steps3, rfl, rfl⟩

/-! ### C02 -/

private theorem dead_later {τ : Type} {a b c : Arena τ} {h : Handle} (g1 : Arena.Grows a b) (g2 : Arena.Grows b c)
    (ha : a.get h ≠ none) (hb : b.get h = none) : c.get h = none :=
  (g2.dead hb (g1.died h ha hb)).1

/-- What it means that an entity handle does not resolve in a state. -/
structure DeadEntity (s : System α γ) (h : Handle) : Prop where
  get : s.getEntity h = none
  update : ∀ ord e, s.updateEntity ord h e = .ok (s, false)
  remove : ∀ ord, s.removeEntity ord h = .ok (s, false)
  link : ∀ ord c, s.linkCollider ord c (some h) = .ok (s, false)

/-- What it means that a collider handle does not resolve in a state. -/
structure DeadCollider (s : System α γ) (h : Handle) : Prop where
  get : s.getCollider h = none
  update : ∀ ord c, s.updateCollider ord h c = .ok (s, false)
  remove : s.removeCollider h = .ok s
  link : ∀ ord e, s.linkCollider ord h e = .ok (s, false)

/-- What it means that a generator handle does not resolve in a state. -/
structure DeadGenerator (s : System α γ) (h : Handle) : Prop where
  get : s.generators.get h = none
  remove : s.removeGenerator h = (s, none)

theorem deadEntity_of_get {s : System α γ} {h : Handle} (hg : s.entities.get h = none) : DeadEntity s h := by
  refine ⟨by simp [World.getEntity, hg], ?_, fun ord => System.removeEntity_none hg, ?_⟩
  · intro ord e; simp [System.updateEntity, hg]
  · intro ord c; simp [System.linkCollider, hg]

theorem deadCollider_of_get {s : System α γ} {h : Handle} (hg : s.colliders.get h = none) : DeadCollider s h := by
  refine ⟨by simp [World.getCollider, hg], ?_, ?_, ?_⟩
  · intro ord c; simp [System.updateCollider, hg]
  · simp [System.removeCollider, hg]
  · intro ord e; simp [System.linkCollider, Arena.contains, hg]

theorem deadGenerator_of_get {s : System α γ} {h : Handle} (hg : s.generators.get h = none) : DeadGenerator s h := by
  refine ⟨hg, ?_⟩
  simp [System.removeGenerator, Arena.remove_of_none hg, hg]

/-- **C02.** If an object is live in one state and gone in a later one, its handle resolves in no state after
that.  (`remove_entity` is one way of getting gone, also for the entity's colliders; see C11 and C12.) -/
theorem C02_removed_stays_dead {s0 s1 s2 : System α γ} {tr1 tr2 : List (Op α γ × Out γ)} (hr : Reachable s0)
    (h1 : Steps s0 tr1 s1) (h2 : Steps s1 tr2 s2) :
    (∀ h, s0.getEntity h ≠ none → s1.getEntity h = none → DeadEntity s2 h) ∧
    (∀ h, s0.getCollider h ≠ none → s1.getCollider h = none → DeadCollider s2 h) ∧
    (∀ h, s0.generators.get h ≠ none → s1.generators.get h = none → DeadGenerator s2 h) := by
  have g1 := System.steps_grows hr.inv h1
  have g2 := System.steps_grows (System.steps_inv hr.inv h1) h2
  refine ⟨fun h a b => ?_, fun h a b => ?_, fun h a b => ?_⟩
  · exact deadEntity_of_get (dead_later g1.1 g2.1 (by simpa [World.getEntity] using a) (by simpa [World.getEntity] using b))
  · exact deadCollider_of_get (dead_later g1.2.1 g2.2.1 (by simpa [World.getCollider] using a)
      (by simpa [World.getCollider] using b))
  · exact deadGenerator_of_get (dead_later g1.2.2 g2.2.2 a b)

/-- **C02**, in terms of the removing calls: after `remove_entity(h)` returned true (or `remove_collider(h)` returned,
or `remove_unary_force_generator(h)` gave the generator back) the handle is dead in every later state. -/
theorem C02_after_removal {s0 s1 s2 : System α γ} {tr : List (Op α γ × Out γ)} {ord : IterOrder} {h : Handle}
    (hr : Reachable s0) (h2 : Steps s1 tr s2) :
    (s0.exec ord (.removeEntity h) = .ok (s1, .ok true) → DeadEntity s2 h) ∧
    (s0.getCollider h ≠ none → s0.exec ord (.removeCollider h) = .ok (s1, .unit) → DeadCollider s2 h) ∧
    (∀ g, s0.exec ord (.removeGenerator h) = .ok (s1, .removed (some g)) → DeadGenerator s2 h) := by
  refine ⟨fun hx => ?_, fun hl hx => ?_, fun g hx => ?_⟩
  · refine (C02_removed_stays_dead hr (.snoc ord _ _ .nil hx) h2).1 h ?_ ?_
    · simp only [System.exec] at hx
      obtain ⟨⟨m, b⟩, hm, hx⟩ := Res.bind_eq_ok.mp hx
      cases hx
      intro hg
      rw [System.removeEntity_none (by simpa [World.getEntity] using hg)] at hm
      cases hm
    · simp only [System.exec] at hx
      obtain ⟨⟨m, b⟩, hm, hx⟩ := Res.bind_eq_ok.mp hx
      cases hx
      cases hE : s0.entities.get h with
      | none => rw [System.removeEntity_none hE] at hm; cases hm
      | some E =>
        rw [System.removeEntity_some hr.inv hE] at hm
        cases hm
        simp [World.getEntity, Arena.get_remove]
  · refine (C02_removed_stays_dead hr (.snoc ord _ _ .nil hx) h2).2.1 h hl ?_
    simp only [System.exec] at hx
    obtain ⟨m, hm, hx⟩ := Res.bind_eq_ok.mp hx
    cases hx
    have := System.removeCollider_ok hm
    subst this
    simp [World.getCollider, Arena.get_remove]
  · refine (C02_removed_stays_dead hr (.snoc ord _ _ .nil hx) h2).2.2 h ?_ ?_
    · simp only [System.exec, System.removeGenerator, Arena.remove_snd, Except.ok.injEq, Prod.mk.injEq,
        Out.removed.injEq] at hx
      rw [hx.2]; simp
    · simp only [System.exec, System.removeGenerator, Arena.remove_snd, Except.ok.injEq, Prod.mk.injEq] at hx
      rw [← hx.1]
      simp [Arena.get_remove]

/-- The hypotheses of C02 are met: removing the first entity of the demo history. -/
example : ∃ s1, Reachable Demo.s3 ∧ Demo.s3.exec .id (.removeEntity Demo.h0) = .ok (s1, .ok true) ∧
    Steps s1 [] s1 := by
  have hE : Demo.s3.entities.get Demo.h0 = some Demo.ballE := by rw [Demo.s3_entities]; rfl
  have := System.removeEntity_some (ord := .id) Demo.reachable3.inv hE
  exact ⟨_, Demo.reachable3, by simp only [System.exec, this]; rfl, .nil⟩

/-! ### C58 -/

/-- **C58**, first half: adding always succeeds with a fresh handle, removal gives back what is stored, exactly once,
and other generators are not affected by either. -/
theorem C58_generators {s : System α γ} (hr : Reachable s) (g : γ) (h : Handle) :
    (∃ s' k, (∀ ord, s.exec ord (.addGenerator g) = .ok (s', .generator k)) ∧ s.generators.get k = none ∧
      s'.generators.get k = some g ∧ (∀ j, j ≠ k → s'.generators.get j = s.generators.get j) ∧
      s'.toWorld = s.toWorld) ∧
    (∃ s', (∀ ord, s.exec ord (.removeGenerator h) = .ok (s', .removed (s.generators.get h))) ∧
      s'.generators.get h = none ∧ (∀ j, j ≠ h → s'.generators.get j = s.generators.get j) ∧
      s'.toWorld = s.toWorld ∧ ∀ ord, s'.exec ord (.removeGenerator h) = .ok (s', .removed none)) := by
  constructor
  · obtain ⟨-, -, -, h3, h4⟩ := Arena.insert_spec hr.inv.wfG g
    have h5 : ∀ j, j ≠ (s.addGenerator g).2 → (s.addGenerator g).1.generators.get j = s.generators.get j := by
      intro j hj
      simp only [System.addGenerator] at hj ⊢
      rw [h4, if_neg hj]
    exact ⟨_, _, fun _ => rfl, h3, by simp [System.addGenerator, h4], h5, rfl⟩
  · refine ⟨(s.removeGenerator h).1, fun _ => ?_, ?_, fun j hj => ?_, rfl, fun _ => ?_⟩
    · simp [System.exec, System.removeGenerator]
    · simp [System.removeGenerator, Arena.get_remove]
    · simp [System.removeGenerator, Arena.get_remove, hj]
    · have : (s.generators.remove h).1.get h = none := by simp [Arena.get_remove]
      simp [System.exec, System.removeGenerator, Arena.remove_of_none this, this]

/-- **C58**, second half: a removed generator no longer affects anything.  Whatever generator `g'` had been stored
under the handle instead, the state after its removal is the same, so every later call behaves the same. -/
theorem C58_removed_generator_is_forgotten (s : System α γ) (h : Handle) (g' : γ) :
    (System.removeGenerator { s with generators := s.generators.set h g' } h).1 = (s.removeGenerator h).1 := by
  have : ((s.generators.set h g').remove h).1 = (s.generators.remove h).1 := by
    cases hg : s.generators.get h with
    | none => rw [Arena.set_of_none hg]
    | some g =>
      rw [Arena.remove_of_some hg, Arena.remove_of_some (Arena.get_set_self hg g'), Arena.set_of_some hg]
      simp [List.set_set]
  simp only [System.removeGenerator, this]

/-- In the demo state a generator can be added, so the premises of C58 are met by a live generator handle. -/
example : ∃ k, Reachable Demo.s3 ∧ (Demo.s3.addGenerator ⟨Vec3.zeros⟩).1.generators.get k ≠ none :=
  ⟨Demo.h0, Demo.reachable3, by
    have : Demo.s3.generators = Arena.new := by
      simp only [Demo.s3, Demo.s2, Demo.s1, System.addEntity, System.addCollider, Demo.ball_newFrom,
        Demo.weight_newFrom]; rfl
    simp only [System.addGenerator, this]
    simp [Arena.new, Arena.insert, Arena.tryInsert, Arena.get, Demo.h0, List.range, List.range.loop]⟩

end Fluffy.Props
