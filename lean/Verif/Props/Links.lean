import Verif.Props.Store
/- C09-C12: links between entities and colliders.  C20, C54: what a step cannot change.  C26: waking. -/
set_option linter.unusedSectionVars false
set_option linter.unusedSimpArgs false
namespace Fluffy.Props
open Fluffy InternalEntity
variable {α : Type} [Scalar α] {γ : Type} [ForceGenerator α γ]

/-! ### Specification -/

/-- The link stored in a collider. -/
def linkOf : Collider α → Option Handle
  | .null c => c.entity | .sphere c => c.entity | .plane c => c.entity | .mesh c => c.entity | .box c => c.entity

/-- A collider with its link erased: all its own data. -/
def unlinked : Collider α → Collider α
  | .null c => .null { c with entity := none } | .sphere c => .sphere { c with entity := none }
  | .plane c => .plane { c with entity := none } | .mesh c => .mesh { c with entity := none }
  | .box c => .box { c with entity := none }

/-- `p'` differs from `p` at most in its set of colliders, position, origin offset, total mass and inertia. -/
structure OnlyLinksChange (p p' : Entity α) : Prop where
  rotation : p'.rotation = p.rotation
  lastRotation : p'.lastOrientation.rotation = p.lastOrientation.rotation
  velocity : p'.velocity = p.velocity
  angularVelocity : p'.angularVelocity = p.angularVelocity
  ownMass : p'.ownMass = p.ownMass
  asleep : p'.asleep = p.asleep

theorem linkOf_eq (c : Collider α) : linkOf c = c.entity := by cases c <;> rfl
theorem unlinked_setEntity (c : Collider α) (t : Option Handle) : unlinked (c.setEntity t) = unlinked c := by
  cases c <;> rfl

/-! ### C09 -/

/-- **C09.** The links agree in every reachable state, in both directions; hence a collider is listed by at most one
entity, each collider is listed at most once, and neither side refers to a removed object. -/
theorem C09_links_agree {s : System α γ} (hr : Reachable s) :
    (∀ e p c, s.getEntity e = some p → (c ∈ p.colliders ↔ ∃ d, s.getCollider c = some d ∧ linkOf d = some e)) ∧
    (∀ c d e, s.getCollider c = some d → linkOf d = some e → ∃ p, s.getEntity e = some p ∧ c ∈ p.colliders) ∧
    (∀ e e' p p' c, s.getEntity e = some p → s.getEntity e' = some p' → c ∈ p.colliders → c ∈ p'.colliders → e = e') ∧
    (∀ e p, s.getEntity e = some p → p.colliders.Nodup) := by
  have inv := hr.inv
  have h1 : ∀ e p c, s.getEntity e = some p → (c ∈ p.colliders ↔ ∃ d, s.getCollider c = some d ∧ linkOf d = some e) := by
    intro e p c hp
    obtain ⟨E, hE, rfl⟩ := getEntity_eq_some.mp hp
    simp only [getCollider_eq, linkOf_eq]
    exact inv.links e E c hE
  refine ⟨h1, ?_, ?_, ?_⟩
  · intro c d e hd he
    have hd' := hd
    rw [getCollider_eq] at hd
    rw [linkOf_eq] at he
    obtain ⟨E, hE⟩ := inv.linkLive c d e hd he
    have hp := getEntity_eq_some.mpr ⟨E, hE, rfl⟩
    exact ⟨_, hp, (h1 e _ c hp).mpr ⟨d, hd', by rw [linkOf_eq]; exact he⟩⟩
  · intro e e' p p' c hp hp' hc hc'
    obtain ⟨d, hd, he⟩ := (h1 e p c hp).mp hc
    obtain ⟨d', hd', he'⟩ := (h1 e' p' c hp').mp hc'
    rw [hd] at hd'; cases hd'
    rw [he] at he'; cases he'; rfl
  · intro e p hp
    obtain ⟨E, hE, rfl⟩ := getEntity_eq_some.mp hp
    exact (inv.nodup e E hE).1

/-! ### C10 -/

/-- **C10.** `link_collider` never panics in a reachable state and does exactly the requested re-link. -/
theorem C10_link_collider {s : System α γ} (hr : Reachable s) (ord : IterOrder) (c : Handle) (t : Option Handle) :
    ∃ s' b, s.linkCollider ord c t = .ok (s', b) ∧
    (b = true ↔ s.getCollider c ≠ none ∧ ∀ h, t = some h → s.getEntity h ≠ none) ∧
    (b = false → s' = s) ∧
    (b = true →
      (∃ d d', s.getCollider c = some d ∧ s'.getCollider c = some d' ∧ linkOf d' = t ∧ unlinked d' = unlinked d) ∧
      (∀ k, k ≠ c → s'.getCollider k = s.getCollider k) ∧
      (∀ k, s.getEntity k = none ↔ s'.getEntity k = none) ∧
      (∀ k p, s.getEntity k = some p → ∃ p', s'.getEntity k = some p' ∧ OnlyLinksChange p p' ∧
        (∀ x, x ∈ p'.colliders ↔ if x = c then t = some k else x ∈ p.colliders) ∧
        (t ≠ some k → c ∉ p.colliders → p' = p)) ∧
      s'.generators = s.generators) := by
  have inv := hr.inv
  obtain ⟨⟨s', b⟩, hl⟩ := System.linkCollider_total inv ord c t
  refine ⟨s', b, hl, ?_⟩
  simp only [getCollider_eq]
  rcases System.linkCollider_spec inv hl with ⟨rfl, rfl, hbad⟩ | ⟨rfl, C, hC, hlive, hs', hshape, hent⟩
  · refine ⟨?_, fun _ => rfl, by simp⟩
    simp only [Bool.false_eq_true, false_iff, not_and]
    intro hc hall
    rcases hbad with h0 | ⟨h, rfl, h0⟩
    · exact hc h0
    · exact hall h rfl (getEntity_eq_none.mpr h0)
  · have hcs : s'.colliders = s.colliders.set c (C.setEntity t) := by rw [hs']
    have hgs : s'.generators = s.generators := by rw [hs']
    refine ⟨?_, by simp, fun _ => ⟨?_, ?_, ?_, ?_, hgs⟩⟩
    · simp only [true_iff]
      refine ⟨by rw [hC]; simp, ?_⟩
      intro h ht h0
      obtain ⟨E, hE⟩ := hlive h ht
      rw [getEntity_eq_none, hE] at h0; cases h0
    · exact ⟨C, C.setEntity t, hC, by rw [hcs]; exact Arena.get_set_self hC _, by rw [linkOf_eq]; simp,
        unlinked_setEntity C t⟩
    · intro k hk
      rw [hcs, Arena.get_set_ne hk]
    · intro k
      rw [getEntity_eq_none, getEntity_eq_none]
      have := hshape.isSome k
      clear hs' hent
      cases h1 : s.entities.get k <;> cases h2 : s'.entities.get k <;> simp_all
    · intro k p hp
      obtain ⟨E, hE, rfl⟩ := getEntity_eq_some.mp hp
      obtain ⟨F, hF, h1, h2, h3⟩ := hent k E hE
      refine ⟨F.makePub, getEntity_eq_some.mpr ⟨F, hF, rfl⟩, ?_, ?_, ?_⟩
      · by_cases ht : t = some k
        · rw [recalculateMass_massRel (h2 ht)]; constructor <;> rfl
        · by_cases hC' : C.entity = some k
          · rw [recalculateMass_massRel (h3 ht hC')]; constructor <;> rfl
          · rw [h1 ht hC']; constructor <;> rfl
      · intro x
        have hlinks : c ∈ E.colliders ↔ C.entity = some k := by
          rw [inv.links k E c hE]
          constructor
          · rintro ⟨D, hD, hDe⟩; rw [hC] at hD; cases hD; exact hDe
          · intro he; exact ⟨C, hC, he⟩
        show x ∈ F.colliders ↔ if x = c then t = some k else x ∈ E.colliders
        by_cases ht : t = some k
        · have := (recalculateMass_massRel (h2 ht)).colliders
          simp only at this
          rw [this, mem_hsInsert]
          by_cases hx : x = c <;> simp [hx, ht]
        · by_cases hC' : C.entity = some k
          · have := (recalculateMass_massRel (h3 ht hC')).colliders
            simp only at this
            rw [this, mem_hsRemove]
            by_cases hx : x = c <;> simp [hx, ht]
          · rw [h1 ht hC']
            by_cases hx : x = c
            · subst hx; simp [ht, hlinks, hC']
            · simp [hx]
      · intro ht hn
        have hC' : C.entity ≠ some k := fun he => hn ((inv.links k E c hE).mpr ⟨C, hC, he⟩)
        rw [h1 ht hC']

/-- The demo state with the weight linked to the first ball: reachable, and the link is there. -/
theorem demo_linked : ∃ s4 : Demo.Sys, Reachable s4 ∧ Demo.s3.linkCollider .id Demo.h0 (some Demo.h0) = .ok (s4, true) ∧
    (∃ d, s4.getCollider Demo.h0 = some d ∧ linkOf d = some Demo.h0) ∧
    ∃ p, s4.getEntity Demo.h0 = some p ∧ Demo.h0 ∈ p.colliders := by
  obtain ⟨s4, b, hl, hb, -, hd⟩ := C10_link_collider Demo.reachable3 .id Demo.h0 (some Demo.h0)
  have hE : Demo.s3.entities.get Demo.h0 = some Demo.ballE := by rw [Demo.s3_entities]; rfl
  have hC : Demo.s3.colliders.get Demo.h0 = some Demo.weight := by rw [Demo.s3_colliders]; rfl
  have hbt : b = true := hb.mpr ⟨by rw [getCollider_eq, hC]; simp, by
    rintro h ⟨⟩; rw [Ne, getEntity_eq_none, hE]; simp⟩
  subst hbt
  obtain ⟨⟨d, d', -, hd', hlk, -⟩, -⟩ := hd rfl
  have hr4 : Reachable s4 := by
    obtain ⟨tr, htr⟩ := Demo.reachable3
    exact ⟨_, .snoc .id (.linkCollider Demo.h0 (some Demo.h0)) (.ok true) htr (by simp only [System.exec, hl]; rfl)⟩
  exact ⟨s4, hr4, hl, ⟨d', hd', hlk⟩, (C09_links_agree hr4).2.1 _ _ _ hd' hlk⟩

/-! ### C11 -/

/-- **C11.** `remove_entity` never panics in a reachable state; it returns true exactly when the handle was live; the
entity and exactly the colliders linked to it are gone afterwards. -/
theorem C11_remove_entity {s : System α γ} (hr : Reachable s) (ord : IterOrder) (h : Handle) :
    ∃ s' b, s.removeEntity ord h = .ok (s', b) ∧ (b = true ↔ s.getEntity h ≠ none) ∧ (b = false → s' = s) ∧
    s'.getEntity h = none ∧ (∀ k, k ≠ h → s'.getEntity k = s.getEntity k) ∧
    (∀ c d, s.getCollider c = some d → (linkOf d = some h → s'.getCollider c = none) ∧
      (linkOf d ≠ some h → s'.getCollider c = some d)) ∧
    (∀ c, s.getCollider c = none → s'.getCollider c = none) ∧ s'.generators = s.generators := by
  have inv := hr.inv
  simp only [getCollider_eq, linkOf_eq]
  cases hE : s.entities.get h with
  | none =>
    refine ⟨s, false, System.removeEntity_none hE, ?_, fun _ => rfl, getEntity_eq_none.mpr hE, fun _ _ => rfl, ?_,
      fun _ hc => hc, rfl⟩
    · simp [getEntity_eq_none, hE]
    · intro c d hd
      refine ⟨fun hl => ?_, fun _ => hd⟩
      obtain ⟨E, hE'⟩ := inv.linkLive c d h hd hl
      rw [hE] at hE'; cases hE'
  | some E =>
    have hmem : ∀ c, c ∈ ord.colliders h E.colliders ↔ ∃ C, s.colliders.get c = some C ∧ C.entity = some h := by
      intro c
      rw [(ord.colliders_perm _ _).mem_iff, inv.links h E c hE]
    refine ⟨_, true, System.removeEntity_some inv hE, ?_, by simp, ?_, ?_, ?_, ?_, rfl⟩
    · simp [getEntity_eq_none, hE]
    · rw [getEntity_eq_none]; simp [Arena.get_remove]
    · intro k hk
      simp [World.getEntity, Arena.get_remove, hk]
    · intro c d hd
      simp only [System.get_removeAll]
      constructor
      · intro hl
        rw [if_pos ((hmem c).mpr ⟨d, hd, hl⟩)]
      · intro hl
        rw [if_neg, hd]
        intro hc
        obtain ⟨C, hC, hCe⟩ := (hmem c).mp hc
        rw [hd] at hC; cases hC; exact hl hCe
    · intro c hc
      simp only [System.get_removeAll]
      split
      · rfl
      · exact hc

/-! ### C12 -/

/-- **C12 fails.**  `remove_collider` panics (a `RefCell` borrow while mutably borrowed) for every linked collider of
every reachable state. -/
theorem C12_linked_collider_panics {s : System α γ} (hr : Reachable s) {c e : Handle} {d : Collider α}
    (hd : s.getCollider c = some d) (hl : linkOf d = some e) : s.removeCollider c = .error .borrow := by
  rw [getCollider_eq] at hd
  rw [linkOf_eq] at hl
  obtain ⟨E, hE⟩ := hr.inv.linkLive c d e hd hl
  exact System.removeCollider_linked hd hl hE

/-- So the property as listed is false. -/
theorem C12_false : ¬ ∀ s : Demo.Sys, Reachable s → ∀ c, ∃ s', s.removeCollider c = .ok s' := by
  intro h
  obtain ⟨s4, hr, -, ⟨d, hd, hl⟩, -⟩ := demo_linked
  obtain ⟨s', hs'⟩ := h s4 hr Demo.h0
  rw [C12_linked_collider_panics hr hd hl] at hs'
  cases hs'

/-- **C12, partial:** for a collider that is not linked (or a dead handle) `remove_collider` removes it and only it.
Missing: linked colliders, for which the code panics (`C12_linked_collider_panics`). -/
theorem C12_remove_collider_partial {s : System α γ} (c : Handle)
    (hl : ∀ d, s.getCollider c = some d → linkOf d = none) :
    ∃ s', s.removeCollider c = .ok s' ∧ s'.getCollider c = none ∧ (∀ k, k ≠ c → s'.getCollider k = s.getCollider k) ∧
    (∀ k, s'.getEntity k = s.getEntity k) ∧ s'.generators = s.generators := by
  simp only [getCollider_eq, linkOf_eq] at hl ⊢
  refine ⟨_, System.removeCollider_eq_ok (fun C e hC he => ?_), ?_, ?_, fun _ => rfl, rfl⟩
  · rw [hl C hC] at he; cases he
  · simp [Arena.get_remove]
  · intro k hk; simp [Arena.get_remove, hk]

example : Reachable Demo.s3 ∧ ∃ d, Demo.s3.getCollider Demo.h0 = some d ∧ linkOf d = none :=
  ⟨Demo.reachable3, Demo.weight, by rw [getCollider_eq, Demo.s3_colliders]; rfl, rfl⟩

/-! ### C20, C54 -/

/-- **C20.** -/
theorem C20_negligible_step (s : System α γ) (ord : IterOrder) (dt : α)
    (h : Scalar.lt (Scalar.abs dt) EPSILON = true) : s.step ord dt = .ok s := by
  unfold System.step; rw [if_pos h]

example : Scalar.lt (Scalar.abs (XReal.fin (-1 / 10000000))) EPSILON = true := by
  simp; rw [abs_of_neg (by norm_num)]; norm_num

/-- **C54.** A step adds and removes nothing and changes no collider, link, mass, local inertia or origin offset, no
setting and no set of generator handles. -/
theorem C54_step_changes_only_motion {s s' : System α γ} {ord : IterOrder} {dt : α} (h : s.step ord dt = .ok s') :
    (∀ c, s'.getCollider c = s.getCollider c) ∧
    (∀ e, s'.getEntity e = none ↔ s.getEntity e = none) ∧
    (∀ e p p', s.getEntity e = some p → s'.getEntity e = some p' → p'.colliders = p.colliders ∧ p'.ownMass = p.ownMass ∧
      p'.lastTotalMass = p.lastTotalMass ∧ p'.lastPreppedMoment = p.lastPreppedMoment ∧
      p'.lastOrientation.internalOriginOffset = p.lastOrientation.internalOriginOffset) ∧
    (∀ g, s'.generators.get g = none ↔ s.generators.get g = none) ∧
    s'.iterationMax = s.iterationMax ∧ s'.energySleepThreshold = s.energySleepThreshold ∧
    s'.sleepTimeThreshold = s.sleepTimeThreshold := by
  obtain ⟨f, g⟩ := Step.step_frame h
  refine ⟨?_, ?_, ?_, ?_, f.iterationMax, f.energy, f.time⟩
  · intro c; rw [getCollider_eq, getCollider_eq, f.colliders]
  · intro e; rw [getEntity_eq_none, getEntity_eq_none, f.entities.none_iff]
  · intro e p p' hp hp'
    obtain ⟨E, hE, rfl⟩ := getEntity_eq_some.mp hp
    obtain ⟨E', hE', rfl⟩ := getEntity_eq_some.mp hp'
    obtain ⟨h1, h2, h3, h4, h5⟩ := Step.staticRel_iff.mp (f.entities.rel e E E' hE hE')
    exact ⟨h5, h2, h3, h4, h1⟩
  · intro k
    have := g.isSome k
    cases h1 : s.generators.get k <;> cases h2 : s'.generators.get k <;> simp_all

/-! ### C26 -/

/-- **C26.** Waking an entity terminates (it never runs out of the fuel of the model's loop), and if it does not panic
then exactly the entities of the resting cluster of `start` are woken and lose their neighbours; an infinite-mass
entity outside the cluster stays as it is, except that it forgets the woken entities that listed it; everything else is
untouched.  `Cluster` is the set of entities reachable from `start` through neighbour links to entities that are not of
infinite mass. -/
theorem C26_wake_up_wakes_cluster (ord : IterOrder) (start : Handle) (a : Arena (InternalEntity α)) (d : List DebugMsg) :
    wakeUp ord start a d ≠ .error .diverge ∧
    ∀ b d', wakeUp ord start a d = .ok (b, d') →
      (∀ k, b.get k = none ↔ a.get k = none) ∧
      ∀ k e e', a.get k = some e → b.get k = some e' →
        e' = { e with asleep := e'.asleep, neighbors := e'.neighbors } ∧
        (Cluster a start k → e'.asleep = false ∧ e'.neighbors = []) ∧
        (¬Cluster a start k → e'.asleep = e.asleep) ∧
        (¬Cluster a start k → Scalar.isInfinite e.totalMass = false → e' = e) ∧
        (¬Cluster a start k → Scalar.isInfinite e.totalMass = true →
          ∀ t, t ∈ e'.neighbors ↔ t ∈ e.neighbors ∧ ¬(Cluster a start t ∧ ∃ x, a.get t = some x ∧ k ∈ x.neighbors)) := by
  refine ⟨wakeUp_not_diverge ord start a d, ?_⟩
  intro b d' h
  obtain ⟨h1, h2, -⟩ := wakeUp_spec h
  refine ⟨fun k => h1.none_iff k, fun k e e' he he' => ?_⟩
  obtain ⟨hc, hn, -⟩ := h2 k e e' he he'
  have hrel := h1.rel k e e' he he'
  refine ⟨hrel, hc, fun hcl => (hn hcl).1, fun hcl hi => ?_, fun hcl hi => (hn hcl).2.2 hi⟩
  exact WakeRel.ext hrel (WakeRel.refl e) (hn hcl).1 ((hn hcl).2.1 hi)

/-- **C26**, no panic: waking succeeds if `start` and all neighbours listed inside its cluster are live. -/
theorem C26_wake_up_succeeds (ord : IterOrder) {start : Handle} {a : Arena (InternalEntity α)} (d : List DebugMsg)
    (hs : a.get start ≠ none)
    (hl : ∀ t e n, Cluster a start t → a.get t = some e → n ∈ e.neighbors → a.get n ≠ none) :
    ∃ b d', wakeUp ord start a d = .ok (b, d') :=
  wakeUp_ok d (Option.ne_none_iff_exists'.mp hs) (fun t e n h1 h2 h3 => Option.ne_none_iff_exists'.mp (hl t e n h1 h2 h3))

/-- Two entities resting on each other: waking the first wakes the second. -/
example : ∃ a : Arena (InternalEntity XReal), ∃ b d',
    wakeUp .id ⟨0, 0⟩ a [] = .ok (b, d') ∧ Cluster a ⟨0, 0⟩ ⟨1, 0⟩ ∧
    ∃ e, a.get ⟨1, 0⟩ = some e ∧ e.asleep = true := by
  let x : InternalEntity XReal := { Demo.ballE with asleep := true, neighbors := [⟨1, 0⟩] }
  let y : InternalEntity XReal := { Demo.ballE with asleep := true, neighbors := [⟨0, 0⟩] }
  let a : Arena (InternalEntity XReal) := ⟨[some (0, x), some (0, y)], [], 0⟩
  have hx : a.get ⟨0, 0⟩ = some x := rfl
  have hy : a.get ⟨1, 0⟩ = some y := rfl
  have hall : ∀ t e n, Cluster a ⟨0, 0⟩ t → a.get t = some e → n ∈ e.neighbors → a.get n ≠ none := by
    intro t e n hc he hn
    have : e = x ∨ e = y := by
      have hcl : t = ⟨0, 0⟩ ∨ t = ⟨1, 0⟩ := by
        induction hc generalizing e n with
        | start => exact Or.inl rfl
        | link hc' h1 h2 h3 h4 ih =>
          rcases ih _ _ h1 h2 with rfl | rfl
          · rw [hx] at h1; cases h1; simp [x] at h2; exact Or.inr h2
          · rw [hy] at h1; cases h1; simp [y] at h2; exact Or.inl h2
      rcases hcl with rfl | rfl
      · rw [hx] at he; cases he; exact Or.inl rfl
      · rw [hy] at he; cases he; exact Or.inr rfl
    rcases this with rfl | rfl
    · simp [x] at hn; rw [hn, hy]; simp
    · simp [y] at hn; rw [hn, hx]; simp
  obtain ⟨b, d', hw⟩ := C26_wake_up_succeeds .id (a := a) (start := ⟨0, 0⟩) [] (by rw [hx]; simp) hall
  exact ⟨a, b, d', hw, .link .start hx (by simp [x]) hy (by simp [y, Demo.ballE]), y, hy, rfl⟩

end Fluffy.Props
