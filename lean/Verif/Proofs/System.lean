import Verif.Proofs.Carry
/- The effect of every API call on the arenas, and the invariant of all reachable states. -/
set_option linter.unusedSectionVars false
set_option linter.unusedSimpArgs false
namespace Fluffy
open InternalEntity Step
variable {α : Type} [Scalar α] {γ : Type}

namespace Collider
@[simp] theorem entity_setEntity (c : Collider α) (h : Option Handle) : (c.setEntity h).entity = h := by
  cases c <;> rfl
@[simp] theorem mass_setEntity (c : Collider α) (h : Option Handle) : (c.setEntity h).mass = c.mass := by
  cases c <;> rfl
@[simp] theorem com_setEntity (c : Collider α) (h : Option Handle) :
    (c.setEntity h).localCenterOfMass = c.localCenterOfMass := by cases c <;> rfl
@[simp] theorem moi_setEntity (c : Collider α) (h : Option Handle) :
    (c.setEntity h).momentOfInertia = c.momentOfInertia := by cases c <;> rfl
theorem entity_newFrom {c c' : Collider α} (h : c.newFrom = some c') : c'.entity = none := by
  cases c <;> simp only [newFrom] at h <;> split at h <;> cases h <;> rfl
theorem entity_updateFrom {c d c' : Collider α} (h : c.updateFrom d = .updated c') : c'.entity = c.entity := by
  cases c <;> cases d <;> simp only [updateFrom] at h <;> (try split at h) <;> cases h <;> rfl
theorem makePub_eq (c : Collider α) : c.makePub = c := by cases c <;> rfl

/-- The data of a collider that enter the mass computation. -/
def massData (c : Collider α) : α × Vec3 α × Mat3 α := (c.mass, c.localCenterOfMass, c.momentOfInertia)
end Collider

/-- The two arenas agree on the mass data of the colliders in `l`. -/
def MassSame (cs cs' : Arena (Collider α)) (l : List Handle) : Prop :=
  ∀ h ∈ l, (cs'.get h).map Collider.massData = (cs.get h).map Collider.massData

namespace InternalEntity
theorem MassSame.cases {cs cs' : Arena (Collider α)} {l : List Handle} (hm : MassSame cs cs' l) {h : Handle}
    (hh : h ∈ l) : (cs.get h = none ∧ cs'.get h = none) ∨
      ∃ c c', cs.get h = some c ∧ cs'.get h = some c' ∧ c'.mass = c.mass ∧
        c'.localCenterOfMass = c.localCenterOfMass ∧ c'.momentOfInertia = c.momentOfInertia := by
  have := hm h hh
  cases hc : cs.get h <;> cases hc' : cs'.get h <;> rw [hc, hc'] at this <;> simp [Collider.massData] at this
  · exact Or.inl ⟨rfl, rfl⟩
  · exact Or.inr ⟨_, _, rfl, rfl, this⟩

theorem massLoop_congr {o : Orientation α} {cs cs' : Arena (Collider α)} : ∀ {l : List Handle} (acc : MassSum α),
    MassSame cs cs' l → massLoop o cs' l acc = massLoop o cs l acc
  | [], acc, _ => rfl
  | h :: l, acc, hm => by
    have ih := fun acc => massLoop_congr (o := o) (l := l) acc (fun k hk => hm k (by simp [hk]))
    unfold massLoop
    rcases MassSame.cases hm (h := h) (by simp) with ⟨h1, h2⟩ | ⟨c, c', h1, h2, h3, h4, h5⟩
    · rw [h1, h2]; rfl
    · rw [h1, h2]
      simp only [unwrap_some, Res.ok_bind, h3, h4]
      split
      · rfl
      · exact ih _

theorem momentLoop_congr {o : Orientation α} {cs cs' : Arena (Collider α)} : ∀ {l : List Handle} (acc : Mat3 α),
    MassSame cs cs' l → momentLoop o cs' l acc = momentLoop o cs l acc
  | [], acc, _ => rfl
  | h :: l, acc, hm => by
    have ih := fun acc => momentLoop_congr (o := o) (l := l) acc (fun k hk => hm k (by simp [hk]))
    unfold momentLoop
    rcases MassSame.cases hm (h := h) (by simp) with ⟨h1, h2⟩ | ⟨c, c', h1, h2, h3, h4, h5⟩
    · rw [h1, h2]; rfl
    · rw [h1, h2]
      simp only [unwrap_some, Res.ok_bind, h3, h4, h5]
      exact ih _

theorem recalculateMass_congr {cs cs' : Arena (Collider α)} {l : List Handle} (e : InternalEntity α)
    (hm : MassSame cs cs' l) : recalculateMass l cs' e = recalculateMass l cs e := by
  unfold recalculateMass
  rw [massLoop_congr _ hm]
  cases massLoop e.orientation cs l ⟨Vec3.zeros, zero, false⟩ with
  | error p => rfl
  | ok s => simp only [Res.ok_bind, momentLoop_congr _ hm]

/-- The mass data stored in an entity are those of a fresh entity without colliders, or those that
`recalculate_mass` gives for its present colliders. -/
def Computed (cs : Arena (Collider α)) (E : InternalEntity α) : Prop :=
  (E.colliders = [] ∧ E.totalMass = E.ownMass ∧ E.preppedMoment = Mat3.zeros) ∨
  ∃ order E0 E1, order.Perm E1.colliders ∧ recalculateMass order cs E0 = .ok E1 ∧ Carries E1 E

theorem StaticRel.colliders {e e' : InternalEntity α} (h : StaticRel e e') : e'.colliders = e.colliders := by rw [h]

theorem Computed.static {cs : Arena (Collider α)} {E E' : InternalEntity α} (h : Computed cs E) (hr : Carries E E') :
    Computed cs E' := by
  rcases h with ⟨h1, h2, h3⟩ | ⟨order, E0, E1, h1, h2, h3⟩
  · obtain ⟨r1, r2, r3, r4, r5⟩ := staticRel_iff.mp hr.1
    exact Or.inl ⟨by rw [r5, h1], by rw [r3, r2, h2], by rw [r4, h3]⟩
  · exact Or.inr ⟨order, E0, E1, h1, h2, h3.trans hr⟩

theorem Computed.same {cs cs' : Arena (Collider α)} {E : InternalEntity α} (h : Computed cs E)
    (hm : MassSame cs cs' E.colliders) : Computed cs' E := by
  rcases h with h | ⟨order, E0, E1, h1, h2, h3⟩
  · exact Or.inl h
  · refine Or.inr ⟨order, E0, E1, h1, ?_, h3⟩
    rw [recalculateMass_congr E0 (fun h hh => hm h (by rw [StaticRel.colliders h3.1]; exact h1.mem_iff.mp hh)), h2]

theorem Computed.of_recalc {ord : IterOrder} {cs : Arena (Collider α)} {h : Handle} {e e' : InternalEntity α}
    (hr : recalculateMass (ord.colliders h e.colliders) cs e = .ok e') : Computed cs e' := by
  refine Or.inr ⟨_, e, e', ?_, hr, .refl _⟩
  rw [(recalculateMass_massRel hr).colliders]
  exact ord.colliders_perm _ _
end InternalEntity

namespace System

/-- What holds in every reachable state. -/
structure Inv (s : System α γ) : Prop where
  wfE : s.entities.WF
  wfC : s.colliders.WF
  wfG : s.generators.WF
  links : ∀ e E c, s.entities.get e = some E → (c ∈ E.colliders ↔ ∃ C, s.colliders.get c = some C ∧ C.entity = some e)
  linkLive : ∀ c C e, s.colliders.get c = some C → C.entity = some e → ∃ E, s.entities.get e = some E
  nodup : ∀ e E, s.entities.get e = some E → E.colliders.Nodup ∧ E.neighbors.Nodup
  mass : ∀ e E, s.entities.get e = some E → Computed s.colliders E

theorem inv_new : Inv (new : System α γ) := by
  refine ⟨Arena.wf_new, Arena.wf_new, Arena.wf_new, ?_, ?_, ?_, ?_⟩ <;> intros <;>
    simp_all [new, Arena.get_new]

/-- Whatever only changes poses, velocities, sleep state and neighbours preserves the invariant. -/
theorem Inv.of_static {s s' : System α γ} (inv : Inv s) (he : Arena.Evolves Carries s.entities s'.entities)
    (hc : s'.colliders = s.colliders) (hg : s'.generators.WF)
    (hn : ∀ e E, s'.entities.get e = some E → E.neighbors.Nodup) : Inv s' := by
  refine ⟨he.wf inv.wfE, by rw [hc]; exact inv.wfC, hg, ?_, ?_, ?_, ?_⟩
  · intro e E' c hE'
    obtain ⟨E, hE, hr⟩ := he.get' hE'
    rw [StaticRel.colliders hr.1, inv.links e E c hE, hc]
  · intro c C e hC hCe
    rw [hc] at hC
    obtain ⟨E, hE⟩ := inv.linkLive c C e hC hCe
    obtain ⟨E', hE', -⟩ := he.get hE
    exact ⟨E', hE'⟩
  · intro e E' hE'
    obtain ⟨E, hE, hr⟩ := he.get' hE'
    exact ⟨by rw [StaticRel.colliders hr.1]; exact (inv.nodup e E hE).1, hn e E' hE'⟩
  · intro e E' hE'
    obtain ⟨E, hE, hr⟩ := he.get' hE'
    rw [hc]
    exact (inv.mass e E hE).static hr

/-! ### add_entity -/

theorem addEntity_none {s : System α γ} {src : Entity α} (h : InternalEntity.newFrom src = none) :
    s.addEntity src = (s, none) := by simp [addEntity, h]
theorem addEntity_some {s : System α γ} {src : Entity α} {e : InternalEntity α}
    (h : InternalEntity.newFrom src = some e) :
    s.addEntity src = ({ s with entities := (s.entities.insert e).1 }, some (s.entities.insert e).2) := by
  simp [addEntity, h]

theorem newFrom_fields {src : Entity α} {e : InternalEntity α} (h : InternalEntity.newFrom src = some e) :
    e.colliders = [] ∧ e.totalMass = e.ownMass ∧ e.preppedMoment = Mat3.zeros ∧ e.neighbors = [] := by
  unfold InternalEntity.newFrom at h
  split at h
  · cases h
  · cases h; simp

theorem addEntity_inv {s : System α γ} (inv : Inv s) (src : Entity α) : Inv (s.addEntity src).1 := by
  cases h : InternalEntity.newFrom src with
  | none => rw [addEntity_none h]; exact inv
  | some e =>
    rw [addEntity_some h]
    obtain ⟨f1, f2, f3, f4⟩ := newFrom_fields h
    have hg := Arena.get_insert inv.wfE e
    have hfresh := Arena.get_insert_fresh inv.wfE e
    refine ⟨Arena.wf_insert inv.wfE e, inv.wfC, inv.wfG, ?_, ?_, ?_, ?_⟩
    · intro k E c hE
      simp only [hg] at hE
      split at hE
      · rename_i hk
        cases hE; subst hk
        rw [f1]
        refine ⟨by simp, ?_⟩
        rintro ⟨C, hC, hCe⟩
        obtain ⟨E, hE⟩ := inv.linkLive c C _ hC hCe
        rw [hfresh] at hE; cases hE
      · exact inv.links k E c hE
    · intro c C k hC hCe
      obtain ⟨E, hE⟩ := inv.linkLive c C k hC hCe
      refine ⟨E, ?_⟩
      simp only [hg]
      split
      · rename_i hk; rw [hk, hfresh] at hE; cases hE
      · exact hE
    · intro k E hE
      simp only [hg] at hE
      split at hE
      · cases hE; simp [f1, f4]
      · exact inv.nodup k E hE
    · intro k E hE
      simp only [hg] at hE
      split at hE
      · cases hE; exact Or.inl ⟨f1, f2, f3⟩
      · exact inv.mass k E hE

/-! ### add_collider -/

theorem addCollider_none {s : System α γ} {src : Collider α} (h : src.newFrom = none) :
    s.addCollider src = (s, none) := by simp [addCollider, h]
theorem addCollider_some {s : System α γ} {src c : Collider α} (h : src.newFrom = some c) :
    s.addCollider src = ({ s with colliders := (s.colliders.insert c).1 }, some (s.colliders.insert c).2) := by
  simp [addCollider, h]

theorem addCollider_inv {s : System α γ} (inv : Inv s) (src : Collider α) : Inv (s.addCollider src).1 := by
  cases h : src.newFrom with
  | none => rw [addCollider_none h]; exact inv
  | some c =>
    rw [addCollider_some h]
    have hent := Collider.entity_newFrom h
    have hg := Arena.get_insert inv.wfC c
    have hfresh := Arena.get_insert_fresh inv.wfC c
    have hold : ∀ k C, s.colliders.get k = some C → (s.colliders.insert c).1.get k = some C := by
      intro k C hC
      rw [hg]; split
      · rename_i hk; rw [hk, hfresh] at hC; cases hC
      · exact hC
    have hnew : ∀ k C e, (s.colliders.insert c).1.get k = some C → C.entity = some e →
        s.colliders.get k = some C := by
      intro k C e hC hCe
      rw [hg] at hC; split at hC
      · cases hC; rw [hent] at hCe; cases hCe
      · exact hC
    refine ⟨inv.wfE, Arena.wf_insert inv.wfC c, inv.wfG, ?_, ?_, inv.nodup, ?_⟩
    · intro k E d hE
      rw [inv.links k E d hE]
      constructor
      · rintro ⟨C, hC, hCe⟩; exact ⟨C, hold d C hC, hCe⟩
      · rintro ⟨C, hC, hCe⟩; exact ⟨C, hnew d C k hC hCe, hCe⟩
    · intro d C k hC hCe
      exact inv.linkLive d C k (hnew d C k hC hCe) hCe
    · intro k E hE
      refine (inv.mass k E hE).same ?_
      intro d hd
      obtain ⟨C, hC, -⟩ := (inv.links k E d hE).mp hd
      rw [hold d C hC, hC]

/-! ### remove_collider -/

theorem removeCollider_ok {s s' : System α γ} {h : Handle} (hh : s.removeCollider h = .ok s') :
    s' = { s with colliders := (s.colliders.remove h).1 } := by
  unfold removeCollider at hh
  simp only [Arena.remove_snd] at hh
  split at hh
  · split at hh
    · split at hh <;> cases hh; rfl
    · cases hh; rfl
  · rename_i hn
    cases hh
    rw [Arena.remove_of_none hn]

theorem removeCollider_eq_ok {s : System α γ} {h : Handle}
    (hc : ∀ C e, s.colliders.get h = some C → C.entity = some e → s.entities.get e = none) :
    s.removeCollider h = .ok { s with colliders := (s.colliders.remove h).1 } := by
  unfold removeCollider
  simp only [Arena.remove_snd]
  split
  · rename_i C hC
    split
    · rename_i e he
      rw [hc C e hC he]
    · rfl
  · rename_i hn
    rw [Arena.remove_of_none hn]

theorem removeCollider_linked {s : System α γ} {h e : Handle} {C : Collider α} {E : InternalEntity α}
    (hC : s.colliders.get h = some C) (he : C.entity = some e) (hE : s.entities.get e = some E) :
    s.removeCollider h = .error .borrow := by
  simp [removeCollider, hC, he, hE]

theorem remove_colliders_inv {s : System α γ} (inv : Inv s) {h : Handle}
    (hc : ∀ C, s.colliders.get h = some C → C.entity = none) :
    Inv { s with colliders := (s.colliders.remove h).1 } := by
  have hg := Arena.get_remove s.colliders h
  refine ⟨inv.wfE, Arena.wf_remove inv.wfC h, inv.wfG, ?_, ?_, inv.nodup, ?_⟩
  · intro e E c hE
    rw [inv.links e E c hE]
    simp only [hg]
    constructor
    · rintro ⟨C, hC, hCe⟩
      refine ⟨C, ?_, hCe⟩
      rw [if_neg]; exact hC
      rintro rfl
      rw [hc C hC] at hCe; cases hCe
    · rintro ⟨C, hC, hCe⟩
      split at hC
      · cases hC
      · exact ⟨C, hC, hCe⟩
  · intro c C e hC hCe
    simp only [hg] at hC
    split at hC
    · cases hC
    · exact inv.linkLive c C e hC hCe
  · intro e E hE
    refine (inv.mass e E hE).same ?_
    intro d hd
    obtain ⟨C, hC, hCe⟩ := (inv.links e E d hE).mp hd
    simp only [hg]
    rw [if_neg]
    rintro rfl
    rw [hc C hC] at hCe; cases hCe

theorem removeCollider_inv {s s' : System α γ} {h : Handle} (inv : Inv s) (hh : s.removeCollider h = .ok s') :
    Inv s' := by
  have := removeCollider_ok hh
  subst this
  apply remove_colliders_inv inv
  intro C hC
  cases he : C.entity with
  | none => rfl
  | some e =>
    obtain ⟨E, hE⟩ := inv.linkLive h C e hC he
    rw [removeCollider_linked hC he hE] at hh; cases hh

/-! ### remove_entity -/

/-- Removing a list of handles from an arena. -/
def removeAll {τ : Type} (a : Arena τ) (l : List Handle) : Arena τ := l.foldl (fun a h => (a.remove h).1) a

theorem get_removeAll {τ : Type} : ∀ (l : List Handle) (a : Arena τ) (k : Handle),
    (removeAll a l).get k = if k ∈ l then none else a.get k
  | [], a, k => by simp [removeAll]
  | h :: l, a, k => by
    have := get_removeAll l (a.remove h).1 k
    simp only [removeAll, List.foldl_cons] at this ⊢
    rw [this, Arena.get_remove]
    by_cases h1 : k ∈ l <;> by_cases h2 : k = h <;> simp [h1, h2]

theorem wf_removeAll {τ : Type} : ∀ (l : List Handle) (a : Arena τ), a.WF → (removeAll a l).WF
  | [], _, wf => wf
  | h :: l, a, wf => wf_removeAll l (a.remove h).1 (Arena.wf_remove wf h)

theorem removeColliders_ok : ∀ {l : List Handle} {s s' : System α γ}, removeColliders l s = .ok s' →
    s' = { s with colliders := removeAll s.colliders l }
  | [], s, s', h => by unfold removeColliders at h; cases h; rfl
  | c :: l, s, s', h => by
    unfold removeColliders at h
    obtain ⟨m, h1, h⟩ := Res.bind_eq_ok.mp h
    have := removeCollider_ok h1
    subst this
    rw [removeColliders_ok h]
    rfl

theorem removeColliders_eq_ok : ∀ {l : List Handle} {s : System α γ},
    (∀ c ∈ l, ∀ C e, s.colliders.get c = some C → C.entity = some e → s.entities.get e = none) →
    removeColliders l s = .ok { s with colliders := removeAll s.colliders l }
  | [], s, _ => rfl
  | c :: l, s, hl => by
    unfold removeColliders
    rw [removeCollider_eq_ok (hl c (by simp)), Res.ok_bind, removeColliders_eq_ok]
    · rfl
    · intro d hd C e hC he
      simp only [Arena.get_remove] at hC
      split at hC
      · cases hC
      · exact hl d (by simp [hd]) C e hC he

/-- `remove_entity` of a live entity. -/
theorem removeEntity_some {ord : IterOrder} {s : System α γ} (inv : Inv s) {h : Handle} {E : InternalEntity α}
    (hE : s.entities.get h = some E) :
    s.removeEntity ord h = .ok ({ s with
      entities := (s.entities.remove h).1
      colliders := removeAll s.colliders (ord.colliders h E.colliders) }, true) := by
  unfold removeEntity
  simp only [Arena.remove_snd, hE]
  rw [removeColliders_eq_ok]
  · rfl
  · intro c hc C e hC he
    simp only at hC ⊢
    rw [(ord.colliders_perm _ _).mem_iff, inv.links h E c hE] at hc
    obtain ⟨C', hC', he'⟩ := hc
    rw [hC] at hC'; cases hC'
    rw [he] at he'; cases he'
    rw [Arena.get_remove, if_pos rfl]

theorem removeEntity_none {ord : IterOrder} {s : System α γ} {h : Handle} (hE : s.entities.get h = none) :
    s.removeEntity ord h = .ok (s, false) := by
  unfold removeEntity
  simp only [Arena.remove_snd, hE]

theorem remove_entity_inv {s : System α γ} (inv : Inv s) {h : Handle} {E : InternalEntity α}
    (hE : s.entities.get h = some E) {l : List Handle} (hl : l.Perm E.colliders) :
    Inv { s with entities := (s.entities.remove h).1, colliders := removeAll s.colliders l } := by
  have hge := Arena.get_remove s.entities h
  have hgc := get_removeAll l s.colliders
  have hmem : ∀ c, c ∈ l ↔ ∃ C, s.colliders.get c = some C ∧ C.entity = some h := by
    intro c; rw [hl.mem_iff, inv.links h E c hE]
  have hkeep : ∀ c C k, s.colliders.get c = some C → C.entity = some k → k ≠ h → c ∉ l := by
    intro c C k hC hCe hk hc
    obtain ⟨C', hC', he'⟩ := (hmem c).mp hc
    rw [hC] at hC'; cases hC'
    rw [hCe] at he'; cases he'; exact hk rfl
  refine ⟨Arena.wf_remove inv.wfE h, wf_removeAll l _ inv.wfC, inv.wfG, ?_, ?_, ?_, ?_⟩
  · intro e F c hF
    simp only [hge] at hF
    split at hF
    · cases hF
    · rename_i hne
      rw [inv.links e F c hF]
      simp only [hgc]
      constructor
      · rintro ⟨C, hC, hCe⟩
        exact ⟨C, by rw [if_neg (hkeep c C e hC hCe hne)]; exact hC, hCe⟩
      · rintro ⟨C, hC, hCe⟩
        split at hC
        · cases hC
        · exact ⟨C, hC, hCe⟩
  · intro c C e hC hCe
    simp only [hgc] at hC
    split at hC
    · cases hC
    · rename_i hnl
      obtain ⟨F, hF⟩ := inv.linkLive c C e hC hCe
      refine ⟨F, ?_⟩
      simp only [hge]
      rw [if_neg]; exact hF
      rintro rfl
      exact hnl ((hmem c).mpr ⟨C, hC, hCe⟩)
  · intro e F hF
    simp only [hge] at hF
    split at hF
    · cases hF
    · exact inv.nodup e F hF
  · intro e F hF
    simp only [hge] at hF
    split at hF
    · cases hF
    · rename_i hne
      refine (inv.mass e F hF).same ?_
      intro d hd
      obtain ⟨C, hC, hCe⟩ := (inv.links e F d hF).mp hd
      simp only [hgc]
      rw [if_neg (hkeep d C e hC hCe hne)]

theorem removeEntity_inv {ord : IterOrder} {s s' : System α γ} {h : Handle} {b : Bool} (inv : Inv s)
    (hh : s.removeEntity ord h = .ok (s', b)) : Inv s' := by
  cases hE : s.entities.get h with
  | none => rw [removeEntity_none hE] at hh; cases hh; exact inv
  | some E =>
    rw [removeEntity_some inv hE] at hh
    cases hh
    exact remove_entity_inv inv hE (ord.colliders_perm _ _)

/-! ### Replacing one entity -/

/-- Setting an entity's value, keeping its colliders, with the mass data recomputed. -/
theorem set_entity_inv {s : System α γ} (inv : Inv s) {h : Handle} {E E' : InternalEntity α}
    (hE : s.entities.get h = some E) (hc : E'.colliders = E.colliders) (hn : E'.neighbors.Nodup)
    (hm : Computed s.colliders E') : Inv { s with entities := s.entities.set h E' } := by
  have hg := fun k => Arena.get_set s.entities h k E'
  simp only [hE, Option.map_some] at hg
  refine ⟨Arena.wf_set inv.wfE _ _, inv.wfC, inv.wfG, ?_, ?_, ?_, ?_⟩
  · intro e F c hF
    simp only [hg] at hF
    split at hF
    · rename_i hk; subst hk; cases hF
      rw [hc]; exact inv.links e E c hE
    · exact inv.links e F c hF
  · intro c C e hC hCe
    obtain ⟨F, hF⟩ := inv.linkLive c C e hC hCe
    simp only [hg]
    split
    · exact ⟨_, rfl⟩
    · exact ⟨F, hF⟩
  · intro e F hF
    simp only [hg] at hF
    split at hF
    · cases hF; rw [hc]; exact ⟨(inv.nodup h E hE).1, hn⟩
    · exact inv.nodup e F hF
  · intro e F hF
    simp only [hg] at hF
    split at hF
    · cases hF; exact hm
    · exact inv.mass e F hF

/-- All the colliders an entity lists are live. -/
theorem Inv.colliders_live {s : System α γ} (inv : Inv s) {ord : IterOrder} {h : Handle} {E : InternalEntity α}
    (hE : s.entities.get h = some E) (k : Handle) :
    ∀ c ∈ ord.colliders k E.colliders, ∃ C, s.colliders.get c = some C := by
  intro c hc
  rw [(ord.colliders_perm _ _).mem_iff, inv.links h E c hE] at hc
  obtain ⟨C, hC, -⟩ := hc
  exact ⟨C, hC⟩

/-! ### update_entity -/

theorem updateFrom_fields {e e' : InternalEntity α} {src : Entity α} {b : Bool}
    (h : e.updateFrom src = some (e', b)) :
    Scalar.lt src.ownMass zero = false ∧ b = e.changed src ∧
    e' = { e with
        ownMass := src.ownMass
        orientation := { e.orientation with position := src.position, rotation := Quat.fromScaledAxis src.rotation }
        velocity := src.velocity
        angularVelocity := src.angularVelocity } := by
  unfold InternalEntity.updateFrom at h
  split at h
  · cases h
  · rename_i hm
    cases h
    exact ⟨by simpa using hm, rfl, rfl⟩

/-- `update_entity` with a live handle and an acceptable source. -/
theorem updateEntity_spec {ord : IterOrder} {s s' : System α γ} {h : Handle} {src : Entity α} {b : Bool}
    (hh : s.updateEntity ord h src = .ok (s', b)) :
    (b = false ∧ s' = s ∧ ∀ E, s.entities.get h = some E → E.updateFrom src = none) ∨
    (b = true ∧ ∃ E E1 E2 w, s.entities.get h = some E ∧ E.updateFrom src = some (E1, w) ∧
      recalculateMass (ord.colliders h E1.colliders) s.colliders E1 = .ok E2 ∧
      ((w = false ∧ s' = { s with entities := s.entities.set h E2 }) ∨
       (w = true ∧ ∃ a d, wakeUp ord h (s.entities.set h E2) s.debug = .ok (a, d) ∧
         s' = { s with entities := a, debug := d }))) := by
  unfold updateEntity at hh
  split at hh
  · rename_i hE
    cases hh
    exact Or.inl ⟨rfl, rfl, by simp [hE]⟩
  · rename_i E hE
    split at hh
    · rename_i hu
      cases hh
      exact Or.inl ⟨rfl, rfl, by intro E' hE'; rw [hE] at hE'; cases hE'; exact hu⟩
    · rename_i E1 w hu
      obtain ⟨E2, hr, hh⟩ := Res.bind_eq_ok.mp hh
      right
      split at hh
      · rename_i hw
        obtain ⟨⟨a, d⟩, hwk, hh⟩ := Res.bind_eq_ok.mp hh
        cases hh
        exact ⟨rfl, E, E1, E2, w, hE, hu, hr, Or.inr ⟨hw, a, d, hwk, rfl⟩⟩
      · rename_i hw
        cases hh
        exact ⟨rfl, E, E1, E2, w, hE, hu, hr, Or.inl ⟨by simpa using hw, rfl⟩⟩

theorem wakeUp_nodup {ord : IterOrder} {start : Handle} {a b : Arena (InternalEntity α)} {d d' : List DebugMsg}
    (h : wakeUp ord start a d = .ok (b, d')) (hn : ∀ k e, a.get k = some e → e.neighbors.Nodup) :
    ∀ k e, b.get k = some e → e.neighbors.Nodup := by
  obtain ⟨h1, h2, -⟩ := wakeUp_spec h
  intro k e' he'
  obtain ⟨e, he, -⟩ := h1.get' he'
  exact List.Nodup.sublist (h2 k e e' he he').2.2 (hn k e he)

theorem updateEntity_inv {ord : IterOrder} {s s' : System α γ} {h : Handle} {src : Entity α} {b : Bool} (inv : Inv s)
    (hh : s.updateEntity ord h src = .ok (s', b)) : Inv s' := by
  rcases updateEntity_spec hh with ⟨-, rfl, -⟩ | ⟨-, E, E1, E2, w, hE, hu, hr, hw⟩
  · exact inv
  · obtain ⟨-, -, hE1⟩ := updateFrom_fields hu
    have hm := recalculateMass_massRel hr
    have hc2 : E2.colliders = E.colliders := by rw [hm.colliders, hE1]
    have hn2 : E2.neighbors = E.neighbors := by rw [hm.neighbors, hE1]
    have hinv := set_entity_inv inv hE hc2 (by rw [hn2]; exact (inv.nodup h E hE).2) (Computed.of_recalc hr)
    rcases hw with ⟨-, rfl⟩ | ⟨-, a, d, hwk, rfl⟩
    · exact hinv
    · exact hinv.of_static (s' := { s with entities := a, debug := d })
        ((wakeUp_spec hwk).1.mono (fun _ _ => Carries.of_wake)) rfl inv.wfG
        (wakeUp_nodup hwk (fun k e he => (hinv.nodup k e he).2))

/-! ### update_collider -/

theorem refreshEntity_spec {ord : IterOrder} {s s' : System α γ} {eh : Option Handle}
    (hh : refreshEntity ord s eh = .ok s') :
    (s' = s ∧ ∀ h, eh = some h → s.entities.get h = none) ∨
    ∃ h E E', eh = some h ∧ s.entities.get h = some E ∧
      recalculateMass (ord.colliders h E.colliders) s.colliders E = .ok E' ∧
      s' = { s with entities := s.entities.set h E' } := by
  unfold refreshEntity at hh
  split at hh
  · cases hh; exact Or.inl ⟨rfl, by simp⟩
  · rename_i h
    split at hh
    · rename_i hE
      cases hh; exact Or.inl ⟨rfl, by rintro h' ⟨⟩; exact hE⟩
    · rename_i E hE
      obtain ⟨E', hr, hh⟩ := Res.bind_eq_ok.mp hh
      cases hh
      exact Or.inr ⟨h, E, E', rfl, hE, hr, rfl⟩

theorem updateCollider_spec {ord : IterOrder} {s s' : System α γ} {h : Handle} {src : Collider α} {b : Bool}
    (hh : s.updateCollider ord h src = .ok (s', b)) :
    (b = false ∧ s' = s ∧ ∀ C, s.colliders.get h = some C → C.updateFrom src = .wrongType) ∨
    (b = false ∧ ∃ C, s.colliders.get h = some C ∧ C.updateFrom src = .invalid ∧
      refreshEntity ord s C.entity = .ok s') ∨
    (b = true ∧ ∃ C C', s.colliders.get h = some C ∧ C.updateFrom src = .updated C' ∧
      refreshEntity ord { s with colliders := s.colliders.set h C' } C.entity = .ok s') := by
  unfold updateCollider at hh
  split at hh
  · rename_i hC
    cases hh; exact Or.inl ⟨rfl, rfl, by simp [hC]⟩
  · rename_i C hC
    split at hh
    · rename_i hu
      cases hh; exact Or.inl ⟨rfl, rfl, by intro C' hC'; rw [hC] at hC'; cases hC'; exact hu⟩
    · rename_i hu
      obtain ⟨m, hm, hh⟩ := Res.bind_eq_ok.mp hh
      cases hh
      exact Or.inr (Or.inl ⟨rfl, C, hC, hu, hm⟩)
    · rename_i C' hu
      obtain ⟨m, hm, hh⟩ := Res.bind_eq_ok.mp hh
      cases hh
      exact Or.inr (Or.inr ⟨rfl, C, C', hC, hu, hm⟩)

theorem refreshEntity_inv {ord : IterOrder} {s s' : System α γ} {eh : Option Handle} (inv : Inv s)
    (hh : refreshEntity ord s eh = .ok s') : Inv s' := by
  rcases refreshEntity_spec hh with ⟨rfl, -⟩ | ⟨h, E, E', -, hE, hr, rfl⟩
  · exact inv
  · have hm := recalculateMass_massRel hr
    exact set_entity_inv inv hE hm.colliders (by rw [hm.neighbors]; exact (inv.nodup h E hE).2) (Computed.of_recalc hr)

theorem updateCollider_inv {ord : IterOrder} {s s' : System α γ} {h : Handle} {src : Collider α} {b : Bool}
    (inv : Inv s) (hh : s.updateCollider ord h src = .ok (s', b)) : Inv s' := by
  rcases updateCollider_spec hh with ⟨-, rfl, -⟩ | ⟨-, C, hC, hu, hr⟩ | ⟨-, C, C', hC, hu, hr⟩
  · exact inv
  · exact refreshEntity_inv inv hr
  · have hent := Collider.entity_updateFrom hu
    have hg := fun k => Arena.get_set s.colliders h k C'
    simp only [hC, Option.map_some] at hg
    have hiff : ∀ c e, (∃ D, (s.colliders.set h C').get c = some D ∧ D.entity = some e) ↔
        ∃ D, s.colliders.get c = some D ∧ D.entity = some e := by
      intro c e
      rw [hg]
      split
      · rename_i hc; subst hc
        constructor
        · rintro ⟨D, hD, he⟩; cases hD; exact ⟨C, hC, hent ▸ he⟩
        · rintro ⟨D, hD, he⟩; rw [hC] at hD; cases hD; exact ⟨C', rfl, hent.trans he⟩
      · rfl
    have hother : ∀ e E, s.entities.get e = some E → C.entity ≠ some e → Computed (s.colliders.set h C') E := by
      intro e E hE hne
      refine (inv.mass e E hE).same ?_
      intro d hd
      obtain ⟨D, hD, hDe⟩ := (inv.links e E d hE).mp hd
      rw [hg, if_neg]
      rintro rfl
      rw [hC] at hD; cases hD; exact hne hDe
    rcases refreshEntity_spec hr with ⟨rfl, hno⟩ | ⟨eh, E, E', hCe, hE, hrm, rfl⟩
    · refine ⟨inv.wfE, Arena.wf_set inv.wfC _ _, inv.wfG, ?_, ?_, inv.nodup, ?_⟩
      · intro e E c hE
        rw [inv.links e E c hE, hiff]
      · intro c D e hD hDe
        obtain ⟨D', hD', hDe'⟩ := (hiff c e).mp ⟨D, hD, hDe⟩
        exact inv.linkLive c D' e hD' hDe'
      · intro e E hE
        refine hother e E hE ?_
        intro hc
        rw [hno e hc] at hE; cases hE
    · have hm := recalculateMass_massRel hrm
      have hge := fun k => Arena.get_set s.entities eh k E'
      simp only at hE
      simp only [hE, Option.map_some] at hge
      refine ⟨Arena.wf_set inv.wfE _ _, Arena.wf_set inv.wfC _ _, inv.wfG, ?_, ?_, ?_, ?_⟩
      · intro e F c hF
        simp only [hge] at hF
        simp only [hiff]
        split at hF
        · rename_i hk; subst hk; cases hF
          rw [hm.colliders]; exact inv.links e E c hE
        · exact inv.links e F c hF
      · intro c D e hD hDe
        obtain ⟨D', hD', hDe'⟩ := (hiff c e).mp ⟨D, hD, hDe⟩
        obtain ⟨F, hF⟩ := inv.linkLive c D' e hD' hDe'
        simp only [hge]
        split
        · exact ⟨_, rfl⟩
        · exact ⟨F, hF⟩
      · intro e F hF
        simp only [hge] at hF
        split at hF
        · cases hF; rw [hm.colliders, hm.neighbors]; exact inv.nodup eh E hE
        · exact inv.nodup e F hF
      · intro e F hF
        simp only [hge] at hF
        split at hF
        · cases hF; exact Computed.of_recalc hrm
        · rename_i hk
          refine hother e F hF ?_
          intro hc; rw [hCe] at hc; cases hc; exact hk rfl

/-! ### link_collider -/

theorem unlinkPrior_spec {ord : IterOrder} {s s' : System α γ} {ch : Handle} {prior : Option Handle}
    (hh : unlinkPrior ord s ch prior = .ok s') :
    (s' = s ∧ ∀ h, prior = some h → s.entities.get h = none) ∨
    ∃ h E E', prior = some h ∧ s.entities.get h = some E ∧
      recalculateMass (ord.colliders h (hsRemove E.colliders ch)) s.colliders
        { E with colliders := hsRemove E.colliders ch } = .ok E' ∧
      s' = { s with entities := s.entities.set h E' } := by
  unfold unlinkPrior at hh
  split at hh
  · cases hh; exact Or.inl ⟨rfl, by simp⟩
  · rename_i h
    split at hh
    · rename_i hE
      cases hh; exact Or.inl ⟨rfl, by rintro h' ⟨⟩; exact hE⟩
    · rename_i E hE
      obtain ⟨E', hr, hh⟩ := Res.bind_eq_ok.mp hh
      cases hh
      exact Or.inr ⟨h, E, E', rfl, hE, hr, rfl⟩

/-- What a successful `link_collider` does.  `E` and `P` are the entities linked to and unlinked from. -/
theorem linkCollider_spec {ord : IterOrder} {s s' : System α γ} {ch : Handle} {eh : Option Handle} {b : Bool}
    (inv : Inv s) (hh : s.linkCollider ord ch eh = .ok (s', b)) :
    (b = false ∧ s' = s ∧ (s.colliders.get ch = none ∨ ∃ h, eh = some h ∧ s.entities.get h = none)) ∨
    (b = true ∧ ∃ C, s.colliders.get ch = some C ∧ (∀ h, eh = some h → ∃ E, s.entities.get h = some E) ∧
      s' = { s with colliders := s.colliders.set ch (C.setEntity eh), entities := s'.entities } ∧
      Arena.SameShape s'.entities s.entities ∧
      ∀ k F, s.entities.get k = some F → ∃ F', s'.entities.get k = some F' ∧
        ((eh ≠ some k → C.entity ≠ some k → F' = F) ∧
         (eh = some k → recalculateMass (ord.colliders k (hsInsert F.colliders ch)) (s.colliders.set ch (C.setEntity eh))
            { F with colliders := hsInsert F.colliders ch } = .ok F') ∧
         (eh ≠ some k → C.entity = some k →
            recalculateMass (ord.colliders k (hsRemove F.colliders ch)) (s.colliders.set ch (C.setEntity eh))
            { F with colliders := hsRemove F.colliders ch } = .ok F'))) := by
  unfold linkCollider at hh
  split at hh
  · rename_i hc
    cases hh
    refine Or.inl ⟨rfl, rfl, Or.inl ?_⟩
    simpa [Arena.contains] using hc
  · rename_i hc
    have hc : ∃ C, s.colliders.get ch = some C := by
      simp only [Bool.not_eq_true', Bool.not_eq_false, Arena.contains] at hc
      exact Option.isSome_iff_exists.mp hc
    obtain ⟨C, hC⟩ := hc
    have hsame : ∀ l, MassSame (s.colliders.set ch (C.setEntity eh)) s.colliders l := by
      intro l d _
      rw [Arena.get_set]
      split
      · rename_i hd; subst hd; rw [hC]; simp [Collider.massData]
      · rfl
    -- the second part, from a state with the same colliders
    have key : ∀ (m : System α γ), m.colliders = s.colliders → switchLink ord m ch eh = .ok (s', b) →
        b = true ∧ s' = { m with colliders := s.colliders.set ch (C.setEntity eh), entities := s'.entities } ∧
        Arena.SameShape s'.entities m.entities ∧
        ∀ k F, m.entities.get k = some F → ∃ F', s'.entities.get k = some F' ∧
          ((C.entity ≠ some k ∨ C.entity = eh → F' = F) ∧
           (C.entity ≠ eh → C.entity = some k →
            recalculateMass (ord.colliders k (hsRemove F.colliders ch)) (s.colliders.set ch (C.setEntity eh))
            { F with colliders := hsRemove F.colliders ch } = .ok F')) := by
      intro m hm hsw
      unfold switchLink at hsw
      rw [hm, hC] at hsw
      simp only at hsw
      split at hsw
      · rename_i hne
        obtain ⟨m', hu, hsw⟩ := Res.bind_eq_ok.mp hsw
        cases hsw
        rcases unlinkPrior_spec hu with ⟨rfl, hno⟩ | ⟨ph, P, P', hpe, hP, hr, rfl⟩
        · refine ⟨rfl, rfl, .refl _, fun k F hF => ⟨F, hF, fun _ => rfl, ?_⟩⟩
          intro _ hk
          have := hno k hk
          simp only at this
          rw [this] at hF; cases hF
        · refine ⟨rfl, rfl, Arena.sameShape_set _ _ _, ?_⟩
          intro k F hF
          simp only at hP hr ⊢
          by_cases hk : k = ph
          · subst hk
            rw [hP] at hF; cases hF
            refine ⟨P', Arena.get_set_self hP _, ?_, fun _ _ => hr⟩
            rintro (h | h)
            · exact absurd hpe h
            · exact absurd h hne
          · refine ⟨F, by rw [Arena.get_set_ne hk, hF], fun _ => rfl, ?_⟩
            intro _ hk'; rw [hpe] at hk'; cases hk'; exact absurd rfl hk
      · rename_i heq
        simp only [ne_eq, Decidable.not_not] at heq
        cases hsw
        exact ⟨rfl, rfl, .refl _, fun k F hF => ⟨F, hF, fun _ => rfl, fun h => absurd heq h⟩⟩
    split at hh
    · obtain ⟨h1, h2, h3, h4⟩ := key s rfl hh
      refine Or.inr ⟨h1, C, hC, by simp, h2, h3, fun k F hF => ?_⟩
      obtain ⟨F', hF', a, b⟩ := h4 k F hF
      refine ⟨F', hF', fun _ h => a (Or.inl h), by simp, fun _ h => b (by rw [h]; simp) h⟩
    · rename_i h
      split at hh
      · rename_i hE
        cases hh
        exact Or.inl ⟨rfl, rfl, Or.inr ⟨h, rfl, hE⟩⟩
      · rename_i E hE
        obtain ⟨E1, hr, hh⟩ := Res.bind_eq_ok.mp hh
        obtain ⟨h1, h2, h3, h4⟩ := key { s with entities := s.entities.set h E1 } rfl hh
        have hr' := hr
        rw [recalculateMass_congr _ (hsame _)] at hr'
        refine Or.inr ⟨h1, C, hC, ?_, h2, h3.trans (Arena.sameShape_set _ _ _), fun k F hF => ?_⟩
        · rintro _ ⟨⟩; exact ⟨E, hE⟩
        · by_cases hk : k = h
          · subst hk
            rw [hE] at hF; cases hF
            obtain ⟨F', hF', a, b⟩ := h4 k E1 (Arena.get_set_self hE _)
            refine ⟨F', hF', ?_, ?_, ?_⟩
            · intro h; exact absurd rfl h
            · intro _
              have : F' = E1 := by
                apply a
                by_cases hce : C.entity = some k
                · exact Or.inr hce
                · exact Or.inl hce
              rw [this]; exact hr'
            · intro h; exact absurd rfl h
          · obtain ⟨F', hF', a, b⟩ := h4 k F (by simp only; rw [Arena.get_set_ne hk, hF])
            refine ⟨F', hF', fun _ h => a (Or.inl h), ?_, ?_⟩
            · rintro ⟨⟩; exact absurd rfl hk
            · intro _ hce
              refine b ?_ hce
              rw [hce]; rintro ⟨⟩; exact hk rfl

theorem linkCollider_inv {ord : IterOrder} {s s' : System α γ} {ch : Handle} {eh : Option Handle} {b : Bool}
    (inv : Inv s) (hh : s.linkCollider ord ch eh = .ok (s', b)) : Inv s' := by
  rcases linkCollider_spec inv hh with ⟨-, rfl, -⟩ | ⟨-, C, hC, hlive, hs', hshape, hev⟩
  · exact inv
  · have hcs : s'.colliders = s.colliders.set ch (C.setEntity eh) := by rw [hs']
    have hgs : s'.generators = s.generators := by rw [hs']
    have hg : ∀ k, s'.colliders.get k = if k = ch then some (C.setEntity eh) else s.colliders.get k := by
      intro k; rw [hcs, Arena.get_set, hC]; rfl
    have hget : ∀ k F', s'.entities.get k = some F' → ∃ F, s.entities.get k = some F := by
      intro k F' hF'
      have := hshape.isSome k
      rw [hF'] at this
      exact Option.isSome_iff_exists.mp this.symm
    -- the collider sets
    have hset : ∀ k F F', s.entities.get k = some F → s'.entities.get k = some F' →
        (∀ c, c ∈ F'.colliders ↔ if c = ch then eh = some k else c ∈ F.colliders) ∧ F'.colliders.Nodup ∧
        F'.neighbors = F.neighbors := by
      intro k F F' hF hF'
      obtain ⟨F'', hF'', h1, h2, h3⟩ := hev k F hF
      rw [hF'] at hF''; cases hF''
      have hl := inv.links k F ch hF
      have hnd := (inv.nodup k F hF).1
      by_cases ha : eh = some k
      · have hm := recalculateMass_massRel (h2 ha)
        have hc := hm.colliders
        simp only at hc
        refine ⟨fun c => ?_, by rw [hc]; exact nodup_hsInsert hnd _, hm.neighbors⟩
        rw [hc, mem_hsInsert]
        by_cases hcc : c = ch <;> simp [hcc, ha]
      · by_cases hb : C.entity = some k
        · have hm := recalculateMass_massRel (h3 ha hb)
          have hc := hm.colliders
          simp only at hc
          refine ⟨fun c => ?_, by rw [hc]; exact nodup_hsRemove hnd _, hm.neighbors⟩
          rw [hc, mem_hsRemove]
          by_cases hcc : c = ch <;> simp [hcc, ha]
        · cases h1 ha hb
          refine ⟨fun c => ?_, hnd, rfl⟩
          by_cases hcc : c = ch
          · subst hcc
            simp only [if_true, ha, iff_false]
            rw [hl]
            rintro ⟨C', hC', he'⟩
            rw [hC] at hC'; cases hC'; exact hb he'
          · simp [hcc]
    refine ⟨hshape.wf inv.wfE, by rw [hcs]; exact Arena.wf_set inv.wfC _ _, by rw [hgs]; exact inv.wfG, ?_, ?_, ?_, ?_⟩
    · intro k F' c hF'
      obtain ⟨F, hF⟩ := hget k F' hF'
      rw [(hset k F F' hF hF').1, hg]
      split
      · constructor
        · intro h; exact ⟨_, rfl, by rw [Collider.entity_setEntity, h]⟩
        · rintro ⟨D, hD, he⟩; cases hD; rw [Collider.entity_setEntity] at he; exact he
      · exact inv.links k F c hF
    · intro c D k hD hDe
      rw [hg] at hD
      have : ∃ F, s.entities.get k = some F := by
        split at hD
        · cases hD; rw [Collider.entity_setEntity] at hDe; exact hlive k hDe
        · exact inv.linkLive c D k hD hDe
      obtain ⟨F, hF⟩ := this
      obtain ⟨F', hF', -⟩ := hev k F hF
      exact ⟨F', hF'⟩
    · intro k F' hF'
      obtain ⟨F, hF⟩ := hget k F' hF'
      have := hset k F F' hF hF'
      exact ⟨this.2.1, by rw [this.2.2]; exact (inv.nodup k F hF).2⟩
    · intro k F' hF'
      obtain ⟨F, hF⟩ := hget k F' hF'
      obtain ⟨F'', hF'', h1, h2, h3⟩ := hev k F hF
      rw [hF'] at hF''; cases hF''
      rw [hcs]
      by_cases ha : eh = some k
      · exact Computed.of_recalc (e := { F with colliders := hsInsert F.colliders ch }) (h2 ha)
      · by_cases hb : C.entity = some k
        · exact Computed.of_recalc (e := { F with colliders := hsRemove F.colliders ch }) (h3 ha hb)
        · cases h1 ha hb
          refine (inv.mass k F' hF).same ?_
          intro d _
          rw [Arena.get_set]
          split
          · rename_i hd; subst hd; rw [hC]; simp [Collider.massData]
          · rfl

/-! ### step -/

variable [ForceGenerator α γ]

theorem wakeColliding_nodup {ord : IterOrder} {best : Option (Candidate α)} {w w' : World α}
    (hh : wakeColliding ord best w = .ok w') (hn : ∀ k e, w.entities.get k = some e → e.neighbors.Nodup) :
    ∀ k e, w'.entities.get k = some e → e.neighbors.Nodup := by
  have one : ∀ {h : Handle} {w w' : World α}, wakeIfFinite ord h w = .ok w' →
      (∀ k e, w.entities.get k = some e → e.neighbors.Nodup) →
      ∀ k e, w'.entities.get k = some e → e.neighbors.Nodup := by
    intro h w w' hh hn
    obtain ⟨e, -, (⟨-, rfl⟩ | ⟨-, b, d, hr, rfl⟩)⟩ := wakeIfFinite_spec hh
    · exact hn
    · exact wakeUp_nodup hr hn
  unfold wakeColliding at hh
  split at hh
  · cases hh; exact hn
  · obtain ⟨m, h1, h2⟩ := Res.bind_eq_ok.mp hh
    exact one h2 (one h1 hn)

theorem moved_neighbors (p : α) (i : StepInfo α) (e : InternalEntity α) : (moved p i e).neighbors = e.neighbors := by
  unfold moved; split <;> rfl

theorem advance_neighbors {best : Option (Candidate α)} {st st' : LoopState α}
    (hnd : (st.infos.map StepInfo.handle).Nodup) (hh : advance best st = .ok st') :
    ∀ k e', st'.world.entities.get k = some e' → ∃ e, st.world.entities.get k = some e ∧ e'.neighbors = e.neighbors := by
  obtain ⟨-, -, h3, h4⟩ := advance_spec hnd hh
  intro k e' he'
  by_cases hk : k ∈ st.infos.map StepInfo.handle
  · obtain ⟨i, hi, rfl⟩ := List.mem_map.mp hk
    obtain ⟨e, he, he2⟩ := h4 i hi
    rw [he'] at he2; cases he2
    exact ⟨e, he, moved_neighbors _ _ _⟩
  · rw [h3 k hk] at he'
    exact ⟨e', he', rfl⟩

theorem respond_neighbors {dt : α} {c : Candidate α} {st st' : LoopState α} (hh : respond dt c st = .ok st') :
    ∀ k e', st'.world.entities.get k = some e' → ∃ e, st.world.entities.get k = some e ∧ e'.neighbors = e.neighbors := by
  obtain ⟨first, second, i1, i2, hne, hf, hs, -, -, rfl⟩ := respond_spec hh
  intro k e' he'
  obtain ⟨e, he, hr⟩ := (respond_evolves hne hf hs (respondPair_first c (st.currentPercent * dt) st.timeLeft first
    second i1 i2) (respondPair_second c (st.currentPercent * dt) st.timeLeft first second i1 i2)).get' he'
  exact ⟨e, he, by rw [hr]⟩

theorem step_neighbors_nodup {ord : IterOrder} {s s' : System α γ} {dt : α} (hh : s.step ord dt = .ok s')
    (hn : ∀ k e, s.entities.get k = some e → e.neighbors.Nodup) :
    ∀ k e, s'.entities.get k = some e → e.neighbors.Nodup := by
  cases hdt : Scalar.lt (Scalar.abs dt) EPSILON with
  | true =>
    unfold System.step at hh
    rw [if_pos hdt] at hh; cases hh
    exact hn
  | false =>
    obtain ⟨p⟩ := step_phases hdt hh
    obtain ⟨-, -, k3, -, -, -⟩ := integrateAll_spec (Arena.handles_nodup _) p.integrate
    have hmid : ∀ k e, p.mid.entities.get k = some e → e.neighbors.Nodup := by
      intro k e he
      obtain ⟨x, hx, hr⟩ := k3.get' he
      rw [hr]; exact hn k x hx
    have hfin : ∀ k e, p.final.world.entities.get k = some e → e.neighbors.Nodup := by
      have := iterate_induct (P := fun st => LoopInv s.toWorld s.entities.handles st ∧
          ∀ k e, st.world.entities.get k = some e → e.neighbors.Nodup) (ord := ord) (dt := dt) ?_
          ⟨p.inv0, hmid⟩ p.iterate
      · exact this.2
      · intro st best w st1 hP h1 h2 h3
        obtain ⟨b1, b2⟩ := loopInv_body (dt := dt) (Arena.handles_nodup _) hP.1 h1 h2 h3
        have hnd : (st.infos.map StepInfo.handle).Nodup := by rw [hP.1.handles]; exact Arena.handles_nodup _
        have n1 : ∀ k e, st1.world.entities.get k = some e → e.neighbors.Nodup := by
          intro k e he
          obtain ⟨x, hx, hr⟩ := advance_neighbors (st := { st with world := w }) hnd h3 k e he
          rw [hr]; exact wakeColliding_nodup h2 hP.2 k x hx
        refine ⟨fun _ => ⟨b1, n1⟩, fun k st2 hk h4 => ⟨b2 k st2 hk h4, ?_⟩⟩
        intro k e he
        obtain ⟨x, hx, hr⟩ := respond_neighbors h4 k e he
        rw [hr]; exact n1 k x hx
    have hsl : ∀ {l : List (StepInfo α)} {w w' : World α}, (∀ i ∈ l, i.handle ∉ i.neighbors ∧ i.neighbors.Nodup) →
        sleepLoop ord dt l w = .ok w' → (∀ k e, w.entities.get k = some e → e.neighbors.Nodup) →
        ∀ k e, w'.entities.get k = some e → e.neighbors.Nodup := by
      intro l
      induction l with
      | nil => intro w w' _ hh hn; unfold sleepLoop at hh; cases hh; exact hn
      | cons i l ih =>
        intro w w' hl hh hn
        unfold sleepLoop at hh
        obtain ⟨m, h1, hh⟩ := Res.bind_eq_ok.mp hh
        refine ih (fun j hj => hl j (by simp [hj])) hh ?_
        obtain ⟨-, hshape, ⟨e, e', he, he', hr, g1, g2, ho⟩, -⟩ := sleepOne_spec (hl i (by simp)).1 h1
        intro k y hy
        have := hshape.isSome k
        rw [hy] at this
        obtain ⟨x, hx⟩ := Option.isSome_iff_exists.mp this.symm
        by_cases hk : k = i.handle
        · subst hk
          rw [he] at hx; rw [he'] at hy; cases hx; cases hy
          cases ha : e.asleep with
          | true => rw [g2 (Or.inl ha)]; exact hn _ _ he
          | false =>
            cases hb : e'.asleep with
            | true => rw [g1 ha hb]; exact (hl i (by simp)).2
            | false => rw [g2 (Or.inr hb)]; exact hn _ _ he
        · rw [(ho k x y hk hx hy).2]
          split
          · exact nodup_hsInsert (hn k x hx) _
          · exact hn k x hx
    refine hsl (fun i hi => ⟨p.selfless i hi, (p.inv.neighbors i hi).1⟩) p.sleep ?_
    split
    · exact hfin
    · exact hfin

theorem step_inv {ord : IterOrder} {s s' : System α γ} {dt : α} (inv : Inv s) (hh : s.step ord dt = .ok s') :
    Inv s' := by
  obtain ⟨f, g⟩ := step_frame hh
  exact inv.of_static (step_carries hh) f.colliders (g.wf inv.wfG)
    (step_neighbors_nodup hh (fun k e he => (inv.nodup k e he).2))

/-! ### All calls -/

theorem exec_inv {ord : IterOrder} {s s' : System α γ} {op : Op α γ} {out : Out γ} (inv : Inv s)
    (hh : s.exec ord op = .ok (s', out)) : Inv s' := by
  cases op with
  | addEntity e => simp only [exec] at hh; cases hh; exact addEntity_inv inv e
  | removeEntity h =>
    simp only [exec] at hh
    obtain ⟨r, hr, hh⟩ := Res.bind_eq_ok.mp hh
    cases hh; exact removeEntity_inv inv hr
  | updateEntity h e =>
    simp only [exec] at hh
    obtain ⟨r, hr, hh⟩ := Res.bind_eq_ok.mp hh
    cases hh; exact updateEntity_inv inv hr
  | addCollider c => simp only [exec] at hh; cases hh; exact addCollider_inv inv c
  | removeCollider h =>
    simp only [exec] at hh
    obtain ⟨r, hr, hh⟩ := Res.bind_eq_ok.mp hh
    cases hh; exact removeCollider_inv inv hr
  | updateCollider h c =>
    simp only [exec] at hh
    obtain ⟨r, hr, hh⟩ := Res.bind_eq_ok.mp hh
    cases hh; exact updateCollider_inv inv hr
  | linkCollider c e =>
    simp only [exec] at hh
    obtain ⟨r, hr, hh⟩ := Res.bind_eq_ok.mp hh
    cases hh; exact linkCollider_inv inv hr
  | addGenerator g =>
    simp only [exec] at hh; cases hh
    exact ⟨inv.wfE, inv.wfC, Arena.wf_insert inv.wfG g, inv.links, inv.linkLive, inv.nodup, inv.mass⟩
  | removeGenerator h =>
    simp only [exec] at hh; cases hh
    exact ⟨inv.wfE, inv.wfC, Arena.wf_remove inv.wfG h, inv.links, inv.linkLive, inv.nodup, inv.mass⟩
  | step dt =>
    simp only [exec] at hh
    obtain ⟨r, hr, hh⟩ := Res.bind_eq_ok.mp hh
    cases hh; exact step_inv inv hr
  | configure n e t rs d =>
    simp only [exec] at hh; cases hh
    exact ⟨inv.wfE, inv.wfC, inv.wfG, inv.links, inv.linkLive, inv.nodup, inv.mass⟩

theorem steps_inv {s s' : System α γ} {tr : List (Op α γ × Out γ)} (inv : Inv s) (h : Steps s tr s') : Inv s' := by
  induction h with
  | nil => exact inv
  | snoc ord op out _ hx ih => exact exec_inv ih hx

end System

theorem Reachable.inv [ForceGenerator α γ] {s : System α γ} (h : Reachable s) : System.Inv s := by
  obtain ⟨tr, h⟩ := h
  exact System.steps_inv System.inv_new h

end Fluffy
