import Verif.Proofs.History
/- Where the stored colliders and own masses come from. -/
set_option linter.unusedSectionVars false
set_option linter.unusedSimpArgs false
namespace Fluffy.System
open InternalEntity Step
variable {α : Type} [Scalar α] {γ : Type} [ForceGenerator α γ]

/-- How a collider that is stored after a call came to be stored. -/
inductive ColliderOrigin (s : System α γ) (op : Op α γ) (k : Handle) (c' : Collider α) : Prop
  | same (h : s.colliders.get k = some c')
  | linked (c : Collider α) (t : Option Handle) (h : s.colliders.get k = some c) (h' : c' = c.setEntity t)
  | added (src : Collider α) (h : op = .addCollider src) (h' : src.newFrom = some c')
  | updated (src c : Collider α) (h : op = .updateCollider k src) (hc : s.colliders.get k = some c)
      (h' : c.updateFrom src = .updated c')

theorem exec_colliders {ord : IterOrder} {s s' : System α γ} {op : Op α γ} {out : Out γ} (inv : Inv s)
    (hh : s.exec ord op = .ok (s', out)) {k : Handle} {c' : Collider α} (hk : s'.colliders.get k = some c') :
    ColliderOrigin s op k c' := by
  cases op with
  | addEntity e =>
    simp only [exec] at hh; cases hh
    cases h : InternalEntity.newFrom e with
    | none => rw [addEntity_none h] at hk; exact .same hk
    | some x => rw [addEntity_some h] at hk; exact .same hk
  | removeEntity h =>
    simp only [exec] at hh
    obtain ⟨⟨m, b⟩, hr, hh⟩ := Res.bind_eq_ok.mp hh
    cases hh
    cases hE : s.entities.get h with
    | none => rw [removeEntity_none hE] at hr; cases hr; exact .same hk
    | some E =>
      rw [removeEntity_some inv hE] at hr
      cases hr
      simp only [get_removeAll] at hk
      split at hk
      · cases hk
      · exact .same hk
  | updateEntity h e =>
    simp only [exec] at hh
    obtain ⟨⟨m, b⟩, hr, hh⟩ := Res.bind_eq_ok.mp hh
    cases hh
    obtain ⟨h1, h2, h3⟩ := updateEntity_shape hr
    rw [h2] at hk; exact .same hk
  | addCollider c =>
    simp only [exec] at hh; cases hh
    cases h : c.newFrom with
    | none => rw [addCollider_none h] at hk; exact .same hk
    | some x =>
      rw [addCollider_some h] at hk
      simp only [Arena.get_insert inv.wfC] at hk
      split at hk
      · cases hk; exact .added c rfl h
      · exact .same hk
  | removeCollider h =>
    simp only [exec] at hh
    obtain ⟨m, hr, hh⟩ := Res.bind_eq_ok.mp hh
    cases hh
    have := removeCollider_ok hr
    subst this
    simp only [Arena.get_remove] at hk
    split at hk
    · cases hk
    · exact .same hk
  | updateCollider h c =>
    simp only [exec] at hh
    obtain ⟨⟨m, b⟩, hr, hh⟩ := Res.bind_eq_ok.mp hh
    cases hh
    rcases updateCollider_spec hr with ⟨-, rfl, -⟩ | ⟨-, C, hC, hu, hr⟩ | ⟨-, C, C', hC, hu, hr⟩
    · exact .same hk
    · obtain ⟨h1, h2, h3⟩ := refreshEntity_shape hr
      rw [h2] at hk; exact .same hk
    · obtain ⟨h1, h2, h3⟩ := refreshEntity_shape hr
      rw [h2] at hk
      simp only [Arena.get_set] at hk
      split at hk
      · rename_i hkh
        subst hkh
        rw [hC] at hk; cases hk
        exact .updated c C rfl hC hu
      · exact .same hk
  | linkCollider c e =>
    simp only [exec] at hh
    obtain ⟨⟨m, b⟩, hr, hh⟩ := Res.bind_eq_ok.mp hh
    cases hh
    rcases linkCollider_spec inv hr with ⟨-, rfl, -⟩ | ⟨-, C, hC, -, hs', hshape, -⟩
    · exact .same hk
    · rw [hs'] at hk
      simp only [Arena.get_set] at hk
      split at hk
      · rename_i hkh
        subst hkh
        rw [hC] at hk; cases hk
        exact .linked C e hC rfl
      · exact .same hk
  | addGenerator g => simp only [exec] at hh; cases hh; exact .same hk
  | removeGenerator h => simp only [exec] at hh; cases hh; exact .same hk
  | step dt =>
    simp only [exec] at hh
    obtain ⟨m, hr, hh⟩ := Res.bind_eq_ok.mp hh
    cases hh
    rw [(step_frame hr).1.colliders] at hk
    exact .same hk
  | configure n e t rs d => simp only [exec] at hh; cases hh; exact .same hk

/-- The collider a call hands over, if any, has the property. -/
def GivesColliders (Q : Collider α → Prop) : Op α γ → Prop
  | .addCollider c => Q c
  | .updateCollider _ c => Q c
  | _ => True

/-- A property of the stored colliders that every call establishes and keeps. -/
theorem steps_colliders {Q P : Collider α → Prop} (hn : ∀ c d : Collider α, Q c → c.newFrom = some d → P d)
    (hu : ∀ c d r : Collider α, Q d → c.updateFrom d = .updated r → P r) (hs : ∀ c t, P c → P (c.setEntity t))
    {s : System α γ} {tr : List (Op α γ × Out γ)} (h : Steps new tr s) (hq : ∀ x ∈ tr, GivesColliders Q x.1) :
    ∀ k c, s.colliders.get k = some c → P c := by
  induction h with
  | nil => intro k c h; simp [new, Arena.get_new] at h
  | snoc ord op out hst hx ih =>
    intro k c hk
    have ih := ih (fun x hxm => hq x (by simp [hxm]))
    have hop := hq (op, out) (by simp)
    rcases exec_colliders (steps_inv inv_new hst) hx hk with h | ⟨d, t, h, rfl⟩ | ⟨src, rfl, h'⟩ | ⟨src, d, rfl, hc, h'⟩
    · exact ih k c h
    · exact hs d t (ih k d h)
    · exact hn src c hop h'
    · exact hu d src c hop h'

/-- How an entity that is stored after a call came to be what it is. -/
inductive EntityOrigin (s s' : System α γ) (op : Op α γ) (k : Handle) (E' : InternalEntity α) : Prop
  /-- nothing happened to its mass data; outside steps nothing but waking up happened to it -/
  | carried (E : InternalEntity α) (hE : s.entities.get k = some E) (h : Carries E E') (hc : (∃ dt, op = .step dt) ∨ WakeRel E E')
  | added (e : Entity α) (h : op = .addEntity e) (h' : InternalEntity.newFrom e = some E')
  /-- one of its colliders was linked, unlinked or updated -/
  | recalculated (E : InternalEntity α) (cols order : List Handle) (hE : s.entities.get k = some E)
      (hp : order.Perm cols) (h : recalculateMass order s'.colliders { E with colliders := cols } = .ok E')
  | updated (e : Entity α) (E E1 E2 : InternalEntity α) (w : Bool) (order : List Handle)
      (h : op = .updateEntity k e) (hE : s.entities.get k = some E) (hu : E.updateFrom e = some (E1, w))
      (hp : order.Perm E1.colliders) (hr : recalculateMass order s'.colliders E1 = .ok E2) (hw : WakeRel E2 E')

theorem exec_entities {ord : IterOrder} {s s' : System α γ} {op : Op α γ} {out : Out γ} (inv : Inv s)
    (hh : s.exec ord op = .ok (s', out)) {k : Handle} {E' : InternalEntity α} (hk : s'.entities.get k = some E') :
    EntityOrigin s s' op k E' := by
  cases op with
  | addEntity e =>
    simp only [exec] at hh; cases hh
    cases h : InternalEntity.newFrom e with
    | none => rw [addEntity_none h] at hk; exact .carried E' hk (.refl _) (Or.inr (.refl _))
    | some x =>
      rw [addEntity_some h] at hk
      simp only [Arena.get_insert inv.wfE] at hk
      split at hk
      · cases hk
        exact .added e rfl h
      · exact .carried E' hk (.refl _) (Or.inr (.refl _))
  | removeEntity h =>
    simp only [exec] at hh
    obtain ⟨⟨m, b⟩, hr, hh⟩ := Res.bind_eq_ok.mp hh
    cases hh
    cases hE : s.entities.get h with
    | none => rw [removeEntity_none hE] at hr; cases hr; exact .carried E' hk (.refl _) (Or.inr (.refl _))
    | some E =>
      rw [removeEntity_some inv hE] at hr
      cases hr
      simp only [Arena.get_remove] at hk
      split at hk
      · cases hk
      · exact .carried E' hk (.refl _) (Or.inr (.refl _))
  | updateEntity h e =>
    simp only [exec] at hh
    obtain ⟨⟨m, b⟩, hr, hh⟩ := Res.bind_eq_ok.mp hh
    cases hh
    rcases updateEntity_spec hr with ⟨-, rfl, -⟩ | ⟨-, E, E1, E2, w, hE, hu, hm, hw⟩
    · exact .carried E' hk (.refl _) (Or.inr (.refl _))
    · have key : ∀ F, (s.entities.set h E2).get k = some F → (k ≠ h ∧ s.entities.get k = some F) ∨ (k = h ∧ F = E2) := by
        intro F hF
        rw [Arena.get_set] at hF
        split at hF
        · rename_i hkh; rw [hE] at hF; cases hF; exact Or.inr ⟨hkh, rfl⟩
        · rename_i hkh; exact Or.inl ⟨hkh, hF⟩
      rcases hw with ⟨-, rfl⟩ | ⟨-, a, d, hwk, rfl⟩
      · rcases key E' hk with ⟨-, h⟩ | ⟨rfl, rfl⟩
        · exact .carried E' h (.refl _) (Or.inr (.refl _))
        · exact .updated e E E1 E' w _ rfl hE hu (ord.colliders_perm _ _) hm rfl
      · obtain ⟨F, hF, hwr⟩ := (wakeUp_spec hwk).1.get' hk
        rcases key F hF with ⟨-, h⟩ | ⟨rfl, rfl⟩
        · exact .carried F h (.of_wake hwr) (Or.inr hwr)
        · exact .updated e E E1 F w _ rfl hE hu (ord.colliders_perm _ _) hm hwr
  | addCollider c =>
    simp only [exec] at hh; cases hh
    cases h : c.newFrom with
    | none => rw [addCollider_none h] at hk; exact .carried E' hk (.refl _) (Or.inr (.refl _))
    | some x => rw [addCollider_some h] at hk; exact .carried E' hk (.refl _) (Or.inr (.refl _))
  | removeCollider h =>
    simp only [exec] at hh
    obtain ⟨m, hr, hh⟩ := Res.bind_eq_ok.mp hh
    cases hh
    have := removeCollider_ok hr
    subst this
    exact .carried E' hk (.refl _) (Or.inr (.refl _))
  | updateCollider h c =>
    simp only [exec] at hh
    obtain ⟨⟨m, b⟩, hr, hh⟩ := Res.bind_eq_ok.mp hh
    cases hh
    have key : ∀ {s1 : System α γ} {eh}, s1.entities = s.entities → refreshEntity ord s1 eh = .ok m →
        EntityOrigin s m (.updateCollider h c) k E' := by
      intro s1 eh h1 hf
      rcases refreshEntity_spec hf with ⟨rfl, -⟩ | ⟨h, E, E2, -, hE, hm, rfl⟩
      · exact .carried E' (by rw [← h1]; exact hk) (.refl _) (Or.inr (.refl _))
      · simp only [Arena.get_set] at hk
        split at hk
        · rename_i hkh
          subst hkh
          rw [hE] at hk; cases hk
          exact .recalculated E E.colliders _ (by rw [← h1]; exact hE) (ord.colliders_perm k _) hm
        · exact .carried E' (by rw [← h1]; exact hk) (.refl _) (Or.inr (.refl _))
    rcases updateCollider_spec hr with ⟨-, rfl, -⟩ | ⟨-, C, hC, hu, hr⟩ | ⟨-, C, C', hC, hu, hr⟩
    · exact .carried E' hk (.refl _) (Or.inr (.refl _))
    · exact key rfl hr
    · exact key (s1 := { s with colliders := s.colliders.set h C' }) rfl hr
  | linkCollider c e =>
    simp only [exec] at hh
    obtain ⟨⟨m, b⟩, hr, hh⟩ := Res.bind_eq_ok.mp hh
    cases hh
    rcases linkCollider_spec inv hr with ⟨-, rfl, -⟩ | ⟨-, C, hC, -, hs', hshape, hev⟩
    · exact .carried E' hk (.refl _) (Or.inr (.refl _))
    · obtain ⟨F, hF⟩ : ∃ F, s.entities.get k = some F := by
        have := hshape.isSome k
        rw [hk] at this
        exact Option.isSome_iff_exists.mp this.symm
      obtain ⟨G, hG, hsame, hr⟩ := hev k F hF
      rw [hk] at hG; cases hG
      have hcol : m.colliders = s.colliders.set c (C.setEntity e) := by rw [hs']
      rw [← hcol] at hr
      by_cases h1 : e = some k
      · exact .recalculated F _ _ hF (ord.colliders_perm k _) (hr.1 h1)
      · by_cases h2 : C.entity = some k
        · exact .recalculated F _ _ hF (ord.colliders_perm k _) (hr.2 h1 h2)
        · rw [hsame h1 h2]; exact .carried F hF (.refl _) (Or.inr (.refl _))
  | addGenerator g => simp only [exec] at hh; cases hh; exact .carried E' hk (.refl _) (Or.inr (.refl _))
  | removeGenerator h => simp only [exec] at hh; cases hh; exact .carried E' hk (.refl _) (Or.inr (.refl _))
  | step dt =>
    simp only [exec] at hh
    obtain ⟨m, hr, hh⟩ := Res.bind_eq_ok.mp hh
    cases hh
    obtain ⟨E, hE, hr⟩ := (step_carries hr).get' hk
    exact .carried E hE hr (Or.inl ⟨dt, rfl⟩)
  | configure n e t rs d => simp only [exec] at hh; cases hh; exact .carried E' hk (.refl _) (Or.inr (.refl _))

/-- The calls on colliders. -/
def ColliderOp : Op α γ → Prop
  | .addCollider _ => True
  | .removeCollider _ => True
  | .updateCollider _ _ => True
  | .linkCollider _ _ => True
  | _ => False

/-- A call on colliders leaves an entity alone or recalculates its mass. -/
theorem exec_colliderOp {ord : IterOrder} {s s' : System α γ} {op : Op α γ} {out : Out γ} (inv : Inv s)
    (hop : ColliderOp op) (hh : s.exec ord op = .ok (s', out)) {k : Handle} {E' : InternalEntity α}
    (hk : s'.entities.get k = some E') :
    s.entities.get k = some E' ∨ ∃ E cols order, s.entities.get k = some E ∧ order.Perm cols ∧
      recalculateMass order s'.colliders { E with colliders := cols } = .ok E' := by
  cases op with
  | addCollider c =>
    simp only [exec] at hh; cases hh
    cases h : c.newFrom with
    | none => rw [addCollider_none h] at hk; exact Or.inl hk
    | some x => rw [addCollider_some h] at hk; exact Or.inl hk
  | removeCollider h =>
    simp only [exec] at hh
    obtain ⟨m, hr, hh⟩ := Res.bind_eq_ok.mp hh
    cases hh
    have := removeCollider_ok hr
    subst this
    exact Or.inl hk
  | updateCollider h c =>
    simp only [exec] at hh
    obtain ⟨⟨m, b⟩, hr, hh⟩ := Res.bind_eq_ok.mp hh
    cases hh
    have key : ∀ {s1 : System α γ} {eh}, s1.entities = s.entities → refreshEntity ord s1 eh = .ok m →
        s.entities.get k = some E' ∨ ∃ E cols order, s.entities.get k = some E ∧ order.Perm cols ∧
          recalculateMass order m.colliders { E with colliders := cols } = .ok E' := by
      intro s1 eh h1 hf
      rcases refreshEntity_spec hf with ⟨rfl, -⟩ | ⟨h, E, E2, -, hE, hm, rfl⟩
      · exact Or.inl (by rw [← h1]; exact hk)
      · simp only [Arena.get_set] at hk
        split at hk
        · rename_i hkh
          subst hkh
          rw [hE] at hk; cases hk
          exact Or.inr ⟨E, E.colliders, _, by rw [← h1]; exact hE, ord.colliders_perm k _, hm⟩
        · exact Or.inl (by rw [← h1]; exact hk)
    rcases updateCollider_spec hr with ⟨-, rfl, -⟩ | ⟨-, C, hC, hu, hr⟩ | ⟨-, C, C', hC, hu, hr⟩
    · exact Or.inl hk
    · exact key rfl hr
    · exact key (s1 := { s with colliders := s.colliders.set h C' }) rfl hr
  | linkCollider c e =>
    simp only [exec] at hh
    obtain ⟨⟨m, b⟩, hr, hh⟩ := Res.bind_eq_ok.mp hh
    cases hh
    rcases linkCollider_spec inv hr with ⟨-, rfl, -⟩ | ⟨-, C, hC, -, hs', hshape, hev⟩
    · exact Or.inl hk
    · obtain ⟨F, hF⟩ : ∃ F, s.entities.get k = some F := by
        have := hshape.isSome k
        rw [hk] at this
        exact Option.isSome_iff_exists.mp this.symm
      obtain ⟨G, hG, hsame, hr⟩ := hev k F hF
      rw [hk] at hG; cases hG
      have hcol : m.colliders = s.colliders.set c (C.setEntity e) := by rw [hs']
      rw [← hcol] at hr
      by_cases h1 : e = some k
      · exact Or.inr ⟨F, _, _, hF, ord.colliders_perm k _, hr.1 h1⟩
      · by_cases h2 : C.entity = some k
        · exact Or.inr ⟨F, _, _, hF, ord.colliders_perm k _, hr.2 h1 h2⟩
        · rw [hsame h1 h2]; exact Or.inl hF
  | addEntity e => cases hop
  | removeEntity h => cases hop
  | updateEntity h e => cases hop
  | addGenerator g => cases hop
  | removeGenerator h => cases hop
  | step dt => cases hop
  | configure n e t rs d => cases hop

/-- The call links to, unlinks from or updates the entity, or updates a collider linked to it. -/
def Touches (s : System α γ) (k : Handle) : Op α γ → Prop
  | .linkCollider c e => e = some k ∨ ∃ C, s.colliders.get c = some C ∧ C.entity = some k
  | .updateCollider c _ => ∃ C, s.colliders.get c = some C ∧ C.entity = some k
  | .updateEntity h _ => h = k
  | _ => False

/-- After such a call has succeeded the mass is freshly recalculated. -/
theorem exec_touched {ord : IterOrder} {s s' : System α γ} {op : Op α γ} (inv : Inv s) {k : Handle}
    (hop : Touches s k op) (hh : s.exec ord op = .ok (s', .ok true)) {E' : InternalEntity α}
    (hk : s'.entities.get k = some E') :
    ∃ F order E2, order.Perm F.colliders ∧ recalculateMass order s'.colliders F = .ok E2 ∧ WakeRel E2 E' := by
  cases op with
  | updateEntity h e =>
    have : h = k := hop
    subst this
    simp only [exec] at hh
    obtain ⟨⟨m, b⟩, hr, hh⟩ := Res.bind_eq_ok.mp hh
    cases hh
    rcases updateEntity_spec hr with ⟨hb, -⟩ | ⟨-, E, E1, E2, w, hE, hu, hm, hw⟩
    · cases hb
    · rcases hw with ⟨-, rfl⟩ | ⟨-, a, d, hwk, rfl⟩
      · simp only [Arena.get_set, if_true, hE] at hk
        cases hk
        exact ⟨E1, _, _, ord.colliders_perm _ _, hm, rfl⟩
      · obtain ⟨F, hF, hwr⟩ := (wakeUp_spec hwk).1.get' hk
        simp only [Arena.get_set, if_true, hE] at hF
        cases hF
        exact ⟨E1, _, _, ord.colliders_perm _ _, hm, hwr⟩
  | updateCollider h c =>
    obtain ⟨C, hC, hCk⟩ := hop
    simp only [exec] at hh
    obtain ⟨⟨m, b⟩, hr, hh⟩ := Res.bind_eq_ok.mp hh
    cases hh
    rcases updateCollider_spec hr with ⟨hb, -⟩ | ⟨hb, -⟩ | ⟨-, D, C', hD, hu, hr⟩
    · cases hb
    · cases hb
    · rw [hC] at hD; cases hD
      rcases refreshEntity_spec hr with ⟨rfl, hn⟩ | ⟨h, E, E2, he, hE, hm, rfl⟩
      · have := hn k hCk
        simp only at this hk
        rw [hk] at this; cases this
      · rw [hCk] at he; cases he
        simp only [Arena.get_set, if_true] at hk
        simp only at hE
        rw [hE] at hk; cases hk
        exact ⟨E, _, _, ord.colliders_perm _ _, hm, rfl⟩
  | linkCollider c e =>
    simp only [exec] at hh
    obtain ⟨⟨m, b⟩, hr, hh⟩ := Res.bind_eq_ok.mp hh
    cases hh
    rcases linkCollider_spec inv hr with ⟨hb, -⟩ | ⟨-, C, hC, -, hs', hshape, hev⟩
    · cases hb
    · obtain ⟨F, hF⟩ : ∃ F, s.entities.get k = some F := by
        have := hshape.isSome k
        rw [hk] at this
        exact Option.isSome_iff_exists.mp this.symm
      obtain ⟨G, hG, hsame, hr⟩ := hev k F hF
      rw [hk] at hG; cases hG
      have hcol : m.colliders = s.colliders.set c (C.setEntity e) := by rw [hs']
      rw [← hcol] at hr
      by_cases h1 : e = some k
      · exact ⟨_, _, E', ord.colliders_perm k _, hr.1 h1, rfl⟩
      · rcases hop with h | ⟨D, hD, h2⟩
        · exact absurd h h1
        · rw [hC] at hD; cases hD
          exact ⟨_, _, E', ord.colliders_perm k _, hr.2 h1 h2, rfl⟩
  | addCollider c => cases hop
  | removeCollider h => cases hop
  | addEntity e => cases hop
  | removeEntity h => cases hop
  | addGenerator g => cases hop
  | removeGenerator h => cases hop
  | step dt => cases hop
  | configure n e t rs d => cases hop

theorem exec_ownMass {ord : IterOrder} {s s' : System α γ} {op : Op α γ} {out : Out γ} (inv : Inv s)
    (hh : s.exec ord op = .ok (s', out)) {k : Handle} {E' : InternalEntity α} (hk : s'.entities.get k = some E') :
    (∃ E, s.entities.get k = some E ∧ E'.ownMass = E.ownMass) ∨
    (∃ e, (op = .addEntity e ∨ op = .updateEntity k e) ∧ Scalar.lt e.ownMass zero = false ∧ E'.ownMass = e.ownMass) := by
  rcases exec_entities inv hh hk with ⟨E, hE, h⟩ | ⟨e, rfl, h⟩ | ⟨E, cols, order, hE, hp, h⟩ |
    ⟨e, E, E1, E2, w, order, rfl, hE, hu, hp, hr, hw⟩
  · exact Or.inl ⟨E, hE, (staticRel_iff.mp h.1).2.1⟩
  · unfold InternalEntity.newFrom at h
    split at h
    · cases h
    · rename_i hm
      cases h
      exact Or.inr ⟨e, Or.inl rfl, by simpa using hm, rfl⟩
  · exact Or.inl ⟨E, hE, (recalculateMass_massRel h).ownMass⟩
  · obtain ⟨hl, -, hE1⟩ := updateFrom_fields hu
    refine Or.inr ⟨e, Or.inr rfl, hl, ?_⟩
    rw [hw, (recalculateMass_massRel hr), hE1]

/-- The entity a call hands over, if any, has the property. -/
def GivesEntities (Q : Entity α → Prop) : Op α γ → Prop
  | .addEntity e => Q e
  | .updateEntity _ e => Q e
  | _ => True

theorem steps_ownMass {P : α → Prop} {s : System α γ} {tr : List (Op α γ × Out γ)} (h : Steps new tr s)
    (hq : ∀ x ∈ tr, GivesEntities (fun e => Scalar.lt e.ownMass zero = false → P e.ownMass) x.1) :
    ∀ k E, s.entities.get k = some E → P E.ownMass := by
  induction h with
  | nil => intro k c h; simp [new, Arena.get_new] at h
  | snoc ord op out hst hx ih =>
    intro k c hk
    have ih := ih (fun x hxm => hq x (by simp [hxm]))
    have hop := hq (op, out) (by simp)
    rcases exec_ownMass (steps_inv inv_new hst) hx hk with ⟨E, hE, h⟩ | ⟨e, rfl | rfl, hl, h⟩
    · rw [h]; exact ih k E hE
    · rw [h]; exact hop hl
    · rw [h]; exact hop hl

end Fluffy.System
