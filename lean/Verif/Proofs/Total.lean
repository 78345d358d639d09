import Verif.Proofs.History
/- The calls that cannot panic in a reachable state. -/
set_option linter.unusedSectionVars false
set_option linter.unusedSimpArgs false
namespace Fluffy.System
open InternalEntity Step
variable {α : Type} [Scalar α] {γ : Type}

theorem refreshEntity_total {s : System α γ} (ord : IterOrder) (eh : Option Handle)
    (hl : ∀ h E, eh = some h → s.entities.get h = some E → ∀ c ∈ E.colliders, ∃ C, s.colliders.get c = some C) :
    ∃ s', refreshEntity ord s eh = .ok s' := by
  unfold refreshEntity
  split
  · exact ⟨_, rfl⟩
  · rename_i h
    split
    · exact ⟨_, rfl⟩
    · rename_i E hE
      obtain ⟨E', hr⟩ := recalculateMass_ok (order := ord.colliders h E.colliders) (cs := s.colliders) E (by
        intro c hc
        exact hl h E rfl hE c ((ord.colliders_perm _ _).mem_iff.mp hc))
      rw [hr]
      exact ⟨_, rfl⟩

theorem Inv.live {s : System α γ} (inv : Inv s) {h : Handle} {E : InternalEntity α} (hE : s.entities.get h = some E) :
    ∀ c ∈ E.colliders, ∃ C, s.colliders.get c = some C := by
  intro c hc
  obtain ⟨C, hC, -⟩ := (inv.links h E c hE).mp hc
  exact ⟨C, hC⟩

theorem updateCollider_total {s : System α γ} (inv : Inv s) (ord : IterOrder) (h : Handle) (src : Collider α) :
    ∃ r, s.updateCollider ord h src = .ok r := by
  unfold updateCollider
  split
  · exact ⟨_, rfl⟩
  · rename_i C hC
    split
    · exact ⟨_, rfl⟩
    · obtain ⟨s', hs'⟩ := refreshEntity_total (s := s) ord C.entity (fun k E _ hE => inv.live hE)
      rw [hs']
      exact ⟨_, rfl⟩
    · rename_i C' hu
      obtain ⟨s', hs'⟩ := refreshEntity_total (s := { s with colliders := s.colliders.set h C' }) ord C.entity (by
        intro k E _ hE c hc
        obtain ⟨D, hD⟩ := inv.live hE c hc
        simp only
        rw [Arena.get_set]
        split
        · exact ⟨C', by rw [hC]; rfl⟩
        · exact ⟨D, hD⟩)
      rw [hs']
      exact ⟨_, rfl⟩

theorem unlinkPrior_total {s : System α γ} (ord : IterOrder) (ch : Handle) (prior : Option Handle)
    (hl : ∀ h E, prior = some h → s.entities.get h = some E → ∀ c ∈ E.colliders, ∃ C, s.colliders.get c = some C) :
    ∃ s', unlinkPrior ord s ch prior = .ok s' := by
  unfold unlinkPrior
  split
  · exact ⟨_, rfl⟩
  · rename_i h
    split
    · exact ⟨_, rfl⟩
    · rename_i E hE
      obtain ⟨E', hr⟩ := recalculateMass_ok (order := ord.colliders h (hsRemove E.colliders ch)) (cs := s.colliders)
        { E with colliders := hsRemove E.colliders ch } (by
        intro c hc
        rw [(ord.colliders_perm _ _).mem_iff, mem_hsRemove] at hc
        exact hl h E rfl hE c hc.1)
      simp only [hr]
      exact ⟨_, rfl⟩

theorem linkCollider_total {s : System α γ} (inv : Inv s) (ord : IterOrder) (ch : Handle) (eh : Option Handle) :
    ∃ r, s.linkCollider ord ch eh = .ok r := by
  have hsw : ∀ (m : System α γ) (t : Option Handle), m.colliders = s.colliders →
      (∀ h E, m.entities.get h = some E → ∀ c ∈ E.colliders, ∃ C, s.colliders.get c = some C) →
      ∃ r, switchLink ord m ch t = .ok r := by
    intro m t hm hl
    unfold switchLink
    split
    · exact ⟨_, rfl⟩
    · rename_i C hC
      simp only
      split
      · obtain ⟨s', hs'⟩ := unlinkPrior_total (s := { m with colliders := m.colliders.set ch (C.setEntity t) }) ord ch
          C.entity (by
          intro h E _ hE c hc
          obtain ⟨D, hD⟩ := hl h E hE c hc
          simp only
          rw [Arena.get_set]
          split
          · exact ⟨_, by rw [hC]; rfl⟩
          · exact ⟨D, by rw [hm]; exact hD⟩)
        rw [hs']
        exact ⟨_, rfl⟩
      · exact ⟨_, rfl⟩
  unfold linkCollider
  split
  · exact ⟨_, rfl⟩
  · rename_i hc
    have hc : ∃ C, s.colliders.get ch = some C := by
      simp only [Bool.not_eq_true', Bool.not_eq_false, Arena.contains] at hc
      exact Option.isSome_iff_exists.mp hc
    split
    · exact hsw s none rfl (fun h E hE => inv.live hE)
    · rename_i h
      split
      · exact ⟨_, rfl⟩
      · rename_i E hE
        have hlive : ∀ c ∈ hsInsert E.colliders ch, ∃ C, s.colliders.get c = some C := by
          intro c hcm
          rcases mem_hsInsert.mp hcm with hcm | rfl
          · exact inv.live hE c hcm
          · exact hc
        obtain ⟨E', hr⟩ := recalculateMass_ok (order := ord.colliders h (hsInsert E.colliders ch)) (cs := s.colliders)
          { E with colliders := hsInsert E.colliders ch } (by
          intro c hcm
          exact hlive c ((ord.colliders_perm _ _).mem_iff.mp hcm))
        simp only [hr, Res.ok_bind]
        refine hsw _ _ rfl ?_
        intro k F hF c hcm
        simp only at hF
        rw [Arena.get_set] at hF
        split at hF
        · rw [hE] at hF; cases hF
          rw [(recalculateMass_massRel hr).colliders] at hcm
          exact hlive c hcm
        · exact inv.live hF c hcm

/-- `update_entity` panics only through the wake-up of a cluster with a dead neighbour. -/
theorem updateEntity_total {s : System α γ} (inv : Inv s) (ord : IterOrder) (h : Handle) (src : Entity α)
    (hn : ∀ k E n, s.entities.get k = some E → n ∈ E.neighbors → ∃ N, s.entities.get n = some N) :
    ∃ r, s.updateEntity ord h src = .ok r := by
  unfold updateEntity
  split
  · exact ⟨_, rfl⟩
  · rename_i E hE
    split
    · exact ⟨_, rfl⟩
    · rename_i E1 w hu
      obtain ⟨-, -, hE1⟩ := updateFrom_fields hu
      have hc1 : E1.colliders = E.colliders := by rw [hE1]
      have hn1 : E1.neighbors = E.neighbors := by rw [hE1]
      obtain ⟨E2, hr⟩ := recalculateMass_ok (order := ord.colliders h E1.colliders) (cs := s.colliders) E1 (by
        intro c hc
        rw [(ord.colliders_perm _ _).mem_iff, hc1] at hc
        exact inv.live hE c hc)
      simp only [hr, Res.ok_bind]
      split
      · have hn2 : E2.neighbors = E.neighbors := by rw [(recalculateMass_massRel hr).neighbors, hn1]
        obtain ⟨b, d, hw⟩ := wakeUp_ok (ord := ord) (start := h) (a := s.entities.set h E2) s.debug
          ⟨E2, Arena.get_set_self hE _⟩ (by
          intro t e n _ ht hnm
          have : ∃ N, s.entities.get n = some N := by
            rw [Arena.get_set] at ht
            split at ht
            · rw [hE] at ht; cases ht
              rw [hn2] at hnm
              exact hn h E n hE hnm
            · exact hn t e n ht hnm
          obtain ⟨N, hN⟩ := this
          rw [Arena.get_set]
          split
          · exact ⟨E2, by rw [hE]; rfl⟩
          · exact ⟨N, hN⟩)
        rw [hw]
        exact ⟨_, rfl⟩
      · exact ⟨_, rfl⟩

end Fluffy.System
