import Verif.Proofs.StepTotal
/- A condition on histories of calls under which no call panics. -/
set_option linter.unusedSectionVars false
set_option linter.unusedSimpArgs false
namespace Fluffy.System
open InternalEntity Step
variable {α : Type} [Scalar α] {γ : Type}

/-- A property of colliders that storing, updating and linking keeps, and that rules out malformed meshes. -/
structure Kept (Q : Collider α → Prop) : Prop where
  good : ∀ c, Q c → c.Good
  newFrom : ∀ (c d : Collider α), c.newFrom = some d → Q c → Q d
  updateFrom : ∀ (c d r : Collider α), c.updateFrom d = .updated r → Q d → Q r
  setEntity : ∀ (c : Collider α) t, Q c → Q (c.setEntity t)

/-- No call has left anything behind that makes a later call panic. -/
structure Tidy (Q : Collider α → Prop) (s : System α γ) : Prop where
  inv : Inv s
  live : NeighborsLive s.entities
  good : ∀ k c, s.colliders.get k = some c → Q c

/-- The calls that are harmless in state `s`. -/
def Allowed (Q : Collider α → Prop) (s : System α γ) : Op α γ → Prop
  | .removeEntity h => ∀ k E, s.entities.get k = some E → k ≠ h → h ∉ E.neighbors
  | .addCollider c => Q c
  | .removeCollider h => ∀ c, s.colliders.get h = some c → c.entity = none
  | .updateCollider _ c => Q c
  | .step _ => ∀ k1 k2 c1 c2 e1 e2, s.colliders.get k1 = some c1 → s.colliders.get k2 = some c2 →
      c1.entity = some e1 → c2.entity = some e2 → e1 ≠ e2 → ¬(c1.IsMesh ∧ c2.IsMesh)
  | _ => True

theorem kept_good : Kept (Collider.Good (α := α)) where
  good _ h := h
  newFrom c d h hg := by
    cases c <;> simp only [Collider.newFrom] at h <;> split at h <;> cases h <;> first | trivial | exact ⟨hg.1, hg.2⟩
  updateFrom c d r h hg := by
    cases c <;> cases d <;> simp only [Collider.updateFrom] at h <;> (try split at h) <;> cases h <;>
      first | trivial | exact ⟨hg.1, hg.2⟩
  setEntity c t hg := by cases c <;> first | trivial | exact ⟨hg.1, hg.2⟩

theorem kept_noMesh : Kept (fun c : Collider α => ¬ c.IsMesh) where
  good c h := by cases c <;> first | trivial | exact absurd trivial h
  newFrom c d h hg := by
    cases c <;> simp only [Collider.newFrom] at h <;> split at h <;> cases h <;>
      first | exact hg | simp [Collider.IsMesh]
  updateFrom c d r h hg := by
    cases c <;> cases d <;> simp only [Collider.updateFrom] at h <;> (try split at h) <;> cases h <;>
      first | exact hg | simp [Collider.IsMesh]
  setEntity c t hg := by cases c <;> first | exact hg | simp [Collider.IsMesh, Collider.setEntity]

theorem NeighborsLive.set {a : Arena (InternalEntity α)} (hn : NeighborsLive a) {h : Handle} {E E' : InternalEntity α}
    (hE : a.get h = some E) (hs : ∀ n ∈ E'.neighbors, n ∈ E.neighbors) : NeighborsLive (a.set h E') := by
  intro k F n hF hm
  have hl : ∃ N, a.get n = some N := by
    rw [Arena.get_set] at hF
    split at hF
    · rw [hE] at hF; cases hF
      exact hn _ _ n hE (hs n hm)
    · exact hn _ _ n hF hm
  obtain ⟨N, hN⟩ := hl
  rw [Arena.get_set]
  split
  · exact ⟨E', by rw [hE]; rfl⟩
  · exact ⟨N, hN⟩

theorem refreshEntity_live {ord : IterOrder} {s s' : System α γ} {eh : Option Handle} (hh : refreshEntity ord s eh = .ok s')
    (hn : NeighborsLive s.entities) : NeighborsLive s'.entities := by
  rcases refreshEntity_spec hh with ⟨rfl, -⟩ | ⟨h, E, E', -, hE, hr, rfl⟩
  · exact hn
  · exact NeighborsLive.set hn hE (by rw [(recalculateMass_massRel hr).neighbors]; exact fun _ h => h)

variable [ForceGenerator α γ] [SafeGenerator α γ]

theorem exec_total {Q : Collider α → Prop} (kq : Kept Q) {s : System α γ} (ord : IterOrder) (op : Op α γ) (ht : Tidy Q s)
    (ha : Allowed Q s op) : ∃ s' out, s.exec ord op = .ok (s', out) ∧ Tidy Q s' := by
  suffices ∃ s' out, s.exec ord op = .ok (s', out) ∧ NeighborsLive s'.entities ∧
      ∀ k c, s'.colliders.get k = some c → Q c by
    obtain ⟨s', out, h1, h2, h3⟩ := this
    exact ⟨s', out, h1, exec_inv ht.inv h1, h2, h3⟩
  cases op with
  | addEntity e =>
    simp only [exec]
    cases h : InternalEntity.newFrom e with
    | none => rw [addEntity_none h]; exact ⟨_, _, rfl, ht.live, ht.good⟩
    | some E =>
      rw [addEntity_some h]
      refine ⟨_, _, rfl, ?_, ht.good⟩
      have hg := Arena.get_insert ht.inv.wfE E
      intro k F n hF hm
      simp only at hF ⊢
      rw [hg] at hF
      rw [hg]
      split at hF
      · cases hF
        rw [(newFrom_fields h).2.2.2] at hm; cases hm
      · obtain ⟨N, hN⟩ := ht.live k F n hF hm
        split
        · exact ⟨_, rfl⟩
        · exact ⟨N, hN⟩
  | removeEntity h =>
    simp only [exec]
    cases hE : s.entities.get h with
    | none => rw [removeEntity_none hE]; exact ⟨_, _, rfl, ht.live, ht.good⟩
    | some E =>
      rw [removeEntity_some ht.inv hE]
      refine ⟨_, _, rfl, ?_, ?_⟩
      · intro k F n hF hm
        simp only [Arena.get_remove] at hF ⊢
        split at hF
        · cases hF
        · rename_i hk
          obtain ⟨N, hN⟩ := ht.live k F n hF hm
          split
          · rename_i hnh
            subst hnh
            exact absurd hm (ha k F hF hk)
          · exact ⟨N, hN⟩
      · intro k c hc
        simp only [get_removeAll] at hc
        split at hc
        · cases hc
        · exact ht.good k c hc
  | updateEntity h e =>
    simp only [exec]
    obtain ⟨⟨s', b⟩, hr⟩ := updateEntity_total ht.inv ord h e ht.live
    rw [hr]
    refine ⟨_, _, rfl, ?_, by rw [(updateEntity_shape hr).2.1]; exact ht.good⟩
    rcases updateEntity_spec hr with ⟨-, rfl, -⟩ | ⟨-, E, E1, E2, w, hE, hu, hm, hw⟩
    · exact ht.live
    · obtain ⟨-, -, hE1⟩ := updateFrom_fields hu
      have hn2 : E2.neighbors = E.neighbors := by rw [(recalculateMass_massRel hm).neighbors, hE1]
      have hl := NeighborsLive.set ht.live hE (E' := E2) (by rw [hn2]; exact fun _ h => h)
      rcases hw with ⟨-, rfl⟩ | ⟨-, a, d, hwk, rfl⟩
      · exact hl
      · exact wakeUp_neighborsLive hwk hl
  | addCollider c =>
    simp only [exec]
    cases h : c.newFrom with
    | none => rw [addCollider_none h]; exact ⟨_, _, rfl, ht.live, ht.good⟩
    | some d =>
      rw [addCollider_some h]
      refine ⟨_, _, rfl, ht.live, ?_⟩
      intro k x hx
      simp only [Arena.get_insert ht.inv.wfC] at hx
      split at hx
      · cases hx; exact kq.newFrom _ _ h ha
      · exact ht.good k x hx
  | removeCollider h =>
    simp only [exec]
    rw [removeCollider_eq_ok (fun C e hC he => by rw [ha C hC] at he; cases he)]
    refine ⟨_, _, rfl, ht.live, ?_⟩
    intro k c hc
    simp only [Arena.get_remove] at hc
    split at hc
    · cases hc
    · exact ht.good k c hc
  | updateCollider h c =>
    simp only [exec]
    obtain ⟨⟨s', b⟩, hr⟩ := updateCollider_total ht.inv ord h c
    rw [hr]
    refine ⟨_, _, rfl, ?_, ?_⟩
    · rcases updateCollider_spec hr with ⟨-, rfl, -⟩ | ⟨-, C, hC, hu, hf⟩ | ⟨-, C, C', hC, hu, hf⟩
      · exact ht.live
      · exact refreshEntity_live hf ht.live
      · exact refreshEntity_live hf ht.live
    · rcases updateCollider_spec hr with ⟨-, rfl, -⟩ | ⟨-, C, hC, hu, hf⟩ | ⟨-, C, C', hC, hu, hf⟩
      · exact ht.good
      · rw [(refreshEntity_shape hf).2.1]; exact ht.good
      · rw [(refreshEntity_shape hf).2.1]
        intro k x hx
        simp only [Arena.get_set] at hx
        split at hx
        · rw [hC] at hx; cases hx; exact kq.updateFrom _ _ _ hu ha
        · exact ht.good k x hx
  | linkCollider c e =>
    simp only [exec]
    obtain ⟨⟨s', b⟩, hr⟩ := linkCollider_total ht.inv ord c e
    rw [hr]
    refine ⟨_, _, rfl, ?_, ?_⟩
    · rcases linkCollider_spec ht.inv hr with ⟨-, rfl, -⟩ | ⟨-, C, hC, hlive, hs', hshape, hev⟩
      · exact ht.live
      · refine NeighborsLive.of_eq ht.live ?_ ?_
        · intro k F' hF'
          obtain ⟨F, hF⟩ : ∃ F, s.entities.get k = some F := by
            have := hshape.isSome k
            rw [hF'] at this
            exact Option.isSome_iff_exists.mp this.symm
          obtain ⟨G, hG, hsame, hr⟩ := hev k F hF
          rw [hF'] at hG; cases hG
          refine ⟨F, hF, ?_⟩
          by_cases h1 : e = some k
          · rw [(recalculateMass_massRel (hr.1 h1)).neighbors]
          · by_cases h2 : C.entity = some k
            · rw [(recalculateMass_massRel (hr.2 h1 h2)).neighbors]
            · rw [hsame h1 h2]
        · intro k F hF
          obtain ⟨G, hG, -⟩ := hev k F hF
          exact ⟨G, hG⟩
    · rcases linkCollider_spec ht.inv hr with ⟨-, rfl, -⟩ | ⟨-, C, hC, hlive, hs', hshape, hev⟩
      · exact ht.good
      · intro k x hx
        rw [hs'] at hx
        simp only [Arena.get_set] at hx
        split at hx
        · rw [hC] at hx; cases hx; exact kq.setEntity _ _ (ht.good _ _ hC)
        · exact ht.good k x hx
  | addGenerator g => exact ⟨_, _, rfl, ht.live, ht.good⟩
  | removeGenerator h => exact ⟨_, _, rfl, ht.live, ht.good⟩
  | configure n e t rs d => exact ⟨_, _, rfl, ht.live, ht.good⟩
  | step dt =>
    simp only [exec]
    have hp : PairsSafe s.toWorld := by
      constructor
      · intro k E c hE hc
        exact ht.inv.live hE c hc
      · intro k1 k2 E1 E2 c1 c2 C1 C2 hne hE1 hE2 hc1 hc2 hC1 hC2
        obtain ⟨D1, hD1, l1⟩ := (ht.inv.links _ _ _ hE1).mp hc1
        obtain ⟨D2, hD2, l2⟩ := (ht.inv.links _ _ _ hE2).mp hc2
        rw [show s.colliders.get c1 = some C1 from hC1] at hD1
        rw [show s.colliders.get c2 = some C2 from hC2] at hD2
        cases hD1; cases hD2
        exact collide_ok (kq.good _ (ht.good _ _ hC1)) (kq.good _ (ht.good _ _ hC2)) (ha _ _ _ _ _ _ hC1 hC2 l1 l2 hne)
    obtain ⟨s', hs, hn⟩ := step_total (ord := ord) dt ht.live hp
    rw [hs]
    refine ⟨_, _, rfl, hn, ?_⟩
    rw [(step_frame hs).1.colliders]; exact ht.good

theorem tidy_new (Q : Collider α → Prop) : Tidy Q (new : System α γ) :=
  ⟨inv_new, by intro k E n h; simp [new, Arena.get_new] at h, by intro k c h; simp [new, Arena.get_new] at h⟩

end Fluffy.System
