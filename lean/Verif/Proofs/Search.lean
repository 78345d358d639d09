import Verif.Proofs.Entity
/- Generic description of the collision search of one iteration. -/
set_option linter.unusedSectionVars false
set_option linter.unusedSimpArgs false
namespace Fluffy.Step
open InternalEntity
variable {α : Type} [Scalar α]

/-- The contact of collider `ch1` of the entity of `i1` with collider `ch2` of the entity of `i2`: the detection
reports it and the bodies approach each other there. -/
def ColliderContact (colliders : Arena (Collider α)) (first second : InternalEntity α) (i1 i2 : StepInfo α)
    (index1 index2 : Nat) (ch1 ch2 : Handle) (k : Candidate α) : Prop :=
  ∃ c1 c2 c, colliders.get ch1 = some c1 ∧ colliders.get ch2 = some c2 ∧
    collide c1 first.orientation (first.orientation.afterAffected i1.linearMovement i1.angularMovement)
      c2 second.orientation (second.orientation.afterAffected i2.linearMovement i2.angularMovement) = .ok (some c) ∧
    Scalar.lt ((first.velocityAt c.position - second.velocityAt c.position).dot c.normal) EPSILON = false ∧
    k = { percent := c.times.min, collision := c
          restitution := c1.material.restitution * c2.material.restitution
          staticFriction := c1.material.staticFriction * c2.material.staticFriction
          dynamicFriction := c1.material.dynamicFriction * c2.material.dynamicFriction
          frictionThreshold := c1.material.frictionThreshold * c2.material.frictionThreshold
          firstHandle := i1.handle, secondHandle := i2.handle, firstIndex := index1, secondIndex := index2 }

/-- A contact of two entities that are not each other's neighbours. -/
def EntityContact (w : World α) (i1 i2 : StepInfo α) (index1 index2 : Nat) (k : Candidate α) : Prop :=
  ∃ first second, w.entities.get i1.handle = some first ∧ w.entities.get i2.handle = some second ∧
    i1.handle ≠ i2.handle ∧ i2.handle ∉ first.neighbors ∧ i1.handle ∉ second.neighbors ∧
    ∃ ch1 ∈ first.colliders, ∃ ch2 ∈ second.colliders,
      ColliderContact w.colliders first second i1 i2 index1 index2 ch1 ch2 k

/-- A contact between the entities of two different entries of `infos`. -/
def Contact (w : World α) (infos : List (StepInfo α)) (k : Candidate α) : Prop :=
  ∃ n m i1 i2, n < m ∧ infos[n]? = some i1 ∧ infos[m]? = some i2 ∧ EntityContact w i1 i2 n m k

/-- Keep the earlier one. -/
def pick (best : Option (Candidate α)) (k : Candidate α) : Option (Candidate α) :=
  if Scalar.lt k.percent (percentOf best) then some k else best

theorem considerPair_spec {colliders : Arena (Collider α)} {first second : InternalEntity α} {i1 i2 : StepInfo α}
    {index1 index2 : Nat} {ch1 ch2 : Handle} {best best' : Option (Candidate α)}
    (h : considerPair colliders first second i1 i2 index1 index2 ch1 ch2 best = .ok best') :
    ∃ ks : List (Candidate α), best' = ks.foldl pick best ∧
      ∀ k, k ∈ ks ↔ ColliderContact colliders first second i1 i2 index1 index2 ch1 ch2 k := by
  unfold considerPair at h
  obtain ⟨c1, hc1, h⟩ := Res.bind_eq_ok.mp h
  obtain ⟨c2, hc2, h⟩ := Res.bind_eq_ok.mp h
  obtain ⟨r, hr, h⟩ := Res.bind_eq_ok.mp h
  rw [unwrap_eq_ok] at hc1 hc2
  split at h
  · cases h
    refine ⟨[], rfl, fun k => ⟨by simp, ?_⟩⟩
    rintro ⟨d1, d2, c, e1, e2, e3, -⟩
    rw [hc1] at e1; rw [hc2] at e2; cases e1; cases e2
    rw [hr] at e3; cases e3
  · rename_i c
    simp only at h
    split at h
    · rename_i hlt
      cases h
      refine ⟨[], rfl, fun k => ⟨by simp, ?_⟩⟩
      rintro ⟨d1, d2, c', e1, e2, e3, e4, -⟩
      rw [hc1] at e1; rw [hc2] at e2; cases e1; cases e2
      rw [hr] at e3; cases e3
      rw [hlt] at e4; cases e4
    · rename_i hlt
      simp only [Bool.not_eq_true] at hlt
      refine ⟨[{ percent := c.times.min, collision := c
                 restitution := c1.material.restitution * c2.material.restitution
                 staticFriction := c1.material.staticFriction * c2.material.staticFriction
                 dynamicFriction := c1.material.dynamicFriction * c2.material.dynamicFriction
                 frictionThreshold := c1.material.frictionThreshold * c2.material.frictionThreshold
                 firstHandle := i1.handle, secondHandle := i2.handle, firstIndex := index1,
                 secondIndex := index2 }], ?_, fun k => ?_⟩
      · simp only [List.foldl_cons, List.foldl_nil, pick]
        split at h <;> rename_i ht <;> cases h
        · rw [if_pos ht]
        · rw [if_neg ht]
      · rw [List.mem_singleton]
        constructor
        · rintro rfl; exact ⟨c1, c2, c, hc1, hc2, hr, hlt, rfl⟩
        · rintro ⟨d1, d2, c', e1, e2, e3, e4, rfl⟩
          rw [hc1] at e1; rw [hc2] at e2; cases e1; cases e2
          rw [hr] at e3; cases e3
          rfl

theorem secondColliderLoop_spec {colliders : Arena (Collider α)} {first second : InternalEntity α}
    {i1 i2 : StepInfo α} {index1 index2 : Nat} {ch1 : Handle} :
    ∀ {l : List Handle} {best best' : Option (Candidate α)},
    secondColliderLoop colliders first second i1 i2 index1 index2 ch1 l best = .ok best' →
    ∃ ks : List (Candidate α), best' = ks.foldl pick best ∧
      ∀ k, k ∈ ks ↔ ∃ ch2 ∈ l, ColliderContact colliders first second i1 i2 index1 index2 ch1 ch2 k
  | [], best, best', h => by
    unfold secondColliderLoop at h; cases h; exact ⟨[], rfl, by simp⟩
  | c :: l, best, best', h => by
    unfold secondColliderLoop at h
    obtain ⟨b, hb, h⟩ := Res.bind_eq_ok.mp h
    obtain ⟨ks, h1, h2⟩ := considerPair_spec hb
    obtain ⟨ks', h1', h2'⟩ := secondColliderLoop_spec h
    exact ⟨ks ++ ks', by rw [List.foldl_append, ← h1, h1'], by simp [h2, h2']⟩

theorem firstColliderLoop_spec {colliders : Arena (Collider α)} {first second : InternalEntity α}
    {i1 i2 : StepInfo α} {index1 index2 : Nat} {order2 : List Handle} :
    ∀ {l : List Handle} {best best' : Option (Candidate α)},
    firstColliderLoop colliders first second i1 i2 index1 index2 order2 l best = .ok best' →
    ∃ ks : List (Candidate α), best' = ks.foldl pick best ∧
      ∀ k, k ∈ ks ↔ ∃ ch1 ∈ l, ∃ ch2 ∈ order2,
        ColliderContact colliders first second i1 i2 index1 index2 ch1 ch2 k
  | [], best, best', h => by
    unfold firstColliderLoop at h; cases h; exact ⟨[], rfl, by simp⟩
  | c :: l, best, best', h => by
    unfold firstColliderLoop at h
    obtain ⟨b, hb, h⟩ := Res.bind_eq_ok.mp h
    obtain ⟨ks, h1, h2⟩ := secondColliderLoop_spec hb
    obtain ⟨ks', h1', h2'⟩ := firstColliderLoop_spec h
    exact ⟨ks ++ ks', by rw [List.foldl_append, ← h1, h1'], by simp [h2, h2']⟩

theorem get2_eq_ok {τ : Type} {a : Arena τ} {h1 h2 : Handle} {p : τ × τ} :
    get2 a h1 h2 = .ok p ↔ h1 ≠ h2 ∧ a.get h1 = some p.1 ∧ a.get h2 = some p.2 := by
  unfold get2
  split
  · rename_i h; constructor
    · intro hc; cases hc
    · rintro ⟨hc, -⟩; exact absurd h hc
  · rename_i h
    constructor
    · intro hb
      obtain ⟨x, hx, hb⟩ := Res.bind_eq_ok.mp hb
      obtain ⟨y, hy, hb⟩ := Res.bind_eq_ok.mp hb
      rw [unwrap_eq_ok] at hx hy
      cases hb
      exact ⟨h, hx, hy⟩
    · rintro ⟨-, hx, hy⟩
      rw [hx, hy]; rfl

theorem searchPair_spec {ord : IterOrder} {w : World α} {i1 i2 : StepInfo α} {index1 index2 : Nat}
    {best best' : Option (Candidate α)} (h : searchPair ord w i1 i2 index1 index2 best = .ok best') :
    ∃ ks : List (Candidate α), best' = ks.foldl pick best ∧
      ∀ k, k ∈ ks ↔ EntityContact w i1 i2 index1 index2 k := by
  unfold searchPair at h
  obtain ⟨⟨first, second⟩, hp, h⟩ := Res.bind_eq_ok.mp h
  obtain ⟨hne, h1, h2⟩ := get2_eq_ok.mp hp
  simp only at h h1 h2
  split at h
  · rename_i hn
    cases h
    refine ⟨[], rfl, fun k => ⟨by simp, ?_⟩⟩
    rintro ⟨f, s, e1, e2, -, e4, -⟩
    rw [h1] at e1; cases e1
    exact absurd hn e4
  · rename_i hn
    split at h
    · rename_i hn'
      cases h
      refine ⟨[], rfl, fun k => ⟨by simp, ?_⟩⟩
      rintro ⟨f, s, e1, e2, -, -, e5, -⟩
      rw [h2] at e2; cases e2
      exact absurd hn' e5
    · rename_i hn'
      obtain ⟨ks, hk1, hk2⟩ := firstColliderLoop_spec h
      refine ⟨ks, hk1, fun k => ?_⟩
      rw [hk2]
      constructor
      · rintro ⟨ch1, hc1, ch2, hc2, hk⟩
        rw [(ord.colliders_perm _ _).mem_iff] at hc1 hc2
        exact ⟨first, second, h1, h2, hne, hn, hn', ch1, hc1, ch2, hc2, hk⟩
      · rintro ⟨f, s, e1, e2, -, -, -, ch1, hc1, ch2, hc2, hk⟩
        rw [h1] at e1; cases e1; rw [h2] at e2; cases e2
        exact ⟨ch1, (ord.colliders_perm _ _).mem_iff.mpr hc1, ch2, (ord.colliders_perm _ _).mem_iff.mpr hc2, hk⟩

theorem searchSecond_spec {ord : IterOrder} {w : World α} {i1 : StepInfo α} {index1 : Nat} :
    ∀ {l : List (StepInfo α)} {index2 : Nat} {best best' : Option (Candidate α)},
    searchSecond ord w i1 index1 index2 l best = .ok best' →
    ∃ ks : List (Candidate α), best' = ks.foldl pick best ∧
      ∀ k, k ∈ ks ↔ ∃ m i2, l[m]? = some i2 ∧ EntityContact w i1 i2 index1 (index2 + m) k
  | [], index2, best, best', h => by
    unfold searchSecond at h; cases h; exact ⟨[], rfl, by simp⟩
  | i :: l, index2, best, best', h => by
    unfold searchSecond at h
    obtain ⟨b, hb, h⟩ := Res.bind_eq_ok.mp h
    obtain ⟨ks, h1, h2⟩ := searchPair_spec hb
    obtain ⟨ks', h1', h2'⟩ := searchSecond_spec h
    refine ⟨ks ++ ks', by rw [List.foldl_append, ← h1, h1'], fun k => ?_⟩
    rw [List.mem_append, h2, h2']
    constructor
    · rintro (hk | ⟨m, i2, hm, hk⟩)
      · exact ⟨0, i, rfl, hk⟩
      · exact ⟨m + 1, i2, by simpa using hm, by rw [← Nat.add_assoc, Nat.add_right_comm]; exact hk⟩
    · rintro ⟨m, i2, hm, hk⟩
      cases m with
      | zero => simp at hm; subst hm; exact Or.inl hk
      | succ m =>
        right
        refine ⟨m, i2, by simpa using hm, ?_⟩
        rw [Nat.add_right_comm, Nat.add_assoc]; exact hk

theorem searchFirst_aux {ord : IterOrder} {w : World α} :
    ∀ {l : List (StepInfo α)} {index1 : Nat} {best best' : Option (Candidate α)},
    searchFirst ord w index1 l best = .ok best' →
    ∃ ks : List (Candidate α), best' = ks.foldl pick best ∧
      ∀ k, k ∈ ks ↔ ∃ n m i1 i2, n < m ∧ l[n]? = some i1 ∧ l[m]? = some i2 ∧
        EntityContact w i1 i2 (index1 + n) (index1 + m) k
  | [], index2, best, best', h => by
    unfold searchFirst at h; cases h; exact ⟨[], rfl, by simp⟩
  | i :: l, index1, best, best', h => by
    unfold searchFirst at h
    obtain ⟨b, hb, h⟩ := Res.bind_eq_ok.mp h
    obtain ⟨ks, h1, h2⟩ := searchSecond_spec hb
    obtain ⟨ks', h1', h2'⟩ := searchFirst_aux h
    refine ⟨ks ++ ks', by rw [List.foldl_append, ← h1, h1'], fun k => ?_⟩
    rw [List.mem_append, h2, h2']
    constructor
    · rintro (⟨m, i2, hm, hk⟩ | ⟨n, m, i1, i2, hnm, hn, hm, hk⟩)
      · refine ⟨0, m + 1, i, i2, by omega, rfl, by simpa using hm, ?_⟩
        rw [show index1 + (m + 1) = index1 + 1 + m by omega]; exact hk
      · refine ⟨n + 1, m + 1, i1, i2, by omega, by simpa using hn, by simpa using hm, ?_⟩
        rw [show index1 + (n + 1) = index1 + 1 + n by omega, show index1 + (m + 1) = index1 + 1 + m by omega]
        exact hk
    · rintro ⟨n, m, i1, i2, hnm, hn, hm, hk⟩
      cases n with
      | zero =>
        simp at hn; subst hn
        obtain ⟨m, rfl⟩ : ∃ m', m = m' + 1 := ⟨m - 1, by omega⟩
        left
        refine ⟨m, i2, by simpa using hm, ?_⟩
        rw [show index1 + 1 + m = index1 + (m + 1) by omega]; exact hk
      | succ n =>
        obtain ⟨m, rfl⟩ : ∃ m', m = m' + 1 := ⟨m - 1, by omega⟩
        right
        refine ⟨n, m, i1, i2, by omega, by simpa using hn, by simpa using hm, ?_⟩
        rw [show index1 + 1 + n = index1 + (n + 1) by omega, show index1 + 1 + m = index1 + (m + 1) by omega]
        exact hk

/-- The search considers exactly the contacts, in some order, and keeps the earliest by `pick`. -/
theorem searchFirst_spec {ord : IterOrder} {w : World α} {infos : List (StepInfo α)} {best : Option (Candidate α)}
    (h : searchFirst ord w 0 infos none = .ok best) :
    ∃ ks : List (Candidate α), best = ks.foldl pick none ∧ ∀ k, k ∈ ks ↔ Contact w infos k := by
  obtain ⟨ks, h1, h2⟩ := searchFirst_aux h
  refine ⟨ks, h1, fun k => ?_⟩
  rw [h2]; simp [Contact]

theorem foldl_pick_mem : ∀ (ks : List (Candidate α)) (best : Option (Candidate α)) (k : Candidate α),
    ks.foldl pick best = some k → k ∈ ks ∨ best = some k
  | [], best, k, h => Or.inr h
  | x :: ks, best, k, h => by
    rw [List.foldl_cons] at h
    rcases foldl_pick_mem ks _ k h with h' | h'
    · exact Or.inl (by simp [h'])
    · unfold pick at h'
      split at h'
      · cases h'; exact Or.inl (by simp)
      · exact Or.inr h'

/-- The candidate found is a contact. -/
theorem searchFirst_contact {ord : IterOrder} {w : World α} {infos : List (StepInfo α)} {k : Candidate α}
    (h : searchFirst ord w 0 infos none = .ok (some k)) : Contact w infos k := by
  obtain ⟨ks, h1, h2⟩ := searchFirst_spec h
  rw [← h2]
  rcases foldl_pick_mem ks none k h1.symm with h' | h'
  · exact h'
  · cases h'

theorem Contact.indices {w : World α} {infos : List (StepInfo α)} {k : Candidate α} (h : Contact w infos k) :
    k.firstIndex < k.secondIndex ∧ k.firstHandle ≠ k.secondHandle ∧
    ∃ i1 i2, infos[k.firstIndex]? = some i1 ∧ infos[k.secondIndex]? = some i2 ∧
      i1.handle = k.firstHandle ∧ i2.handle = k.secondHandle ∧
      ∃ first second, w.entities.get k.firstHandle = some first ∧ w.entities.get k.secondHandle = some second := by
  obtain ⟨n, m, i1, i2, hnm, hn, hm, first, second, hf, hs, hne, -, -, ch1, -, ch2, -, c1, c2, c, -, -, -, -, rfl⟩ := h
  exact ⟨hnm, hne, i1, i2, hn, hm, rfl, rfl, first, second, hf, hs⟩

end Fluffy.Step
