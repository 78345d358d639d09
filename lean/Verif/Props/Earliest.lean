import Verif.Props.Times
import Verif.Props.Sleep
import Verif.Props.Witness
/- Which collision an iteration handles. -/
set_option linter.unusedSectionVars false
set_option linter.unusedSimpArgs false
namespace Fluffy.Props
open InternalEntity Step

section generic
variable {α : Type} [Scalar α] [LawfulOrder α] {γ : Type}

/-! ### C55 -/

theorem pick_percent {best : Option (Candidate α)} {k : Candidate α} {x : α}
    (h : Scalar.lt x (percentOf best) = false) : Scalar.lt x (percentOf (pick best k)) = false := by
  unfold pick
  split
  · rename_i hk
    cases hx : Scalar.lt x (percentOf (some k)) with
    | false => rfl
    | true => rw [LawfulOrder.lt_trans _ _ _ hx hk] at h; cases h
  · exact h

theorem foldl_pick_percent : ∀ (ks : List (Candidate α)) (best : Option (Candidate α)) {x : α},
    Scalar.lt x (percentOf best) = false → Scalar.lt x (percentOf (ks.foldl pick best)) = false
  | [], _, _, h => h
  | _ :: ks, _, _, h => foldl_pick_percent ks _ (pick_percent h)

theorem foldl_pick_earliest : ∀ (ks : List (Candidate α)) (best : Option (Candidate α)) (k : Candidate α), k ∈ ks →
    Scalar.lt k.percent (percentOf (ks.foldl pick best)) = false
  | x :: ks, best, k, h => by
    rw [List.foldl_cons]
    rcases List.mem_cons.mp h with rfl | h
    · refine foldl_pick_percent ks _ ?_
      unfold pick
      split
      · exact LawfulOrder.lt_irrefl _
      · rename_i hk; simpa using hk
    · exact foldl_pick_earliest ks _ k h

theorem foldl_pick_before : ∀ (ks : List (Candidate α)) (best : Option (Candidate α)) (k : Candidate α),
    (∀ b, best = some b → Scalar.lt b.percent one = true) → ks.foldl pick best = some k → Scalar.lt k.percent one = true
  | [], best, k, hb, h => hb k h
  | x :: ks, best, k, hb, h => by
    refine foldl_pick_before ks _ k ?_ h
    intro b hp
    unfold pick at hp
    split at hp
    · rename_i hk
      cases hp
      cases best with
      | none => exact hk
      | some c => exact LawfulOrder.lt_trans _ _ _ hk (hb c rfl)
    · exact hb b hp

/-- **C55**, one search: what it returns is a contact (of two colliders of different entities that do not remember each other
as neighbours, with a closing speed that is not below EPSILON), strictly before the end of the remaining time, and no
contact is earlier.  If it returns nothing, there is no contact before the end of the remaining time. -/
theorem C55_search {ord : IterOrder} {w : World α} {infos : List (StepInfo α)} {best : Option (Candidate α)}
    (h : searchFirst ord w 0 infos none = .ok best) :
    match best with
    | none => ∀ k', Contact w infos k' → Scalar.lt k'.percent one = false
    | some k => Contact w infos k ∧ Scalar.lt k.percent one = true ∧
        ∀ k', Contact w infos k' → Scalar.lt k'.percent k.percent = false := by
  obtain ⟨ks, h1, h2⟩ := searchFirst_spec h
  have h3 : ∀ k', Contact w infos k' → Scalar.lt k'.percent (percentOf best) = false := by
    intro k' hk
    rw [h1]
    exact foldl_pick_earliest ks none k' ((h2 k').mpr hk)
  cases best with
  | none => exact h3
  | some k =>
    exact ⟨searchFirst_contact h, foldl_pick_before ks none k (by simp) h1.symm, h3⟩

variable [ForceGenerator α γ]

/-- **C55.** The `i`-th record of a step was written for a contact in the state after `i` iterations: a contact of two colliders
of different, non-neighbouring entities that approach each other, strictly before the end of the remaining time, such that no other
such contact is earlier.  The record names its entities, position and normal. -/
theorem C55_records {s s' : System α γ} {ord : IterOrder} {dt : α} (hdt : Proper dt) (h : s.step ord dt = .ok s')
    {i : Nat} {r : CollisionRecord α} (hr : s'.collisionRecords[i]? = some r) :
    ∃ (mid : System α γ) (infos : List (StepInfo α)) (st : LoopState α) (k : Candidate α),
      integrateAll dt s.generators.handles s.entities.handles { s with collisionRecords := [], debug := [] } = .ok (mid, infos) ∧
      iterate ord dt i ⟨mid.toWorld, infos, dt, zero⟩ = .ok (st, false) ∧
      Contact st.world st.infos k ∧ Scalar.lt k.percent one = true ∧
      (∀ k', Contact st.world st.infos k' → Scalar.lt k'.percent k.percent = false) ∧
      r.firstEntity = k.firstHandle ∧ r.secondEntity = k.secondHandle ∧ r.position = k.collision.position ∧
      r.normal = k.collision.normal ∧ r.restitution = k.restitution := by
  obtain ⟨ph⟩ := step_phases hdt h
  obtain ⟨k1, -⟩ := integrateAll_spec (Arena.handles_nodup _) ph.integrate
  have hrec : s'.collisionRecords = ph.final.world.collisionRecords := by
    have := (sleepLoop_frame ph.selfless ph.sleep).2
    cases hc : ph.concluded <;> rw [hc] at this <;> simpa using this
  have hmid : ph.mid.collisionRecords = [] := by show ph.mid.toWorld.collisionRecords = []; rw [k1]
  obtain ⟨l, hl, hrecs⟩ := iterate_record ph.iterate
  simp only [hmid, List.nil_append] at hl
  rw [hrec, hl] at hr
  obtain ⟨st, k, w, st2, first, second, i1, i2, q1, q2, -, -, -, -, -, -, rfl⟩ := hrecs i r hr
  have hs := C55_search q2
  exact ⟨ph.mid, ph.infos, st, k, ph.integrate, q1, hs.1, hs.2.1, hs.2.2, rfl, rfl, rfl, rfl, rfl⟩

end generic

end Fluffy.Props
