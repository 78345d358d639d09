import Verif.Proofs.Step
import Verif.Proofs.Twin
/- Two worlds of which one has further entities that can touch nothing: the phases of a step do the same in both. -/
set_option linter.unusedSectionVars false
set_option linter.unusedSimpArgs false
namespace Fluffy

namespace Arena
variable {τ : Type}

/-- A sum over the slots is a sum over the handles. -/
theorem sum_handles (f : τ → Nat) (a : Arena τ) : (a.items.map (fun | some (_, v) => f v | none => 0)).sum =
    (a.handles.map (fun h => match a.get h with | some v => f v | none => 0)).sum := by
  have key : ∀ (l pre : List (Option (Nat × τ))), a.items = pre ++ l → (l.map (fun | some (_, v) => f v | none => 0)).sum =
      ((handlesFrom pre.length l).map (fun h => match a.get h with | some v => f v | none => 0)).sum := by
    intro l
    induction l with
    | nil => intro pre _; rfl
    | cons x l ih =>
      intro pre hp
      have := ih (pre ++ [x]) (by rw [hp]; simp)
      rw [List.length_append] at this
      simp only [List.length_cons, List.length_nil, Nat.zero_add] at this
      rcases x with _ | ⟨g, v⟩
      · simp only [List.map_cons, List.sum_cons, handlesFrom, this, Nat.zero_add]
      · have hg : a.get ⟨pre.length, g⟩ = some v := by
          unfold get
          rw [hp]; simp
        simp only [List.map_cons, List.sum_cons, handlesFrom, this, hg]
  exact key a.items [] rfl
end Arena

namespace Step
open InternalEntity
variable {α : Type} [Scalar α] {γ : Type}

/-- No movement of the one collider and the other makes them collide. -/
def Inert (x y : Collider α) : Prop := ∀ s1 e1 s2 e2 : Orientation α, collide x s1 e1 y s2 e2 = .ok none ∧ collide y s2 e2 x s1 e1 = .ok none

/-- `b` is `a` without the entities of `K`, which have no neighbours and are nobody's neighbour. -/
structure Apart (K : Handle → Bool) (cs cs' : Arena (Collider α)) (a b : Arena (InternalEntity α)) : Prop where
  get : ∀ h, K h = false → b.get h = a.get h
  gone : ∀ h, K h = true → b.get h = none
  handles : b.handles = a.handles.filter (fun h => !K h)
  lonely : ∀ h e, K h = true → a.get h = some e → e.neighbors = []
  far : ∀ h e, a.get h = some e → ∀ n ∈ e.neighbors, K n = false
  same : ∀ h e, K h = false → a.get h = some e → ∀ c ∈ e.colliders, cs'.get c = cs.get c

section
variable {K : Handle → Bool} {cs cs' : Arena (Collider α)} {a b : Arena (InternalEntity α)}

theorem linkCount_eq (a : Arena (InternalEntity α)) : linkCount a = (a.handles.map (fun h => ((a.get h).elim 0 (fun e => e.neighbors.length)))).sum := by
  have h1 := Arena.sum_handles (fun e : InternalEntity α => e.neighbors.length) a
  have h2 : linkCount a = (a.items.map (fun | some (_, v) => v.neighbors.length | none => 0)).sum := by
    unfold linkCount
    congr 2
  rw [h2]
  refine Eq.trans ?_ (h1.trans ?_)
  · congr 2
    funext x
    rcases x with _ | ⟨g, e⟩ <;> rfl
  · congr 2
    funext x
    cases a.get x <;> rfl

theorem Apart.linkCount (h : Apart K cs cs' a b) : linkCount b = linkCount a := by
  rw [linkCount_eq, linkCount_eq, h.handles]
  induction a.handles with
  | nil => rfl
  | cons x l ih =>
    cases hk : K x with
    | true =>
      rw [List.filter_cons_of_neg (by simp [hk])]
      simp only [List.map_cons, List.sum_cons]
      rw [ih]
      cases hg : a.get x with
      | none => simp
      | some e => simp [h.lonely x e hk hg]
    | false =>
      rw [List.filter_cons_of_pos (by simp [hk])]
      simp only [List.map_cons, List.sum_cons]
      rw [ih, h.get x hk]

theorem Apart.set (h : Apart K cs cs' a b) {k : Handle} (hk : K k = false) {e e' : InternalEntity α} (he : a.get k = some e) (hc : e'.colliders = e.colliders)
    (hn : ∀ n ∈ e'.neighbors, K n = false) : Apart K cs cs' (a.set k e') (b.set k e') := by
  have hb : b.get k = some e := by rw [h.get k hk, he]
  have ga : ∀ x v, (a.set k e').get x = some v → x = k ∧ v = e' ∨ x ≠ k ∧ a.get x = some v := by
    intro x v hv
    by_cases hx : x = k
    · subst hx; rw [Arena.get_set_self he] at hv; cases hv; exact Or.inl ⟨rfl, rfl⟩
    · rw [Arena.get_set_ne hx] at hv; exact Or.inr ⟨hx, hv⟩
  refine ⟨fun x hx => ?_, fun x hx => ?_, ?_, ?_, ?_, ?_⟩
  · by_cases hxk : x = k
    · subst hxk; rw [Arena.get_set_self he, Arena.get_set_self hb]
    · rw [Arena.get_set_ne hxk, Arena.get_set_ne hxk, h.get x hx]
  · have : x ≠ k := by rintro rfl; rw [hk] at hx; cases hx
    rw [Arena.get_set_ne this, h.gone x hx]
  · rw [(Arena.sameShape_set _ _ _).handles, (Arena.sameShape_set _ _ _).handles, h.handles]
  · intro x v hx hv
    rcases ga x v hv with ⟨rfl, -⟩ | ⟨-, hv⟩
    · rw [hk] at hx; cases hx
    · exact h.lonely x v hx hv
  · intro x v hv
    rcases ga x v hv with ⟨-, rfl⟩ | ⟨-, hv⟩
    · exact hn
    · exact h.far x v hv
  · intro x v hx hv
    rcases ga x v hv with ⟨rfl, rfl⟩ | ⟨-, hv⟩
    · rw [hc]; exact h.same x e hk he
    · exact h.same x v hx hv

theorem Apart.skip (h : Apart K cs cs' a b) {k : Handle} (hk : K k = true) {e e' : InternalEntity α} (he : a.get k = some e) (hc : e'.colliders = e.colliders)
    (hn : e'.neighbors = []) : Apart K cs cs' (a.set k e') b := by
  have ga : ∀ x v, (a.set k e').get x = some v → x = k ∧ v = e' ∨ x ≠ k ∧ a.get x = some v := by
    intro x v hv
    by_cases hx : x = k
    · subst hx; rw [Arena.get_set_self he] at hv; cases hv; exact Or.inl ⟨rfl, rfl⟩
    · rw [Arena.get_set_ne hx] at hv; exact Or.inr ⟨hx, hv⟩
  refine ⟨fun x hx => ?_, h.gone, ?_, ?_, ?_, ?_⟩
  · have : x ≠ k := by rintro rfl; rw [hk] at hx; cases hx
    rw [Arena.get_set_ne this, h.get x hx]
  · rw [(Arena.sameShape_set _ _ _).handles, h.handles]
  · intro x v hx hv
    rcases ga x v hv with ⟨-, rfl⟩ | ⟨-, hv⟩
    · exact hn
    · exact h.lonely x v hx hv
  · intro x v hv
    rcases ga x v hv with ⟨-, rfl⟩ | ⟨-, hv⟩
    · rw [hn]; simp
    · exact h.far x v hv
  · intro x v hx hv
    rcases ga x v hv with ⟨rfl, -⟩ | ⟨-, hv⟩
    · rw [hk] at hx; cases hx
    · exact h.same x v hx hv

/-! ### Waking -/

theorem wakeNeighbors_apart {target : Handle} : ∀ {ns : List Handle} {st st' : WakeState α} {b : Arena (InternalEntity α)}, Apart K cs cs' st.entities b →
    (∀ n ∈ ns, K n = false) → (∀ n ∈ st.queue, K n = false) → wakeNeighbors target ns st = .ok st' →
    ∃ b', wakeNeighbors target ns { st with entities := b } = .ok { st' with entities := b' } ∧ Apart K cs cs' st'.entities b' ∧ ∀ n ∈ st'.queue, K n = false
  | [], st, st', b, h, _, hq, hh => by
    simp only [wakeNeighbors] at hh ⊢; cases hh; exact ⟨b, rfl, h, hq⟩
  | n :: ns, st, st', b, h, hn, hq, hh => by
    have hns : ∀ n ∈ ns, K n = false := fun x hx => hn x (by simp [hx])
    unfold wakeNeighbors at hh ⊢
    split at hh
    · rename_i hc
      rw [if_pos hc]
      exact wakeNeighbors_apart h hns hq hh
    · rename_i hc
      rw [if_neg hc]
      obtain ⟨e, he, hh⟩ := Res.bind_eq_ok.mp hh
      rw [unwrap_eq_ok] at he
      have hk := hn n (by simp)
      simp only [h.get n hk, he, unwrap_some, Res.ok_bind]
      split at hh
      · rename_i hi
        rw [if_pos hi]
        refine wakeNeighbors_apart (st := { st with entities := st.entities.set n { e with neighbors := hsRemove e.neighbors target }, debug := st.debug ++ [.removedFrom target n] })
          (h.set hk he rfl ?_) hns hq hh
        intro x hx
        exact h.far n e he x (mem_hsRemove.mp hx).1
      · rename_i hi
        rw [if_neg hi]
        refine wakeNeighbors_apart (st := { st with queue := st.queue ++ [n] }) h hns ?_ hh
        intro x hx
        rcases List.mem_append.mp hx with hx | hx
        · exact hq x hx
        · rw [List.mem_singleton.mp hx]; exact hk

theorem wakeLoop_apart {ord : IterOrder} : ∀ {fuel : Nat} {st st' : WakeState α} {b : Arena (InternalEntity α)}, Apart K cs cs' st.entities b →
    (∀ n ∈ st.queue, K n = false) → wakeLoop ord fuel st = .ok st' →
    ∃ b', wakeLoop ord fuel { st with entities := b } = .ok { st' with entities := b' } ∧ Apart K cs cs' st'.entities b' := by
  intro fuel
  induction fuel with
  | zero =>
    intro st st' b h hq hh
    unfold wakeLoop at hh ⊢
    cases hqq : st.queue with
    | nil => simp only [hqq] at hh ⊢; cases hh; exact ⟨b, by rw [hqq], h⟩
    | cons t rest => simp only [hqq] at hh; cases hh
  | succ fuel ih =>
    intro st st' b h hq hh
    unfold wakeLoop at hh ⊢
    cases hqq : st.queue with
    | nil => simp only [hqq] at hh ⊢; cases hh; exact ⟨b, by rw [hqq], h⟩
    | cons t rest =>
      simp only [hqq] at hh ⊢
      have ht : K t = false := hq t (by simp [hqq])
      obtain ⟨e, he, hh⟩ := Res.bind_eq_ok.mp hh
      obtain ⟨m, hm, hh⟩ := Res.bind_eq_ok.mp hh
      obtain ⟨e2, he2, hh⟩ := Res.bind_eq_ok.mp hh
      rw [unwrap_eq_ok] at he he2
      obtain ⟨b1, h1, h2, h3⟩ := wakeNeighbors_apart (b := b) h (fun n hn => h.far t e he n ((ord.neighbors_perm t _).mem_iff.mp hn))
        (fun n hn => hq n (by rw [hqq]; exact List.mem_cons_of_mem _ hn)) (st := { st with queue := rest, completed := hsInsert st.completed t }) hm
      simp only [h.get t ht, he, unwrap_some, Res.ok_bind]
      simp only at h1
      rw [h1]
      simp only [Res.ok_bind, h2.get t ht, he2, unwrap_some]
      exact ih (st := { m with entities := m.entities.set t { e2 with asleep := false, neighbors := [] }, debug := if e2.asleep then m.debug ++ [.wakingUp t] else m.debug })
        (h2.set ht he2 rfl (by simp)) h3 hh

theorem wakeUp_apart {ord : IterOrder} {start : Handle} {a' : Arena (InternalEntity α)} {d d' : List DebugMsg} (h : Apart K cs cs' a b) (hk : K start = false)
    (hh : wakeUp ord start a d = .ok (a', d')) : ∃ b', wakeUp ord start b d = .ok (b', d') ∧ Apart K cs cs' a' b' := by
  unfold wakeUp at hh ⊢
  obtain ⟨st, h1, hh⟩ := Res.bind_eq_ok.mp hh
  cases hh
  obtain ⟨b', h2, h3⟩ := wakeLoop_apart (b := b) h (by simp [hk]) h1
  rw [h.linkCount]
  simp only at h2
  rw [h2]
  exact ⟨b', rfl, h3⟩
end

/-- The world with other entities and colliders. -/
def swap (cs' : Arena (Collider α)) (b : Arena (InternalEntity α)) (w : World α) : World α := { w with entities := b, colliders := cs' }

section
variable {K : Handle → Bool} {cs' : Arena (Collider α)} {w w' : World α} {b : Arena (InternalEntity α)}

theorem wakeIfFinite_apart {ord : IterOrder} {k : Handle} (h : Apart K w.colliders cs' w.entities b) (hk : K k = false) (hh : wakeIfFinite ord k w = .ok w') :
    ∃ b', wakeIfFinite ord k (swap cs' b w) = .ok (swap cs' b' w') ∧ Apart K w'.colliders cs' w'.entities b' := by
  unfold wakeIfFinite at hh ⊢
  obtain ⟨e, he, hh⟩ := Res.bind_eq_ok.mp hh
  rw [unwrap_eq_ok] at he
  simp only [swap, h.get k hk, he, unwrap_some, Res.ok_bind]
  split at hh
  · rename_i hf
    rw [if_pos hf]
    obtain ⟨⟨a', d'⟩, h1, hh⟩ := Res.bind_eq_ok.mp hh
    cases hh
    obtain ⟨b', h2, h3⟩ := wakeUp_apart h hk h1
    rw [h2]
    exact ⟨b', rfl, h3⟩
  · rename_i hf
    rw [if_neg hf]
    cases hh
    exact ⟨b, rfl, h⟩

theorem wakeColliding_apart {ord : IterOrder} {best : Option (Candidate α)} (h : Apart K w.colliders cs' w.entities b)
    (hb : ∀ c, best = some c → K c.firstHandle = false ∧ K c.secondHandle = false) {best' : Option (Candidate α)}
    (hsame : best'.map (fun c => (c.firstHandle, c.secondHandle)) = best.map (fun c => (c.firstHandle, c.secondHandle))) (hh : wakeColliding ord best w = .ok w') :
    ∃ b', wakeColliding ord best' (swap cs' b w) = .ok (swap cs' b' w') ∧ Apart K w'.colliders cs' w'.entities b' := by
  cases best with
  | none =>
    cases best' with
    | some c => simp at hsame
    | none => cases hh; exact ⟨b, rfl, h⟩
  | some c =>
    cases best' with
    | none => simp at hsame
    | some c' =>
      simp only [Option.map_some, Option.some.injEq, Prod.mk.injEq] at hsame
      simp only [wakeColliding, hsame.1, hsame.2] at hh ⊢
      obtain ⟨m, h1, hh⟩ := Res.bind_eq_ok.mp hh
      obtain ⟨b1, h2, h3⟩ := wakeIfFinite_apart h (hb c rfl).1 h1
      rw [h2, Res.ok_bind]
      exact wakeIfFinite_apart h3 (hb c rfl).2 hh

/-! ### Advancing -/

theorem advanceLoop_apart {cs cs' : Arena (Collider α)} {percent : α} : ∀ {l l' : List (StepInfo α)} {a b a' : Arena (InternalEntity α)}, Apart K cs cs' a b →
    advanceLoop percent l a = .ok (a', l') →
    ∃ b', advanceLoop percent (l.filter (fun i => !K i.handle)) b = .ok (b', l'.filter (fun i => !K i.handle)) ∧ Apart K cs cs' a' b'
  | [], l', a, b, a', h, hh => by
    simp only [advanceLoop] at hh; cases hh; exact ⟨b, rfl, h⟩
  | i :: l, l', a, b, a', h, hh => by
    unfold advanceLoop at hh
    obtain ⟨e, he, hh⟩ := Res.bind_eq_ok.mp hh
    obtain ⟨⟨a1, l1⟩, h1, hh⟩ := Res.bind_eq_ok.mp hh
    cases hh
    rw [unwrap_eq_ok] at he
    cases hk : K i.handle with
    | true =>
      rw [List.filter_cons_of_neg (by simp [hk]), List.filter_cons_of_neg (by simp [hk])]
      refine advanceLoop_apart ?_ h1
      split
      · exact h.skip hk he rfl (h.lonely _ e hk he)
      · exact h
    | false =>
      rw [List.filter_cons_of_pos (by simp [hk]), List.filter_cons_of_pos (by simp [hk])]
      unfold advanceLoop
      simp only [h.get _ hk, he, unwrap_some, Res.ok_bind]
      have hn : Apart K cs cs' (if !e.asleep then a.set i.handle { e with orientation := e.orientation.afterAffected (i.linearMovement.scale percent) (i.angularMovement.scale percent) } else a)
          (if !e.asleep then b.set i.handle { e with orientation := e.orientation.afterAffected (i.linearMovement.scale percent) (i.angularMovement.scale percent) } else b) := by
        split
        · exact h.set hk he rfl (h.far _ e he)
        · exact h
      obtain ⟨b', h2, h3⟩ := advanceLoop_apart hn h1
      rw [h2]
      exact ⟨b', rfl, h3⟩
end

/-! ### Searching -/
section
variable {K : Handle → Bool}

/-- The place among the kept entries. -/
def place (K : Handle → Bool) (hs : List Handle) (i : Nat) : Nat := ((hs.take i).filter (fun h => !K h)).length

/-- The candidate with the places among the kept entries. -/
def shift (K : Handle → Bool) (hs : List Handle) (c : Candidate α) : Candidate α :=
  { c with firstIndex := place K hs c.firstIndex, secondIndex := place K hs c.secondIndex }

theorem percentOf_shift (hs : List Handle) (best : Option (Candidate α)) : percentOf (best.map (shift K hs)) = percentOf best := by cases best <;> rfl

/-- The best candidate so far is not about the entities of `K`. -/
def Clean (K : Handle → Bool) (best : Option (Candidate α)) : Prop := ∀ c, best = some c → K c.firstHandle = false ∧ K c.secondHandle = false

theorem considerPair_apart {cs cs' : Arena (Collider α)} {first second : InternalEntity α} {i1 i2 : StepInfo α} {n1 n2 : Nat} {c1 c2 : Handle} {best best' : Option (Candidate α)}
    (hs : List Handle) (h1 : cs'.get c1 = cs.get c1) (h2 : cs'.get c2 = cs.get c2) (hk1 : K i1.handle = false) (hk2 : K i2.handle = false) (hc : Clean K best)
    (hh : considerPair cs first second i1 i2 n1 n2 c1 c2 best = .ok best') :
    considerPair cs' first second i1 i2 (place K hs n1) (place K hs n2) c1 c2 (best.map (shift K hs)) = .ok (best'.map (shift K hs)) ∧ Clean K best' := by
  unfold considerPair at hh ⊢
  obtain ⟨x, hx, hh⟩ := Res.bind_eq_ok.mp hh
  obtain ⟨y, hy, hh⟩ := Res.bind_eq_ok.mp hh
  obtain ⟨r, hr, hh⟩ := Res.bind_eq_ok.mp hh
  rw [h1, h2, hx, hy]
  simp only [Res.ok_bind]
  rw [hr]
  simp only [Res.ok_bind, percentOf_shift]
  cases r with
  | none => cases hh; exact ⟨rfl, hc⟩
  | some c =>
    simp only at hh ⊢
    split at hh
    · rename_i hl; rw [if_pos hl]; cases hh; exact ⟨rfl, hc⟩
    · rename_i hl
      rw [if_neg hl]
      split at hh
      · rename_i ht
        rw [if_pos ht]
        cases hh
        refine ⟨rfl, ?_⟩
        intro c hc; cases hc; exact ⟨hk1, hk2⟩
      · rename_i ht; rw [if_neg ht]; cases hh; exact ⟨rfl, hc⟩

theorem considerPair_inert {cs : Arena (Collider α)} {first second : InternalEntity α} {i1 i2 : StepInfo α} {n1 n2 : Nat} {c1 c2 : Handle} {best best' : Option (Candidate α)}
    (hi : ∀ x y, cs.get c1 = some x → cs.get c2 = some y → Inert x y ∨ Inert y x) (hh : considerPair cs first second i1 i2 n1 n2 c1 c2 best = .ok best') : best' = best := by
  unfold considerPair at hh
  obtain ⟨x, hx, hh⟩ := Res.bind_eq_ok.mp hh
  obtain ⟨y, hy, hh⟩ := Res.bind_eq_ok.mp hh
  obtain ⟨r, hr, hh⟩ := Res.bind_eq_ok.mp hh
  rw [unwrap_eq_ok] at hx hy
  have : r = none := by
    rcases hi x y hx hy with h | h
    · rw [(h _ _ _ _).1] at hr; cases hr; rfl
    · rw [(h _ _ _ _).2] at hr; cases hr; rfl
  subst this
  cases hh; rfl

theorem secondColliderLoop_apart {cs cs' : Arena (Collider α)} {first second : InternalEntity α} {i1 i2 : StepInfo α} {n1 n2 : Nat} {c1 : Handle} (hs : List Handle)
    (h1 : cs'.get c1 = cs.get c1) (hk1 : K i1.handle = false) (hk2 : K i2.handle = false) : ∀ {l : List Handle} {best best' : Option (Candidate α)},
    (∀ c ∈ l, cs'.get c = cs.get c) → Clean K best → secondColliderLoop cs first second i1 i2 n1 n2 c1 l best = .ok best' →
    secondColliderLoop cs' first second i1 i2 (place K hs n1) (place K hs n2) c1 l (best.map (shift K hs)) = .ok (best'.map (shift K hs)) ∧ Clean K best'
  | [], best, best', _, hc, hh => by cases hh; exact ⟨rfl, hc⟩
  | c :: l, best, best', hl, hc, hh => by
    unfold secondColliderLoop at hh ⊢
    obtain ⟨m, h3, hh⟩ := Res.bind_eq_ok.mp hh
    obtain ⟨h4, h5⟩ := considerPair_apart hs h1 (hl c (by simp)) hk1 hk2 hc h3
    rw [h4, Res.ok_bind]
    exact secondColliderLoop_apart hs h1 hk1 hk2 (fun c hc => hl c (by simp [hc])) h5 hh

theorem secondColliderLoop_inert {cs : Arena (Collider α)} {first second : InternalEntity α} {i1 i2 : StepInfo α} {n1 n2 : Nat} {c1 : Handle} : ∀ {l : List Handle} {best best' : Option (Candidate α)},
    (∀ c ∈ l, ∀ x y, cs.get c1 = some x → cs.get c = some y → Inert x y ∨ Inert y x) → secondColliderLoop cs first second i1 i2 n1 n2 c1 l best = .ok best' → best' = best
  | [], best, best', _, hh => by cases hh; rfl
  | c :: l, best, best', hl, hh => by
    unfold secondColliderLoop at hh
    obtain ⟨m, h3, hh⟩ := Res.bind_eq_ok.mp hh
    rw [← considerPair_inert (hl c (by simp)) h3]
    exact secondColliderLoop_inert (fun c hc => hl c (by simp [hc])) hh

theorem firstColliderLoop_apart {cs cs' : Arena (Collider α)} {first second : InternalEntity α} {i1 i2 : StepInfo α} {n1 n2 : Nat} (hs : List Handle)
    (hk1 : K i1.handle = false) (hk2 : K i2.handle = false) {l2 : List Handle} (h2 : ∀ c ∈ l2, cs'.get c = cs.get c) : ∀ {l : List Handle} {best best' : Option (Candidate α)},
    (∀ c ∈ l, cs'.get c = cs.get c) → Clean K best → firstColliderLoop cs first second i1 i2 n1 n2 l2 l best = .ok best' →
    firstColliderLoop cs' first second i1 i2 (place K hs n1) (place K hs n2) l2 l (best.map (shift K hs)) = .ok (best'.map (shift K hs)) ∧ Clean K best'
  | [], best, best', _, hc, hh => by cases hh; exact ⟨rfl, hc⟩
  | c :: l, best, best', hl, hc, hh => by
    unfold firstColliderLoop at hh ⊢
    obtain ⟨m, h3, hh⟩ := Res.bind_eq_ok.mp hh
    obtain ⟨h4, h5⟩ := secondColliderLoop_apart hs (hl c (by simp)) hk1 hk2 h2 hc h3
    rw [h4, Res.ok_bind]
    exact firstColliderLoop_apart hs hk1 hk2 h2 (fun c hc => hl c (by simp [hc])) h5 hh

theorem firstColliderLoop_inert {cs : Arena (Collider α)} {first second : InternalEntity α} {i1 i2 : StepInfo α} {n1 n2 : Nat} {l2 : List Handle} : ∀ {l : List Handle} {best best' : Option (Candidate α)},
    (∀ c ∈ l, ∀ c' ∈ l2, ∀ x y, cs.get c = some x → cs.get c' = some y → Inert x y ∨ Inert y x) → firstColliderLoop cs first second i1 i2 n1 n2 l2 l best = .ok best' → best' = best
  | [], best, best', _, hh => by cases hh; rfl
  | c :: l, best, best', hl, hh => by
    unfold firstColliderLoop at hh
    obtain ⟨m, h3, hh⟩ := Res.bind_eq_ok.mp hh
    rw [← secondColliderLoop_inert (hl c (by simp)) h3]
    exact firstColliderLoop_inert (fun c hc => hl c (by simp [hc])) hh

variable {cs' : Arena (Collider α)} {w w' : World α} {b : Arena (InternalEntity α)}

theorem searchPair_apart {ord : IterOrder} (h : Apart K w.colliders cs' w.entities b) {i1 i2 : StepInfo α} {n1 n2 : Nat} {best best' : Option (Candidate α)} (hs : List Handle)
    (hk1 : K i1.handle = false) (hk2 : K i2.handle = false) (hc : Clean K best) (hh : searchPair ord w i1 i2 n1 n2 best = .ok best') :
    searchPair ord (swap cs' b w) i1 i2 (place K hs n1) (place K hs n2) (best.map (shift K hs)) = .ok (best'.map (shift K hs)) ∧ Clean K best' := by
  unfold searchPair at hh ⊢
  obtain ⟨⟨first, second⟩, h1, hh⟩ := Res.bind_eq_ok.mp hh
  have hg := h1
  obtain ⟨hne, hf, hse⟩ := get2_eq_ok.mp hg
  have : get2 (swap cs' b w).entities i1.handle i2.handle = .ok (first, second) := get2_eq_ok.mpr ⟨hne, (h.get _ hk1).trans hf, (h.get _ hk2).trans hse⟩
  rw [this]
  simp only [Res.ok_bind] at hh ⊢
  split at hh
  · rename_i h3; rw [if_pos h3]; cases hh; exact ⟨rfl, hc⟩
  rename_i h3; rw [if_neg h3]
  split at hh
  · rename_i h4; rw [if_pos h4]; cases hh; exact ⟨rfl, hc⟩
  rename_i h4; rw [if_neg h4]
  exact firstColliderLoop_apart (cs' := cs') hs hk1 hk2 (fun c hc => h.same _ _ hk2 hse c ((ord.colliders_perm _ _).mem_iff.mp hc))
    (fun c hc => h.same _ _ hk1 hf c ((ord.colliders_perm _ _).mem_iff.mp hc)) hc hh

/-- The search makes nothing of a pair that an entity of `K` belongs to. -/
def Mute (K : Handle → Bool) (ord : IterOrder) (w : World α) (L : List (StepInfo α)) : Prop :=
  ∀ i1 ∈ L, ∀ i2 ∈ L, (K i1.handle = true ∨ K i2.handle = true) → ∀ n1 n2 best best', searchPair ord w i1 i2 n1 n2 best = .ok best' → best' = best

/-- The colliders of the entities of `K` collide with none of the others. -/
def Shapes (K : Handle → Bool) (w : World α) : Prop :=
  ∀ h e h' e', K h = true → h' ≠ h → w.entities.get h = some e → w.entities.get h' = some e' → ∀ c ∈ e.colliders, ∀ c' ∈ e'.colliders, ∀ x y, w.colliders.get c = some x → w.colliders.get c' = some y → Inert x y

theorem Shapes.mute {ord : IterOrder} {w : World α} (h : Shapes K w) (L : List (StepInfo α)) : Mute K ord w L := by
  intro i1 _ i2 _ hk n1 n2 best best' hh
  unfold searchPair at hh
  obtain ⟨⟨first, second⟩, h1, hh⟩ := Res.bind_eq_ok.mp hh
  obtain ⟨hne, hf, hse⟩ := get2_eq_ok.mp h1
  simp only at hh
  split at hh
  · cases hh; rfl
  split at hh
  · cases hh; rfl
  refine firstColliderLoop_inert ?_ hh
  intro c hc c' hc' x y hx hy
  have hc := (ord.colliders_perm _ _).mem_iff.mp hc
  have hc' := (ord.colliders_perm _ _).mem_iff.mp hc'
  rcases hk with hk | hk
  · exact Or.inl (h _ _ _ _ hk (Ne.symm hne) hf hse c hc c' hc' x y hx hy)
  · exact Or.inr (h _ _ _ _ hk hne hse hf c' hc' c hc y x hy hx)

theorem place_length (pre : List Handle) (l : List Handle) : place K (pre ++ l) pre.length = (pre.filter (fun h => !K h)).length := by
  unfold place; simp

theorem searchSecond_apart {ord : IterOrder} (h : Apart K w.colliders cs' w.entities b) {L : List (StepInfo α)} (hm : Mute K ord w L) {i1 : StepInfo α} (h1 : i1 ∈ L) {n1 : Nat}
    (hk1 : K i1.handle = false) (hs : List Handle) :
    ∀ {l : List (StepInfo α)} {pre : List Handle} {best best' : Option (Candidate α)}, (∀ i ∈ l, i ∈ L) → hs = pre ++ l.map StepInfo.handle → Clean K best →
    searchSecond ord w i1 n1 pre.length l best = .ok best' →
    searchSecond ord (swap cs' b w) i1 (place K hs n1) (place K hs pre.length) (l.filter (fun i => !K i.handle)) (best.map (shift K hs)) = .ok (best'.map (shift K hs)) ∧ Clean K best'
  | [], pre, best, best', _, _, hc, hh => by cases hh; exact ⟨rfl, hc⟩
  | i2 :: l, pre, best, best', hL, he, hc, hh => by
    have hl : ∀ i ∈ l, i ∈ L := fun i hi => hL i (by simp [hi])
    unfold searchSecond at hh
    obtain ⟨m, h3, hh⟩ := Res.bind_eq_ok.mp hh
    have he' : hs = (pre ++ [i2.handle]) ++ l.map StepInfo.handle := by rw [he]; simp
    have hlen : pre.length + 1 = (pre ++ [i2.handle]).length := by simp
    rw [hlen] at hh
    cases hk : K i2.handle with
    | true =>
      rw [hm i1 h1 i2 (hL i2 (by simp)) (Or.inr hk) _ _ _ _ h3] at hh
      have ih := searchSecond_apart h hm h1 hk1 hs hl he' hc hh
      rw [List.filter_cons_of_neg (by simp [hk])]
      have hp : place K hs (pre ++ [i2.handle]).length = place K hs pre.length := by
        rw [he', place_length, List.append_assoc, place_length]
        simp [hk]
      rw [hp] at ih
      exact ih
    | false =>
      obtain ⟨h4, h5⟩ := searchPair_apart h hs hk1 hk hc h3
      have ih := searchSecond_apart h hm h1 hk1 hs hl he' h5 hh
      rw [List.filter_cons_of_pos (by simp [hk])]
      unfold searchSecond
      rw [h4, Res.ok_bind]
      have hp : place K hs (pre ++ [i2.handle]).length = place K hs pre.length + 1 := by
        rw [he', place_length, List.append_assoc, place_length]
        simp [hk]
      rw [hp] at ih
      exact ih

theorem searchSecond_inert {ord : IterOrder} {L : List (StepInfo α)} (hm : Mute K ord w L) {i1 : StepInfo α} (h1 : i1 ∈ L) {n1 : Nat} (hk1 : K i1.handle = true) :
    ∀ {l : List (StepInfo α)} {n : Nat} {best best' : Option (Candidate α)}, (∀ i ∈ l, i ∈ L) → searchSecond ord w i1 n1 n l best = .ok best' → best' = best
  | [], _, best, best', _, hh => by cases hh; rfl
  | i2 :: l, n, best, best', hL, hh => by
    unfold searchSecond at hh
    obtain ⟨m, h3, hh⟩ := Res.bind_eq_ok.mp hh
    rw [← hm i1 h1 i2 (hL i2 (by simp)) (Or.inl hk1) _ _ _ _ h3]
    exact searchSecond_inert hm h1 hk1 (fun i hi => hL i (by simp [hi])) hh

theorem searchFirst_apart {ord : IterOrder} (h : Apart K w.colliders cs' w.entities b) {L : List (StepInfo α)} (hm : Mute K ord w L) (hs : List Handle) :
    ∀ {l : List (StepInfo α)} {pre : List Handle} {best best' : Option (Candidate α)}, (∀ i ∈ l, i ∈ L) → hs = pre ++ l.map StepInfo.handle → Clean K best →
    searchFirst ord w pre.length l best = .ok best' →
    searchFirst ord (swap cs' b w) (place K hs pre.length) (l.filter (fun i => !K i.handle)) (best.map (shift K hs)) = .ok (best'.map (shift K hs)) ∧ Clean K best'
  | [], pre, best, best', _, _, hc, hh => by cases hh; exact ⟨rfl, hc⟩
  | i1 :: l, pre, best, best', hL, he, hc, hh => by
    have hl : ∀ i ∈ l, i ∈ L := fun i hi => hL i (by simp [hi])
    unfold searchFirst at hh
    obtain ⟨m, h3, hh⟩ := Res.bind_eq_ok.mp hh
    have he' : hs = (pre ++ [i1.handle]) ++ l.map StepInfo.handle := by rw [he]; simp
    have hlen : pre.length + 1 = (pre ++ [i1.handle]).length := by simp
    rw [hlen] at hh h3
    cases hk : K i1.handle with
    | true =>
      rw [searchSecond_inert hm (hL i1 (by simp)) hk hl h3] at hh
      have ih := searchFirst_apart h hm hs hl he' hc hh
      rw [List.filter_cons_of_neg (by simp [hk])]
      have hp : place K hs (pre ++ [i1.handle]).length = place K hs pre.length := by
        rw [he', place_length, List.append_assoc, place_length]
        simp [hk]
      rw [hp] at ih
      exact ih
    | false =>
      obtain ⟨h4, h5⟩ := searchSecond_apart h hm (hL i1 (by simp)) hk hs hl he' hc h3
      have ih := searchFirst_apart h hm hs hl he' h5 hh
      rw [List.filter_cons_of_pos (by simp [hk])]
      unfold searchFirst
      have hp : place K hs (pre ++ [i1.handle]).length = place K hs pre.length + 1 := by
        rw [he', place_length, List.append_assoc, place_length]
        simp [hk]
      rw [hp] at ih h4
      rw [h4, Res.ok_bind]
      exact ih

/-! ### Responding -/

theorem getElem?_place {β : Type} (f : β → Handle) : ∀ {l : List β} {i : Nat} {x : β}, l[i]? = some x → K (f x) = false →
    (l.filter (fun y => !K (f y)))[place K (l.map f) i]? = some x
  | [], i, x, h, _ => by simp at h
  | y :: l, 0, x, h, hk => by
    simp only [List.getElem?_cons_zero, Option.some.injEq] at h
    subst h
    rw [List.filter_cons_of_pos (by simp [hk])]
    simp [place]
  | y :: l, i + 1, x, h, hk => by
    simp only [List.getElem?_cons_succ] at h
    have ih := getElem?_place f h hk
    cases hy : K (f y) with
    | true =>
      rw [List.filter_cons_of_neg (by simp [hy])]
      have : place K ((y :: l).map f) (i + 1) = place K (l.map f) i := by simp [place, hy]
      rw [this]; exact ih
    | false =>
      rw [List.filter_cons_of_pos (by simp [hy])]
      have : place K ((y :: l).map f) (i + 1) = place K (l.map f) i + 1 := by simp [place, hy]
      rw [this]; simpa using ih

theorem filter_set_place {β : Type} (f : β → Handle) : ∀ {l : List β} {i : Nat} {x z : β}, l[i]? = some x → K (f x) = false → f z = f x →
    (l.set i z).filter (fun y => !K (f y)) = (l.filter (fun y => !K (f y))).set (place K (l.map f) i) z
  | [], i, x, z, h, _, _ => by simp at h
  | y :: l, 0, x, z, h, hk, hz => by
    simp only [List.getElem?_cons_zero, Option.some.injEq] at h
    subst h
    rw [List.set_cons_zero, List.filter_cons_of_pos (by rw [hz]; simp [hk]), List.filter_cons_of_pos (by simp [hk])]
    simp [place]
  | y :: l, i + 1, x, z, h, hk, hz => by
    simp only [List.getElem?_cons_succ] at h
    have ih := filter_set_place f h hk hz
    rw [List.set_cons_succ]
    cases hy : K (f y) with
    | true =>
      rw [List.filter_cons_of_neg (by simp [hy]), List.filter_cons_of_neg (by simp [hy])]
      have : place K ((y :: l).map f) (i + 1) = place K (l.map f) i := by simp [place, hy]
      rw [this]; exact ih
    | false =>
      rw [List.filter_cons_of_pos (by simp [hy]), List.filter_cons_of_pos (by simp [hy])]
      have : place K ((y :: l).map f) (i + 1) = place K (l.map f) i + 1 := by simp [place, hy]
      rw [this, List.set_cons_succ, ih]

/-- No entry has an entity of `K` among its neighbours, and the entries of `K` have none. -/
def Tidy (K : Handle → Bool) (l : List (StepInfo α)) : Prop := ∀ i ∈ l, (∀ n ∈ i.neighbors, K n = false) ∧ (K i.handle = true → i.neighbors = [])

/-- The loop state of the world without the entities of `K`. -/
def swapLoop (K : Handle → Bool) (cs' : Arena (Collider α)) (b : Arena (InternalEntity α)) (st : LoopState α) : LoopState α :=
  { st with world := swap cs' b st.world, infos := st.infos.filter (fun i => !K i.handle) }

theorem shift_respondPair (hs : List Handle) (c : Candidate α) (t r : α) (first second : InternalEntity α) (i1 i2 : StepInfo α) :
    respondPair (shift K hs c) t r first second i1 i2 = respondPair c t r first second i1 i2 := rfl

theorem respondPair_handles (c : Candidate α) (t r : α) (first second : InternalEntity α) (i1 i2 : StepInfo α) :
    (respondPair c t r first second i1 i2).firstInfo.handle = i1.handle ∧ (respondPair c t r first second i1 i2).secondInfo.handle = i2.handle := by
  constructor <;> (simp only [respondPair]; split <;> rfl)

theorem respondPair_neighbors (c : Candidate α) (t r : α) (first second : InternalEntity α) (i1 i2 : StepInfo α) :
    (∀ n ∈ (respondPair c t r first second i1 i2).firstInfo.neighbors, n ∈ i1.neighbors ∨ n = c.secondHandle) ∧
    ∀ n ∈ (respondPair c t r first second i1 i2).secondInfo.neighbors, n ∈ i2.neighbors ∨ n = c.firstHandle := by
  constructor
  · intro n hn
    simp only [respondPair] at hn
    split at hn
    · rcases mem_hsInsert.mp hn with h | h
      · exact Or.inl h
      · exact Or.inr h
    · exact Or.inl hn
  · intro n hn
    simp only [respondPair] at hn
    split at hn
    · rcases mem_hsInsert.mp hn with h | h
      · exact Or.inl h
      · exact Or.inr h
    · exact Or.inl hn

theorem respondPair_same (c : Candidate α) (t r : α) (first second : InternalEntity α) (i1 i2 : StepInfo α) :
    ((respondPair c t r first second i1 i2).first.colliders = first.colliders ∧ (respondPair c t r first second i1 i2).first.neighbors = first.neighbors) ∧
    (respondPair c t r first second i1 i2).second.colliders = second.colliders ∧ (respondPair c t r first second i1 i2).second.neighbors = second.neighbors :=
  ⟨⟨rfl, rfl⟩, rfl, rfl⟩

theorem Tidy.set {l : List (StepInfo α)} (h : Tidy K l) {n : Nat} {x : StepInfo α} (h1 : ∀ m ∈ x.neighbors, K m = false) (h2 : K x.handle = false) : Tidy K (l.set n x) := by
  intro i hi
  rcases List.mem_or_eq_of_mem_set hi with hi | rfl
  · exact h i hi
  · exact ⟨h1, fun hk => by rw [h2] at hk; cases hk⟩

theorem respond_apart {dt : α} {c : Candidate α} {st st' : LoopState α} (h : Apart K st.world.colliders cs' st.world.entities b) (ht : Tidy K st.infos)
    (hk1 : K c.firstHandle = false) (hk2 : K c.secondHandle = false) (hne : c.firstIndex ≠ c.secondIndex) (hf : ∀ i, st.infos[c.firstIndex]? = some i → i.handle = c.firstHandle)
    (hse : ∀ i, st.infos[c.secondIndex]? = some i → i.handle = c.secondHandle) (hh : respond dt c st = .ok st') :
    ∃ b', respond dt (shift K (st.infos.map StepInfo.handle) c) (swapLoop K cs' b st) = .ok (swapLoop K cs' b' st') ∧
      Apart K st'.world.colliders cs' st'.world.entities b' ∧ Tidy K st'.infos := by
  unfold respond at hh ⊢
  obtain ⟨⟨first, second⟩, h1, hh⟩ := Res.bind_eq_ok.mp hh
  obtain ⟨i1, h2, hh⟩ := Res.bind_eq_ok.mp hh
  obtain ⟨i2, h3, hh⟩ := Res.bind_eq_ok.mp hh
  rw [index_eq_ok] at h2 h3
  obtain ⟨hhn, hfe, hsx⟩ := get2_eq_ok.mp h1
  have e1 := hf i1 h2
  have e2 := hse i2 h3
  have hg : get2 (swapLoop K cs' b st).world.entities c.firstHandle c.secondHandle = .ok (first, second) :=
    get2_eq_ok.mpr ⟨hhn, (h.get _ hk1).trans hfe, (h.get _ hk2).trans hsx⟩
  have p1 := getElem?_place (K := K) StepInfo.handle h2 (by rw [e1]; exact hk1)
  have p2 := getElem?_place (K := K) StepInfo.handle h3 (by rw [e2]; exact hk2)
  have q1 : index (swapLoop K cs' b st).infos (place K (st.infos.map StepInfo.handle) c.firstIndex) = .ok i1 := index_eq_ok.mpr p1
  have q2 : index (swapLoop K cs' b st).infos (place K (st.infos.map StepInfo.handle) c.secondIndex) = .ok i2 := index_eq_ok.mpr p2
  have g1 : get2 (swapLoop K cs' b st).world.entities (shift K (st.infos.map StepInfo.handle) c).firstHandle (shift K (st.infos.map StepInfo.handle) c).secondHandle = .ok (first, second) := hg
  have g2 : index (swapLoop K cs' b st).infos (shift K (st.infos.map StepInfo.handle) c).firstIndex = .ok i1 := q1
  have g3 : index (swapLoop K cs' b st).infos (shift K (st.infos.map StepInfo.handle) c).secondIndex = .ok i2 := q2
  rw [g1, g2, g3]
  simp only [Res.ok_bind, shift_respondPair]
  have hr := respondPair_handles c (st.currentPercent * dt) st.timeLeft first second i1 i2
  have hn := respondPair_neighbors c (st.currentPercent * dt) st.timeLeft first second i1 i2
  have hc := respondPair_same c (st.currentPercent * dt) st.timeLeft first second i1 i2
  cases hh
  simp only [swapLoop]
  generalize respondPair c (st.currentPercent * dt) st.timeLeft first second i1 i2 = r at hr hn hc
  have m1 := List.mem_of_getElem? h2
  have m2 := List.mem_of_getElem? h3
  refine ⟨(b.set c.firstHandle r.first).set c.secondHandle r.second, ?_, ?_, ?_⟩
  · have f1 := filter_set_place (K := K) StepInfo.handle (z := r.firstInfo) h2 (by rw [e1]; exact hk1) hr.1
    have h3' : (st.infos.set c.firstIndex r.firstInfo)[c.secondIndex]? = some i2 := by rw [List.getElem?_set_ne hne]; exact h3
    have f2 := filter_set_place (K := K) StepInfo.handle (z := r.secondInfo) h3' (by rw [e2]; exact hk2) hr.2
    have hm : (st.infos.set c.firstIndex r.firstInfo).map StepInfo.handle = st.infos.map StepInfo.handle := map_handle_set h2 hr.1
    rw [hm, f1] at f2
    rw [f2]
    rfl
  · refine (h.set hk1 hfe hc.1.1 ?_).set hk2 (e := second) ?_ hc.2.1 ?_
    · rw [hc.1.2]; exact h.far _ _ hfe
    · rw [Arena.get_set_ne (Ne.symm hhn)]; exact hsx
    · rw [hc.2.2]; exact h.far _ _ hsx
  · refine Tidy.set (Tidy.set ht ?_ ?_) ?_ ?_
    · intro m hm
      rcases hn.1 m hm with hm | rfl
      · exact (ht i1 m1).1 m hm
      · exact hk2
    · rw [hr.1, e1]; exact hk1
    · intro m hm
      rcases hn.2 m hm with hm | rfl
      · exact (ht i2 m2).1 m hm
      · exact hk1
    · rw [hr.2, e2]; exact hk2

/-! ### The loop -/

theorem advanceLoop_shape {percent : α} : ∀ {l l' : List (StepInfo α)} {a a' : Arena (InternalEntity α)}, advanceLoop percent l a = .ok (a', l') →
    l'.map (fun i => (i.handle, i.neighbors)) = l.map (fun i => (i.handle, i.neighbors))
  | [], l', a, a', hh => by simp only [advanceLoop] at hh; cases hh; rfl
  | i :: l, l', a, a', hh => by
    unfold advanceLoop at hh
    obtain ⟨e, he, hh⟩ := Res.bind_eq_ok.mp hh
    obtain ⟨⟨a1, l1⟩, h1, hh⟩ := Res.bind_eq_ok.mp hh
    cases hh
    simp only [List.map_cons, advanceLoop_shape h1]

theorem Tidy.of_map {l l' : List (StepInfo α)} (h : Tidy K l) (hm : l'.map (fun i => (i.handle, i.neighbors)) = l.map (fun i => (i.handle, i.neighbors))) : Tidy K l' := by
  intro i hi
  have : (i.handle, i.neighbors) ∈ l.map (fun i => (i.handle, i.neighbors)) := by rw [← hm]; exact List.mem_map_of_mem hi
  obtain ⟨j, hj, he⟩ := List.mem_map.mp this
  cases he' : j with
  | mk hd lm am ns =>
    subst he'
    simp only [Prod.mk.injEq] at he
    rw [← he.1, ← he.2]
    exact h _ hj

/-- A condition on the state of the loop under which the search makes nothing of the entities of `K`, and which lasts. -/
structure Quiet (K : Handle → Bool) (ord : IterOrder) (dt : α) (J : LoopState α → Prop) : Prop where
  mute : ∀ st, J st → Mute K ord st.world st.infos
  next : ∀ st best w st', J st → Clean K best → wakeColliding ord best st.world = .ok w → advance best { st with world := w } = .ok st' → J st'
  hit : ∀ st k st', J st → K k.firstHandle = false → K k.secondHandle = false → (∀ i, st.infos[k.firstIndex]? = some i → i.handle = k.firstHandle) →
    (∀ i, st.infos[k.secondIndex]? = some i → i.handle = k.secondHandle) → k.firstIndex ≠ k.secondIndex → respond dt k st = .ok st' → J st'

theorem iterate_apart {ord : IterOrder} {dt : α} {J : LoopState α → Prop} (hJ : Quiet K ord dt J) : ∀ {n : Nat} {st st' : LoopState α} {b : Arena (InternalEntity α)} {c : Bool},
    J st → Apart K st.world.colliders cs' st.world.entities b → Tidy K st.infos → iterate ord dt n st = .ok (st', c) →
    ∃ b', iterate ord dt n (swapLoop K cs' b st) = .ok (swapLoop K cs' b' st', c) ∧ Apart K st'.world.colliders cs' st'.world.entities b' ∧ Tidy K st'.infos := by
  intro n
  induction n with
  | zero => intro st st' b c _ h ht hh; cases hh; exact ⟨b, rfl, h, ht⟩
  | succ n ih =>
    intro st st' b c hj h ht hh
    unfold iterate at hh ⊢
    obtain ⟨best, h1, hh⟩ := Res.bind_eq_ok.mp hh
    obtain ⟨w1, h2, hh⟩ := Res.bind_eq_ok.mp hh
    obtain ⟨st2, h3, hh⟩ := Res.bind_eq_ok.mp hh
    obtain ⟨s1, s2⟩ := searchFirst_apart (pre := []) h (hJ.mute st hj) (st.infos.map StepInfo.handle) (fun _ hi => hi) rfl (by intro c hc; cases hc) h1
    have s1' : searchFirst ord (swapLoop K cs' b st).world 0 (swapLoop K cs' b st).infos none = .ok (best.map (shift K (st.infos.map StepInfo.handle))) := s1
    rw [s1', Res.ok_bind]
    obtain ⟨b1, t1, t2⟩ := wakeColliding_apart (best' := best.map (shift K (st.infos.map StepInfo.handle))) h s2 (by cases best <;> rfl) h2
    have t1' : wakeColliding ord (best.map (shift K (st.infos.map StepInfo.handle))) (swapLoop K cs' b st).world = .ok (swap cs' b1 w1) := t1
    rw [t1', Res.ok_bind]
    have hj2 := hJ.next st best w1 st2 hj s2 h2 h3
    unfold advance at h3
    obtain ⟨⟨a3, l3⟩, h4, h3⟩ := Res.bind_eq_ok.mp h3
    cases h3
    obtain ⟨b2, u1, u2⟩ := advanceLoop_apart t2 h4
    have hshape := advanceLoop_shape h4
    have hmap : l3.map StepInfo.handle = st.infos.map StepInfo.handle := by
      have := congrArg (List.map Prod.fst) hshape
      simpa [Function.comp_def] using this
    have hadv : advance (best.map (shift K (st.infos.map StepInfo.handle))) { swapLoop K cs' b st with world := swap cs' b1 w1 } =
        .ok (swapLoop K cs' b2 { world := { w1 with entities := a3 }, infos := l3, timeLeft := st.timeLeft * (one - percentOf best), currentPercent := st.currentPercent + (one - st.currentPercent) * percentOf best }) := by
      unfold advance
      rw [percentOf_shift]
      simp only [swapLoop, swap] at u1 ⊢
      rw [u1]
      rfl
    rw [hadv, Res.ok_bind]
    cases best with
    | none =>
      simp only [Option.map_none] at hh ⊢
      cases hh
      exact ⟨b2, rfl, u2, ht.of_map hshape⟩
    | some k =>
      simp only [Option.map_some] at hh ⊢
      obtain ⟨st4, h5, hh⟩ := Res.bind_eq_ok.mp hh
      obtain ⟨hi, -, i1, i2, hi1, hi2, hd1, hd2, -⟩ := (searchFirst_contact h1).indices
      have hget : ∀ (m : Nat) (i j : StepInfo α), st.infos[m]? = some i → l3[m]? = some j → j.handle = i.handle := by
        intro m i j hi hj
        have x1 : (l3.map StepInfo.handle)[m]? = some j.handle := by rw [List.getElem?_map, hj]; rfl
        have x2 : (st.infos.map StepInfo.handle)[m]? = some i.handle := by rw [List.getElem?_map, hi]; rfl
        rw [hmap, x2] at x1
        exact (Option.some.inj x1).symm
      obtain ⟨b3, v1, v2, v3⟩ := respond_apart (st := { world := { w1 with entities := a3 }, infos := l3, timeLeft := st.timeLeft * (one - k.percent), currentPercent := st.currentPercent + (one - st.currentPercent) * k.percent })
        (b := b2) u2 (ht.of_map hshape) (s2 k rfl).1 (s2 k rfl).2 (Nat.ne_of_lt hi) (fun j hj => (hget _ _ _ hi1 hj).trans hd1) (fun j hj => (hget _ _ _ hi2 hj).trans hd2) h5
      simp only [hmap] at v1
      have v1' : respond dt (shift K (st.infos.map StepInfo.handle) k) (swapLoop K cs' b2 { world := { w1 with entities := a3 }, infos := l3, timeLeft := st.timeLeft * (one - percentOf (some k)), currentPercent := st.currentPercent + (one - st.currentPercent) * percentOf (some k) }) = .ok (swapLoop K cs' b3 st4) := v1
      rw [v1', Res.ok_bind]
      exact ih (hJ.hit _ k st4 hj2 (s2 k rfl).1 (s2 k rfl).2 (fun j hj => (hget _ _ _ hi1 hj).trans hd1) (fun j hj => (hget _ _ _ hi2 hj).trans hd2) (Nat.ne_of_lt hi) h5) v2 v3 hh

/-! ### Falling asleep -/

/-- The same with other debug messages. -/
def swapDebug (cs' : Arena (Collider α)) (b : Arena (InternalEntity α)) (d : List DebugMsg) (w : World α) : World α := { w with entities := b, colliders := cs', debug := d }

theorem linkNeighbors_apart {cs cs' : Arena (Collider α)} {k : Handle} (hk : K k = false) : ∀ {l : List Handle} {a b a' : Arena (InternalEntity α)}, Apart K cs cs' a b →
    (∀ n ∈ l, K n = false) → linkNeighbors k l a = .ok a' → ∃ b', linkNeighbors k l b = .ok b' ∧ Apart K cs cs' a' b'
  | [], a, b, a', h, _, hh => by cases hh; exact ⟨b, rfl, h⟩
  | n :: l, a, b, a', h, hl, hh => by
    unfold linkNeighbors at hh ⊢
    obtain ⟨e, he, hh⟩ := Res.bind_eq_ok.mp hh
    rw [unwrap_eq_ok] at he
    have hn := hl n (by simp)
    rw [h.get n hn, he, unwrap_some, Res.ok_bind]
    refine linkNeighbors_apart hk (h.set hn he rfl ?_) (fun x hx => hl x (by simp [hx])) hh
    intro m hm
    rcases mem_hsInsert.mp hm with hm | rfl
    · exact h.far n e he m hm
    · exact hk

theorem sleepOne_apart {ord : IterOrder} {dt : α} {i : StepInfo α} {d : List DebugMsg} (h : Apart K w.colliders cs' w.entities b) (hi : ∀ n ∈ i.neighbors, K n = false) (hk : K i.handle = false)
    (hh : sleepOne ord dt i w = .ok w') : ∃ b' d', sleepOne ord dt i (swapDebug cs' b d w) = .ok (swapDebug cs' b' d' w') ∧ Apart K w'.colliders cs' w'.entities b' := by
  unfold sleepOne at hh ⊢
  obtain ⟨e, he, hh⟩ := Res.bind_eq_ok.mp hh
  rw [unwrap_eq_ok] at he
  simp only [swapDebug, h.get _ hk, he, unwrap_some, Res.ok_bind]
  split at hh
  · rename_i hx
    rw [if_pos hx]; cases hh
    exact ⟨_, d, rfl, h.set hk he rfl (h.far _ e he)⟩
  rename_i hx; rw [if_neg hx]
  split at hh
  · rename_i hy
    simp only [hy, if_true]; cases hh
    exact ⟨_, d, rfl, h.set hk he rfl (h.far _ e he)⟩
  rename_i hy; simp only [hy, if_false]
  simp only at hh
  generalize (if e.fallingAsleep = true then e.fallingAsleepTime + dt else e.fallingAsleepTime) = tm at hh ⊢
  split at hh
  · rename_i hz
    simp only [hz, if_true]; cases hh
    exact ⟨_, d, rfl, h.set hk he rfl (h.far _ e he)⟩
  rename_i hz; simp only [hz, if_false]
  obtain ⟨a1, h1, hh⟩ := Res.bind_eq_ok.mp hh
  cases hh
  obtain ⟨b1, h2, h3⟩ := linkNeighbors_apart hk (h.set hk he (e' := { e with fallingAsleep := true, fallingAsleepTime := tm, asleep := true, neighbors := i.neighbors }) rfl hi) (fun n hn => hi n ((ord.stepNeighbors_perm _ _).mem_iff.mp hn)) h1
  rw [h2]
  exact ⟨b1, _, rfl, h3⟩

theorem sleepOne_skip {ord : IterOrder} {dt : α} {i : StepInfo α} (h : Apart K w.colliders cs' w.entities b) (hi : i.neighbors = []) (hk : K i.handle = true)
    (hh : sleepOne ord dt i w = .ok w') : (∃ d, w' = { w with entities := w'.entities, debug := d }) ∧ Apart K w'.colliders cs' w'.entities b := by
  unfold sleepOne at hh
  obtain ⟨e, he, hh⟩ := Res.bind_eq_ok.mp hh
  rw [unwrap_eq_ok] at he
  split at hh
  · cases hh
    exact ⟨⟨w.debug, rfl⟩, h.skip hk he rfl (h.lonely _ e hk he)⟩
  split at hh
  · cases hh
    exact ⟨⟨w.debug, rfl⟩, h.skip hk he rfl (h.lonely _ e hk he)⟩
  simp only at hh
  generalize (if e.fallingAsleep = true then e.fallingAsleepTime + dt else e.fallingAsleepTime) = tm at hh
  split at hh
  · cases hh
    exact ⟨⟨w.debug, rfl⟩, h.skip hk he rfl (h.lonely _ e hk he)⟩
  obtain ⟨a1, h1, hh⟩ := Res.bind_eq_ok.mp hh
  have hp : ord.stepNeighbors i.handle i.neighbors = [] := by
    have := ord.stepNeighbors_perm i.handle i.neighbors
    rw [hi] at this ⊢
    exact List.perm_nil.mp this
  rw [hp] at h1
  cases h1
  cases hh
  exact ⟨⟨_, rfl⟩, h.skip hk he rfl hi⟩

theorem sleepLoop_apart {ord : IterOrder} {dt : α} : ∀ {l : List (StepInfo α)} {w w' : World α} {b : Arena (InternalEntity α)} {d : List DebugMsg}, Apart K w.colliders cs' w.entities b →
    Tidy K l → sleepLoop ord dt l w = .ok w' →
    ∃ b' d', sleepLoop ord dt (l.filter (fun i => !K i.handle)) (swapDebug cs' b d w) = .ok (swapDebug cs' b' d' w') ∧ Apart K w'.colliders cs' w'.entities b'
  | [], w, w', b, d, h, _, hh => by cases hh; exact ⟨b, d, rfl, h⟩
  | i :: l, w, w', b, d, h, ht, hh => by
    unfold sleepLoop at hh
    obtain ⟨w1, h1, hh⟩ := Res.bind_eq_ok.mp hh
    have hl : Tidy K l := fun j hj => ht j (by simp [hj])
    cases hk : K i.handle with
    | true =>
      rw [List.filter_cons_of_neg (by simp [hk])]
      obtain ⟨⟨d1, e1⟩, h2⟩ := sleepOne_skip h ((ht i (by simp)).2 hk) hk h1
      obtain ⟨b', d', h3, h4⟩ := sleepLoop_apart (d := d) h2 hl hh
      have : swapDebug cs' b d w1 = swapDebug cs' b d w := by rw [e1]; rfl
      rw [this] at h3
      exact ⟨b', d', h3, h4⟩
    | false =>
      rw [List.filter_cons_of_pos (by simp [hk])]
      obtain ⟨b1, d1, h2, h3⟩ := sleepOne_apart (d := d) h (ht i (by simp)).1 hk h1
      unfold sleepLoop
      rw [h2, Res.ok_bind]
      exact sleepLoop_apart h3 hl hh
end

/-! ### The step -/
section
variable {K : Handle → Bool} [ForceGenerator α γ]

/-- Force generators without state of their own that look only at the entity they are asked about. -/
def Solitary (α γ : Type) [Scalar α] [ForceGenerator α γ] : Prop :=
  ∀ (g g' : γ) (dt : α) (w : World α) (h : Handle) (f : Force α), ForceGenerator.makeForce g dt w h = .ok (f, g') →
    g' = g ∧ ∀ w' : World α, w'.getEntity h = w.getEntity h → ForceGenerator.makeForce g dt w' h = .ok (f, g)

theorem gravity_solitary : Solitary α (GravityGenerator α) := by
  intro g g' dt w h f hh
  have hh' : (do let e ← unwrap (w.getEntity h); Except.ok ((⟨g.acceleration.scale e.lastTotalMass, e.position⟩ : Force α), g)) = .ok (f, g') := hh
  obtain ⟨e, he, h2⟩ := Res.bind_eq_ok.mp hh'
  cases h2
  refine ⟨rfl, fun w' hw => ?_⟩
  show (do let e ← unwrap (w'.getEntity h); Except.ok ((⟨g.acceleration.scale e.lastTotalMass, e.position⟩ : Force α), g)) = _
  rw [hw, he]
  rfl

/-- `t` is `s` without the entities of `K`; everything else is the same. -/
structure ApartSystem (K : Handle → Bool) (s t : System α γ) : Prop where
  apart : Apart K s.colliders t.colliders s.entities t.entities
  rest : ∃ d, t = { s with entities := t.entities, colliders := t.colliders, debug := d }

theorem arena_set_self {τ : Type} {a : Arena τ} {h : Handle} {v : τ} (hv : a.get h = some v) : a.set h v = a := by
  have hi := Arena.get_eq_some.mp hv
  unfold Arena.set
  rw [hv]
  have : a.items.set h.index (some (h.generation, v)) = a.items := by
    apply List.ext_getElem?
    intro n
    by_cases hn : h.index = n
    · subst hn
      obtain ⟨hlt, -⟩ := List.getElem?_eq_some_iff.mp hi
      rw [List.getElem?_set_self hlt, hi]
    · rw [List.getElem?_set_ne hn]
  simp only [this]

theorem generatorLoop_solitary (hg : Solitary α γ) {dt : α} {w : World α} {h : Handle} {copy : Entity α} : ∀ {l : List Handle} {g g' : Arena γ} {a t a' t' : Vec3 α},
    generatorLoop dt w h copy l g a t = .ok (g', a', t') → g' = g ∧ ∀ w' : World α, w'.getEntity h = w.getEntity h → generatorLoop dt w' h copy l g a t = .ok (g, a', t')
  | [], g, g', a, t, a', t', hh => by cases hh; exact ⟨rfl, fun _ _ => rfl⟩
  | k :: l, g, g', a, t, a', t', hh => by
    unfold generatorLoop at hh
    obtain ⟨x, hx, hh⟩ := Res.bind_eq_ok.mp hh
    obtain ⟨⟨f, x'⟩, hm, hh⟩ := Res.bind_eq_ok.mp hh
    rw [unwrap_eq_ok] at hx
    obtain ⟨h1, h2⟩ := hg x x' dt w h f hm
    rw [h1] at hh
    simp only [arena_set_self hx] at hh
    obtain ⟨h3, h4⟩ := generatorLoop_solitary hg hh
    refine ⟨h3, fun w' hw => ?_⟩
    unfold generatorLoop
    rw [hx, unwrap_some, Res.ok_bind, h2 w' hw]
    simp only [Res.ok_bind, arena_set_self hx]
    exact h4 w' hw

theorem ApartSystem.mk' {s : System α γ} {cs' : Arena (Collider α)} {b : Arena (InternalEntity α)} {d : List DebugMsg} (h : Apart K s.colliders cs' s.entities b) :
    ApartSystem K s { s with entities := b, colliders := cs', debug := d } := ⟨h, d, rfl⟩

theorem Accelerates.solitary (hg : Solitary α γ) {dt : α} {gens : List Handle} {s : System α γ} {h : Handle} {e : InternalEntity α} {g : Arena γ} {a q : Vec3 α}
    (hacc : Accelerates dt gens s h e g a q) : g = s.generators ∧ ∀ t : System α γ, t.generators = s.generators → t.getEntity h = s.getEntity h → Accelerates dt gens t h e g a q := by
  unfold Accelerates at hacc ⊢
  split at hacc
  · rename_i hf
    obtain ⟨h1, h2⟩ := generatorLoop_solitary hg hacc
    refine ⟨h1, fun t ht hk => ?_⟩
    rw [if_pos hf, ht, h1]
    exact h2 _ hk
  · rename_i hf
    cases hacc
    refine ⟨rfl, fun t ht hk => ?_⟩
    rw [if_neg hf, ht]

theorem integrateAll_apart (hg : Solitary α γ) {dt : α} {gens : List Handle} : ∀ {l : List Handle} {s t s' : System α γ} {is : List (StepInfo α)}, ApartSystem K s t →
    integrateAll dt gens l s = .ok (s', is) →
    ∃ t', integrateAll dt gens (l.filter (fun h => !K h)) t = .ok (t', is.filter (fun i => !K i.handle)) ∧ ApartSystem K s' t' ∧ s'.debug = s.debug ∧ t'.debug = t.debug ∧ Tidy K is
  | [], s, t, s', is, hs, hh => by
    unfold integrateAll at hh
    cases hh
    exact ⟨t, rfl, hs, rfl, rfl, fun i hi => by cases hi⟩
  | h :: l, s, t, s', is, hs, hh => by
    unfold integrateAll at hh
    obtain ⟨⟨s1, i⟩, h1, hh⟩ := Res.bind_eq_ok.mp hh
    obtain ⟨⟨s2, is'⟩, h2, hh⟩ := Res.bind_eq_ok.mp hh
    cases hh
    obtain ⟨e, g, a, q, he, hacc, rfl, rfl⟩ := integrateOne_spec h1
    obtain ⟨rfl, hsol⟩ := Accelerates.solitary hg hacc
    obtain ⟨d, ht⟩ := hs.rest
    have tidy : ∀ {is' : List (StepInfo α)} (x : Vec3 α) (y : Vec3 α), Tidy K is' → Tidy K ((⟨h, x, y, []⟩ : StepInfo α) :: is') := by
      intro is' x y hi j hj
      rcases List.mem_cons.mp hj with rfl | hj
      · exact ⟨by simp, fun _ => rfl⟩
      · exact hi j hj
    cases hk : K h with
    | true =>
      have hn : ApartSystem K { s with generators := s.generators, entities := s.entities.set h (integrateVelocity dt a q e) } t := by
        refine ⟨hs.apart.skip hk he rfl (hs.apart.lonely _ e hk he), d, ?_⟩
        rw [ht]
      obtain ⟨t', k1, k2, k3, k4, k5⟩ := integrateAll_apart hg hn h2
      rw [List.filter_cons_of_neg (by simp [hk]), List.filter_cons_of_neg (by simp [hk])]
      exact ⟨t', k1, k2, k3, k4, tidy _ _ k5⟩
    | false =>
      have hte : t.entities.get h = some e := by rw [hs.apart.get h hk]; exact he
      have htg : t.generators = s.generators := by rw [ht]
      have hmk := integrateOne_mk hte (hsol t htg (by unfold World.getEntity; rw [hte, he]))
      have hn : ApartSystem K { s with generators := s.generators, entities := s.entities.set h (integrateVelocity dt a q e) }
          { t with generators := s.generators, entities := t.entities.set h (integrateVelocity dt a q e) } := by
        refine ⟨hs.apart.set hk he rfl (hs.apart.far _ e he), d, ?_⟩
        rw [ht]
      obtain ⟨t', k1, k2, k3, k4, k5⟩ := integrateAll_apart hg hn h2
      rw [List.filter_cons_of_pos (by simp [hk]), List.filter_cons_of_pos (by simp [hk])]
      refine ⟨t', ?_, k2, k3, k4, tidy _ _ k5⟩
      unfold integrateAll
      rw [hmk]
      simp only [Res.ok_bind]
      rw [k1]
      rfl

theorem step_apart (hg : Solitary α γ) {ord : IterOrder} {dt : α} {s t s' : System α γ} (hs : ApartSystem K s t) {J : LoopState α → Prop} (hJ : Quiet K ord dt J)
    (hj : ∀ m is, integrateAll dt s.generators.handles s.entities.handles { s with collisionRecords := [], debug := [] } = .ok (m, is) → J ⟨m.toWorld, is, dt, zero⟩)
    (hh : s.step ord dt = .ok s') :
    ∃ t', t.step ord dt = .ok t' ∧ ApartSystem K s' t' := by
  unfold System.step at hh ⊢
  split at hh
  · rename_i hz; rw [if_pos hz]; cases hh; exact ⟨t, rfl, hs⟩
  rename_i hz; rw [if_neg hz]
  obtain ⟨⟨s1, is⟩, h1, hh⟩ := Res.bind_eq_ok.mp hh
  obtain ⟨⟨st, c⟩, h2, hh⟩ := Res.bind_eq_ok.mp hh
  obtain ⟨w, h3, hh⟩ := Res.bind_eq_ok.mp hh
  cases hh
  obtain ⟨d, ht⟩ := hs.rest
  have hn : ApartSystem K ({ s with collisionRecords := [], debug := [] } : System α γ) { t with collisionRecords := [], debug := [] } := by
    refine ⟨hs.apart, [], ?_⟩
    rw [ht]
  obtain ⟨t1, k1, k2, k3, k4, k5⟩ := integrateAll_apart hg hn h1
  have htg : t.generators = s.generators := by rw [ht]
  have k1' : integrateAll dt t.generators.handles t.entities.handles { t with collisionRecords := [], debug := [] } = .ok (t1, is.filter (fun i => !K i.handle)) := by
    rw [show t.generators.handles = s.generators.handles by rw [htg], hs.apart.handles]; exact k1
  simp only
  rw [k1']
  simp only [Res.ok_bind]
  obtain ⟨d1, e1⟩ := k2.rest
  have hd1 : d1 = s1.debug := by
    have := congrArg (fun x : System α γ => x.debug) e1
    simp only at this
    rw [← this, k4]
    exact k3.symm
  subst hd1
  obtain ⟨b2, i1, i2, i3⟩ := iterate_apart hJ (st := ⟨s1.toWorld, is, dt, zero⟩) (hj s1 is h1) k2.apart k5 h2
  have e2 : iterate ord dt t1.iterationMax ⟨t1.toWorld, is.filter (fun i => !K i.handle), dt, zero⟩ = .ok (swapLoop K t1.colliders b2 st, c) := by
    have : iterate ord dt s1.iterationMax (swapLoop K t1.colliders t1.entities ⟨s1.toWorld, is, dt, zero⟩) =
        iterate ord dt t1.iterationMax ⟨t1.toWorld, is.filter (fun i => !K i.handle), dt, zero⟩ := by
      generalize t1.entities = x at e1
      generalize t1.colliders = y at e1
      subst e1
      rfl
    rw [← this]; exact i1
  rw [e2]
  simp only [Res.ok_bind]
  have hw : ∃ d, (if c = true then (swapLoop K t1.colliders b2 st).world else { (swapLoop K t1.colliders b2 st).world with debug := (swapLoop K t1.colliders b2 st).world.debug ++ [.ranOut] }) =
      swapDebug t1.colliders b2 d (if c = true then st.world else { st.world with debug := st.world.debug ++ [.ranOut] }) := by
    cases c
    · exact ⟨_, rfl⟩
    · exact ⟨_, rfl⟩
  obtain ⟨d2, hw⟩ := hw
  have happ : Apart K (if c = true then st.world else { st.world with debug := st.world.debug ++ [.ranOut] }).colliders t1.colliders
      (if c = true then st.world else { st.world with debug := st.world.debug ++ [.ranOut] }).entities b2 := by
    cases c <;> exact i2
  obtain ⟨b3, d3, j1, j2⟩ := sleepLoop_apart (d := d2) happ i3 h3
  have j1' : sleepLoop ord dt (swapLoop K t1.colliders b2 st).infos (if c = true then (swapLoop K t1.colliders b2 st).world
      else { (swapLoop K t1.colliders b2 st).world with debug := (swapLoop K t1.colliders b2 st).world.debug ++ [.ranOut] }) = .ok (swapDebug t1.colliders b3 d3 w) := by
    rw [hw]; exact j1
  rw [j1']
  refine ⟨_, rfl, j2, d3, ?_⟩
  have : t1.generators = s1.generators := by rw [e1]
  simp only [swapDebug, this]
end

/-! ### Colliders that never collide -/

theorem Shapes.of_frame {w w' : World α} (h : Shapes K w) (f : Frame w w') : Shapes K w' := by
  intro h1 e1 h2 e2 hk hne g1 g2 c hc c' hc' x y hx hy
  obtain ⟨x1, k1, r1⟩ := f.entities.get' g1
  obtain ⟨x2, k2, r2⟩ := f.entities.get' g2
  rw [staticRel_iff] at r1 r2
  rw [f.colliders] at hx hy
  refine h h1 x1 h2 x2 hk hne k1 k2 c ?_ c' ?_ x y hx hy
  · rw [r1.2.2.2.2] at hc; exact hc
  · rw [r2.2.2.2.2] at hc'; exact hc'

theorem loopInv_respond' {w0 : World α} {hs : List Handle} {st st' : LoopState α} {dt : α} {k : Candidate α} (inv : LoopInv w0 hs st)
    (h1 : ∀ i, st.infos[k.firstIndex]? = some i → i.handle = k.firstHandle) (h2 : ∀ i, st.infos[k.secondIndex]? = some i → i.handle = k.secondHandle)
    (hix : k.firstIndex ≠ k.secondIndex) (hh : respond dt k st = .ok st') : LoopInv w0 hs st' := by
  obtain ⟨-, -, i1, i2, -, -, -, g1, g2, -⟩ := respond_spec hh
  exact loopInv_respond inv ⟨i1, i2, g1, g2, h1 i1 g1, h2 i2 g2⟩ hix hh

theorem Shapes.quiet {ord : IterOrder} {dt : α} {w0 : World α} {hs : List Handle} (hnd : hs.Nodup) (h : Shapes K w0) : Quiet K ord dt (LoopInv w0 hs) :=
  ⟨fun _ hj => (h.of_frame hj.frame).mute _, fun _ _ _ _ hj _ h2 h3 => loopInv_advance hnd hj h2 h3, fun _ _ _ hj _ _ h1 h2 hix h4 => loopInv_respond' hj h1 h2 hix h4⟩

theorem integrateAll_inv [ForceGenerator α γ] {dt : α} {s m : System α γ} {is : List (StepInfo α)}
    (h : integrateAll dt s.generators.handles s.entities.handles { s with collisionRecords := [], debug := [] } = .ok (m, is)) :
    LoopInv s.toWorld s.entities.handles ⟨m.toWorld, is, dt, zero⟩ := by
  obtain ⟨k1, k2, k3, k4, k5, k6⟩ := integrateAll_spec (Arena.handles_nodup _) h
  have f : Frame s.toWorld m.toWorld := by
    refine ⟨k3.mono (fun _ _ => VelRel.static), ?_, ?_, ?_, ?_⟩ <;> rw [k1]
  refine ⟨f, k5, f.live (fun x hx => Arena.mem_handles.mp hx), ?_⟩
  intro i hi
  obtain ⟨e, -, he⟩ := k6 i hi
  have : i.neighbors = [] := by rw [he]
  rw [this]; simp

end Step
end Fluffy
