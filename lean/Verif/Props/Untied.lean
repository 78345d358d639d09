import Verif.Props.Repeat
import Verif.Props.Jam
import Verif.Props.Inertia
/-
C69: the iteration orders of the hash sets matter only where two contacts of the same two entities come at the same moment, and through the slots that
`remove_entity` frees.
-/
set_option linter.unusedSectionVars false
set_option linter.unusedSimpArgs false
namespace Fluffy.Step
open InternalEntity
section
variable {α : Type} [Scalar α]

/-! ### Loops that yield a result in one order yield one in every order -/

theorem considerPair_any {cs : Arena (Collider α)} {f g : InternalEntity α} {i1 i2 : StepInfo α} {n1 n2 : Nat} {c1 c2 : Handle} {b b' : Option (Candidate α)}
    (h : considerPair cs f g i1 i2 n1 n2 c1 c2 b = .ok b') (d : Option (Candidate α)) : ∃ d', considerPair cs f g i1 i2 n1 n2 c1 c2 d = .ok d' := by
  unfold considerPair at h ⊢
  obtain ⟨x, hx, h⟩ := Res.bind_eq_ok.mp h
  obtain ⟨y, hy, h⟩ := Res.bind_eq_ok.mp h
  obtain ⟨r, hr, h⟩ := Res.bind_eq_ok.mp h
  simp only [hx, hy, hr, Res.ok_bind]
  cases r with
  | none => exact ⟨d, rfl⟩
  | some c =>
    simp only
    split
    · exact ⟨_, rfl⟩
    · split <;> exact ⟨_, rfl⟩

theorem secondColliderLoop_pairs {cs : Arena (Collider α)} {f g : InternalEntity α} {i1 i2 : StepInfo α} {n1 n2 : Nat} {c1 : Handle} :
    ∀ {l : List Handle} {b b' : Option (Candidate α)}, secondColliderLoop cs f g i1 i2 n1 n2 c1 l b = .ok b' →
    ∀ c2 ∈ l, ∃ b b', considerPair cs f g i1 i2 n1 n2 c1 c2 b = .ok b'
  | [], _, _, _ => fun c h => nomatch h
  | c :: l, b, b', h => by
    unfold secondColliderLoop at h
    obtain ⟨m, h1, h2⟩ := Res.bind_eq_ok.mp h
    intro c2 hc
    rcases List.mem_cons.mp hc with rfl | hc
    · exact ⟨_, _, h1⟩
    · exact secondColliderLoop_pairs h2 c2 hc

theorem secondColliderLoop_all {cs : Arena (Collider α)} {f g : InternalEntity α} {i1 i2 : StepInfo α} {n1 n2 : Nat} {c1 : Handle} : ∀ {l : List Handle},
    (∀ c2 ∈ l, ∃ b b', considerPair cs f g i1 i2 n1 n2 c1 c2 b = .ok b') → ∀ d, ∃ d', secondColliderLoop cs f g i1 i2 n1 n2 c1 l d = .ok d'
  | [], _, d => ⟨d, rfl⟩
  | x :: l, hl, d => by
    obtain ⟨_, _, hx⟩ := hl x (by simp)
    obtain ⟨d', hd⟩ := considerPair_any hx d
    obtain ⟨e, he⟩ := secondColliderLoop_all (l := l) (fun c hc => hl c (List.mem_cons_of_mem _ hc)) d'
    exact ⟨e, by simp only [secondColliderLoop, hd, he, Res.ok_bind]⟩

theorem firstColliderLoop_pairs {cs : Arena (Collider α)} {f g : InternalEntity α} {i1 i2 : StepInfo α} {n1 n2 : Nat} {l2 : List Handle} :
    ∀ {l : List Handle} {b b' : Option (Candidate α)}, firstColliderLoop cs f g i1 i2 n1 n2 l2 l b = .ok b' →
    ∀ c1 ∈ l, ∀ c2 ∈ l2, ∃ b b', considerPair cs f g i1 i2 n1 n2 c1 c2 b = .ok b'
  | [], _, _, _ => fun c h => by cases h
  | c :: l, b, b', h => by
    unfold firstColliderLoop at h
    obtain ⟨m, h1, h2⟩ := Res.bind_eq_ok.mp h
    intro c1 hc
    rcases List.mem_cons.mp hc with rfl | hc
    · exact secondColliderLoop_pairs h1
    · exact firstColliderLoop_pairs h2 c1 hc

theorem firstColliderLoop_all {cs : Arena (Collider α)} {f g : InternalEntity α} {i1 i2 : StepInfo α} {n1 n2 : Nat} {l2 : List Handle} : ∀ {l : List Handle},
    (∀ c1 ∈ l, ∀ c2 ∈ l2, ∃ b b', considerPair cs f g i1 i2 n1 n2 c1 c2 b = .ok b') → ∀ d, ∃ d', firstColliderLoop cs f g i1 i2 n1 n2 l2 l d = .ok d'
  | [], _, d => ⟨d, rfl⟩
  | x :: l, hl, d => by
    obtain ⟨d', hd⟩ := secondColliderLoop_all (hl x (by simp)) d
    obtain ⟨e, he⟩ := firstColliderLoop_all (l := l) (fun c hc => hl c (List.mem_cons_of_mem _ hc)) d'
    exact ⟨e, by simp only [firstColliderLoop, hd, he, Res.ok_bind]⟩

theorem searchPair_ok {o o' : IterOrder} {w : World α} {i1 i2 : StepInfo α} {n1 n2 : Nat} {b b' : Option (Candidate α)} (h : searchPair o w i1 i2 n1 n2 b = .ok b') :
    ∃ d', searchPair o' w i1 i2 n1 n2 b = .ok d' := by
  unfold searchPair at h ⊢
  obtain ⟨⟨f, g⟩, h1, h⟩ := Res.bind_eq_ok.mp h
  simp only [h1, Res.ok_bind]
  simp only at h
  split at h
  · rename_i hn; rw [if_pos hn]; exact ⟨_, rfl⟩
  · rename_i hn
    rw [if_neg hn]
    split at h
    · rename_i hm; rw [if_pos hm]; exact ⟨_, rfl⟩
    · rename_i hm
      rw [if_neg hm]
      have hp := firstColliderLoop_pairs h
      exact firstColliderLoop_all (fun c1 m1 c2 m2 => hp c1 ((o.colliders_perm _ _).mem_iff.mpr ((o'.colliders_perm _ _).mem_iff.mp m1)) c2
        ((o.colliders_perm _ _).mem_iff.mpr ((o'.colliders_perm _ _).mem_iff.mp m2))) b

/-! ### The earliest of some contacts -/

/-- What `pick` leaves: what was there, if nothing is earlier; otherwise one of the earliest. -/
theorem foldl_pick_least [LawfulOrder α] : ∀ (ks : List (Candidate α)) (b : Option (Candidate α)),
    (ks.foldl pick b = b ∧ ∀ k ∈ ks, Scalar.lt k.percent (percentOf b) = false) ∨
    ∃ k ∈ ks, ks.foldl pick b = some k ∧ Scalar.lt k.percent (percentOf b) = true ∧ ∀ k' ∈ ks, Scalar.lt k'.percent k.percent = false
  | [], b => Or.inl ⟨rfl, fun k h => by cases h⟩
  | x :: ks, b => by
    rw [List.foldl_cons]
    by_cases hx : Scalar.lt x.percent (percentOf b) = true
    · have hp : pick b x = some x := by unfold pick; rw [if_pos hx]
      rw [hp]
      right
      rcases foldl_pick_least ks (some x) with ⟨h1, h2⟩ | ⟨k, hk, h1, h2, h3⟩
      · refine ⟨x, by simp, h1, hx, fun k' hk' => ?_⟩
        rcases List.mem_cons.mp hk' with rfl | hk'
        · exact LawfulOrder.lt_irrefl _
        · exact h2 k' hk'
      · refine ⟨k, by simp [hk], h1, LawfulOrder.lt_trans _ _ _ h2 hx, fun k' hk' => ?_⟩
        rcases List.mem_cons.mp hk' with rfl | hk'
        · cases hc : Scalar.lt k'.percent k.percent with
          | false => rfl
          | true => exact absurd (LawfulOrder.lt_trans _ _ _ hc h2) (by rw [show percentOf (some k') = k'.percent from rfl, LawfulOrder.lt_irrefl]; simp)
        · exact h3 k' hk'
    · have hp : pick b x = b := by unfold pick; rw [if_neg hx]
      rw [hp]
      have hx' : Scalar.lt x.percent (percentOf b) = false := by simpa using hx
      rcases foldl_pick_least ks b with ⟨h1, h2⟩ | ⟨k, hk, h1, h2, h3⟩
      · left
        refine ⟨h1, fun k hk => ?_⟩
        rcases List.mem_cons.mp hk with rfl | hk
        · exact hx'
        · exact h2 k hk
      · right
        refine ⟨k, by simp [hk], h1, h2, fun k' hk' => ?_⟩
        rcases List.mem_cons.mp hk' with rfl | hk'
        · cases hc : Scalar.lt k'.percent k.percent with
          | false => rfl
          | true => rw [LawfulOrder.lt_trans _ _ _ hc h2] at hx'; cases hx'
        · exact h3 k' hk'
end

theorem not_before {a b c d : XReal} (h1 : Scalar.lt a b = false) (h2 : Scalar.lt b a = false) (h3 : Scalar.lt a c = true) (h4 : Scalar.lt b d = true) : a = b := by
  revert h1 h2 h3 h4
  cases a <;> cases b <;> cases c <;> cases d <;> simp
  all_goals intros; linarith

/-- The earliest does not depend on the order unless two different contacts are equally early. -/
theorem pick_same {ks ks' : List (Candidate XReal)} (hm : ∀ k, k ∈ ks ↔ k ∈ ks') (hu : ∀ k ∈ ks, ∀ k' ∈ ks, k.percent = k'.percent → k = k') (b : Option (Candidate XReal)) :
    ks.foldl pick b = ks'.foldl pick b := by
  rcases foldl_pick_least ks b with ⟨h1, h2⟩ | ⟨k, hk, h1, h2, h3⟩
  · rcases foldl_pick_least ks' b with ⟨g1, g2⟩ | ⟨k', hk', g1, g2, g3⟩
    · rw [h1, g1]
    · rw [h2 k' ((hm k').mpr hk')] at g2; cases g2
  · rcases foldl_pick_least ks' b with ⟨g1, g2⟩ | ⟨k', hk', g1, g2, g3⟩
    · rw [g2 k ((hm k).mp hk)] at h2; cases h2
    · rw [h1, g1, hu k hk k' ((hm k').mpr hk') (not_before (g3 k ((hm k).mp hk)) (h3 k' ((hm k').mpr hk')) h2 g2)]

end Fluffy.Step

namespace Fluffy.Props
open Fluffy Step InternalEntity XReal
variable {γ : Type}

/-! ### Specification -/

/-- Two different contacts of the same two entities come at the same moment: there are two ways in which the two entities touch first. -/
def Ties (w : World XReal) (infos : List (StepInfo XReal)) : Prop :=
  ∃ (n m : Nat) (i j : StepInfo XReal) (k k' : Candidate XReal), n < m ∧ infos[n]? = some i ∧ infos[m]? = some j ∧ EntityContact w i j n m k ∧ EntityContact w i j n m k' ∧
    k.percent = k'.percent ∧ k ≠ k'

/-- No two different contacts of the same two entities come at the same moment, in any iteration of the step. -/
def Untied [ForceGenerator XReal γ] (ord : IterOrder) (s : System XReal γ) (dt : XReal) : Prop :=
  ∀ mid infos, integrateAll dt s.generators.handles s.entities.handles { s with collisionRecords := [], debug := [] } = .ok (mid, infos) →
    ∀ (n : Nat) st, Moment ord dt n ⟨mid.toWorld, infos, dt, zero⟩ st → ¬Ties st.world st.infos

/-- All the colliders of the entity but one, if any, are null colliders: they give it mass and are not met by anything. -/
def OneShape (s : System XReal γ) : Prop :=
  ∀ h e c d, s.getEntity h = some e → c ∈ e.colliders → d ∈ e.colliders → (∀ x, s.getCollider c ≠ some (.null x)) → (∀ x, s.getCollider d ≠ some (.null x)) → c = d

/-- The call removes no entity with several colliders. -/
def RemovesLone (s : System XReal γ) : Op XReal γ → Prop
  | .removeEntity h => ∀ e, s.getEntity h = some e → e.colliders.length ≤ 1
  | _ => True

/-! ### One call -/

variable {o o' : IterOrder}

theorem searchPair_untied {w : World XReal} {i j : StepInfo XReal} {n m : Nat} (hu : ∀ k k', EntityContact w i j n m k → EntityContact w i j n m k' → k.percent = k'.percent → k = k')
    {b b' : Option (Candidate XReal)} (h : searchPair o w i j n m b = .ok b') : searchPair o' w i j n m b = .ok b' := by
  obtain ⟨d, hd⟩ := searchPair_ok (o' := o') h
  obtain ⟨ks, h1, h2⟩ := searchPair_spec h
  obtain ⟨ks', g1, g2⟩ := searchPair_spec hd
  rw [hd, g1, h1, pick_same (fun k => (h2 k).trans (g2 k).symm) (fun k hk k' hk' => hu k k' ((h2 k).mp hk) ((h2 k').mp hk'))]

theorem searchSecond_untied {w : World XReal} {i : StepInfo XReal} {n : Nat} : ∀ {l : List (StepInfo XReal)} {m : Nat} {b b' : Option (Candidate XReal)},
    (∀ a j k k', l[a]? = some j → EntityContact w i j n (m + a) k → EntityContact w i j n (m + a) k' → k.percent = k'.percent → k = k') →
    searchSecond o w i n m l b = .ok b' → searchSecond o' w i n m l b = .ok b'
  | [], _, _, _, _, h => h
  | j :: l, m, b, b', hu, h => by
    unfold searchSecond at h ⊢
    obtain ⟨c, h1, h⟩ := Res.bind_eq_ok.mp h
    rw [searchPair_untied (m := m) (fun k k' => hu 0 j k k' rfl) h1]
    simp only [Res.ok_bind]
    exact searchSecond_untied (fun a j' k k' hj => by
      have := hu (a + 1) j' k k' hj
      rwa [show m + (a + 1) = m + 1 + a by omega] at this) h

theorem searchFirst_untied {w : World XReal} : ∀ {l : List (StepInfo XReal)} {n : Nat} {b b' : Option (Candidate XReal)},
    (∀ a c i j k k', a < c → l[a]? = some i → l[c]? = some j → EntityContact w i j (n + a) (n + c) k → EntityContact w i j (n + a) (n + c) k' → k.percent = k'.percent → k = k') →
    searchFirst o w n l b = .ok b' → searchFirst o' w n l b = .ok b'
  | [], _, _, _, _, h => h
  | i :: l, n, b, b', hu, h => by
    unfold searchFirst at h ⊢
    obtain ⟨c, h1, h⟩ := Res.bind_eq_ok.mp h
    rw [searchSecond_untied (o' := o') (fun a j k k' hj => by
      have := hu 0 (a + 1) i j k k' (by omega) rfl hj
      rwa [Nat.add_zero, show n + (a + 1) = n + 1 + a by omega] at this) h1]
    simp only [Res.ok_bind]
    exact searchFirst_untied (fun a c i' j k k' hac hi hj => by
      have := hu (a + 1) (c + 1) i' j k k' (by omega) hi hj
      rwa [show n + (a + 1) = n + 1 + a by omega, show n + (c + 1) = n + 1 + c by omega] at this) h

theorem wakeLoop_orders (hn : o.neighbors = o'.neighbors) : ∀ (n : Nat) (st : WakeState XReal), wakeLoop o n st = wakeLoop o' n st
  | 0, st => by unfold wakeLoop; rfl
  | n + 1, st => by
    unfold wakeLoop
    simp only [hn, wakeLoop_orders hn n]

theorem wakeUp_orders (hn : o.neighbors = o'.neighbors) (h : Handle) (a : Arena (InternalEntity XReal)) (d : List DebugMsg) : wakeUp o h a d = wakeUp o' h a d := by
  unfold wakeUp
  rw [wakeLoop_orders hn]

theorem wakeColliding_orders (hn : o.neighbors = o'.neighbors) (b : Option (Candidate XReal)) (w : World XReal) : wakeColliding o b w = wakeColliding o' b w := by
  unfold wakeColliding wakeIfFinite
  simp only [wakeUp_orders hn]

theorem sleepLoop_orders (hn : o.stepNeighbors = o'.stepNeighbors) (dt : XReal) : ∀ (l : List (StepInfo XReal)) (w : World XReal), sleepLoop o dt l w = sleepLoop o' dt l w
  | [], _ => rfl
  | i :: l, w => by
    unfold sleepLoop
    have : sleepOne o dt i w = sleepOne o' dt i w := by unfold sleepOne; simp only [hn]
    rw [this]
    simp only [sleepLoop_orders hn dt l]

theorem iterate_untied (hn : o.neighbors = o'.neighbors) {dt : XReal} : ∀ {n : Nat} {st : LoopState XReal} {r : LoopState XReal × Bool},
    (∀ (k : Nat) st', Moment o dt k st st' → ¬Ties st'.world st'.infos) → iterate o dt n st = .ok r → iterate o' dt n st = .ok r
  | 0, _, _, _, h => h
  | n + 1, st, r, hu, h => by
    unfold iterate at h ⊢
    obtain ⟨b, h1, h⟩ := Res.bind_eq_ok.mp h
    obtain ⟨w, h2, h⟩ := Res.bind_eq_ok.mp h
    obtain ⟨st1, h3, h⟩ := Res.bind_eq_ok.mp h
    have hs : searchFirst o' st.world 0 st.infos none = .ok b := by
      refine searchFirst_untied (o := o) (fun a c i j k k' hac hi hj hk hk' hp => ?_) h1
      by_contra hne
      exact hu 0 st (.now st) ⟨a, c, i, j, k, k', hac, hi, hj, by simpa using hk, by simpa using hk', hp, hne⟩
    rw [wakeColliding_orders hn] at h2
    simp only [hs, h2, h3, Res.ok_bind]
    cases b with
    | none => exact h
    | some k =>
      simp only at h ⊢
      obtain ⟨st2, h4, h⟩ := Res.bind_eq_ok.mp h
      simp only [h4, Res.ok_bind]
      rw [← wakeColliding_orders hn] at h2
      exact iterate_untied hn (fun k' st' hm => hu (k' + 1) st' (.later h1 h2 h3 h4 hm)) h

variable [ForceGenerator XReal γ] {s : System XReal γ}

theorem step_untied (hn : o.neighbors = o'.neighbors) (hp : o.stepNeighbors = o'.stepNeighbors) {dt : XReal} {s' : System XReal γ} (hu : Untied o s dt)
    (h : s.step o dt = .ok s') : s.step o' dt = .ok s' := by
  unfold System.step at h ⊢
  split at h
  · rename_i hd; rw [if_pos hd]; exact h
  · rename_i hd
    rw [if_neg hd]
    obtain ⟨⟨mid, infos⟩, h1, h⟩ := Res.bind_eq_ok.mp h
    obtain ⟨⟨st, c⟩, h2, h⟩ := Res.bind_eq_ok.mp h
    have h2' := iterate_untied hn (hu mid infos h1) h2
    simp only [h1, h2', Res.ok_bind, ← sleepLoop_orders hp]
    exact h

/-- A call has the same outcome whatever the orders of the sets of colliders, unless two contacts tie or slots are freed in another order. -/
theorem exec_untied (hr : Reachable s) (hn : o.neighbors = o'.neighbors) (hp : o.stepNeighbors = o'.stepNeighbors) {op : Op XReal γ} {r : System XReal γ × Out γ}
    (hu : ∀ dt, op = .step dt → Untied o s dt) (hl : RemovesLone s op) (h : s.exec o op = .ok r) : s.exec o' op = .ok r := by
  cases op with
  | addCollider c => exact h
  | removeCollider c => exact h
  | updateCollider c x => rw [C16_order_independent hr o' o (by simp only [System.ColliderOp])]; exact h
  | linkCollider c e => rw [C16_order_independent hr o' o (by simp only [System.ColliderOp])]; exact h
  | addEntity e => exact h
  | removeEntity k =>
    simp only [System.exec] at h ⊢
    unfold System.removeEntity at h ⊢
    cases hE : s.entities.get k with
    | none =>
      have : (s.entities.remove k).2 = none := by rw [Arena.remove_snd, hE]
      simp only [this] at h ⊢
      exact h
    | some E =>
      have : (s.entities.remove k).2 = some E := by rw [Arena.remove_snd, hE]
      simp only [this] at h ⊢
      have hlen : E.colliders.length ≤ 1 := hl E.makePub (by unfold World.getEntity; rw [hE]; rfl)
      have key : ∀ q : IterOrder, q.colliders k E.colliders = E.colliders := by
        intro q
        have hq := q.colliders_perm k E.colliders
        match hc : E.colliders with
        | [] => rw [hc] at hq; exact hq.eq_nil
        | [x] => rw [hc] at hq; exact List.perm_singleton.mp hq
        | x :: y :: l => rw [hc] at hlen; simp at hlen
      rw [key o] at h
      rw [key o']
      exact h
  | updateEntity k e =>
    simp only [System.exec] at h ⊢
    unfold System.updateEntity at h ⊢
    cases hE : s.entities.get k with
    | none => simp only [hE] at h ⊢; exact h
    | some E =>
      simp only [hE] at h ⊢
      cases hU : E.updateFrom e with
      | none => simp only [hU] at h ⊢; exact h
      | some p =>
        obtain ⟨E1, wk⟩ := p
        simp only [hU] at h ⊢
        have hcs : E1.colliders = E.colliders := by rw [(System.updateFrom_fields hU).2.2]
        rw [recalculateMass_perm E1 ((o'.colliders_perm k E1.colliders).trans (o.colliders_perm k E1.colliders).symm)
          (fun x hx => live_colliders hr.inv hE x (by rw [← hcs]; exact (o'.colliders_perm _ _).mem_iff.mp hx))]
        simp only [← wakeUp_orders hn]
        exact h
  | addGenerator g => exact h
  | removeGenerator g => exact h
  | step dt =>
    simp only [System.exec] at h ⊢
    obtain ⟨s', h1, h⟩ := Res.bind_eq_ok.mp h
    rw [step_untied hn hp (hu dt rfl) h1]
    exact h
  | configure n e t rs d => exact h

/-! ### Runs -/

theorem Reachable.exec_next {op : Op XReal γ} {r : System XReal γ × Out γ} (hr : Reachable s) (h : s.exec o op = .ok r) : Reachable r.1 := by
  obtain ⟨tr, ht⟩ := hr
  exact ⟨_, .snoc o op r.2 ht h⟩

theorem play_untied (hb : Blind XReal γ) : ∀ {l l' : List (IterOrder × Op XReal γ)} {s t : System XReal γ} {r : System XReal γ × List (Out γ)}, Reachable s → TwinSystem s t →
    l.map Prod.snd = l'.map Prod.snd →
    (∀ n x q, l[n]? = some x → play (l.take n) s = .ok q → RemovesLone q.1 x.2 ∧ ∀ dt, x.2 = .step dt → Untied x.1 q.1 dt) →
    play l s = .ok r → ∃ r', play l' t = .ok r' ∧ r'.2 = r.2 ∧ TwinSystem r.1 r'.1
  | [], [], s, t, r, _, ht, _, _, hh => by
    unfold play at hh ⊢
    cases hh
    exact ⟨_, rfl, rfl, ht⟩
  | [], _ :: _, _, _, _, _, _, he, _, _ => by cases he
  | _ :: _, [], _, _, _, _, _, he, _, _ => by cases he
  | (o, op) :: l, (o', op') :: l', s, t, r, hr, ht, he, ha, hh => by
    simp only [List.map_cons, List.cons.injEq] at he
    obtain ⟨rfl, he⟩ := he
    unfold play at hh
    obtain ⟨⟨s1, out⟩, h1, hh⟩ := Res.bind_eq_ok.mp hh
    obtain ⟨⟨s2, outs⟩, h2, hh⟩ := Res.bind_eq_ok.mp hh
    cases hh
    obtain ⟨a0, a1⟩ := ha 0 (o, op) (s, []) rfl rfl
    let o2 : IterOrder := ⟨o'.colliders, o.neighbors, o.stepNeighbors, o'.colliders_perm, o.neighbors_perm, o.stepNeighbors_perm⟩
    have g0 : s.exec o2 op = .ok (s1, out) := exec_untied (o := o) (o' := o2) hr rfl rfl a1 a0 h1
    obtain ⟨t1, g1, k1⟩ := exec_twin (o := o2) (o' := o') hb ht hr.inv.wfE (fun _ _ _ => rfl) (fun _ _ _ => rfl) g0
    obtain ⟨⟨t2, outs'⟩, g2, k2, k3⟩ := play_untied hb (Reachable.exec_next hr h1) k1 he (fun n x q hx hq =>
      ha (n + 1) x (q.1, out :: q.2) hx (by simp only [List.take_succ_cons, play, h1, Res.ok_bind, hq])) h2
    refine ⟨(t2, out :: outs'), ?_, by rw [show outs' = outs from k2], k3⟩
    simp only [play, g1, g2, Res.ok_bind]

/-- **C69 (partial).** In real arithmetic the iteration orders of the hash sets do not matter to a run in which no step meets a tie, two different contacts of the
same two entities at the same moment, and no entity with several colliders is removed: every other run of the same calls gives the same results, and a state that
reads the same. Nothing has to be finite. Both exceptions are real: see `C69_false` for the ties and `C69_slots_false` for the removals. -/
theorem C69_untied_partial (hb : Blind XReal γ) {l l' : List (IterOrder × Op XReal γ)} (hs : Reachable s) (hl : l.map Prod.snd = l'.map Prod.snd)
    (hu : ∀ n x q, l[n]? = some x → play (l.take n) s = .ok q → RemovesLone q.1 x.2 ∧ ∀ dt, x.2 = .step dt → Untied x.1 q.1 dt)
    {r : System XReal γ × List (Out γ)} (hr : play l s = .ok r) : ∃ r', play l' s = .ok r' ∧ r'.2 = r.2 ∧ SameView r.1 r'.1 := by
  obtain ⟨r', h1, h2, h3⟩ := play_untied hb hs (TwinSystem.refl s) hl hu hr
  exact ⟨r', h1, h2, twin_view h3⟩

theorem moment_inv {w0 : World XReal} {hs : List Handle} (hnd : hs.Nodup) {dt : XReal} {n : Nat} {st st' : LoopState XReal} (h : Moment o dt n st st') :
    LoopInv w0 hs st → LoopInv w0 hs st' := by
  induction h with
  | now st => exact id
  | later h1 h2 h3 h4 _ ih => exact fun inv => ih ((loopInv_body hnd inv h1 h2 h3).2 _ _ rfl h4)

theorem contact_shapes {cs : Arena (Collider XReal)} {f g : InternalEntity XReal} {i j : StepInfo XReal} {n m : Nat} {c d : Handle} {k : Candidate XReal}
    (h : ColliderContact cs f g i j n m c d k) : (∀ x, cs.get c ≠ some (.null x)) ∧ ∀ x, cs.get d ≠ some (.null x) := by
  obtain ⟨c1, c2, col, h1, h2, h3, -⟩ := h
  constructor
  · intro x hx
    rw [h1] at hx
    cases hx
    unfold collide at h3
    cases c2 <;> cases h3
  · intro x hx
    rw [h2] at hx
    cases hx
    unfold collide at h3
    cases c1 <;> cases h3

theorem contact_unique {cs : Arena (Collider XReal)} {f g : InternalEntity XReal} {i j : StepInfo XReal} {n m : Nat} {c d : Handle} {k k' : Candidate XReal}
    (h : ColliderContact cs f g i j n m c d k) (h' : ColliderContact cs f g i j n m c d k') : k = k' := by
  obtain ⟨c1, c2, col, h1, h2, h3, -, rfl⟩ := h
  obtain ⟨c1', c2', col', g1, g2, g3, -, rfl⟩ := h'
  rw [h1] at g1
  rw [h2] at g2
  cases g1
  cases g2
  rw [h3] at g3
  cases g3
  rfl

/-- Entities with one shape each never touch in two ways. -/
theorem OneShape.untied (h : OneShape s) (o : IterOrder) (dt : XReal) : Untied o s dt := by
  intro mid infos hI n st hm
  have inv0 : LoopInv s.toWorld s.entities.handles ⟨mid.toWorld, infos, dt, zero⟩ := by
    obtain ⟨k1, k2, k3, k4, k5, k6⟩ := integrateAll_spec (Arena.handles_nodup _) hI
    have f : Frame s.toWorld mid.toWorld := by
      refine ⟨k3.mono (fun _ _ => VelRel.static), ?_, ?_, ?_, ?_⟩ <;> rw [k1]
    refine ⟨f, k5, f.live (fun x hx => Arena.mem_handles.mp hx), ?_⟩
    intro i hi
    obtain ⟨e, -, he⟩ := k6 i hi
    rw [he]
    exact ⟨List.nodup_nil, by simp⟩
  have inv := moment_inv (Arena.handles_nodup _) hm inv0
  rintro ⟨a, b, i, j, k, k', hab, hi, hj, ⟨f, g, e1, e2, -, -, -, c, hc, d, hd, hk⟩, ⟨f', g', e1', e2', -, -, -, c', hc', d', hd', hk'⟩, -, hne⟩
  rw [e1] at e1'
  rw [e2] at e2'
  cases e1'
  cases e2'
  have pick : ∀ {y : Handle} {x : InternalEntity XReal} {c c' : Handle}, st.world.entities.get y = some x → c ∈ x.colliders → c' ∈ x.colliders →
      (∀ z, st.world.colliders.get c ≠ some (.null z)) → (∀ z, st.world.colliders.get c' ≠ some (.null z)) → c = c' := by
    intro y x c c' hy hc hc' hn hn'
    obtain ⟨E, hE, hr⟩ := inv.frame.entities.get' hy
    rw [InternalEntity.StaticRel.colliders hr] at hc hc'
    rw [inv.frame.colliders] at hn hn'
    exact h y E.makePub c c' (getEntity_iff.mpr ⟨E, hE, rfl⟩) hc hc' (fun z => by rw [getCollider_eq]; exact hn z) (fun z => by rw [getCollider_eq]; exact hn' z)
  have p1 := pick e1 hc hc' (contact_shapes hk).1 (contact_shapes hk').1
  have p2 := pick e2 hd hd' (contact_shapes hk).2 (contact_shapes hk').2
  subst p1 p2
  exact hne (contact_unique hk hk')

/-- **C69 (partial).** In real arithmetic the iteration orders of the hash sets do not matter to a run at every moment of which every entity carries at most one
collider that is not a null collider, however many null colliders it carries (they give it mass and moment of inertia), and in which no entity with several
colliders is removed. -/
theorem C69_shape_partial (hb : Blind XReal γ) {l l' : List (IterOrder × Op XReal γ)} (hs : Reachable s) (hl : l.map Prod.snd = l'.map Prod.snd)
    (hu : ∀ n x q, l[n]? = some x → play (l.take n) s = .ok q → RemovesLone q.1 x.2 ∧ OneShape q.1)
    {r : System XReal γ × List (Out γ)} (hr : play l s = .ok r) : ∃ r', play l' s = .ok r' ∧ r'.2 = r.2 ∧ SameView r.1 r'.1 :=
  C69_untied_partial hb hs hl (fun n x q hx hq => ⟨(hu n x q hx hq).1, fun dt _ => (hu n x q hx hq).2.untied x.1 dt⟩) hr

end Fluffy.Props

namespace Fluffy.Props
open Fluffy F32 Demo
variable [Libm]

/-- The collider that is added. -/
def slotBall : Collider F32 := ball (vec 0 0 0) (num 1) (num 1) (num 1)

/-- An entity with two colliders. -/
def slotCalls : List (IterOrder × Op F32 (GravityGenerator F32)) :=
  plain [.addEntity (thing (num 1) (vec 0 0 0) (vec 0 0 0)), .addCollider slotBall, .addCollider slotBall, .linkCollider h0 (some h0), .linkCollider h1 (some h0)]

/-- The calls returned what they should, the last one `a`, and there is nothing at `b`. -/
def slotTest (a b : Handle) (r : System F32 (GravityGenerator F32) × List (Out (GravityGenerator F32))) : Bool :=
  match r.2 with
  | [.entity (some a1), .collider (some a2), .collider (some a3), .ok b1, .ok b2, .ok b3, .collider (some a4)] =>
    a1 == h0 && (a2 == h0 && (a3 == h1 && (b1 && (b2 && (b3 && (a4 == a && (r.1.getCollider b).isNone))))))
  | _ => false

theorem slot_run {o : IterOrder} {a b : Handle} (ht : (play (slotCalls ++ [(o, .removeEntity h0), (.id, .addCollider slotBall)]) System.new).test (slotTest a b) = true) :
    ∃ r, play (slotCalls ++ [(o, .removeEntity h0), (.id, .addCollider slotBall)]) System.new = .ok r ∧
      r.2 = [.entity (some h0), .collider (some h0), .collider (some h1), .ok true, .ok true, .ok true] ++ [.collider (some a)] ∧ r.1.getCollider b = none := by
  obtain ⟨⟨s, out⟩, h1, h2⟩ := Res.of_test ht
  refine ⟨_, h1, ?_⟩
  unfold slotTest at h2
  simp only at h2
  split at h2
  · simp only [Bool.and_eq_true, beq_iff_eq, Option.isNone_iff_eq_none] at h2
    obtain ⟨rfl, rfl, rfl, rfl, rfl, rfl, rfl, h2⟩ := h2
    exact ⟨rfl, h2⟩
  · cases h2

/-- **C69 fails**, in binary32 too, for the handles: an entity with two colliders is removed, which frees the slots of the two in the order in which they are
visited, and the collider that is added next gets the handle of one or of the other. The two runs make the same calls; up to the last one the calls return the same. -/
theorem C69_slots_false : ∃ (l : List (IterOrder × Op F32 (GravityGenerator F32))) (op : Op F32 (GravityGenerator F32)) (h : Handle) (o o' : IterOrder)
    (r r' : System F32 (GravityGenerator F32) × List (Out (GravityGenerator F32))) (x : List (Out (GravityGenerator F32))) (a b : Handle),
    play (l ++ [(o, .removeEntity h), (.id, op)]) System.new = .ok r ∧ play (l ++ [(o', .removeEntity h), (.id, op)]) System.new = .ok r' ∧
    r.2 = x ++ [.collider (some a)] ∧ r'.2 = x ++ [.collider (some b)] ∧ a ≠ b ∧ r.1.getCollider b = none ∧ r'.1.getCollider a = none := by
  have t1 : (play (slotCalls ++ [(.id, .removeEntity h0), (.id, .addCollider slotBall)]) System.new).test (slotTest ⟨1, 2⟩ ⟨0, 2⟩) = true := by kernel_refl
  have t2 : (play (slotCalls ++ [(backwards, .removeEntity h0), (.id, .addCollider slotBall)]) System.new).test (slotTest ⟨0, 2⟩ ⟨1, 2⟩) = true := by kernel_refl
  obtain ⟨r, g1, g2, g3⟩ := slot_run t1
  obtain ⟨r', k1, k2, k3⟩ := slot_run t2
  exact ⟨slotCalls, _, h0, .id, backwards, r, r', _, _, _, g1, k1, g2, k2, by decide, g3, k3⟩
end Fluffy.Props

namespace Fluffy.Props
open Fluffy XReal Demo Scene Step

theorem play_of_runAll {γ : Type} [ForceGenerator XReal γ] : ∀ {l : List (IterOrder × Op XReal γ)} {s s' : System XReal γ}, runAll s l = .ok s' → ∃ outs, play l s = .ok (s', outs)
  | [], s, s', h => by cases h; exact ⟨[], rfl⟩
  | (o, op) :: l, s, s', h => by
    unfold runAll at h
    obtain ⟨r, h1, h⟩ := Res.bind_eq_ok.mp h
    obtain ⟨outs, h2⟩ := play_of_runAll h
    exact ⟨r.2 :: outs, by simp only [play, h1, h2, Res.ok_bind]⟩

theorem play_split {γ : Type} [ForceGenerator XReal γ] : ∀ {l l' : List (IterOrder × Op XReal γ)} {s m : System XReal γ} {r : System XReal γ × List (Out γ)} {outs : List (Out γ)},
    play l s = .ok (m, outs) → play (l ++ l') s = .ok r → ∃ outs', play l' m = .ok (r.1, outs')
  | [], l', s, m, r, outs, h, h' => by cases h; exact ⟨_, h'⟩
  | (o, op) :: l, l', s, m, r, outs, h, h' => by
    rw [List.cons_append] at h'
    unfold play at h h'
    obtain ⟨q, h1, h⟩ := Res.bind_eq_ok.mp h
    obtain ⟨q2, h2, h⟩ := Res.bind_eq_ok.mp h
    obtain ⟨q', h1', h'⟩ := Res.bind_eq_ok.mp h'
    obtain ⟨q2', h2', h'⟩ := Res.bind_eq_ok.mp h'
    rw [h1] at h1'
    cases h1'
    cases h
    obtain ⟨outs', h3⟩ := play_split h2 h2'
    cases h'
    exact ⟨outs', h3⟩

/-- A null collider without mass. -/
noncomputable def feather : Collider XReal := .null ⟨none, (Vec3.o).f, fin 0, (Mat3.o).f⟩

/-- The hypotheses of `C69_shape_partial` are met by an entity with a ball and a null collider that flies at another ball. -/
example (o : IterOrder) : ∃ (s : System XReal (GravityGenerator XReal)) (e : Entity XReal) (r : System XReal (GravityGenerator XReal) × List (Out (GravityGenerator XReal))),
    Reachable s ∧ OneShape s ∧ s.getEntity h0 = some e ∧ e.colliders.length = 2 ∧ play [(.id, .step (fin 1))] s = .ok r ∧
    ∃ r', play [(o, .step (fin 1))] s = .ok r' ∧ r'.2 = r.2 ∧ SameView r.1 r'.1 := by
  have hn : feather.newFrom = some feather := by simp [feather, Collider.newFrom, NullCollider.isValid]
  obtain ⟨outs, hp⟩ := tied_built (γ := GravityGenerator XReal) hn ⟨rfl, rfl, rfl⟩ rfl
  have hs : Reachable (tiedBy (γ := GravityGenerator XReal) feather) := play_reachable hp
  obtain ⟨s2, g2⟩ := C29_plain_partial ((tiedCalls (γ := GravityGenerator XReal) feather).map (fun x => (IterOrder.id, x)) ++ [(.id, .step (fin 1))])
    (by simp [tiedCalls, Plain, sphere, feather, Collider.IsMesh])
  obtain ⟨o2, g2⟩ := play_of_runAll g2
  obtain ⟨o3, h3⟩ := play_split hp g2
  have h1s : OneShape (tiedBy (γ := GravityGenerator XReal) feather) := by
    intro h e c d he hc hd nc nd
    obtain ⟨x, hx, rfl⟩ := getEntity_iff.mp he
    rcases two_either hx with ⟨-, rfl⟩ | ⟨-, rfl⟩
    · have key : ∀ z, z ∈ (dot (fin 1) .o ⟨2, 0, 0⟩ [h0, h2] up).makePub.colliders →
          (∀ x, (tiedBy (γ := GravityGenerator XReal) feather).getCollider z ≠ some (.null x)) → z = h0 := by
        intro z hz hne
        have hz' : z = h0 ∨ z = h2 := by simpa [dot, InternalEntity.makePub] using hz
        rcases hz' with rfl | rfl
        · rfl
        · exact absurd rfl (hne _)
      rw [key c hc nc, key d hd nd]
    · have hc' : c = h1 := by simpa [dot, InternalEntity.makePub] using hc
      have hd' : d = h1 := by simpa [dot, InternalEntity.makePub] using hd
      rw [hc', hd']
  refine ⟨tiedBy feather, _, _, hs, h1s, rfl, rfl, h3, ?_⟩
  refine C69_shape_partial (l := [(.id, .step (fin 1))]) (l' := [(o, .step (fin 1))]) gravity_blind hs rfl (fun n x q hx hq => ?_) h3
  cases n with
  | zero =>
    simp only [List.take_zero, play] at hq
    cases hq
    cases hx
    exact ⟨trivial, h1s⟩
  | succ n => simp at hx
end Fluffy.Props
