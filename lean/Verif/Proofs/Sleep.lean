import Verif.Proofs.History
/- Generic lemmas on the debug messages, the sleep bookkeeping and the number of collision records. -/
set_option linter.unusedSectionVars false
set_option linter.unusedSimpArgs false
namespace Fluffy.InternalEntity
variable {α : Type} [Scalar α]

/-- The messages that `wake_up` can push. -/
def IsWake : DebugMsg → Prop
  | .removedFrom _ _ => True
  | .wakingUp _ => True
  | .ranOut => False
  | .puttingToSleep _ => False

theorem wakeNeighbors_debug {target : Handle} : ∀ {ns : List Handle} {st st' : WakeState α},
    wakeNeighbors target ns st = .ok st' → ∃ l, st'.debug = st.debug ++ l ∧ ∀ m ∈ l, IsWake m
  | [], st, st', h => by unfold wakeNeighbors at h; cases h; exact ⟨[], by simp⟩
  | n :: ns, st, st', h => by
    unfold wakeNeighbors at h
    split at h
    · exact wakeNeighbors_debug h
    · obtain ⟨e, -, h⟩ := Res.bind_eq_ok.mp h
      split at h
      · obtain ⟨l, h1, h2⟩ := wakeNeighbors_debug h
        refine ⟨.removedFrom target n :: l, by rw [h1]; simp, ?_⟩
        intro m hm
        rcases List.mem_cons.mp hm with rfl | hm
        · trivial
        · exact h2 m hm
      · obtain ⟨l, h1, h2⟩ := wakeNeighbors_debug h
        exact ⟨l, by rw [h1], h2⟩

theorem wakeNeighbors_asleep {target : Handle} : ∀ {ns : List Handle} {st st' : WakeState α},
    wakeNeighbors target ns st = .ok st' → ∀ k e, st.entities.get k = some e →
      ∃ e', st'.entities.get k = some e' ∧ e'.asleep = e.asleep
  | [], st, st', h, k, e, he => by unfold wakeNeighbors at h; cases h; exact ⟨e, he, rfl⟩
  | n :: ns, st, st', h, k, e, he => by
    unfold wakeNeighbors at h
    split at h
    · exact wakeNeighbors_asleep h k e he
    · obtain ⟨x, hx, h⟩ := Res.bind_eq_ok.mp h
      rw [unwrap_eq_ok] at hx
      split at h
      · by_cases hk : k = n
        · subst hk
          rw [hx] at he; cases he
          obtain ⟨e', h1, h2⟩ := wakeNeighbors_asleep h k _ (Arena.get_set_self hx _)
          exact ⟨e', h1, h2⟩
        · exact wakeNeighbors_asleep h k e (by simp only; rw [Arena.get_set_ne hk]; exact he)
      · exact wakeNeighbors_asleep h k e he

/-- `wake_up` reports every entity it wakes. -/
theorem wakeLoop_debug (ord : IterOrder) : ∀ {fuel : Nat} {st st' : WakeState α}, wakeLoop ord fuel st = .ok st' →
    (∃ l, st'.debug = st.debug ++ l ∧ ∀ m ∈ l, IsWake m) ∧
    ∀ k e, st.entities.get k = some e → ∃ e', st'.entities.get k = some e' ∧
      (e'.asleep = e.asleep ∨ (e.asleep = true ∧ .wakingUp k ∈ st'.debug)) := by
  intro fuel
  induction fuel with
  | zero =>
    intro st st' h
    unfold wakeLoop at h
    split at h
    · cases h; exact ⟨⟨[], by simp⟩, fun k e he => ⟨e, he, Or.inl rfl⟩⟩
    · cases h
  | succ fuel ih =>
    intro st st' h
    unfold wakeLoop at h
    split at h
    · cases h; exact ⟨⟨[], by simp⟩, fun k e he => ⟨e, he, Or.inl rfl⟩⟩
    · rename_i target rest hq
      simp only at h
      obtain ⟨e1, he1, h⟩ := Res.bind_eq_ok.mp h
      obtain ⟨st2, hst2, h⟩ := Res.bind_eq_ok.mp h
      obtain ⟨e2, he2, h⟩ := Res.bind_eq_ok.mp h
      rw [unwrap_eq_ok] at he1 he2
      obtain ⟨⟨l, d1, d2⟩, hk⟩ := ih h
      obtain ⟨l2, d3, d4⟩ := wakeNeighbors_debug hst2
      simp only at d1 hk d3
      refine ⟨?_, ?_⟩
      · refine ⟨l2 ++ (if e2.asleep then [.wakingUp target] else []) ++ l, ?_, ?_⟩
        · rw [d1, d3]; split <;> simp
        · intro m hm
          simp only [List.mem_append] at hm
          rcases hm with (hm | hm) | hm
          · exact d4 m hm
          · split at hm
            · rw [List.mem_singleton] at hm; subst hm; trivial
            · simp at hm
          · exact d2 m hm
      · intro k e he
        obtain ⟨x, hx, hxa⟩ := wakeNeighbors_asleep hst2 k e he
        by_cases hkt : k = target
        · subst hkt
          rw [he2] at hx; cases hx
          obtain ⟨e', h1, h2⟩ := hk k _ (Arena.get_set_self he2 _)
          simp only at h2
          refine ⟨e', h1, ?_⟩
          have hw : e'.asleep = false := by
            rcases h2 with h2 | ⟨h2, -⟩
            · exact h2
            · cases h2
          cases ha : e.asleep with
          | false => left; rw [hw]
          | true =>
            right
            refine ⟨rfl, ?_⟩
            rw [d1, hxa, ha]
            simp
        · obtain ⟨e', h1, h2⟩ := hk k x (by rw [Arena.get_set_ne hkt]; exact hx)
          refine ⟨e', h1, ?_⟩
          rw [← hxa]; exact h2

theorem wakeUp_debug {ord : IterOrder} {start : Handle} {a b : Arena (InternalEntity α)} {d d' : List DebugMsg}
    (h : wakeUp ord start a d = .ok (b, d')) :
    (∃ l, d' = d ++ l ∧ ∀ m ∈ l, IsWake m) ∧
    ∀ k e e', a.get k = some e → b.get k = some e' →
      (e'.asleep = e.asleep ∨ (e.asleep = true ∧ .wakingUp k ∈ d')) := by
  unfold wakeUp at h
  obtain ⟨st, hst, h⟩ := Res.bind_eq_ok.mp h
  cases h
  obtain ⟨h1, h2⟩ := wakeLoop_debug ord hst
  refine ⟨h1, fun k e e' he he' => ?_⟩
  obtain ⟨x, hx, hxa⟩ := h2 k e he
  rw [hx] at he'; cases he'
  exact hxa

end Fluffy.InternalEntity

namespace Fluffy.Step
open InternalEntity
variable {α : Type} [Scalar α] {γ : Type}

/-- How one entity and the messages may evolve while collisions are handled, seen from the entity's state `e0` at the
beginning of the iterations. -/
structure Watch (k : Handle) (e0 : InternalEntity α) (st : LoopState α) : Prop where
  msgs : ∀ m ∈ st.world.debug, IsWake m
  entity : ∃ e, st.world.entities.get k = some e ∧ e.fallingAsleep = e0.fallingAsleep ∧
    e.fallingAsleepTime = e0.fallingAsleepTime ∧ (e0.asleep = false → e.asleep = false) ∧
    (e0.asleep = true → .wakingUp k ∉ st.world.debug → e.asleep = true ∧ e.orientation = e0.orientation)

theorem wakeIfFinite_watch {ord : IterOrder} {h k : Handle} {w w' : World α} {e0 : InternalEntity α}
    (hh : wakeIfFinite ord h w = .ok w') {a b : List (StepInfo α)} {t t' p p' : α} (hw : Watch k e0 ⟨w, a, t, p⟩) :
    Watch k e0 ⟨w', b, t', p'⟩ := by
  obtain ⟨x, -, (⟨-, rfl⟩ | ⟨-, ar, d, hr, rfl⟩)⟩ := wakeIfFinite_spec hh
  · exact ⟨hw.msgs, hw.entity⟩
  · obtain ⟨⟨l, rfl, hl⟩, h2⟩ := wakeUp_debug hr
    obtain ⟨hev, -⟩ := wakeUp_spec hr
    obtain ⟨e, he, e1, e2, e3, e4⟩ := hw.entity
    obtain ⟨e', he', hrel⟩ := hev.get he
    refine ⟨?_, e', he', ?_, ?_, ?_, ?_⟩
    · intro m hm
      rcases List.mem_append.mp hm with hm | hm
      · exact hw.msgs m hm
      · exact hl m hm
    · rw [hrel]; exact e1
    · rw [hrel]; exact e2
    · intro h0
      rcases h2 k e e' he he' with h | ⟨h, -⟩
      · rw [h]; exact e3 h0
      · rw [e3 h0] at h; cases h
    · intro h0 hn
      have hn' : DebugMsg.wakingUp k ∉ w.debug := fun hc => hn (List.mem_append.mpr (Or.inl hc))
      obtain ⟨q1, q2⟩ := e4 h0 hn'
      rcases h2 k e e' he he' with h | ⟨-, h⟩
      · exact ⟨by rw [h, q1], by rw [hrel]; exact q2⟩
      · exact absurd h hn

theorem wakeColliding_watch {ord : IterOrder} {k : Handle} {best : Option (Candidate α)} {w w' : World α}
    {e0 : InternalEntity α} (hh : wakeColliding ord best w = .ok w') {a b : List (StepInfo α)} {t t' p p' : α}
    (hw : Watch k e0 ⟨w, a, t, p⟩) : Watch k e0 ⟨w', b, t', p'⟩ := by
  unfold wakeColliding at hh
  split at hh
  · cases hh; exact ⟨hw.msgs, hw.entity⟩
  · obtain ⟨m, h1, h2⟩ := Res.bind_eq_ok.mp hh
    exact wakeIfFinite_watch h2 (wakeIfFinite_watch (b := a) (t' := t) (p' := p) h1 hw)

theorem advance_watch {best : Option (Candidate α)} {st st' : LoopState α} {k : Handle} {e0 : InternalEntity α}
    (hnd : (st.infos.map StepInfo.handle).Nodup) (hh : advance best st = .ok st') (hw : Watch k e0 st) :
    Watch k e0 st' := by
  obtain ⟨a1, -, a3, a4⟩ := advance_spec hnd hh
  have hd : st'.world.debug = st.world.debug := by rw [a1]
  obtain ⟨e, he, e1, e2, e3, e4⟩ := hw.entity
  refine ⟨by rw [hd]; exact hw.msgs, ?_⟩
  by_cases hm : k ∈ st.infos.map StepInfo.handle
  · obtain ⟨i, hi, rfl⟩ := List.mem_map.mp hm
    obtain ⟨x, hx, hx'⟩ := a4 i hi
    rw [he] at hx; cases hx
    refine ⟨_, hx', ?_, ?_, ?_, ?_⟩
    · unfold moved; split <;> exact e1
    · unfold moved; split <;> exact e2
    · intro h0; unfold moved; split <;> exact e3 h0
    · intro h0 hn
      rw [hd] at hn
      obtain ⟨q1, q2⟩ := e4 h0 hn
      unfold moved
      rw [if_pos q1]; exact ⟨q1, q2⟩
  · rw [hd]
    exact ⟨e, by rw [a3 k hm, he], e1, e2, e3, e4⟩

theorem respond_watch {dt : α} {c : Candidate α} {st st' : LoopState α} {k : Handle} {e0 : InternalEntity α}
    (hh : respond dt c st = .ok st') (hw : Watch k e0 st) : Watch k e0 st' := by
  obtain ⟨first, second, i1, i2, hne, hf, hs, -, -, rfl⟩ := respond_spec hh
  obtain ⟨e, he, e1, e2, e3, e4⟩ := hw.entity
  have hev := respond_evolves hne hf hs (respondPair_first c (st.currentPercent * dt) st.timeLeft first second i1 i2)
    (respondPair_second c (st.currentPercent * dt) st.timeLeft first second i1 i2)
  obtain ⟨e', he', hr⟩ := hev.get he
  refine ⟨hw.msgs, e', he', ?_⟩
  rw [hr]
  exact ⟨e1, e2, e3, e4⟩

theorem iterate_watch {ord : IterOrder} {dt : α} {w0 : World α} {hs : List Handle} (hnd : hs.Nodup) {n : Nat}
    {st st' : LoopState α} {c : Bool} {k : Handle} {e0 : InternalEntity α} (inv : LoopInv w0 hs st)
    (hw : Watch k e0 st) (hh : iterate ord dt n st = .ok (st', c)) : Watch k e0 st' := by
  have := iterate_induct (ord := ord) (dt := dt) (P := fun st => LoopInv w0 hs st ∧ Watch k e0 st)
    (fun st best w st1 hp h1 h2 h3 => by
      have b := loopInv_body (dt := dt) hnd hp.1 h1 h2 h3
      have hw1 : Watch k e0 st1 := advance_watch (st := { st with world := w }) (by
        simp only; rw [hp.1.handles]; exact hnd) h3 (wakeColliding_watch h2 hp.2)
      exact ⟨fun _ => ⟨b.1, hw1⟩, fun q st2 hb h4 => ⟨b.2 q st2 hb h4, respond_watch h4 hw1⟩⟩) ⟨inv, hw⟩ hh
  exact this.2

/-! ### The sleep loop's messages -/

theorem sleepLoop_debug {ord : IterOrder} {dt : α} : ∀ {l : List (StepInfo α)} {w w' : World α},
    (l.map StepInfo.handle).Nodup → (∀ i ∈ l, i.handle ∉ i.neighbors) → sleepLoop ord dt l w = .ok w' →
    ∃ d, w'.debug = w.debug ++ d ∧ (∀ m ∈ d, ∃ h, m = .puttingToSleep h) ∧
      ∀ k x y, w.entities.get k = some x → w'.entities.get k = some y →
        (.puttingToSleep k ∈ d ↔ x.asleep = false ∧ y.asleep = true)
  | [], w, w', _, _, hh => by
    unfold sleepLoop at hh; cases hh
    refine ⟨[], by simp, by simp, ?_⟩
    intro k x y hx hy; rw [hx] at hy; cases hy; cases x.asleep <;> simp
  | i :: l, w, w', hnd, hl, hh => by
    unfold sleepLoop at hh
    obtain ⟨m, h1, hh⟩ := Res.bind_eq_ok.mp hh
    rw [List.map_cons, List.nodup_cons] at hnd
    have hi := hl i (by simp)
    obtain ⟨d, d1, d2, d3⟩ := sleepLoop_debug hnd.2 (fun j hj => hl j (by simp [hj])) hh
    have hlater := sleepLoop_spec hnd.2 (fun j hj => hl j (by simp [hj])) hh
    have fr := sleepOne_frame hi h1
    obtain ⟨-, -, ⟨e, e', he, he', hr, -, -, ho⟩, hdb⟩ := sleepOne_spec hi h1
    rw [he, he'] at hdb
    simp only at hdb
    refine ⟨(if e.asleep = false ∧ e'.asleep = true then [.puttingToSleep i.handle] else []) ++ d, ?_, ?_, ?_⟩
    · rw [d1, hdb, List.append_assoc]
    · intro q hq
      rcases List.mem_append.mp hq with hq | hq
      · split at hq
        · rw [List.mem_singleton] at hq; exact ⟨_, hq⟩
        · simp at hq
      · exact d2 q hq
    · intro k x z hx hz
      obtain ⟨y, hy, -⟩ := fr.entities.get hx
      have hd3 := d3 k y z hy hz
      rw [List.mem_append, hd3]
      by_cases hk : k = i.handle
      · subst hk
        rw [he] at hx; rw [he'] at hy; cases hx; cases hy
        have hz2 := hlater _ _ _ he' hz
        rw [if_neg hnd.1] at hz2
        have hza : z.asleep = e'.asleep := by rw [hz2]
        rw [hza]
        split
        · rename_i hc; simp [hc]
        · rename_i hc
          constructor
          · rintro (h | ⟨h, h'⟩)
            · simp at h
            · rw [h] at h'; cases h'
          · intro h; exact absurd h hc
      · have hxy := (ho k x y hk hx hy).1
        have : y.asleep = x.asleep := by rw [hxy]
        rw [this]
        constructor
        · rintro (h | h)
          · split at h
            · simp at h; exact absurd h hk
            · simp at h
          · exact h
        · exact Or.inr

/-! ### The number of records -/

theorem iterate_count {ord : IterOrder} {dt : α} : ∀ {n : Nat} {st st' : LoopState α} {c : Bool},
    iterate ord dt n st = .ok (st', c) →
    if c then st'.world.collisionRecords.length < st.world.collisionRecords.length + n
    else st'.world.collisionRecords.length = st.world.collisionRecords.length + n
  | 0, st, st', c, hh => by unfold iterate at hh; cases hh; simp
  | n + 1, st, st', c, hh => by
    unfold iterate at hh
    obtain ⟨best, h1, hh⟩ := Res.bind_eq_ok.mp hh
    obtain ⟨w, h2, hh⟩ := Res.bind_eq_ok.mp hh
    obtain ⟨st1, h3, hh⟩ := Res.bind_eq_ok.mp hh
    have r1 : w.collisionRecords = st.world.collisionRecords := by rw [(wakeColliding_evolves h2).1]
    have r2 : st1.world.collisionRecords = w.collisionRecords := by
      unfold advance at h3
      obtain ⟨⟨a, is⟩, -, h3⟩ := Res.bind_eq_ok.mp h3
      cases h3; rfl
    split at hh
    · cases hh
      simp only [if_true]
      rw [r2, r1]; omega
    · obtain ⟨st2, h4, hh⟩ := Res.bind_eq_ok.mp hh
      obtain ⟨first, second, i1, i2, -, -, -, -, -, h5⟩ := respond_spec h4
      have r3 : st2.world.collisionRecords.length = st1.world.collisionRecords.length + 1 := by rw [h5]; simp
      have := iterate_count hh
      rw [r3, r2, r1] at this
      cases c
      · simp only [Bool.false_eq_true, if_false] at this ⊢; omega
      · simp only [if_true] at this ⊢; omega

variable [ForceGenerator α γ]

/-- Seen from the beginning of a step. -/
theorem Phases.watch {ord : IterOrder} {s s' : System α γ} {dt : α} (p : Phases ord s s' dt) {k : Handle}
    {e0 : InternalEntity α} (h : s.entities.get k = some e0) : Watch k e0 p.final := by
  obtain ⟨k1, -, k3, -, -, -⟩ := integrateAll_spec (Arena.handles_nodup _) p.integrate
  obtain ⟨e, he, hr⟩ := k3.get h
  refine iterate_watch (Arena.handles_nodup _) p.inv0 (?_ : Watch k e0 _) p.iterate
  refine ⟨?_, e, he, ?_⟩
  · simp only; rw [k1]; simp
  · rw [hr]
    exact ⟨rfl, rfl, id, fun h _ => ⟨h, rfl⟩⟩

/-- The debug messages and entities at the end of a step, in terms of those at the end of the iterations. -/
theorem Phases.ending {ord : IterOrder} {s s' : System α γ} {dt : α} (p : Phases ord s s' dt) :
    ∃ d, s'.debug = p.final.world.debug ++ (if p.concluded then [] else [.ranOut]) ++ d ∧
      (∀ m ∈ d, ∃ h, m = .puttingToSleep h) ∧
      (∀ k x y, p.final.world.entities.get k = some x → s'.entities.get k = some y →
        (.puttingToSleep k ∈ d ↔ x.asleep = false ∧ y.asleep = true) ∧
        NeighborRel (settle s.toWorld dt x) y) := by
  have hnd : (p.final.infos.map StepInfo.handle).Nodup := by rw [p.inv.handles]; exact Arena.handles_nodup _
  obtain ⟨d, d1, d2, d3⟩ := sleepLoop_debug hnd p.selfless p.sleep
  have hsp := sleepLoop_spec hnd p.selfless p.sleep
  have hent : (if p.concluded then p.final.world else
      { p.final.world with debug := p.final.world.debug ++ [.ranOut] }).entities = p.final.world.entities := by
    split <;> rfl
  refine ⟨d, ?_, d2, ?_⟩
  · rw [d1]; split <;> simp
  · intro k x y hx hy
    refine ⟨d3 k x y (by rw [hent]; exact hx) hy, ?_⟩
    have := hsp k x y (by rw [hent]; exact hx) hy
    have hk : k ∈ p.final.infos.map StepInfo.handle := by
      rw [p.inv.handles]
      obtain ⟨e, he, -⟩ := p.inv.frame.entities.get' hx
      exact Arena.mem_handles.mpr ⟨e, he⟩
    rw [if_pos hk] at this
    have hset : ∀ w : World α, w.energySleepThreshold = s.energySleepThreshold →
        w.sleepTimeThreshold = s.sleepTimeThreshold → settle w dt x = settle s.toWorld dt x := by
      intro w h1 h2; unfold settle; rw [h1, h2]
    rw [hset] at this
    · exact this
    · rw [← p.inv.frame.energy]; split <;> rfl
    · rw [← p.inv.frame.time]; split <;> rfl

end Fluffy.Step

namespace Fluffy.Step
open InternalEntity
variable {α : Type} [Scalar α] {γ : Type}

/-- An iteration loop that writes no record either does nothing (no iterations) or ends in its first iteration. -/
theorem iterate_quiet {ord : IterOrder} {dt : α} {n : Nat} {st st' : LoopState α} {c : Bool}
    (hh : iterate ord dt n st = .ok (st', c))
    (hr : st'.world.collisionRecords.length = st.world.collisionRecords.length) :
    (n = 0 ∧ st' = st ∧ c = false) ∨
    (searchFirst ord st.world 0 st.infos none = .ok none ∧ advance none st = .ok st' ∧ c = true) := by
  have hc := iterate_count hh
  cases n with
  | zero => unfold iterate at hh; cases hh; exact Or.inl ⟨rfl, rfl, rfl⟩
  | succ n =>
    right
    unfold iterate at hh
    obtain ⟨best, h1, hh⟩ := Res.bind_eq_ok.mp hh
    obtain ⟨w, h2, hh⟩ := Res.bind_eq_ok.mp hh
    obtain ⟨st1, h3, hh⟩ := Res.bind_eq_ok.mp hh
    split at hh
    · cases hh
      unfold wakeColliding at h2
      cases h2
      exact ⟨h1, h3, rfl⟩
    · obtain ⟨st2, h4, hh⟩ := Res.bind_eq_ok.mp hh
      have r1 : w.collisionRecords = st.world.collisionRecords := by rw [(wakeColliding_evolves h2).1]
      have r2 : st1.world.collisionRecords = w.collisionRecords := by
        unfold advance at h3
        obtain ⟨⟨a, is⟩, -, h3⟩ := Res.bind_eq_ok.mp h3
        cases h3; rfl
      obtain ⟨first, second, i1, i2, -, -, -, -, -, h5⟩ := respond_spec h4
      have r3 : st2.world.collisionRecords.length = st1.world.collisionRecords.length + 1 := by rw [h5]; simp
      have := iterate_count hh
      rw [r3, r2, r1] at this
      cases c
      · simp only [Bool.false_eq_true, if_false] at this; omega
      · exfalso
        have hm := iterate_mono hh
        rw [r3, r2, r1] at hm; omega
where
  iterate_mono {n : Nat} {st st' : LoopState α} {c : Bool} (hh : iterate ord dt n st = .ok (st', c)) :
      st.world.collisionRecords.length ≤ st'.world.collisionRecords.length := by
    refine iterate_induct (ord := ord) (dt := dt)
      (P := fun x => st.world.collisionRecords.length ≤ x.world.collisionRecords.length) ?_ (Nat.le_refl _) hh
    intro x best w x1 hp h1 h2 h3
    have r1 : w.collisionRecords = x.world.collisionRecords := by rw [(wakeColliding_evolves h2).1]
    have r2 : x1.world.collisionRecords = w.collisionRecords := by
      unfold advance at h3
      obtain ⟨⟨a, is⟩, -, h3⟩ := Res.bind_eq_ok.mp h3
      cases h3; rfl
    refine ⟨fun _ => by rw [r2, r1]; exact hp, fun k x2 _ h4 => ?_⟩
    obtain ⟨first, second, i1, i2, -, -, -, -, -, h5⟩ := respond_spec h4
    rw [h5]
    simp only [List.length_append, List.length_cons, List.length_nil]
    rw [r2, r1]; omega

/-- Where a record comes from: the `i`-th new record was written by the response to the candidate found after `i`
iterations. -/
theorem iterate_record {ord : IterOrder} {dt : α} : ∀ {n : Nat} {st st' : LoopState α} {c : Bool},
    iterate ord dt n st = .ok (st', c) → ∃ l, st'.world.collisionRecords = st.world.collisionRecords ++ l ∧
    ∀ i r, l[i]? = some r → ∃ st1 k w st2 first second i1 i2, iterate ord dt i st = .ok (st1, false) ∧
      searchFirst ord st1.world 0 st1.infos none = .ok (some k) ∧
      wakeColliding ord (some k) st1.world = .ok w ∧ advance (some k) { st1 with world := w } = .ok st2 ∧
      st2.world.entities.get k.firstHandle = some first ∧ st2.world.entities.get k.secondHandle = some second ∧
      st2.infos[k.firstIndex]? = some i1 ∧ st2.infos[k.secondIndex]? = some i2 ∧
      r = (respondPair k (st2.currentPercent * dt) st2.timeLeft first second i1 i2).record
  | 0, st, st', c, hh => by
    unfold iterate at hh; cases hh
    exact ⟨[], by simp, by simp⟩
  | n + 1, st, st', c, hh => by
    unfold iterate at hh
    obtain ⟨best, h1, hh⟩ := Res.bind_eq_ok.mp hh
    obtain ⟨w, h2, hh⟩ := Res.bind_eq_ok.mp hh
    obtain ⟨st1, h3, hh⟩ := Res.bind_eq_ok.mp hh
    have r1 : w.collisionRecords = st.world.collisionRecords := by rw [(wakeColliding_evolves h2).1]
    have r2 : st1.world.collisionRecords = w.collisionRecords := by
      unfold advance at h3
      obtain ⟨⟨a, is⟩, -, h3⟩ := Res.bind_eq_ok.mp h3
      cases h3; rfl
    cases best with
    | none =>
      cases hh
      exact ⟨[], by rw [r2, r1]; simp, by simp⟩
    | some k =>
      obtain ⟨st2, h4, hh⟩ := Res.bind_eq_ok.mp hh
      obtain ⟨first, second, i1, i2, e1, e2, e3, e4, e5, h5⟩ := respond_spec h4
      obtain ⟨l, hl, hrec⟩ := iterate_record hh
      refine ⟨(respondPair k (st1.currentPercent * dt) st1.timeLeft first second i1 i2).record :: l, ?_, ?_⟩
      · rw [hl, h5]
        simp only [r2, r1]
        simp
      · intro i r hi
        cases i with
        | zero =>
          simp only [List.getElem?_cons_zero, Option.some.injEq] at hi
          subst hi
          exact ⟨st, k, w, st1, first, second, i1, i2, rfl, h1, h2, h3, e2, e3, e4, e5, rfl⟩
        | succ i =>
          rw [List.getElem?_cons_succ] at hi
          obtain ⟨a1, b1, w1, c1, d1, f1, g1, k1, q1, q2⟩ := hrec i r hi
          refine ⟨a1, b1, w1, c1, d1, f1, g1, k1, ?_, q2⟩
          unfold iterate
          rw [h1]
          show (do let w ← wakeColliding ord (some k) st.world; _) = _
          rw [h2]
          show (do let st ← advance (some k) _; _) = _
          rw [h3]
          show (do let st ← respond dt k st1; _) = _
          rw [h4]
          exact q1

end Fluffy.Step
