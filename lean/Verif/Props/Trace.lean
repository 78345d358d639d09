import Verif.Props.Bystander
import Verif.Props.Repeat
import Verif.Num.Kernel
/-
C108: what is added and taken away again leaves no trace.
-/
set_option linter.unusedSectionVars false
set_option linter.unusedSimpArgs false
namespace Fluffy.Props
open Fluffy InternalEntity Step

section
variable {α : Type} [Scalar α] {γ : Type}

/-! ### Debug messages do not matter -/

/-- The messages `d` come first. -/
def WakeState.after (d : List DebugMsg) (st : WakeState α) : WakeState α := { st with debug := d ++ st.debug }

theorem wakeNeighbors_after (d : List DebugMsg) (t : Handle) : ∀ (l : List Handle) (st : WakeState α),
    wakeNeighbors t l (WakeState.after d st) = (wakeNeighbors t l st).map (WakeState.after d)
  | [], st => rfl
  | n :: l, st => by
    unfold wakeNeighbors
    show (if n ∈ st.completed then _ else _) = _
    split
    · exact wakeNeighbors_after d t l st
    · show (do let neighbor ← unwrap (st.entities.get n); _) = _
      cases unwrap (st.entities.get n) with
      | error p => rfl
      | ok x =>
        simp only [Res.ok_bind]
        split
        · rw [← wakeNeighbors_after d t l]
          simp only [WakeState.after, List.append_assoc]
        · rw [← wakeNeighbors_after d t l]
          rfl

theorem wakeLoop_after (d : List DebugMsg) (ord : IterOrder) : ∀ (n : Nat) (st : WakeState α),
    wakeLoop ord n (WakeState.after d st) = (wakeLoop ord n st).map (WakeState.after d) := by
  intro n
  induction n with
  | zero =>
    rintro ⟨en, co, qu, de⟩
    unfold wakeLoop
    cases qu <;> rfl
  | succ n ih =>
    rintro ⟨en, co, qu, de⟩
    unfold wakeLoop
    cases qu with
    | nil => rfl
    | cons t rest =>
      have := fun l => wakeNeighbors_after d t l ⟨en, hsInsert co t, rest, de⟩
      simp only [WakeState.after] at this ⊢
      cases unwrap (en.get t) with
      | error p => rfl
      | ok x =>
        simp only [Res.ok_bind, this]
        cases wakeNeighbors t (ord.neighbors t x.neighbors) ⟨en, hsInsert co t, rest, de⟩ with
        | error p => rfl
        | ok m =>
          simp only [Except.map, Res.ok_bind, WakeState.after]
          cases unwrap (m.entities.get t) with
          | error p => rfl
          | ok y =>
            simp only [Res.ok_bind]
            have h2 := ih { m with entities := m.entities.set t { y with asleep := false, neighbors := [] }, debug := if y.asleep then m.debug ++ [.wakingUp t] else m.debug }
            simp only [WakeState.after] at h2
            rw [show (if y.asleep = true then d ++ m.debug ++ [DebugMsg.wakingUp t] else d ++ m.debug) = d ++ (if y.asleep = true then m.debug ++ [.wakingUp t] else m.debug) by
              split <;> simp, h2]
            rfl

/-- What a wake-up does does not depend on the messages that are there. -/
theorem wakeUp_after (ord : IterOrder) (h : Handle) {a b : Arena (InternalEntity α)} {d d' : List DebugMsg} (hh : wakeUp ord h a d = .ok (b, d')) (e : List DebugMsg) :
    ∃ e', wakeUp ord h a e = .ok (b, e') := by
  have key : ∀ d, wakeUp ord h a d = (wakeUp ord h a []).map (fun r => (r.1, d ++ r.2)) := by
    intro d
    unfold wakeUp
    have := wakeLoop_after d ord (1 + linkCount a) ⟨a, [], [h], []⟩
    simp only [WakeState.after, List.append_nil] at this
    rw [this]
    cases wakeLoop ord (1 + linkCount a) ⟨a, [], [h], []⟩ <;> rfl
  rw [key] at hh
  rw [key e]
  cases hw : wakeUp ord h a [] with
  | error p => rw [hw] at hh; cases hh
  | ok r => rw [hw] at hh; cases hh; exact ⟨_, rfl⟩

/-! ### Systems with the same contents -/

/-- The same things are stored under the same handles. -/
def Stores {τ : Type} (a b : Arena τ) : Prop := ∀ h, b.get h = a.get h

theorem Stores.symm {τ : Type} {a b : Arena τ} (h : Stores a b) : Stores b a := fun k => (h k).symm
theorem Stores.set {τ : Type} {a b : Arena τ} (h : Stores a b) (k : Handle) (v : τ) : Stores (a.set k v) (b.set k v) := by
  intro j; rw [Arena.get_set, Arena.get_set, h, h]
theorem Stores.remove {τ : Type} {a b : Arena τ} (h : Stores a b) (k : Handle) : Stores (a.remove k).1 (b.remove k).1 := by
  intro j; rw [Arena.get_remove, Arena.get_remove, h]
theorem Stores.handles {τ : Type} {a b : Arena τ} (h : Stores a b) : b.handles = a.handles := by
  have := handles_eq_filter (K := fun _ => false) (a := a) (b := b) (fun x => by simpa using h x)
  simpa using this

/-- The system with other arenas and messages. -/
def stored (b : Arena (InternalEntity α)) (cs : Arena (Collider α)) (d : List DebugMsg) (s : System α γ) : System α γ := { s with entities := b, colliders := cs, debug := d }

/-- The same contents, with arenas that may differ in what is free, and other messages. -/
structure Akin (s t : System α γ) : Prop where
  entities : Stores s.entities t.entities
  colliders : Stores s.colliders t.colliders
  rest : ∃ d, t = stored t.entities t.colliders d s

theorem Akin.mk' {s : System α γ} {b : Arena (InternalEntity α)} {cs : Arena (Collider α)} {d : List DebugMsg} (h1 : Stores s.entities b) (h2 : Stores s.colliders cs) :
    Akin s (stored b cs d s) := ⟨h1, h2, d, rfl⟩

theorem Akin.symm {s t : System α γ} (h : Akin s t) : Akin t s := by
  obtain ⟨d, hd⟩ := h.rest
  exact ⟨h.entities.symm, h.colliders.symm, s.debug, by rw [hd]; rfl⟩

theorem Akin.view {s t : System α γ} (h : Akin s t) : SameView s t := by
  obtain ⟨d, hd⟩ := h.rest
  refine ⟨fun k => ?_, fun k => ?_, fun k => by rw [hd]; rfl, by rw [hd]; rfl, by rw [hd]; exact ⟨rfl, rfl, rfl⟩⟩
  · unfold World.getEntity; rw [h.entities k]
  · unfold World.getCollider; rw [h.colliders k]

theorem Stores.mass {cs cs' : Arena (Collider α)} (h : Stores cs cs') (l : List Handle) (e : InternalEntity α) : recalculateMass l cs' e = recalculateMass l cs e :=
  recalculateMass_congr e (fun k _ => by rw [h k])

theorem Stores.apart {cs cs' : Arena (Collider α)} {a b : Arena (InternalEntity α)} (h : Stores a b) (hc : Stores cs cs') : Apart (fun _ => false) cs cs' a b :=
  ⟨fun k _ => h k, by simp, by simpa using h.handles, by simp, by simp, fun _ _ _ _ c _ => hc c⟩

theorem Stores.wakeUp {ord : IterOrder} {k : Handle} {a b a' : Arena (InternalEntity α)} (h : Stores a b) {d d' : List DebugMsg} (hh : InternalEntity.wakeUp ord k a d = .ok (a', d'))
    (e : List DebugMsg) : ∃ b' e', InternalEntity.wakeUp ord k b e = .ok (b', e') ∧ Stores a' b' := by
  obtain ⟨b', h1, h2⟩ := wakeUp_apart (cs := (Arena.new : Arena (Collider α))) (cs' := Arena.new) (h.apart (fun _ => rfl)) rfl hh
  obtain ⟨e', h3⟩ := wakeUp_after ord k h1 e
  exact ⟨b', e', h3, fun j => h2.get j rfl⟩

variable [ForceGenerator α γ]

theorem Akin.step (hg : Solitary α γ) {s t s' : System α γ} (h : Akin s t) {ord : IterOrder} {dt : α} (hh : s.step ord dt = .ok s') : ∃ t', t.step ord dt = .ok t' ∧ Akin s' t' := by
  obtain ⟨d, hd⟩ := h.rest
  obtain ⟨t', h1, h2⟩ := stepAll_apart (K := fun _ => false) (l := [(ord, dt)]) hg ⟨h.entities.apart h.colliders, d, hd⟩ (fun _ _ _ _ hk => by cases hk) (s' := s') (by
    simp only [stepAll, hh, Res.ok_bind])
  simp only [stepAll] at h1
  obtain ⟨m, h3, h4⟩ := Res.bind_eq_ok.mp h1
  cases h4
  obtain ⟨d', hd'⟩ := h2.rest
  refine ⟨t', h3, fun k => h2.apart.get k rfl, ?_, d', hd'⟩
  have e1 : s'.colliders = s.colliders := (step_frame hh).1.colliders
  have e2 : t'.colliders = t.colliders := (step_frame h3).1.colliders
  rw [e1, e2]
  exact h.colliders

theorem Akin.refresh {s t s' : System α γ} (h : Akin s t) {ord : IterOrder} {k : Option Handle} (hh : System.refreshEntity ord s k = .ok s') :
    ∃ t', System.refreshEntity ord t k = .ok t' ∧ Akin s' t' := by
  obtain ⟨d, hd⟩ := h.rest
  unfold System.refreshEntity at hh ⊢
  cases k with
  | none => cases hh; exact ⟨t, rfl, h⟩
  | some k =>
    simp only at hh ⊢
    rw [h.entities k]
    cases he : s.entities.get k with
    | none => rw [he] at hh; cases hh; exact ⟨t, rfl, h⟩
    | some e =>
      rw [he] at hh
      simp only at hh ⊢
      rw [h.colliders.mass]
      obtain ⟨e', h1, h2⟩ := Res.bind_eq_ok.mp hh
      cases h2
      rw [h1]
      refine ⟨_, rfl, h.entities.set _ _, h.colliders, d, ?_⟩
      rw [hd]; rfl

theorem Akin.unlink {s t s' : System α γ} (h : Akin s t) {ord : IterOrder} {c : Handle} {k : Option Handle} (hh : System.unlinkPrior ord s c k = .ok s') :
    ∃ t', System.unlinkPrior ord t c k = .ok t' ∧ Akin s' t' := by
  obtain ⟨d, hd⟩ := h.rest
  unfold System.unlinkPrior at hh ⊢
  cases k with
  | none => cases hh; exact ⟨t, rfl, h⟩
  | some k =>
    simp only at hh ⊢
    rw [h.entities k]
    cases he : s.entities.get k with
    | none => rw [he] at hh; cases hh; exact ⟨t, rfl, h⟩
    | some e =>
      rw [he] at hh
      simp only at hh ⊢
      rw [h.colliders.mass]
      obtain ⟨e', h1, h2⟩ := Res.bind_eq_ok.mp hh
      cases h2
      rw [h1]
      refine ⟨_, rfl, h.entities.set _ _, h.colliders, d, ?_⟩
      rw [hd]; rfl

theorem Akin.setCollider {s t : System α γ} (h : Akin s t) (c : Handle) (x : Collider α) :
    Akin ({ s with colliders := s.colliders.set c x } : System α γ) { t with colliders := t.colliders.set c x } := by
  obtain ⟨d, hd⟩ := h.rest
  exact ⟨h.entities, h.colliders.set _ _, d, by rw [hd]; rfl⟩

theorem Akin.setEntity {s t : System α γ} (h : Akin s t) (k : Handle) (x : InternalEntity α) :
    Akin ({ s with entities := s.entities.set k x } : System α γ) { t with entities := t.entities.set k x } := by
  obtain ⟨d, hd⟩ := h.rest
  exact ⟨h.entities.set _ _, h.colliders, d, by rw [hd]; rfl⟩

theorem Akin.switch {s t : System α γ} (h : Akin s t) {ord : IterOrder} {c : Handle} {k : Option Handle} {r : System α γ × Bool} (hh : System.switchLink ord s c k = .ok r) :
    ∃ t', System.switchLink ord t c k = .ok (t', r.2) ∧ Akin r.1 t' := by
  unfold System.switchLink at hh ⊢
  rw [h.colliders c]
  cases hc : s.colliders.get c with
  | none => rw [hc] at hh; cases hh; exact ⟨t, rfl, h⟩
  | some C =>
    rw [hc] at hh
    simp only at hh ⊢
    split at hh
    · rename_i hne
      rw [if_pos hne]
      obtain ⟨m, h1, h2⟩ := Res.bind_eq_ok.mp hh
      cases h2
      obtain ⟨t', h3, h4⟩ := (h.setCollider c (C.setEntity k)).unlink h1
      rw [h3]
      exact ⟨t', rfl, h4⟩
    · rename_i hne
      rw [if_neg hne]
      cases hh
      exact ⟨_, rfl, h.setCollider c (C.setEntity k)⟩

theorem Akin.removeCollider {s t s' : System α γ} (h : Akin s t) {c : Handle} (hh : s.removeCollider c = .ok s') : ∃ t', t.removeCollider c = .ok t' ∧ Akin s' t' := by
  obtain ⟨d, hd⟩ := h.rest
  have hrem : Akin ({ s with colliders := (s.colliders.remove c).1 } : System α γ) { t with colliders := (t.colliders.remove c).1 } :=
    ⟨h.entities, h.colliders.remove c, d, by rw [hd]; rfl⟩
  unfold System.removeCollider at hh ⊢
  simp only [Arena.remove_snd] at hh ⊢
  rw [h.colliders c]
  cases hc : s.colliders.get c with
  | none => rw [hc] at hh; cases hh; exact ⟨t, rfl, h⟩
  | some C =>
    rw [hc] at hh
    simp only at hh ⊢
    cases hk : C.entity with
    | none => rw [hk] at hh; cases hh; exact ⟨_, rfl, hrem⟩
    | some k =>
      rw [hk] at hh
      simp only at hh ⊢
      rw [h.entities k]
      cases he : s.entities.get k with
      | none => rw [he] at hh; cases hh; exact ⟨_, rfl, hrem⟩
      | some e => rw [he] at hh; cases hh

theorem Akin.removeColliders : ∀ {l : List Handle} {s t s' : System α γ}, Akin s t → System.removeColliders l s = .ok s' → ∃ t', System.removeColliders l t = .ok t' ∧ Akin s' t'
  | [], s, t, s', h, hh => by cases hh; exact ⟨t, rfl, h⟩
  | c :: l, s, t, s', h, hh => by
    unfold System.removeColliders at hh ⊢
    obtain ⟨m, h1, h2⟩ := Res.bind_eq_ok.mp hh
    obtain ⟨m', h3, h4⟩ := h.removeCollider h1
    rw [h3]
    exact Akin.removeColliders h4 h2

/-- The call adds a body or a collider. -/
def Adds : Op α γ → Prop
  | .addEntity _ => True
  | .addCollider _ => True
  | _ => False

/-- Every call that adds no body and no collider keeps two systems with the same contents alike, and returns the same. -/
theorem Akin.exec (hg : Solitary α γ) {s t s' : System α γ} (h : Akin s t) {ord : IterOrder} {op : Op α γ} {out : Out γ} (ha : ¬ Adds op) (hh : s.exec ord op = .ok (s', out)) :
    ∃ t', t.exec ord op = .ok (t', out) ∧ Akin s' t' := by
  obtain ⟨d, hd⟩ := h.rest
  cases op with
  | addEntity e => exact absurd trivial ha
  | addCollider c => exact absurd trivial ha
  | removeEntity k =>
    simp only [System.exec, System.removeEntity, Arena.remove_snd] at hh ⊢
    rw [h.entities k]
    cases he : s.entities.get k with
    | none => rw [he] at hh; cases hh; exact ⟨t, rfl, h⟩
    | some e =>
      rw [he] at hh
      simp only at hh ⊢
      obtain ⟨r, h1, h2⟩ := Res.bind_eq_ok.mp hh
      cases h2
      obtain ⟨m, h3, h4⟩ := Res.bind_eq_ok.mp h1
      cases h4
      have hrem : Akin ({ s with entities := (s.entities.remove k).1 } : System α γ) { t with entities := (t.entities.remove k).1 } :=
        ⟨h.entities.remove k, h.colliders, d, by rw [hd]; rfl⟩
      obtain ⟨t', h5, h6⟩ := hrem.removeColliders h3
      rw [h5]
      exact ⟨t', rfl, h6⟩
  | updateEntity k x =>
    simp only [System.exec, System.updateEntity] at hh ⊢
    rw [h.entities k]
    cases he : s.entities.get k with
    | none => rw [he] at hh; cases hh; exact ⟨t, rfl, h⟩
    | some e =>
      rw [he] at hh
      simp only at hh ⊢
      cases hu : e.updateFrom x with
      | none => rw [hu] at hh; cases hh; exact ⟨t, rfl, h⟩
      | some p =>
        obtain ⟨e', w⟩ := p
        rw [hu] at hh
        simp only at hh ⊢
        rw [h.colliders.mass]
        obtain ⟨r, h1, h2⟩ := Res.bind_eq_ok.mp hh
        cases h2
        obtain ⟨e2, h3, h4⟩ := Res.bind_eq_ok.mp h1
        rw [h3]
        simp only [Res.ok_bind] at h4 ⊢
        split at h4
        · rename_i hw
          rw [if_pos hw]
          obtain ⟨q, h5, h6⟩ := Res.bind_eq_ok.mp h4
          cases h6
          obtain ⟨b', e', h7, h8⟩ := (h.entities.set k e2).wakeUp h5 t.debug
          rw [h7]
          exact ⟨_, rfl, h8, h.colliders, e', by rw [hd]; rfl⟩
        · rename_i hw
          rw [if_neg hw]
          cases h4
          exact ⟨_, rfl, h.setEntity k e2⟩
  | removeCollider c =>
    simp only [System.exec] at hh ⊢
    obtain ⟨m, h1, h2⟩ := Res.bind_eq_ok.mp hh
    cases h2
    obtain ⟨t', h3, h4⟩ := h.removeCollider h1
    rw [h3]
    exact ⟨t', rfl, h4⟩
  | updateCollider c x =>
    simp only [System.exec, System.updateCollider] at hh ⊢
    rw [h.colliders c]
    cases hc : s.colliders.get c with
    | none => rw [hc] at hh; cases hh; exact ⟨t, rfl, h⟩
    | some C =>
      rw [hc] at hh
      simp only at hh ⊢
      cases hu : C.updateFrom x with
      | wrongType => rw [hu] at hh; cases hh; exact ⟨t, rfl, h⟩
      | invalid =>
        rw [hu] at hh
        simp only at hh ⊢
        obtain ⟨r, h1, h2⟩ := Res.bind_eq_ok.mp hh
        cases h2
        obtain ⟨m, h3, h4⟩ := Res.bind_eq_ok.mp h1
        cases h4
        obtain ⟨t', h5, h6⟩ := h.refresh h3
        rw [h5]
        exact ⟨t', rfl, h6⟩
      | updated C' =>
        rw [hu] at hh
        simp only at hh ⊢
        obtain ⟨r, h1, h2⟩ := Res.bind_eq_ok.mp hh
        cases h2
        obtain ⟨m, h3, h4⟩ := Res.bind_eq_ok.mp h1
        cases h4
        obtain ⟨t', h5, h6⟩ := (h.setCollider c C').refresh h3
        rw [h5]
        exact ⟨t', rfl, h6⟩
  | linkCollider c k =>
    have hcont : t.colliders.contains c = s.colliders.contains c := by unfold Arena.contains; rw [h.colliders c]
    simp only [System.exec, System.linkCollider] at hh ⊢
    rw [hcont]
    obtain ⟨r, h1, h2⟩ := Res.bind_eq_ok.mp hh
    cases h2
    split at h1
    · rename_i hn
      rw [if_pos hn]; cases h1; exact ⟨t, rfl, h⟩
    · rename_i hn
      rw [if_neg hn]
      cases k with
      | none =>
        simp only at h1 ⊢
        obtain ⟨t', h3, h4⟩ := h.switch h1
        rw [h3]; exact ⟨t', rfl, h4⟩
      | some k =>
        simp only at h1 ⊢
        rw [h.entities k]
        cases he : s.entities.get k with
        | none => rw [he] at h1; cases h1; exact ⟨t, rfl, h⟩
        | some e =>
          rw [he] at h1
          simp only at h1 ⊢
          rw [h.colliders.mass]
          obtain ⟨e', h3, h4⟩ := Res.bind_eq_ok.mp h1
          rw [h3]
          simp only [Res.ok_bind]
          obtain ⟨t', h5, h6⟩ := (h.setEntity k e').switch h4
          rw [h5]; exact ⟨t', rfl, h6⟩
  | addGenerator g =>
    have hgen : t.generators = s.generators := by rw [hd]; rfl
    simp only [System.exec, System.addGenerator] at hh ⊢
    rw [hgen]
    cases hh
    exact ⟨_, rfl, h.entities, h.colliders, d, by rw [hd]; rfl⟩
  | removeGenerator g =>
    have hgen : t.generators = s.generators := by rw [hd]; rfl
    simp only [System.exec, System.removeGenerator] at hh ⊢
    rw [hgen]
    cases hh
    exact ⟨_, rfl, h.entities, h.colliders, d, by rw [hd]; rfl⟩
  | step dt =>
    simp only [System.exec] at hh ⊢
    obtain ⟨m, h1, h2⟩ := Res.bind_eq_ok.mp hh
    cases h2
    obtain ⟨t', h3, h4⟩ := h.step hg h1
    rw [h3]
    exact ⟨t', rfl, h4⟩
  | configure n e tt rs dd =>
    simp only [System.exec] at hh ⊢
    cases hh
    exact ⟨_, rfl, h.entities, h.colliders, dd, by rw [hd]; rfl⟩

theorem Akin.play (hg : Solitary α γ) : ∀ {l : List (IterOrder × Op α γ)} {s t : System α γ} {r : System α γ × List (Out γ)}, Akin s t → (∀ x ∈ l, ¬ Adds x.2) →
    Props.play l s = .ok r → ∃ r', Props.play l t = .ok r' ∧ r'.2 = r.2 ∧ Akin r.1 r'.1
  | [], s, t, r, h, _, hh => by cases hh; exact ⟨_, rfl, rfl, h⟩
  | (o, op) :: l, s, t, r, h, ha, hh => by
    unfold Props.play at hh ⊢
    obtain ⟨⟨m, out⟩, h1, hh1⟩ := Res.bind_eq_ok.mp hh
    obtain ⟨⟨q, outs⟩, h2, h3⟩ := Res.bind_eq_ok.mp hh1
    cases h3
    obtain ⟨m', h4, h5⟩ := h.exec hg (ha (o, op) (by simp)) h1
    obtain ⟨⟨q', outs'⟩, h6, h7, h8⟩ := Akin.play hg h5 (fun x hx => ha x (by simp [hx])) h2
    rw [h4]
    simp only [Res.ok_bind] at h6 ⊢
    rw [h6]
    simp only at h7
    exact ⟨_, rfl, by rw [h7], h8⟩

/-! ### The claim -/

/-- No program that starts from `s` or `t` and adds no bodies and no colliders can tell the two apart: the calls return the same and what can be read is the same, and if the calls
panic from one, so they do from the other. -/
def Untraced (s t : System α γ) : Prop := SameView s t ∧ ∀ l : List (IterOrder × Op α γ), (∀ x ∈ l, ¬ Adds x.2) →
  (∀ r, play l s = .ok r → ∃ r', play l t = .ok r' ∧ r'.2 = r.2 ∧ SameView r.1 r'.1) ∧
  (∀ r', play l t = .ok r' → ∃ r, play l s = .ok r ∧ r'.2 = r.2 ∧ SameView r.1 r'.1)

theorem Akin.untraced (hg : Solitary α γ) {s t : System α γ} (h : Akin s t) : Untraced s t := by
  refine ⟨h.view, fun l hl => ⟨fun r hr => ?_, fun r hr => ?_⟩⟩
  · obtain ⟨r', h1, h2, h3⟩ := Akin.play hg h hl hr
    exact ⟨r', h1, h2, h3.view⟩
  · obtain ⟨r', h1, h2, h3⟩ := Akin.play hg h.symm hl hr
    exact ⟨r', h1, h2.symm, h3.symm.view⟩

theorem reachable_exec {s t : System α γ} (hr : Reachable s) {ord : IterOrder} {op : Op α γ} {out : Out γ} (h : s.exec ord op = .ok (t, out)) : Reachable t := by
  obtain ⟨tr, h'⟩ := hr
  exact ⟨_, .snoc ord op out h' h⟩

/-- What `add_entity` does when it succeeds. -/
theorem addEntity_inv {s a : System α γ} {o : IterOrder} {x : Entity α} {k : Handle} (hr : Reachable s) (h : s.exec o (.addEntity x) = .ok (a, .entity (some k))) :
    ∃ e, e.colliders = [] ∧ a = { s with entities := a.entities } ∧ s.entities.get k = none ∧ ∀ j, a.entities.get j = if j = k then some e else s.entities.get j := by
  simp only [System.exec] at h
  cases hnf : InternalEntity.newFrom x with
  | none => rw [System.addEntity_none hnf] at h; cases h
  | some e =>
    rw [System.addEntity_some hnf] at h
    simp only [Except.ok.injEq, Prod.mk.injEq, Out.entity.injEq, Option.some.injEq] at h
    obtain ⟨rfl, rfl⟩ := h
    exact ⟨e, (System.newFrom_fields hnf).1, rfl, Arena.get_insert_fresh hr.inv.wfE e, Arena.get_insert hr.inv.wfE e⟩

/-- What `add_collider` does when it succeeds. -/
theorem addCollider_inv {s a : System α γ} {o : IterOrder} {x : Collider α} {k : Handle} (hr : Reachable s) (h : s.exec o (.addCollider x) = .ok (a, .collider (some k))) :
    ∃ C, C.entity = none ∧ a = { s with colliders := a.colliders } ∧ s.colliders.get k = none ∧ ∀ j, a.colliders.get j = if j = k then some C else s.colliders.get j := by
  simp only [System.exec, System.addCollider] at h
  cases hnf : x.newFrom with
  | none => rw [hnf] at h; cases h
  | some C =>
    rw [hnf] at h
    simp only [Except.ok.injEq, Prod.mk.injEq, Out.collider.injEq, Option.some.injEq] at h
    obtain ⟨rfl, rfl⟩ := h
    exact ⟨C, Collider.entity_newFrom hnf, rfl, Arena.get_insert_fresh hr.inv.wfC C, Arena.get_insert hr.inv.wfC C⟩

/-- What `remove_entity` does to a live entity. -/
theorem removeEntity_inv {s a : System α γ} {o : IterOrder} {k : Handle} {e : InternalEntity α} {out : Out γ} (hr : Reachable s) (he : s.entities.get k = some e)
    (h : s.exec o (.removeEntity k) = .ok (a, out)) :
    out = .ok true ∧ a = { s with entities := a.entities, colliders := a.colliders } ∧ (∀ j, a.entities.get j = if j = k then none else s.entities.get j) ∧
    ∀ j, a.colliders.get j = if j ∈ e.colliders then none else s.colliders.get j := by
  simp only [System.exec, System.removeEntity_some hr.inv he, Res.ok_bind, Except.ok.injEq, Prod.mk.injEq] at h
  obtain ⟨rfl, rfl⟩ := h
  refine ⟨rfl, rfl, Arena.get_remove _ _, fun j => ?_⟩
  simp only [System.get_removeAll, (o.colliders_perm k e.colliders).mem_iff]

/-- **C108**, a body: add it and remove it, and no later program can tell. -/
theorem C108_entity (hg : Solitary α γ) {s a t : System α γ} (hr : Reachable s) {o1 o2 : IterOrder} {x : Entity α} {k : Handle} {out : Out γ}
    (h1 : s.exec o1 (.addEntity x) = .ok (a, .entity (some k))) (h2 : a.exec o2 (.removeEntity k) = .ok (t, out)) : out = .ok true ∧ Untraced s t := by
  obtain ⟨e, e1, e2, e3, e4⟩ := addEntity_inv hr h1
  obtain ⟨f1, f2, f3, f4⟩ := removeEntity_inv (reachable_exec hr h1) (by rw [e4, if_pos rfl]) h2
  refine ⟨f1, Akin.untraced hg ⟨fun j => ?_, fun j => ?_, s.debug, ?_⟩⟩
  · rw [f3, e4]
    split
    · rename_i h; rw [h, e3]
    · rfl
  · rw [f4, e1, e2]; simp
  · rw [f2, e2]; rfl

/-- **C108**, a collider. -/
theorem C108_collider (hg : Solitary α γ) {s a t : System α γ} (hr : Reachable s) {o1 o2 : IterOrder} {x : Collider α} {c : Handle} {out : Out γ}
    (h1 : s.exec o1 (.addCollider x) = .ok (a, .collider (some c))) (h2 : a.exec o2 (.removeCollider c) = .ok (t, out)) : Untraced s t := by
  obtain ⟨C, e1, e2, e3, e4⟩ := addCollider_inv hr h1
  simp only [System.exec] at h2
  obtain ⟨m, f1, f2⟩ := Res.bind_eq_ok.mp h2
  cases f2
  simp only [System.removeCollider, Arena.remove_snd, e4, if_true, e1, Except.ok.injEq] at f1
  subst f1
  refine Akin.untraced hg ⟨fun j => by rw [e2], fun j => ?_, s.debug, by rw [e2]; rfl⟩
  rw [Arena.get_remove, e4]
  split
  · rename_i h; rw [h, e3]
  · rfl

/-- **C108**, a body with a collider, which goes with it. -/
theorem C108_body (hg : Solitary α γ) {s a b m t : System α γ} (hr : Reachable s) {o1 o2 o3 o4 : IterOrder} {x : Entity α} {y : Collider α} {k c : Handle} {out : Out γ}
    (h1 : s.exec o1 (.addEntity x) = .ok (a, .entity (some k))) (h2 : a.exec o2 (.addCollider y) = .ok (b, .collider (some c)))
    (h3 : b.exec o3 (.linkCollider c (some k)) = .ok (m, .ok true)) (h4 : m.exec o4 (.removeEntity k) = .ok (t, out)) : out = .ok true ∧ Untraced s t := by
  have ra := reachable_exec hr h1
  have rb := reachable_exec ra h2
  have rm := reachable_exec rb h3
  obtain ⟨e, e1, e2, e3, e4⟩ := addEntity_inv hr h1
  obtain ⟨C, c1, c2, c3, c4⟩ := addCollider_inv ra h2
  have hl : b.linkCollider o3 c (some k) = .ok (m, true) := by
    simp only [System.exec] at h3
    obtain ⟨⟨p, q⟩, h, z⟩ := Res.bind_eq_ok.mp h3
    simp only [Except.ok.injEq, Prod.mk.injEq, Out.ok.injEq] at z
    obtain ⟨rfl, rfl⟩ := z
    exact h
  rcases System.linkCollider_spec rb.inv hl with ⟨h, -, -⟩ | ⟨-, D, hD, -, hm, sh, all⟩
  · cases h
  have hDC : D = C := by rw [c4, if_pos rfl] at hD; cases hD; rfl
  subst hDC
  have hbe : b.entities = a.entities := by rw [c2]
  have hek : b.entities.get k = some e := by rw [hbe, e4, if_pos rfl]
  obtain ⟨F, hF, -, hrec, -⟩ := all k e hek
  have hcol : F.colliders = [c] := by
    rw [(recalculateMass_massRel (hrec rfl)).colliders]
    simp [hsInsert, e1]
  obtain ⟨f1, f2, f3, f4⟩ := removeEntity_inv rm hF h4
  have hac : a.colliders = s.colliders := by rw [e2]
  refine ⟨f1, Akin.untraced hg ⟨fun j => ?_, fun j => ?_, s.debug, ?_⟩⟩
  · rw [f3]
    split
    · rename_i h; rw [h, e3]
    · rename_i hne
      have hbj : b.entities.get j = s.entities.get j := by rw [hbe, e4, if_neg hne]
      cases hj : s.entities.get j with
      | none =>
        have := sh.isSome j
        rw [hbj, hj] at this
        simpa using this
      | some X =>
        obtain ⟨X', hX', x1, -⟩ := all j X (by rw [hbj, hj])
        rw [hX', x1 (by simpa using fun h => hne h.symm) (by rw [c1]; simp)]
  · rw [f4, hcol]
    by_cases hj : j = c
    · subst hj; rw [if_pos (by simp), ← hac, c3]
    · rw [if_neg (by simpa using hj), hm, ← hac]
      simp only [Arena.get_set, if_neg hj, c4]
  · rw [f2, hm, c2, e2]; rfl
end

section
open F32 Demo
variable [Libm]

/-- Two balls of which one runs into the other under gravity; both are awake. -/
def downhill : List (Op F32 (GravityGenerator F32)) :=
  [.addGenerator ⟨vec 0 (-10) 0⟩,
   .addEntity (thing (num 1) (vec 0 0 0) (vec 2 0 0)), .addCollider (ball (vec 0 0 0) (num 1) (num 0) (num 0)), .linkCollider h0 (some h0),
   .addEntity (thing (num 1) (vec 3 0 0) (vec 0 0 0)), .addCollider (ball (vec 0 0 0) (num 1) (num 0) (num 0)), .linkCollider h1 (some h1), .step (num 1)]

/-- `C108_entity`, `C108_collider` and `C108_body` speak about something: in a running system a third ball is added, put on a third body, and taken away with it. -/
example : ∃ (s a b m t t' : System F32 (GravityGenerator F32)) (x : Entity F32) (y : Collider F32), Solitary F32 (GravityGenerator F32) ∧ Reachable s ∧ (∃ e, s.getEntity h0 = some e) ∧
    s.exec .id (.addEntity x) = .ok (a, .entity (some Scene.h2)) ∧ a.exec .id (.addCollider y) = .ok (b, .collider (some Scene.h2)) ∧
    b.exec .id (.linkCollider Scene.h2 (some Scene.h2)) = .ok (m, .ok true) ∧ m.exec .id (.removeEntity Scene.h2) = .ok (t, .ok true) ∧
    (∃ r, b.exec .id (.removeCollider Scene.h2) = .ok r) ∧ t.exec .id (.step (num 1)) = .ok (t', .unit) := by
  have h : ((play (plain downhill) (System.new : System F32 (GravityGenerator F32))).test fun r => (r.1.getEntity h0).isSome &&
      (r.1.exec .id (.addEntity (thing (num 1) (vec 9 0 0) (vec 0 0 0)))).test fun a => (match a.2 with | .entity (some k) => k == Scene.h2 | _ => false) &&
      (a.1.exec .id (.addCollider (ball (vec 0 0 0) (num 1) (num 1) (num 0)))).test fun b => (match b.2 with | .collider (some k) => k == Scene.h2 | _ => false) &&
      ((b.1.exec .id (.removeCollider Scene.h2)).test fun _ => true) &&
      (b.1.exec .id (.linkCollider Scene.h2 (some Scene.h2))).test fun m => (match m.2 with | .ok t => t | _ => false) &&
      (m.1.exec .id (.removeEntity Scene.h2)).test fun t => (match t.2 with | .ok t => t | _ => false) && (t.1.exec .id (.step (num 1))).test fun q => (match q.2 with | .unit => true | _ => false)) = true := by
    kernel_refl
  obtain ⟨⟨s, outs⟩, hplay, h⟩ := Res.of_test h
  simp only [Bool.and_eq_true] at h
  obtain ⟨hs, h⟩ := h
  obtain ⟨⟨a, x1⟩, g1, h⟩ := Res.of_test h
  simp only [Bool.and_eq_true] at h
  obtain ⟨k1, h⟩ := h
  obtain ⟨⟨b, x2⟩, g2, h⟩ := Res.of_test h
  simp only [Bool.and_eq_true] at h
  obtain ⟨⟨k2, k3⟩, h⟩ := h
  obtain ⟨⟨m, x3⟩, g3, h⟩ := Res.of_test h
  simp only [Bool.and_eq_true] at h
  obtain ⟨k4, h⟩ := h
  obtain ⟨⟨t, x4⟩, g4, h⟩ := Res.of_test h
  simp only [Bool.and_eq_true] at h
  obtain ⟨k5, h⟩ := h
  obtain ⟨⟨t', x5⟩, g5, k6⟩ := Res.of_test h
  obtain ⟨r, g6, -⟩ := Res.of_test k3
  have e1 : x1 = .entity (some Scene.h2) := by
    split at k1
    · rw [beq_iff_eq] at k1; subst k1; rfl
    · cases k1
  have e2 : x2 = .collider (some Scene.h2) := by
    split at k2
    · rw [beq_iff_eq] at k2; subst k2; rfl
    · cases k2
  have e3 : x3 = .ok true := by
    split at k4
    · subst k4; rfl
    · cases k4
  have e4 : x4 = .ok true := by
    split at k5
    · subst k5; rfl
    · cases k5
  have e5 : x5 = .unit := by cases x5 <;> first | rfl | cases k6
  subst e1 e2 e3 e4 e5
  exact ⟨s, a, b, m, t, t', _, _, gravity_solitary, play_reachable hplay, Option.isSome_iff_exists.mp hs, g1, g2, g3, g4, ⟨r, g6⟩, g5⟩
end
end Fluffy.Props
