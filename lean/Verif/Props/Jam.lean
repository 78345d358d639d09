import Verif.Props.Crash
import Verif.Proofs.ExecTotal
/-
C29: the only panic within a step is the one of two meshes.
-/
set_option linter.unusedSectionVars false
set_option linter.unusedSimpArgs false
namespace Fluffy.Props
open Fluffy Step System InternalEntity
variable {α : Type} [Scalar α] {γ : Type}

/-! ### Specification -/

/-- The state of the world at the start of the iteration number `k` of the loop in `step`, counted from the given one: every iteration finds a contact, wakes the
bodies in it, moves everything up to it and responds to it. -/
inductive Moment (ord : IterOrder) (dt : α) : Nat → LoopState α → LoopState α → Prop
  | now (st : LoopState α) : Moment ord dt 0 st st
  | later {k : Nat} {st st1 st2 st' : LoopState α} {c : Candidate α} {w : World α} (h1 : searchFirst ord st.world 0 st.infos none = .ok (some c))
      (h2 : wakeColliding ord (some c) st.world = .ok w) (h3 : advance (some c) { st with world := w } = .ok st1) (h4 : respond dt c st1 = .ok st2)
      (h5 : Moment ord dt k st2 st') : Moment ord dt (k + 1) st st'

/-- Where the entity is now, and where it will be if nothing stops it. -/
def ahead (e : InternalEntity α) (i : StepInfo α) : Orientation α := e.orientation.afterAffected i.linearMovement i.angularMovement

/-- Two entities that do not rest on each other have a mesh each, and a face of one of the two, half way through the movement ahead of it, has no three consecutive
corners that span a finite area above `EPSILON`. -/
def Jam (st : LoopState α) : Prop :=
  ∃ (n1 n2 : Nat) (i1 i2 : StepInfo α) (e1 e2 : InternalEntity α) (c1 c2 : Handle) (m1 m2 : MeshCollider α), n1 < n2 ∧ st.infos[n1]? = some i1 ∧ st.infos[n2]? = some i2 ∧ st.world.entities.get i1.handle = some e1 ∧
    st.world.entities.get i2.handle = some e2 ∧ i2.handle ∉ e1.neighbors ∧ i1.handle ∉ e2.neighbors ∧ c1 ∈ e1.colliders ∧ c2 ∈ e2.colliders ∧
    st.world.colliders.get c1 = some (.mesh m1) ∧ st.world.colliders.get c2 = some (.mesh m2) ∧
    ¬(HoldsOpen m1 e1.orientation (ahead e1 i1) ∧ HoldsOpen m2 e2.orientation (ahead e2 i2))

/-- From the entity a removed one can be reached: along the lists of neighbours, through entities whose mass is not infinite. -/
def Broken (a : Arena (InternalEntity α)) (start : Handle) : Prop := ∃ t e n, Cluster a start t ∧ a.get t = some e ∧ n ∈ e.neighbors ∧ a.get n = none

/-- The contact that comes next is one of an entity of finite mass from which a removed one can be reached. -/
def Dangle (ord : IterOrder) (st : LoopState α) : Prop :=
  ∃ c h e, searchFirst ord st.world 0 st.infos none = .ok (some c) ∧ (h = c.firstHandle ∨ h = c.secondHandle) ∧ st.world.entities.get h = some e ∧
    Scalar.isFinite e.totalMass = true ∧ Broken st.world.entities h

/-- A collider that is stored: a mesh is well formed and has a point. -/
def Pointed : Collider α → Prop
  | .mesh m => m.Good ∧ m.vertices ≠ []
  | _ => True

/-! ### Loops that stop at the first panic -/

/-- The computation yields a result unless `P`, and panics if `P`. -/
def Unless {σ : Type} (r : Res σ) (P : Prop) : Prop := (¬P → ∃ x, r = .ok x) ∧ (P → ∃ p, r = .error p)

theorem Unless.congr {σ : Type} {r : Res σ} {P Q : Prop} (h : Unless r P) (e : P ↔ Q) : Unless r Q :=
  ⟨fun hq => h.1 fun hp => hq (e.mp hp), fun hq => h.2 (e.mpr hq)⟩

theorem Unless.bind {σ τ : Type} {r : Res σ} {g : σ → Res τ} {P Q : Prop} (h : Unless r P) (hg : ∀ x, r = .ok x → Unless (g x) Q) : Unless (r >>= g) (P ∨ Q) := by
  by_cases hp : P
  · obtain ⟨p, h⟩ := h.2 hp
    rw [h]
    exact ⟨fun hn => absurd (.inl hp) hn, fun _ => ⟨p, rfl⟩⟩
  · obtain ⟨x, hx⟩ := h.1 hp
    have hgx := hg x hx
    rw [hx]
    exact ⟨fun hn => hgx.1 fun hq => hn (.inr hq), fun ho => hgx.2 (ho.resolve_left hp)⟩

/-- The pair of colliders makes collision detection panic. -/
def Bad (C1 : Collider α) (s1 e1 : Orientation α) (C2 : Collider α) (s2 e2 : Orientation α) : Prop := collide C1 s1 e1 C2 s2 e2 = .error .assert

theorem bad_mesh {C1 C2 : Collider α} (g1 : Pointed C1) (g2 : Pointed C2) (s1 e1 s2 e2 : Orientation α) :
    Unless (collide C1 s1 e1 C2 s2 e2) (Bad C1 s1 e1 C2 s2 e2) ∧
    (Bad C1 s1 e1 C2 s2 e2 ↔ ∃ m1 m2, C1 = .mesh m1 ∧ C2 = .mesh m2 ∧ ¬(HoldsOpen m1 s1 e1 ∧ HoldsOpen m2 s2 e2)) := by
  have good : ∀ {C : Collider α}, Pointed C → C.Good := by
    intro C h
    cases C <;> first | trivial | exact h.1
  by_cases hm : C1.IsMesh ∧ C2.IsMesh
  · obtain ⟨h1, h2⟩ := hm
    cases C1 with
    | mesh m1 =>
      cases C2 with
      | mesh m2 =>
        have ex := C29_mesh_exact g1.1 g2.1 g1.2 g2.2 s1 e1 s2 e2
        have key : Bad (.mesh m1) s1 e1 (.mesh m2) s2 e2 ↔ ¬(HoldsOpen m1 s1 e1 ∧ HoldsOpen m2 s2 e2) := by
          refine ⟨fun hb hh => ?_, ex.2⟩
          obtain ⟨x, hx⟩ := ex.1.mpr hh
          rw [Bad, hx] at hb
          cases hb
        refine ⟨⟨fun hn => ex.1.mpr (by by_contra hc; exact hn (key.mpr hc)), fun hb => ⟨_, hb⟩⟩, ?_⟩
        rw [key]
        constructor
        · intro h
          exact ⟨m1, m2, rfl, rfl, h⟩
        · rintro ⟨_, _, h1, h2, h⟩
          cases h1; cases h2
          exact h
      | _ => exact absurd h2 (by simp [Collider.IsMesh])
    | _ => exact absurd h1 (by simp [Collider.IsMesh])
  · obtain ⟨x, hx⟩ := collide_ok (good g1) (good g2) hm s1 e1 s2 e2
    have nb : ¬Bad C1 s1 e1 C2 s2 e2 := by
      intro hb
      rw [Bad, hx] at hb
      cases hb
    refine ⟨⟨fun _ => ⟨x, hx⟩, fun hb => absurd hb nb⟩, fun hb => absurd hb nb, ?_⟩
    rintro ⟨m1, m2, rfl, rfl, -⟩
    exact absurd ⟨trivial, trivial⟩ hm

section
variable {cs : Arena (Collider α)} (hcs : ∀ k C, cs.get k = some C → Pointed C) {first second : InternalEntity α} {i1 i2 : StepInfo α} {n1 n2 : Nat}
include hcs

/-- What `considerPair` looks at. -/
def BadPair (cs : Arena (Collider α)) (first second : InternalEntity α) (i1 i2 : StepInfo α) (ch1 ch2 : Handle) : Prop :=
  ∃ m1 m2, cs.get ch1 = some (.mesh m1) ∧ cs.get ch2 = some (.mesh m2) ∧
    ¬(HoldsOpen m1 first.orientation (ahead first i1) ∧ HoldsOpen m2 second.orientation (ahead second i2))

theorem considerPair_unless {ch1 ch2 : Handle} (h1 : ∃ C, cs.get ch1 = some C) (h2 : ∃ C, cs.get ch2 = some C) (best : Option (Candidate α)) :
    Unless (considerPair cs first second i1 i2 n1 n2 ch1 ch2 best) (BadPair cs first second i1 i2 ch1 ch2) := by
  obtain ⟨C1, h1⟩ := h1
  obtain ⟨C2, h2⟩ := h2
  obtain ⟨hu, hb⟩ := bad_mesh (hcs _ _ h1) (hcs _ _ h2) first.orientation (ahead first i1) second.orientation (ahead second i2)
  have e : Bad C1 first.orientation (ahead first i1) C2 second.orientation (ahead second i2) ↔ BadPair cs first second i1 i2 ch1 ch2 := by
    rw [hb]
    unfold BadPair
    rw [h1, h2]
    simp only [Option.some.injEq]
  unfold considerPair
  rw [h1, h2]
  simp only [unwrap_some, Res.ok_bind]
  refine Unless.congr (Unless.bind (Q := False) (hu.congr e) ?_) (by simp)
  intro x _
  refine ⟨fun _ => ?_, False.elim⟩
  cases x with
  | none => exact ⟨_, rfl⟩
  | some c =>
    simp only
    split
    · exact ⟨_, rfl⟩
    · split <;> exact ⟨_, rfl⟩

theorem secondLoop_unless {ch1 : Handle} (h1 : ∃ C, cs.get ch1 = some C) : ∀ {l : List Handle} (best : Option (Candidate α)), (∀ c ∈ l, ∃ C, cs.get c = some C) →
    Unless (secondColliderLoop cs first second i1 i2 n1 n2 ch1 l best) (∃ ch2 ∈ l, BadPair cs first second i1 i2 ch1 ch2)
  | [], best, _ => ⟨fun _ => ⟨best, rfl⟩, fun ⟨_, h, _⟩ => absurd h (by simp)⟩
  | c :: l, best, h => by
    unfold secondColliderLoop
    refine Unless.congr (Unless.bind (considerPair_unless hcs h1 (h c (by simp)) best)
      (fun b _ => secondLoop_unless h1 b (fun x hx => h x (by simp [hx])))) ?_
    simp

theorem firstLoop_unless {order2 : List Handle} (h2 : ∀ c ∈ order2, ∃ C, cs.get c = some C) : ∀ {l : List Handle} (best : Option (Candidate α)), (∀ c ∈ l, ∃ C, cs.get c = some C) →
    Unless (firstColliderLoop cs first second i1 i2 n1 n2 order2 l best) (∃ ch1 ∈ l, ∃ ch2 ∈ order2, BadPair cs first second i1 i2 ch1 ch2)
  | [], best, _ => ⟨fun _ => ⟨best, rfl⟩, fun ⟨_, h, _⟩ => absurd h (by simp)⟩
  | c :: l, best, h => by
    unfold firstColliderLoop
    refine Unless.congr (Unless.bind (secondLoop_unless hcs (h c (by simp)) best h2)
      (fun b _ => firstLoop_unless h2 b (fun x hx => h x (by simp [hx])))) ?_
    simp
end

/-- The two entities of the infos make collision detection panic. -/
def BadEntities (w : World α) (i1 i2 : StepInfo α) : Prop :=
  ∃ e1 e2, w.entities.get i1.handle = some e1 ∧ w.entities.get i2.handle = some e2 ∧ i2.handle ∉ e1.neighbors ∧ i1.handle ∉ e2.neighbors ∧
    ∃ c1 ∈ e1.colliders, ∃ c2 ∈ e2.colliders, BadPair w.colliders e1 e2 i1 i2 c1 c2

/-- Every collider of every entity exists, and what is stored is sturdy. -/
structure Furnished (w : World α) : Prop where
  links : ∀ k E c, w.entities.get k = some E → c ∈ E.colliders → ∃ C, w.colliders.get c = some C
  sturdy : ∀ k C, w.colliders.get k = some C → Pointed C

theorem Furnished.frame {w w' : World α} (h : Furnished w) (f : Frame w w') : Furnished w' := by
  constructor
  · intro k E c hE hc
    obtain ⟨E0, hE0, hr⟩ := f.entities.get' hE
    rw [f.colliders]
    exact h.1 k E0 c hE0 (by rw [hr] at hc; exact hc)
  · intro k C hC
    rw [f.colliders] at hC
    exact h.2 k C hC

section
variable {ord : IterOrder} {w : World α} (hw : Furnished w)
include hw

theorem searchPair_unless {i1 i2 : StepInfo α} {n1 n2 : Nat} (hne : i1.handle ≠ i2.handle) (h1 : ∃ e, w.entities.get i1.handle = some e)
    (h2 : ∃ e, w.entities.get i2.handle = some e) (best : Option (Candidate α)) : Unless (searchPair ord w i1 i2 n1 n2 best) (BadEntities w i1 i2) := by
  obtain ⟨e1, he1⟩ := h1
  obtain ⟨e2, he2⟩ := h2
  have hg : get2 w.entities i1.handle i2.handle = .ok (e1, e2) := get2_eq_ok.mpr ⟨hne, he1, he2⟩
  have eqv : BadEntities w i1 i2 ↔ i2.handle ∉ e1.neighbors ∧ i1.handle ∉ e2.neighbors ∧ ∃ c1 ∈ e1.colliders, ∃ c2 ∈ e2.colliders, BadPair w.colliders e1 e2 i1 i2 c1 c2 := by
    constructor
    · rintro ⟨f1, f2, g1, g2, h⟩
      rw [he1] at g1; rw [he2] at g2
      cases g1; cases g2
      exact h
    · intro h
      exact ⟨e1, e2, he1, he2, h⟩
  unfold searchPair
  rw [hg]
  simp only [Res.ok_bind]
  split
  case isTrue hn => exact ⟨fun _ => ⟨_, rfl⟩, fun hb => absurd hn (eqv.mp hb).1⟩
  case isFalse hn1 =>
    split
    case isTrue hn => exact ⟨fun _ => ⟨_, rfl⟩, fun hb => absurd hn (eqv.mp hb).2.1⟩
    case isFalse hn2 =>
      refine (firstLoop_unless hw.sturdy (fun c hc => ?_) best (fun c hc => ?_)).congr ?_
      · rw [(ord.colliders_perm _ _).mem_iff] at hc
        exact hw.links _ _ _ he2 hc
      · rw [(ord.colliders_perm _ _).mem_iff] at hc
        exact hw.links _ _ _ he1 hc
      · rw [eqv]
        constructor
        · rintro ⟨c1, hc1, c2, hc2, h⟩
          rw [(ord.colliders_perm _ _).mem_iff] at hc1 hc2
          exact ⟨hn1, hn2, c1, hc1, c2, hc2, h⟩
        · rintro ⟨-, -, c1, hc1, c2, hc2, h⟩
          exact ⟨c1, (ord.colliders_perm _ _).mem_iff.mpr hc1, c2, (ord.colliders_perm _ _).mem_iff.mpr hc2, h⟩

theorem searchSecond_unless {i1 : StepInfo α} {n1 : Nat} (h1 : ∃ e, w.entities.get i1.handle = some e) : ∀ {l : List (StepInfo α)} (n2 : Nat) (best : Option (Candidate α)),
    (∀ i2 ∈ l, i1.handle ≠ i2.handle ∧ ∃ e, w.entities.get i2.handle = some e) → Unless (searchSecond ord w i1 n1 n2 l best) (∃ i2 ∈ l, BadEntities w i1 i2)
  | [], n2, best, _ => ⟨fun _ => ⟨best, rfl⟩, fun ⟨_, h, _⟩ => absurd h (by simp)⟩
  | i2 :: l, n2, best, h => by
    unfold searchSecond
    refine Unless.congr (Unless.bind (searchPair_unless hw (h i2 (by simp)).1 h1 (h i2 (by simp)).2 best)
      (fun b _ => searchSecond_unless h1 _ b (fun x hx => h x (by simp [hx])))) ?_
    simp

theorem searchFirst_unless : ∀ {l : List (StepInfo α)} (n1 : Nat) (best : Option (Candidate α)), (l.map StepInfo.handle).Nodup →
    (∀ i ∈ l, ∃ e, w.entities.get i.handle = some e) →
    Unless (searchFirst ord w n1 l best) (∃ (j1 j2 : Nat) (i1 i2 : StepInfo α), j1 < j2 ∧ l[j1]? = some i1 ∧ l[j2]? = some i2 ∧ BadEntities w i1 i2)
  | [], n1, best, _, _ => ⟨fun _ => ⟨best, rfl⟩, fun ⟨_, _, _, _, _, h, _⟩ => absurd h (by simp)⟩
  | i :: l, n1, best, hnd, h => by
    rw [List.map_cons, List.nodup_cons] at hnd
    have hs := searchSecond_unless (ord := ord) hw (n1 := n1) (h i (by simp)) (n1 + 1) best (l := l) (by
      intro i2 hi2
      refine ⟨fun hc => hnd.1 ?_, h i2 (by simp [hi2])⟩
      rw [hc]; exact List.mem_map_of_mem hi2)
    unfold searchFirst
    refine Unless.congr (Unless.bind hs (fun b _ => searchFirst_unless _ b hnd.2 (fun x hx => h x (by simp [hx])))) ?_
    constructor
    · rintro (⟨i2, hi2, hb⟩ | ⟨j1, j2, i1, i2, hlt, h1, h2, hb⟩)
      · obtain ⟨j, hj⟩ := List.mem_iff_getElem?.mp hi2
        exact ⟨0, j + 1, i, i2, by omega, by simp, by simpa using hj, hb⟩
      · exact ⟨j1 + 1, j2 + 1, i1, i2, by omega, by simpa using h1, by simpa using h2, hb⟩
    · rintro ⟨j1, j2, i1, i2, hlt, h1, h2, hb⟩
      rcases j2 with _ | j2
      · omega
      rw [List.getElem?_cons_succ] at h2
      rcases j1 with _ | j1
      · rw [List.getElem?_cons_zero, Option.some.injEq] at h1
        subst h1
        exact .inl ⟨i2, List.mem_of_getElem? h2, hb⟩
      · rw [List.getElem?_cons_succ] at h1
        exact .inr ⟨j1, j2, i1, i2, by omega, h1, h2, hb⟩
end

theorem jam_iff (st : LoopState α) : (∃ (j1 j2 : Nat) (i1 i2 : StepInfo α), j1 < j2 ∧ st.infos[j1]? = some i1 ∧ st.infos[j2]? = some i2 ∧ BadEntities st.world i1 i2) ↔ Jam st := by
  constructor
  · rintro ⟨j1, j2, i1, i2, hlt, h1, h2, e1, e2, g1, g2, n1, n2, c1, hc1, c2, hc2, m1, m2, q1, q2, hb⟩
    exact ⟨j1, j2, i1, i2, e1, e2, c1, c2, m1, m2, hlt, h1, h2, g1, g2, n1, n2, hc1, hc2, q1, q2, hb⟩
  · rintro ⟨j1, j2, i1, i2, e1, e2, c1, c2, m1, m2, hlt, h1, h2, g1, g2, n1, n2, hc1, hc2, q1, q2, hb⟩
    exact ⟨j1, j2, i1, i2, hlt, h1, h2, e1, e2, g1, g2, n1, n2, c1, hc1, c2, hc2, m1, m2, q1, q2, hb⟩

theorem wakeUp_unless {ord : IterOrder} {start : Handle} {a : Arena (InternalEntity α)} (d : List DebugMsg) (hs : ∃ e, a.get start = some e) :
    Unless (wakeUp ord start a d) (Broken a start) := by
  constructor
  · intro h
    obtain ⟨b, d', hw⟩ := wakeUp_ok (ord := ord) d hs (by
      intro t e n hc he hn
      by_contra hcon
      refine h ⟨t, e, n, hc, he, hn, ?_⟩
      cases hg : a.get n with
      | none => rfl
      | some m => exact absurd ⟨m, hg⟩ hcon)
    exact ⟨_, hw⟩
  · rintro ⟨t, e, n, hc, he, hn, hg⟩
    cases hw : wakeUp ord start a d with
    | error p => exact ⟨p, rfl⟩
    | ok r =>
      obtain ⟨e', he', hl⟩ := (wakeUp_spec hw).2.2 t hc
      rw [he] at he'
      cases he'
      obtain ⟨m, hm⟩ := hl n hn
      rw [hg] at hm
      cases hm

/-- To wake one entity does not change whether a removed one can be reached from another. -/
theorem broken_wakeUp {ord : IterOrder} {h1 h2 : Handle} {a b : Arena (InternalEntity α)} {d d' : List DebugMsg} (hw : wakeUp ord h1 a d = .ok (b, d')) :
    Broken b h2 ↔ Broken a h2 := by
  obtain ⟨ev, sp, live⟩ := wakeUp_spec hw
  have dead : ∀ {n}, a.get n = none ↔ b.get n = none := by
    intro n
    constructor
    · intro h
      cases hb : b.get n with
      | none => rfl
      | some m =>
        obtain ⟨m', hm', -⟩ := ev.get' hb
        rw [h] at hm'
        cases hm'
    · intro h
      cases ha : a.get n with
      | none => rfl
      | some m =>
        obtain ⟨m', hm', -⟩ := ev.get ha
        rw [h] at hm'
        cases hm'
  constructor
  · rintro ⟨t, e', n, hc, he', hn, hg⟩
    have back : ∀ {t}, Cluster b h2 t → Cluster a h2 t := by
      intro t hc
      induction hc with
      | start => exact .start
      | link _ q2 q3 q4 q5 ih =>
        obtain ⟨f, hf, -⟩ := ev.get' q2
        obtain ⟨m, hm, hr⟩ := ev.get' q4
        exact .link ih hf ((sp _ f _ hf q2).2.2.subset q3) hm (by rw [← hr.totalMass]; exact q5)
    obtain ⟨e, he, -⟩ := ev.get' he'
    exact ⟨t, e, n, back hc, he, (sp t e e' he he').2.2.subset hn, dead.mpr hg⟩
  · rintro ⟨t, e, n, hc, he, hn, hg⟩
    have forth : ∀ {t}, Cluster a h2 t → Cluster a h1 t ∨ Cluster b h2 t := by
      intro t hc
      induction hc with
      | start => exact .inr .start
      | @link t n f m _ q2 q3 q4 q5 ih =>
        by_cases h1c : Cluster a h1 t
        · exact .inl (.link h1c q2 q3 q4 q5)
        · have ih := ih.resolve_left h1c
          obtain ⟨f', hf', -⟩ := ev.get q2
          obtain ⟨m', hm', hr⟩ := ev.get q4
          obtain ⟨-, hout, -⟩ := sp t f f' q2 hf'
          obtain ⟨-, o1, o2⟩ := hout h1c
          by_cases hn1 : Cluster a h1 n
          · exact .inl hn1
          · refine .inr (.link ih hf' ?_ hm' (by rw [hr.totalMass]; exact q5))
            cases hi : Scalar.isInfinite f.totalMass with
            | false => rw [o1 hi]; exact q3
            | true => exact (o2 hi n).mpr ⟨q3, fun hh => hn1 hh.1⟩
    have ht1 : ¬Cluster a h1 t := by
      intro hc1
      obtain ⟨e0, he0, hl⟩ := live t hc1
      rw [he] at he0
      cases he0
      obtain ⟨m, hm⟩ := hl n hn
      rw [hg] at hm
      cases hm
    have hn1 : ¬Cluster a h1 n := by
      intro hc1
      obtain ⟨e0, he0, -⟩ := live n hc1
      rw [hg] at he0
      cases he0
    obtain ⟨e', he', -⟩ := ev.get he
    obtain ⟨-, o1, o2⟩ := (sp t e e' he he').2.1 ht1
    refine ⟨t, e', n, (forth hc).resolve_left ht1, he', ?_, dead.mp hg⟩
    cases hi : Scalar.isInfinite e.totalMass with
    | false => rw [o1 hi]; exact hn
    | true => exact (o2 hi n).mpr ⟨hn, fun hh => hn1 hh.1⟩

/-- The entity is woken, and from it a removed one can be reached. -/
def BadWake (a : Arena (InternalEntity α)) (h : Handle) : Prop := ∃ e, a.get h = some e ∧ Scalar.isFinite e.totalMass = true ∧ Broken a h

theorem wakeIfFinite_unless {ord : IterOrder} {h : Handle} {w : World α} (hs : ∃ e, w.entities.get h = some e) :
    Unless (wakeIfFinite ord h w) (BadWake w.entities h) := by
  obtain ⟨e, he⟩ := hs
  unfold wakeIfFinite
  rw [he]
  simp only [unwrap_some, Res.ok_bind]
  split
  case isTrue hf =>
    refine Unless.congr (Unless.bind (Q := False) (wakeUp_unless (ord := ord) w.debug ⟨e, he⟩) ?_) ?_
    · intro x _
      exact ⟨fun _ => ⟨_, rfl⟩, False.elim⟩
    · rw [or_false]
      constructor
      · intro hb
        exact ⟨e, he, hf, hb⟩
      · rintro ⟨_, -, -, hb⟩
        exact hb
  case isFalse hf =>
    refine ⟨fun _ => ⟨_, rfl⟩, ?_⟩
    rintro ⟨e', he', hf', -⟩
    rw [he] at he'
    cases he'
    exact absurd hf' hf

theorem wakeColliding_unless {ord : IterOrder} {c : Candidate α} {w : World α} (h1 : ∃ e, w.entities.get c.firstHandle = some e)
    (h2 : ∃ e, w.entities.get c.secondHandle = some e) :
    Unless (wakeColliding ord (some c) w) (BadWake w.entities c.firstHandle ∨ BadWake w.entities c.secondHandle) := by
  unfold wakeColliding
  refine Unless.bind (wakeIfFinite_unless h1) ?_
  intro w1 hw1
  have hev : Arena.Evolves WakeRel w.entities w1.entities ∧ (Broken w1.entities c.secondHandle ↔ Broken w.entities c.secondHandle) := by
    unfold wakeIfFinite at hw1
    obtain ⟨e, he, hw1⟩ := Res.bind_eq_ok.mp hw1
    split at hw1
    · obtain ⟨⟨b, d⟩, hb, hw1⟩ := Res.bind_eq_ok.mp hw1
      cases hw1
      exact ⟨(wakeUp_spec hb).1, broken_wakeUp hb⟩
    · cases hw1
      exact ⟨Arena.Evolves.refl WakeRel.refl _, Iff.rfl⟩
  obtain ⟨ev, hb⟩ := hev
  obtain ⟨e2, he2⟩ := h2
  obtain ⟨e2', he2', hr⟩ := ev.get he2
  refine (wakeIfFinite_unless ⟨e2', he2'⟩).congr ?_
  unfold BadWake
  rw [hb, he2, he2']
  simp only [Option.some.injEq, exists_eq_left']
  rw [hr.totalMass]

/-- The loop of a step. -/
theorem iterate_unless {ord : IterOrder} {dt : α} {w0 : World α} {hs : List Handle} (hnd : hs.Nodup) (hw0 : Furnished w0) :
    ∀ (n : Nat) {st : LoopState α}, LoopInv w0 hs st →
    Unless (iterate ord dt n st) (∃ k < n, ∃ st', Moment ord dt k st st' ∧ (Jam st' ∨ Dangle ord st'))
  | 0, st, _ => ⟨fun _ => ⟨_, rfl⟩, fun ⟨_, h, _⟩ => absurd h (by simp)⟩
  | n + 1, st, inv => by
    have hnd' : (st.infos.map StepInfo.handle).Nodup := by rw [inv.handles]; exact hnd
    have hlive : ∀ i ∈ st.infos, ∃ e, st.world.entities.get i.handle = some e := by
      intro i hi
      exact inv.live _ (by rw [← inv.handles]; exact List.mem_map_of_mem hi)
    have hsf := (searchFirst_unless (ord := ord) (hw0.frame inv.frame) 0 none hnd' hlive).congr (jam_iff st)
    have after : ∀ best w, searchFirst ord st.world 0 st.infos none = .ok best → wakeColliding ord best st.world = .ok w →
        Unless (do
          let st ← advance best { st with world := w }
          match best with
          | none => .ok (st, true)
          | some k => do
            let st ← respond dt k st
            iterate ord dt n st : Res (LoopState α × Bool)) (∃ k < n, ∃ st', Moment ord dt (k + 1) st st' ∧ (Jam st' ∨ Dangle ord st')) := by
      intro best w h1 h2
      have fw := frame_wake h2
      obtain ⟨st1, h3⟩ := advance_total (best := best) (st := { st with world := w }) (by
        intro i hi
        obtain ⟨e, he⟩ := hlive i hi
        obtain ⟨e', he', -⟩ := fw.entities.get he
        exact ⟨e', he'⟩)
      obtain ⟨b1, b2⟩ := loopInv_body (dt := dt) hnd inv h1 h2 h3
      have fa := frame_advance (st := { st with world := w }) hnd' h3
      rw [h3]; simp only [Res.ok_bind]
      cases best with
      | none =>
        simp only
        refine ⟨fun _ => ⟨_, rfl⟩, ?_⟩
        rintro ⟨k, -, st', hm, -⟩
        cases hm with
        | later g1 => rw [h1] at g1; cases g1
      | some k =>
        simp only
        obtain ⟨⟨i1, i2, g1, g2, g3, g4⟩, -⟩ := contact_infos hnd' h1 h3
        obtain ⟨-, hne, -, -, -, -, -, -, f, g, hf, hg⟩ := (searchFirst_contact h1).indices
        obtain ⟨f', hf', -⟩ := (fw.trans fa).entities.get hf
        obtain ⟨g', hg', -⟩ := (fw.trans fa).entities.get hg
        obtain ⟨st2, h4⟩ := respond_total (dt := dt) hne ⟨f', hf'⟩ ⟨g', hg'⟩ ⟨i1, g1⟩ ⟨i2, g2⟩
        rw [h4]; simp only [Res.ok_bind]
        refine (iterate_unless hnd hw0 n (b2 k st2 rfl h4)).congr ?_
        constructor
        · rintro ⟨j, hj, st', hm, hJ⟩
          exact ⟨j, hj, st', .later h1 h2 h3 h4 hm, hJ⟩
        · rintro ⟨j, hj, st', hm, hJ⟩
          cases hm with
          | later q1 q2 q3 q4 q5 =>
            rw [h1] at q1; cases q1
            rw [h2] at q2; cases q2
            rw [h3] at q3; cases q3
            rw [h4] at q4; cases q4
            exact ⟨j, hj, st', q5, hJ⟩
    have rest : ∀ best, searchFirst ord st.world 0 st.infos none = .ok best →
        Unless (wakeColliding ord best st.world >>= fun w => (do
          let st ← advance best { st with world := w }
          match best with
          | none => .ok (st, true)
          | some k => do
            let st ← respond dt k st
            iterate ord dt n st : Res (LoopState α × Bool)))
          (Dangle ord st ∨ ∃ k < n, ∃ st', Moment ord dt (k + 1) st st' ∧ (Jam st' ∨ Dangle ord st')) := by
      intro best h1
      refine Unless.bind ?_ (fun w hw => after best w h1 hw)
      cases best with
      | none =>
        refine ⟨fun _ => ⟨_, rfl⟩, ?_⟩
        rintro ⟨c, h, e, hc, -⟩
        rw [h1] at hc
        cases hc
      | some c =>
        obtain ⟨-, -, -, -, -, -, -, -, f, g, hf, hg⟩ := (searchFirst_contact h1).indices
        refine (wakeColliding_unless ⟨f, hf⟩ ⟨g, hg⟩).congr ?_
        constructor
        · rintro (⟨e, he, hfin, hb⟩ | ⟨e, he, hfin, hb⟩)
          · exact ⟨c, _, e, h1, .inl rfl, he, hfin, hb⟩
          · exact ⟨c, _, e, h1, .inr rfl, he, hfin, hb⟩
        · rintro ⟨c', h, e, hc, hh, he, hfin, hb⟩
          rw [h1] at hc
          cases hc
          rcases hh with rfl | rfl
          · exact .inl ⟨e, he, hfin, hb⟩
          · exact .inr ⟨e, he, hfin, hb⟩
    have eqn : iterate ord dt (n + 1) st = (searchFirst ord st.world 0 st.infos none >>= fun best => wakeColliding ord best st.world >>= fun w => (do
          let st ← advance best { st with world := w }
          match best with
          | none => .ok (st, true)
          | some k => do
            let st ← respond dt k st
            iterate ord dt n st : Res (LoopState α × Bool))) := rfl
    rw [eqn]
    refine Unless.congr (Unless.bind hsf fun best hb => rest best hb) ?_
    constructor
    · rintro (h | h | ⟨k, hk, st', hm, hJ⟩)
      · exact ⟨0, by omega, st, .now st, .inl h⟩
      · exact ⟨0, by omega, st, .now st, .inr h⟩
      · exact ⟨k + 1, by omega, st', hm, hJ⟩
    · rintro ⟨k, hk, st', hm, hJ⟩
      rcases k with _ | k
      · cases hm
        rcases hJ with h | h
        · exact .inl h
        · exact .inr (.inl h)
      · exact .inr (.inr ⟨k, by omega, st', hm, hJ⟩)

theorem sleepLoop_goes {ord : IterOrder} {dt : α} : ∀ {l : List (StepInfo α)} {w : World α},
    (∀ i ∈ l, i.handle ∉ i.neighbors ∧ (∃ e, w.entities.get i.handle = some e) ∧ ∀ n ∈ i.neighbors, ∃ e, w.entities.get n = some e) →
    ∃ w', sleepLoop ord dt l w = .ok w'
  | [], w, _ => ⟨w, rfl⟩
  | i :: l, w, h => by
    obtain ⟨h1, h2, h3⟩ := h i (by simp)
    obtain ⟨m, hm⟩ := sleepOne_total (ord := ord) (dt := dt) h2 h3
    have fr := sleepOne_frame h1 hm
    have lv : ∀ {n}, (∃ e, w.entities.get n = some e) → ∃ e, m.entities.get n = some e := by
      rintro n ⟨e, he⟩
      obtain ⟨e', he', -⟩ := fr.entities.get he
      exact ⟨e', he'⟩
    unfold sleepLoop
    rw [hm]; simp only [Res.ok_bind]
    refine sleepLoop_goes (fun j hj => ?_)
    obtain ⟨a1, a2, a3⟩ := h j (by simp [hj])
    exact ⟨a1, lv a2, fun n hn => lv (a3 n hn)⟩

variable [ForceGenerator α γ] [SafeGenerator α γ]

/-- What holds in every state that a program can reach with well-formed meshes. -/
structure Neat (s : System α γ) : Prop where
  inv : Inv s
  pointed : ∀ k c, s.colliders.get k = some c → Pointed c

/-- A step that does something, and that at the start of one of its iterations meets two meshes in a jam, or a contact of an entity from which a removed one can be
reached. -/
def Jams (ord : IterOrder) (s : System α γ) (dt : α) : Prop :=
  ¬Scalar.lt (Scalar.abs dt) EPSILON = true ∧ ∃ mid infos,
    integrateAll dt s.generators.handles s.entities.handles { s with collisionRecords := [], debug := [] } = .ok (mid, infos) ∧
    ∃ k < s.iterationMax, ∃ st, Moment ord dt k ⟨mid.toWorld, infos, dt, zero⟩ st ∧ (Jam st ∨ Dangle ord st)

/-- A step panics exactly if, at the start of one of its iterations, there are two entities that do not rest on each other, with a mesh each, a face of which
collapses half way through the movement then ahead, or the next contact is one of an entity of finite mass from which a removed one can be reached; in all other
cases it ends. -/
theorem C29_step_exact (ord : IterOrder) {s : System α γ} (ht : Neat s) (dt : α) :
    (Jams ord s dt → ∃ p, s.step ord dt = .error p) ∧ (¬Jams ord s dt → ∃ s', s.step ord dt = .ok s') := by
  by_cases hdt : Scalar.lt (Scalar.abs dt) EPSILON = true
  · refine ⟨fun h => absurd hdt h.1, fun _ => ⟨s, ?_⟩⟩
    unfold System.step
    rw [if_pos hdt]
  have hp : Furnished s.toWorld := by
    refine ⟨?_, ht.pointed⟩
    intro k E c hE hc
    obtain ⟨C, hC, -⟩ := (ht.inv.links k E c hE).mp hc
    exact ⟨C, hC⟩
  obtain ⟨⟨mid, infos⟩, h1⟩ := integrateAll_total (dt := dt) (gens := s.generators.handles) (l := s.entities.handles)
    (s := { s with collisionRecords := [], debug := [] }) (fun h hh => Arena.mem_handles.mp hh) (fun h hh => Arena.mem_handles.mp hh)
  obtain ⟨k1, k2, k3, k4, k5, k6⟩ := integrateAll_spec (Arena.handles_nodup _) h1
  have f : Frame s.toWorld mid.toWorld := by
    refine ⟨k3.mono (fun _ _ => VelRel.static), ?_, ?_, ?_, ?_⟩ <;> rw [k1]
  have hmax : mid.iterationMax = s.iterationMax := by rw [k1]
  have inv0 : LoopInv s.toWorld s.entities.handles ⟨mid.toWorld, infos, dt, zero⟩ := by
    refine ⟨f, k5, f.live (fun x hx => Arena.mem_handles.mp hx), ?_⟩
    intro i hi
    obtain ⟨e, -, he⟩ := k6 i hi
    have : i.neighbors = [] := by rw [he]
    rw [this]; simp
  have hu := iterate_unless (ord := ord) (dt := dt) (Arena.handles_nodup _) hp mid.iterationMax inv0
  rw [hmax] at hu
  have eqn : s.step ord dt = (iterate ord dt mid.iterationMax ⟨mid.toWorld, infos, dt, zero⟩ >>= fun r => (do
      let w := if r.2 then r.1.world else { r.1.world with debug := r.1.world.debug ++ [.ranOut] }
      let w ← sleepLoop ord dt r.1.infos w
      .ok { mid with toWorld := w } : Res (System α γ))) := by
    unfold System.step
    rw [if_neg hdt]
    simp only
    rw [h1]
    rfl
  constructor
  · rintro ⟨-, mid', infos', h1', h⟩
    rw [h1] at h1'
    cases h1'
    obtain ⟨p, hp⟩ := hu.2 h
    rw [eqn, hmax, hp]
    exact ⟨p, rfl⟩
  · intro h
    obtain ⟨⟨st, c⟩, h2⟩ := hu.1 fun hh => h ⟨hdt, mid, infos, h1, hh⟩
    rw [← hmax] at h2
    have inv := iterate_inv (Arena.handles_nodup _) inv0 h2
    have hent : (if c then st.world else { st.world with debug := st.world.debug ++ [.ranOut] }).entities =
        st.world.entities := by split <;> rfl
    obtain ⟨w, h3⟩ := sleepLoop_goes (ord := ord) (dt := dt) (l := st.infos)
      (w := if c then st.world else { st.world with debug := st.world.debug ++ [.ranOut] }) (by
        rw [hent]
        intro i hi
        refine ⟨fun hc => ((inv.neighbors i hi).2 _ hc).2 rfl,
          inv.live _ (by rw [← inv.handles]; exact List.mem_map_of_mem hi),
          fun n hn => inv.live _ ((inv.neighbors i hi).2 n hn).1⟩)
    rw [eqn, h2]
    simp only [Res.ok_bind]
    rw [h3]
    exact ⟨_, rfl⟩

/-! ### Whole programs -/

/-- The meshes that the call passes are well formed, as those made with `add_face` are. -/
def Shapely : Op α γ → Prop
  | .addCollider c => c.Good
  | .updateCollider _ c => c.Good
  | _ => True

/-- The calls that panic: to remove a linked collider, to change an entity (so that it is to be woken) from which a removed one can be reached, and to step into a
jam or into a contact of such an entity. -/
def Fatal (ord : IterOrder) (s : System α γ) : Op α γ → Prop
  | .removeCollider h => ∃ c, s.colliders.get h = some c ∧ c.entity ≠ none
  | .updateEntity h e => (∃ E E1, s.entities.get h = some E ∧ E.updateFrom e = some (E1, true)) ∧ Broken s.entities h
  | .step dt => Jams ord s dt
  | _ => False

theorem pointed_or {c : Collider α} (h : c.Good) : Pointed c ∨ ∃ m, c = .mesh m ∧ m.isValid = false := by
  cases c with
  | mesh m =>
    by_cases hv : m.isValid = true
    · refine .inl ⟨h, ?_⟩
      intro h0
      rw [MeshCollider.isValid, h0] at hv
      simp at hv
    · exact .inr ⟨m, rfl, by simpa using hv⟩
  | _ => exact .inl trivial

theorem kept_pointed : System.Kept (Pointed (α := α)) where
  good c h := by cases c <;> first | trivial | exact h.1
  newFrom c d h hg := by
    cases c <;> simp only [Collider.newFrom] at h <;> split at h <;> cases h <;> first | trivial | exact ⟨⟨hg.1.1, hg.1.2⟩, hg.2⟩
  updateFrom c d r h hg := by
    cases c <;> cases d <;> simp only [Collider.updateFrom] at h <;> (try split at h) <;> cases h <;>
      first | trivial | exact ⟨⟨hg.1.1, hg.1.2⟩, hg.2⟩
  setEntity c t hg := by cases c <;> first | trivial | exact ⟨⟨hg.1.1, hg.1.2⟩, hg.2⟩

/-- No call lets go of the shape of the stored meshes. -/
theorem exec_pointed {ord : IterOrder} {s s' : System α γ} {out : Out γ} {op : Op α γ} (ht : Neat s) (hc : Shapely op) (hh : s.exec ord op = .ok (s', out)) :
    ∀ k c, s'.colliders.get k = some c → Pointed c := by
  cases op with
  | addEntity e =>
    simp only [exec] at hh
    cases h : InternalEntity.newFrom e with
    | none => rw [addEntity_none h] at hh; cases hh; exact ht.pointed
    | some E => rw [addEntity_some h] at hh; cases hh; exact ht.pointed
  | removeEntity h =>
    simp only [exec] at hh
    cases hE : s.entities.get h with
    | none => rw [removeEntity_none hE] at hh; cases hh; exact ht.pointed
    | some E =>
      rw [removeEntity_some ht.inv hE] at hh
      cases hh
      intro k c hk
      simp only [get_removeAll] at hk
      split at hk
      · cases hk
      · exact ht.pointed k c hk
  | updateEntity h e =>
    simp only [exec] at hh
    obtain ⟨⟨t, b⟩, hr, hh⟩ := Res.bind_eq_ok.mp hh
    cases hh
    rw [(updateEntity_shape hr).2.1]
    exact ht.pointed
  | addCollider c =>
    simp only [exec] at hh
    cases h : c.newFrom with
    | none => rw [addCollider_none h] at hh; cases hh; exact ht.pointed
    | some d =>
      rw [addCollider_some h] at hh
      cases hh
      intro k x hx
      simp only [Arena.get_insert ht.inv.wfC] at hx
      split at hx
      · cases hx
        rcases pointed_or hc with hp | ⟨m, rfl, hm⟩
        · exact kept_pointed.newFrom _ _ h hp
        · simp [Collider.newFrom, hm] at h
      · exact ht.pointed k x hx
  | removeCollider h =>
    simp only [exec] at hh
    obtain ⟨t, hr, hh⟩ := Res.bind_eq_ok.mp hh
    cases hh
    rw [removeCollider_ok hr]
    intro k c hk
    simp only [Arena.get_remove] at hk
    split at hk
    · cases hk
    · exact ht.pointed k c hk
  | updateCollider h c =>
    simp only [exec] at hh
    obtain ⟨⟨t, b⟩, hr, hh⟩ := Res.bind_eq_ok.mp hh
    cases hh
    rcases updateCollider_spec hr with ⟨-, rfl, -⟩ | ⟨-, C, hC, hu, hf⟩ | ⟨-, C, C', hC, hu, hf⟩
    · exact ht.pointed
    · rw [(refreshEntity_shape hf).2.1]; exact ht.pointed
    · rw [(refreshEntity_shape hf).2.1]
      intro k x hx
      simp only [Arena.get_set] at hx
      split at hx
      · rw [hC] at hx; cases hx
        rcases pointed_or hc with hp | ⟨m, rfl, hm⟩
        · exact kept_pointed.updateFrom _ _ _ hu hp
        · cases C <;> simp [Collider.updateFrom, hm] at hu
      · exact ht.pointed k x hx
  | linkCollider c e =>
    simp only [exec] at hh
    obtain ⟨⟨t, b⟩, hr, hh⟩ := Res.bind_eq_ok.mp hh
    cases hh
    rcases linkCollider_spec ht.inv hr with ⟨-, rfl, -⟩ | ⟨-, C, hC, hlive, hs', hshape, hev⟩
    · exact ht.pointed
    · intro k x hx
      rw [hs'] at hx
      simp only [Arena.get_set] at hx
      split at hx
      · rw [hC] at hx; cases hx; exact kept_pointed.setEntity _ _ (ht.pointed _ _ hC)
      · exact ht.pointed k x hx
  | addGenerator g => simp only [exec] at hh; cases hh; exact ht.pointed
  | removeGenerator h => simp only [exec] at hh; cases hh; exact ht.pointed
  | configure n e t rs d => simp only [exec] at hh; cases hh; exact ht.pointed
  | step dt =>
    simp only [exec] at hh
    obtain ⟨t, hr, hh⟩ := Res.bind_eq_ok.mp hh
    cases hh
    rw [(step_frame hr).1.colliders]
    exact ht.pointed

/-- To give an entity other numbers does not change whether a removed one can be reached from it. -/
theorem broken_set {a : Arena (InternalEntity α)} {h : Handle} {E E' : InternalEntity α} (hE : a.get h = some E) (hn : E'.neighbors = E.neighbors) :
    Broken (a.set h E') h ↔ Broken a h := by
  have getS : ∀ k, (a.set h E').get k = if k = h then some E' else a.get k := by
    intro k
    rw [Arena.get_set]
    split
    · rw [hE]; rfl
    · rfl
  have c1 : ∀ {t}, Cluster (a.set h E') h t → Cluster a h t := by
    intro t hc
    induction hc with
    | start => exact .start
    | @link t n e m _ q2 q3 q4 q5 ih =>
      by_cases hnh : n = h
      · subst hnh; exact .start
      · rw [getS, if_neg hnh] at q4
        rw [getS] at q2
        split at q2
        · cases q2
          rename_i hth
          subst hth
          exact .link ih hE (by rw [← hn]; exact q3) q4 q5
        · exact .link ih q2 q3 q4 q5
  have c2 : ∀ {t}, Cluster a h t → Cluster (a.set h E') h t := by
    intro t hc
    induction hc with
    | start => exact .start
    | @link t n e m _ q2 q3 q4 q5 ih =>
      by_cases hnh : n = h
      · subst hnh; exact .start
      · have q4' : (a.set h E').get n = some m := by rw [getS, if_neg hnh]; exact q4
        by_cases hth : t = h
        · subst hth
          rw [hE] at q2
          cases q2
          exact .link ih (by rw [getS, if_pos rfl]) (by rw [hn]; exact q3) q4' q5
        · exact .link ih (by rw [getS, if_neg hth]; exact q2) q3 q4' q5
  constructor
  · rintro ⟨t, e, n, hc, he, hm, hg⟩
    have hnh : n ≠ h := by
      rintro rfl
      rw [getS, if_pos rfl] at hg
      cases hg
    rw [getS, if_neg hnh] at hg
    rw [getS] at he
    split at he
    · cases he
      rename_i hth
      subst hth
      exact ⟨_, E, n, c1 hc, hE, by rw [← hn]; exact hm, hg⟩
    · exact ⟨t, e, n, c1 hc, he, hm, hg⟩
  · rintro ⟨t, e, n, hc, he, hm, hg⟩
    have hnh : n ≠ h := by
      rintro rfl
      rw [hE] at hg
      cases hg
    have hg' : (a.set h E').get n = none := by rw [getS, if_neg hnh]; exact hg
    by_cases hth : t = h
    · subst hth
      rw [hE] at he
      cases he
      exact ⟨_, E', n, .start, by rw [getS, if_pos rfl], by rw [hn]; exact hm, hg'⟩
    · exact ⟨t, e, n, c2 hc, by rw [getS, if_neg hth]; exact he, hm, hg'⟩

omit [SafeGenerator α γ] in
theorem updateEntity_unless (ord : IterOrder) {s : System α γ} (inv : Inv s) (h : Handle) (src : Entity α) :
    Unless (s.updateEntity ord h src) ((∃ E E1, s.entities.get h = some E ∧ E.updateFrom src = some (E1, true)) ∧ Broken s.entities h) := by
  unfold updateEntity
  cases hE : s.entities.get h with
  | none =>
    refine ⟨fun _ => ⟨_, rfl⟩, ?_⟩
    rintro ⟨⟨E, E1, hc, -⟩, -⟩
    cases hc
  | some E =>
    simp only
    cases hu : E.updateFrom src with
    | none =>
      refine ⟨fun _ => ⟨_, rfl⟩, ?_⟩
      rintro ⟨⟨E', E1, hc, hu'⟩, -⟩
      cases hc
      rw [hu] at hu'
      cases hu'
    | some r =>
      obtain ⟨E1, w⟩ := r
      obtain ⟨-, -, hE1⟩ := updateFrom_fields hu
      have hc1 : E1.colliders = E.colliders := by rw [hE1]
      have hn1 : E1.neighbors = E.neighbors := by rw [hE1]
      obtain ⟨E2, hr⟩ := recalculateMass_ok (order := ord.colliders h E1.colliders) (cs := s.colliders) E1 (by
        intro c hc
        rw [(ord.colliders_perm _ _).mem_iff, hc1] at hc
        exact inv.live hE c hc)
      have hn2 : E2.neighbors = E.neighbors := by rw [(recalculateMass_massRel hr).neighbors, hn1]
      simp only [hr, Res.ok_bind]
      cases w with
      | false =>
        refine ⟨fun _ => ⟨_, rfl⟩, ?_⟩
        rintro ⟨⟨E', E1', hc, hu'⟩, -⟩
        cases hc
        rw [hu] at hu'
        cases hu'
      | true =>
        simp only [if_true]
        refine Unless.congr (Unless.bind (Q := False) (wakeUp_unless (ord := ord) s.debug ⟨E2, Arena.get_set_self hE _⟩) ?_) ?_
        · intro x _
          exact ⟨fun _ => ⟨_, rfl⟩, False.elim⟩
        · rw [or_false, broken_set hE hn2]
          exact ⟨fun hb => ⟨⟨E, E1, rfl, hu⟩, hb⟩, fun hb => hb.2⟩

/-- One call: it panics exactly if it is fatal, and leaves a neat state otherwise. -/
theorem C29_call_exact (ord : IterOrder) {s : System α γ} (ht : Neat s) (op : Op α γ) (hc : Shapely op) :
    (Fatal ord s op → ∃ p, s.exec ord op = .error p) ∧ (¬Fatal ord s op → ∃ s' out, s.exec ord op = .ok (s', out) ∧ Neat s') := by
  suffices Unless (s.exec ord op) (Fatal ord s op) by
    refine ⟨this.2, fun h => ?_⟩
    obtain ⟨⟨s', out⟩, hs⟩ := this.1 h
    exact ⟨s', out, hs, exec_inv ht.inv hs, exec_pointed ht hc hs⟩
  have andThen : ∀ {σ : Type} {r : Res σ} {P : Prop} (g : σ → System α γ × Out γ), Unless r P → Unless (r >>= fun x => .ok (g x)) P := by
    intro σ r P g h
    exact Unless.congr (Unless.bind (Q := False) h fun x _ => ⟨fun _ => ⟨_, rfl⟩, False.elim⟩) (by simp)
  have fine : ∀ {σ : Type} {r : Res σ}, (∃ x, r = .ok x) → Unless r False := fun h => ⟨fun _ => h, False.elim⟩
  cases op with
  | addEntity e => exact fine ⟨_, rfl⟩
  | addGenerator g => exact fine ⟨_, rfl⟩
  | removeGenerator h => exact fine ⟨_, rfl⟩
  | configure n e t rs d => exact fine ⟨_, rfl⟩
  | addCollider c => exact fine ⟨_, rfl⟩
  | removeEntity h =>
    refine andThen _ (fine ?_)
    cases hE : s.entities.get h with
    | none => exact ⟨_, removeEntity_none hE⟩
    | some E => exact ⟨_, removeEntity_some ht.inv hE⟩
  | updateEntity h e => exact andThen _ (updateEntity_unless ord ht.inv h e)
  | updateCollider h c => exact andThen _ (fine (updateCollider_total ht.inv ord h c))
  | linkCollider c e => exact andThen _ (fine (linkCollider_total ht.inv ord c e))
  | removeCollider h =>
    refine andThen _ ⟨?_, ?_⟩
    · intro hf
      refine ⟨_, removeCollider_eq_ok fun C e hC he => ?_⟩
      exact absurd ⟨C, hC, by rw [he]; simp⟩ hf
    · rintro ⟨c, hg, hne⟩
      obtain ⟨e, he⟩ := Option.ne_none_iff_exists'.mp hne
      obtain ⟨E, hE⟩ := ht.inv.linkLive h c e hg he
      exact ⟨_, removeCollider_linked hg he hE⟩
  | step dt =>
    obtain ⟨h1, h2⟩ := C29_step_exact ord ht dt
    exact andThen _ ⟨h2, h1⟩

/-- Some call of the program is reached, and is fatal in the state in which it is made. -/
def SomeFatal (s : System α γ) : List (IterOrder × Op α γ) → Prop
  | [] => False
  | (ord, op) :: rest => Fatal ord s op ∨ ∃ s' out, s.exec ord op = .ok (s', out) ∧ SomeFatal s' rest

/-- **C29**, exactly: a program whose meshes are well formed (`add_face` makes no others, `C50`) panics if and only if one of its calls removes a linked collider,
changes an entity from which a removed one can be reached along the lists of neighbours, or steps into a contact of such an entity or into two meshes a face of
which collapses half way. -/
theorem C29_exact (l : List (IterOrder × Op α γ)) (h : ∀ c ∈ l, Shapely c.2) :
    (∃ p, runAll System.new l = .error p) ↔ SomeFatal (System.new : System α γ) l := by
  suffices ∀ (l : List (IterOrder × Op α γ)) (s : System α γ), Neat s → (∀ c ∈ l, Shapely c.2) → ((∃ p, runAll s l = .error p) ↔ SomeFatal s l) from
    this l _ ⟨(tidy_new Pointed).inv, (tidy_new Pointed).good⟩ h
  intro l
  induction l with
  | nil =>
    intro s _ _
    refine ⟨?_, False.elim⟩
    rintro ⟨p, hp⟩
    cases hp
  | cons c l ih =>
    intro s ht ha
    obtain ⟨ord, op⟩ := c
    obtain ⟨h1, h2⟩ := C29_call_exact ord ht op (ha (ord, op) (by simp))
    by_cases hf : Fatal ord s op
    · obtain ⟨p, hp⟩ := h1 hf
      refine ⟨fun _ => .inl hf, fun _ => ⟨p, ?_⟩⟩
      unfold runAll
      rw [hp]
      rfl
    · obtain ⟨s', out, he, ht'⟩ := h2 hf
      have := ih s' ht' fun c hc => ha c (by simp [hc])
      have e : runAll s ((ord, op) :: l) = runAll s' l := by
        show (s.exec ord op >>= fun r => runAll r.1 l) = _
        rw [he]
        rfl
      rw [e, this]
      constructor
      · intro h
        exact .inr ⟨s', out, he, h⟩
      · rintro (h | ⟨t, o, he', h⟩)
        · exact absurd h hf
        · rw [he] at he'
          cases he'
          exact h

section
open Fluffy.F32 Demo
variable [Libm]

/-- The program of `C29_mesh_false` has well-formed meshes, and so has a fatal call; without its last call it has none. -/
theorem C29_exact_applies : (∀ c ∈ (speckCalls ++ [Op.step (num 1)]).map (IterOrder.id, ·), Shapely c.2) ∧
    SomeFatal (System.new : System F32 (GravityGenerator F32)) ((speckCalls ++ [Op.step (num 1)]).map (IterOrder.id, ·)) ∧
    ¬SomeFatal (System.new : System F32 (GravityGenerator F32)) (speckCalls.map (IterOrder.id, ·)) := by
  have good : speck.Good := speck_made.good
  have h1 : ∀ c ∈ (speckCalls ++ [Op.step (num 1)]).map (IterOrder.id, ·), Shapely c.2 := by
    simp [speckCalls, Shapely, Collider.Good, good]
  have h2 : ∀ c ∈ speckCalls.map (IterOrder.id, ·), Shapely c.2 := by
    simp [speckCalls, Shapely, Collider.Good, good]
  refine ⟨h1, (C29_exact _ h1).mp ?_, fun h => ?_⟩
  · have h : (match runAll (System.new : System F32 (GravityGenerator F32)) ((speckCalls ++ [Op.step (num 1)]).map (IterOrder.id, ·)) with | .error _ => true | .ok _ => false) = true := by
      kernel_refl
    split at h
    · exact ⟨_, by assumption⟩
    · cases h
  · obtain ⟨p, hp⟩ := (C29_exact _ h2).mpr h
    have h : (match runAll (System.new : System F32 (GravityGenerator F32)) (speckCalls.map (IterOrder.id, ·)) with | .error _ => false | .ok _ => true) = true := by
      kernel_refl
    rw [hp] at h
    cases h
end

end Fluffy.Props
