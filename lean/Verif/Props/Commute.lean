import Verif.Props.Wake
import Verif.Props.Mass
import Verif.Props.Witness
import Verif.Num.Kernel
/-
C105: edits of different bodies can be made in either order.
-/
set_option linter.unusedSectionVars false
set_option linter.unusedSimpArgs false
namespace Fluffy.Props
open Fluffy InternalEntity

section
variable {α : Type} [Scalar α]

/-! ### Two wake-ups, one after the other -/

/-- The entity is woken if `w`. -/
def WakesIf (w : Bool) (ord : IterOrder) (h : Handle) (a b : Arena (InternalEntity α)) : Prop :=
  (w = false ∧ b = a) ∨ (w = true ∧ ∃ d d', wakeUp ord h a d = .ok (b, d'))

theorem WakesIf.evolves {w : Bool} {ord : IterOrder} {h : Handle} {a b : Arena (InternalEntity α)} (hw : WakesIf w ord h a b) : Arena.Evolves WakeRel a b := by
  rcases hw with ⟨-, rfl⟩ | ⟨-, d, d', hw⟩
  · exact ⟨.refl _, fun k x y hx hy => by rw [hx] at hy; cases hy; exact .refl _⟩
  · exact (wakeUp_spec hw).1

/-- What a wake-up does, if there is one. -/
theorem WakesIf.spec {w : Bool} {ord : IterOrder} {h : Handle} {a b : Arena (InternalEntity α)} (hw : WakesIf w ord h a b) {C : Handle → Prop}
    (hC : ∀ k, C k ↔ w = true ∧ Cluster a h k) {k : Handle} {x y : InternalEntity α} (hx : a.get k = some x) (hy : b.get k = some y) :
    (C k → y.asleep = false ∧ y.neighbors = []) ∧
    (¬ C k → y.asleep = x.asleep ∧ (Scalar.isInfinite x.totalMass = false → y.neighbors = x.neighbors) ∧
      (Scalar.isInfinite x.totalMass = true → ∀ t, t ∈ y.neighbors ↔ t ∈ x.neighbors ∧ ¬ (C t ∧ Lists a t k))) ∧ List.Sublist y.neighbors x.neighbors := by
  rcases hw with ⟨rfl, rfl⟩ | ⟨rfl, d, d', hw⟩
  · rw [hx] at hy; cases hy
    have hn : ∀ k, ¬ C k := fun k h => by simpa using ((hC k).mp h).1
    exact ⟨fun h => absurd h (hn k), fun _ => ⟨rfl, fun _ => rfl, fun _ t => ⟨fun h => ⟨h, fun c => hn t c.1⟩, fun h => h.1⟩⟩, List.Sublist.refl _⟩
  · have hC' : ∀ k, C k ↔ Cluster a h k := fun k => by rw [hC]; simp
    simp only [hC']
    exact (wakeUp_spec hw).2.1 k x y hx hy

/-- After two edits, each of which may wake its entity, exactly the clusters of the woken ones are awake.  `f` is what is there when all has been edited but nobody has been woken. -/
theorem two_wakes {f a1 a a2 b : Arena (InternalEntity α)} {h1 h2 : Handle} {o1 o2 : IterOrder} {w1 w2 : Bool}
    (L0 : ∀ k x, f.get k = some x → ∃ y, a1.get k = some y) (L0' : ∀ k y, a1.get k = some y → ∃ x, f.get k = some x)
    (L1 : ∀ k x y, f.get k = some x → a1.get k = some y → y.asleep = x.asleep ∧ y.neighbors = x.neighbors ∧
      (k ≠ h2 ∨ w2 = false → Scalar.isInfinite y.totalMass = Scalar.isInfinite x.totalMass))
    (hw1 : WakesIf w1 o1 h1 a1 a) (L20 : ∀ k y, a.get k = some y → ∃ z, a2.get k = some z) (L20' : ∀ k z, a2.get k = some z → ∃ y, a.get k = some y)
    (L2 : ∀ k y z, a.get k = some y → a2.get k = some z → z.asleep = y.asleep ∧ z.neighbors = y.neighbors)
    (M : ∀ k x z, f.get k = some x → a2.get k = some z → Scalar.isInfinite z.totalMass = Scalar.isInfinite x.totalMass) (hw2 : WakesIf w2 o2 h2 a2 b)
    {W : Handle → Prop} (hW : ∀ k, W k ↔ (w1 = true ∧ Cluster f h1 k) ∨ (w2 = true ∧ Cluster f h2 k))
    {k : Handle} {x z : InternalEntity α} (hx : f.get k = some x) (hz : b.get k = some z) :
    (W k → z.asleep = false ∧ z.neighbors = []) ∧
    (¬ W k → z.asleep = x.asleep ∧ (Scalar.isInfinite x.totalMass = false → z.neighbors = x.neighbors) ∧
      (Scalar.isInfinite x.totalMass = true → ∀ t, t ∈ z.neighbors ↔ t ∈ x.neighbors ∧ ¬ (W t ∧ Lists f t k))) ∧ List.Sublist z.neighbors x.neighbors := by
  obtain ⟨C1, hC1⟩ : ∃ C : Handle → Prop, ∀ k, C k ↔ w1 = true ∧ Cluster a1 h1 k := ⟨_, fun _ => Iff.rfl⟩
  obtain ⟨C2, hC2⟩ : ∃ C : Handle → Prop, ∀ k, C k ↔ w2 = true ∧ Cluster a2 h2 k := ⟨_, fun _ => Iff.rfl⟩
  have S1 := fun {k x y} (hx : a1.get k = some x) (hy : a.get k = some y) => hw1.spec hC1 hx hy
  have S2 := fun {k x y} (hx : a2.get k = some x) (hy : b.get k = some y) => hw2.spec hC2 hx hy
  -- from `f` on
  have path : ∀ {k x}, f.get k = some x → ∃ x1 y z, a1.get k = some x1 ∧ a.get k = some y ∧ a2.get k = some z ∧ x1.asleep = x.asleep ∧ x1.neighbors = x.neighbors ∧
      z.asleep = y.asleep ∧ z.neighbors = y.neighbors := by
    intro k x hx
    obtain ⟨x1, hx1⟩ := L0 k x hx
    obtain ⟨y, hy, -⟩ := hw1.evolves.get hx1
    obtain ⟨z, hz⟩ := L20 k y hy
    obtain ⟨e1, e2, -⟩ := L1 k x x1 hx hx1
    obtain ⟨e3, e4⟩ := L2 k y z hy hz
    exact ⟨x1, y, z, hx1, hy, hz, e1, e2, e3, e4⟩
  have lists1 : ∀ t k, Lists a1 t k ↔ Lists f t k := by
    intro t k
    constructor
    · rintro ⟨e, he, hk⟩
      obtain ⟨x, hx⟩ := L0' t e he
      exact ⟨x, hx, by rw [← (L1 t x e hx he).2.1]; exact hk⟩
    · rintro ⟨x, hx, hk⟩
      obtain ⟨e, he⟩ := L0 t x hx
      exact ⟨e, he, by rw [(L1 t x e hx he).2.1]; exact hk⟩
  have lists2 : ∀ t k, Lists a2 t k → Lists f t k := by
    rintro t k ⟨e, he, hk⟩
    obtain ⟨y, hy⟩ := L20' t e he
    obtain ⟨x1, hx1, -⟩ : ∃ x1, a1.get t = some x1 ∧ True := by
      have := hw1.evolves.shape.isSome t
      rw [hy] at this
      obtain ⟨x1, h⟩ := Option.isSome_iff_exists.mp this.symm
      exact ⟨x1, h, trivial⟩
    obtain ⟨x, hx⟩ := L0' t x1 hx1
    refine ⟨x, hx, ?_⟩
    rw [← (L1 t x x1 hx hx1).2.1]
    apply (S1 hx1 hy).2.2.mem
    rw [← (L2 t y e hy he).2]; exact hk
  -- what is listed by something that is not woken at first is listed still, or woken at first
  have kept : ∀ {t n}, ¬ C1 t → Lists f t n → C1 n ∨ Lists a2 t n := by
    rintro t n ht ⟨x, hx, hn⟩
    obtain ⟨x1, y, z, g1, g2, g3, -, e2, -, e4⟩ := path hx
    obtain ⟨-, p2, p3⟩ := (S1 g1 g2).2.1 ht
    cases hi : Scalar.isInfinite x1.totalMass with
    | false => exact Or.inr ⟨z, g3, by rw [e4, p2 hi, e2]; exact hn⟩
    | true =>
      by_cases hm : n ∈ y.neighbors
      · exact Or.inr ⟨z, g3, by rw [e4]; exact hm⟩
      · left
        by_contra hc
        exact hm ((p3 hi n).mpr ⟨by rw [e2]; exact hn, fun h => hc h.1⟩)
  have next : ∀ {t n m}, C1 t ∨ C2 t → Lists f t n → f.get n = some m → Scalar.isInfinite m.totalMass = false → C1 n ∨ C2 n := by
    intro t n m ht hl hm hi
    by_cases hn : n ≠ h2 ∨ w2 = false
    · by_cases h1' : C1 t
      · left
        obtain ⟨hw, hc⟩ := (hC1 t).mp h1'
        obtain ⟨e, he, hk⟩ := (lists1 t n).mpr hl
        obtain ⟨m1, hm1⟩ := L0 n m hm
        exact (hC1 n).mpr ⟨hw, hc.link he hk hm1 (by rw [(L1 n m m1 hm hm1).2.2 hn]; exact hi)⟩
      · rcases kept h1' hl with h | ⟨e, he, hk⟩
        · exact Or.inl h
        · right
          obtain ⟨hw, hc⟩ := (hC2 t).mp (ht.resolve_left h1')
          obtain ⟨-, -, m2, -, -, hm2, -⟩ := path hm
          exact (hC2 n).mpr ⟨hw, hc.link he hk hm2 (by rw [M n m m2 hm hm2]; exact hi)⟩
    · push Not at hn
      right
      rw [hn.1]
      exact (hC2 _).mpr ⟨by simpa using hn.2, .start⟩
  have nextW : ∀ {t n m}, W t → Lists f t n → f.get n = some m → Scalar.isInfinite m.totalMass = false → W n := by
    rintro t n m ht ⟨e, he, hk⟩ hm hi
    rcases (hW t).mp ht with ⟨hw, hc⟩ | ⟨hw, hc⟩
    · exact (hW n).mpr (Or.inl ⟨hw, hc.link he hk hm hi⟩)
    · exact (hW n).mpr (Or.inr ⟨hw, hc.link he hk hm hi⟩)
  have same : ∀ k, W k ↔ C1 k ∨ C2 k := by
    intro k
    constructor
    · intro h
      rcases (hW k).mp h with ⟨hw, hc⟩ | ⟨hw, hc⟩
      · clear h hx hz
        induction hc with
        | start => exact Or.inl ((hC1 _).mpr ⟨hw, .start⟩)
        | @link t n e m _ he hn hm hi ih => exact next ih ⟨e, he, hn⟩ hm hi
      · clear h hx hz
        induction hc with
        | start => exact Or.inr ((hC2 _).mpr ⟨hw, .start⟩)
        | @link t n e m _ he hn hm hi ih => exact next ih ⟨e, he, hn⟩ hm hi
    · rintro (h | h)
      · obtain ⟨hw, hc⟩ := (hC1 k).mp h
        clear h hx hz
        induction hc with
        | start => exact (hW _).mpr (Or.inl ⟨hw, .start⟩)
        | @link t n e m _ he hn hm hi ih =>
          by_cases hn2 : n ≠ h2 ∨ w2 = false
          · obtain ⟨m0, hm0⟩ := L0' n m hm
            exact nextW ih ((lists1 t n).mp ⟨e, he, hn⟩) hm0 (by rw [← (L1 n m0 m hm0 hm).2.2 hn2]; exact hi)
          · push Not at hn2
            rw [hn2.1]
            exact (hW _).mpr (Or.inr ⟨by simpa using hn2.2, .start⟩)
      · obtain ⟨hw, hc⟩ := (hC2 k).mp h
        clear h hx hz
        induction hc with
        | start => exact (hW _).mpr (Or.inr ⟨hw, .start⟩)
        | @link t n e m _ he hn hm hi ih =>
          obtain ⟨y, hy⟩ := L20' n m hm
          obtain ⟨m0, hm0⟩ : ∃ m0, f.get n = some m0 := by
            have := hw1.evolves.shape.isSome n
            rw [hy] at this
            obtain ⟨x1, h⟩ := Option.isSome_iff_exists.mp this.symm
            exact L0' n x1 h
          exact nextW ih (lists2 t n ⟨e, he, hn⟩) hm0 (by rw [← M n m0 m hm0 hm]; exact hi)
  obtain ⟨x1, y, y2, g1, g2, g3, e1, e2, e3, e4⟩ := path hx
  obtain ⟨p1, p2, p3⟩ := S1 g1 g2
  obtain ⟨q1, q2, q3⟩ := S2 g3 hz
  refine ⟨fun h => ?_, fun h => ?_, ?_⟩
  · by_cases h2' : C2 k
    · exact q1 h2'
    · obtain ⟨r1, r2⟩ := p1 (((same k).mp h).resolve_right h2')
      refine ⟨by rw [(q2 h2').1, e3, r1], ?_⟩
      rw [e4, r2] at q3
      exact List.sublist_nil.mp q3
  · rw [same] at h
    push Not at h
    obtain ⟨c1, c2⟩ := h
    obtain ⟨r1, r2, r3⟩ := p2 c1
    obtain ⟨u1, u2, u3⟩ := q2 c2
    have hk : k ≠ h2 ∨ w2 = false := by
      by_contra hn
      push Not at hn
      exact c2 ((hC2 k).mpr ⟨by simpa using hn.2, by rw [hn.1]; exact .start⟩)
    have i1 := (L1 k x x1 hx g1).2.2 hk
    have i2 := M k x y2 hx g3
    refine ⟨by rw [u1, e3, r1, e1], fun hi => by rw [u2 (i2.trans hi), e4, r2 (i1.trans hi), e2], fun hi t => ?_⟩
    rw [u3 (i2.trans hi), e4, r3 (i1.trans hi), e2, lists1]
    constructor
    · rintro ⟨⟨ht, n1⟩, n2⟩
      refine ⟨ht, ?_⟩
      rintro ⟨hWt, hl⟩
      by_cases ht1 : C1 t
      · exact n1 ⟨ht1, hl⟩
      · rcases kept ht1 hl with h | h
        · exact c1 h
        · exact n2 ⟨((same t).mp hWt).resolve_left ht1, h⟩
    · rintro ⟨ht, n⟩
      exact ⟨⟨ht, fun h => n ⟨(same t).mpr (Or.inl h.1), h.2⟩⟩, fun h => n ⟨(same t).mpr (Or.inr h.1), lists2 t k h.2⟩⟩
  · rw [← e2]
    exact (q3.trans (by rw [e4])).trans p3

/-! ### Two edits -/

theorem sublist_ext {τ : Type} : ∀ {l l1 l2 : List τ}, l.Nodup → List.Sublist l1 l → List.Sublist l2 l → (∀ t, t ∈ l1 ↔ t ∈ l2) → l1 = l2
  | [], l1, l2, _, s1, s2, _ => by rw [List.sublist_nil.mp s1, List.sublist_nil.mp s2]
  | a :: l, l1, l2, hn, s1, s2, h => by
    rw [List.nodup_cons] at hn
    cases s1 with
    | cons _ s1 =>
      cases s2 with
      | cons _ s2 => exact sublist_ext hn.2 s1 s2 h
      | cons_cons _ s2 => exact absurd (s1.mem ((h a).mpr (by simp))) hn.1
    | cons_cons _ s1 =>
      cases s2 with
      | cons _ s2 => exact absurd (s2.mem ((h a).mp (by simp))) hn.1
      | cons_cons _ s2 =>
        rename_i l1 l2
        congr 1
        refine sublist_ext hn.2 s1 s2 (fun t => ?_)
        by_cases ht : t = a
        · subst ht
          exact ⟨fun h => absurd (s1.mem h) hn.1, fun h => absurd (s2.mem h) hn.1⟩
        · simpa [ht] using h t

theorem Arena.ext_get {τ : Type} {a b : Arena τ} (hs : Arena.SameShape a b) (h : ∀ k, a.get k = b.get k) : a = b := by
  have : a.items = b.items := by
    apply List.ext_getElem?
    intro i
    have := hs.getElem i
    cases ha : a.items[i]? with
    | none =>
      rw [ha] at this
      cases hb : b.items[i]? with
      | none => rfl
      | some y => rw [hb] at this; cases this
    | some x =>
      rw [ha] at this
      cases hb : b.items[i]? with
      | none => rw [hb] at this; cases this
      | some y =>
        rw [hb] at this
        rcases x with _ | ⟨g, v⟩ <;> rcases y with _ | ⟨g', v'⟩
        · rfl
        · cases this
        · cases this
        · simp only [Option.map_some, Option.some.injEq] at this
          subst this
          have := h ⟨i, g⟩
          unfold Arena.get at this
          simp only [ha, hb, if_true, Option.some.injEq] at this
          rw [this]
  cases a; cases b
  simp only at this
  have h2 := hs.free; have h3 := hs.generation
  simp only at h2 h3
  rw [this, h2, h3]

theorem recalculateMass_wake {order : List Handle} {cs : Arena (Collider α)} {e r : InternalEntity α} (s : Bool) (n : List Handle)
    (h : recalculateMass order cs e = .ok r) : recalculateMass order cs { e with asleep := s, neighbors := n } = .ok { r with asleep := s, neighbors := n } := by
  have hrec : ∀ x : MassSum α, ({ e with asleep := s, neighbors := n } : InternalEntity α).recenter x = { e.recenter x with asleep := s, neighbors := n } := by
    intro x; unfold recenter; simp only; split <;> rfl
  unfold recalculateMass at h ⊢
  obtain ⟨x, hx, h⟩ := Res.bind_eq_ok.mp h
  rw [show ({ e with asleep := s, neighbors := n } : InternalEntity α).orientation = e.orientation from rfl, hx]
  simp only [Res.ok_bind, hrec]
  by_cases hf : x.foundInfinite = true
  · rw [if_pos hf] at h ⊢
    cases h; rfl
  · rw [if_neg hf] at h ⊢
    obtain ⟨m, hm, h⟩ := Res.bind_eq_ok.mp h
    cases h
    rw [hm]
    rfl

variable {γ : Type} [ForceGenerator α γ]

/-- Edits of two bodies, the second after the first, in terms of what both edits make of the bodies. -/
theorem edit_two {s a ab : System α γ} {h1 h2 : Handle} (hne : h1 ≠ h2) {o1 o2 : IterOrder} {E1 E2 F2 P1 P2 : InternalEntity α} {e2 : Entity α} {w1 w2 : Bool}
    (g1 : s.entities.get h1 = some E1) (g2 : s.entities.get h2 = some E2) (u2 : E2.updateFrom e2 = some (F2, w2))
    (n1 : P1.asleep = E1.asleep ∧ P1.neighbors = E1.neighbors)
    (r2 : recalculateMass (o2.colliders h2 F2.colliders) s.colliders F2 = .ok P2)
    (keep : w2 = false → Scalar.isInfinite P2.totalMass = Scalar.isInfinite E2.totalMass)
    (ha : a.colliders = s.colliders) (hw1 : WakesIf w1 o1 h1 (s.entities.set h1 P1) a.entities) {y : Bool} (hu : a.updateEntity o2 h2 e2 = .ok (ab, y)) :
    y = true ∧ (∃ d, ab = { a with entities := ab.entities, debug := d }) ∧ Arena.SameShape ab.entities s.entities ∧
    ∀ (f : Arena (InternalEntity α)), (∀ k, f.get k = if k = h1 then some P1 else if k = h2 then some P2 else s.entities.get k) →
    ∀ (W : Handle → Prop), (∀ k, W k ↔ (w1 = true ∧ Cluster f h1 k) ∨ (w2 = true ∧ Cluster f h2 k)) →
    ∀ k x, f.get k = some x → ∃ z, ab.entities.get k = some z ∧ WakeRel x z ∧
    (W k → z.asleep = false ∧ z.neighbors = []) ∧
    (¬ W k → z.asleep = x.asleep ∧ (Scalar.isInfinite x.totalMass = false → z.neighbors = x.neighbors) ∧
      (Scalar.isInfinite x.totalMass = true → ∀ t, t ∈ z.neighbors ↔ t ∈ x.neighbors ∧ ¬ (W t ∧ Lists f t k))) ∧ List.Sublist z.neighbors x.neighbors := by
  have hev := hw1.evolves
  obtain ⟨Q, hQ, hQr⟩ := hev.get (h := h2) (x := E2) (by rw [Arena.get_set_ne (Ne.symm hne)]; exact g2)
  obtain ⟨hv, hw, hF⟩ := System.updateFrom_fields u2
  have hrel := recalculateMass_massRel r2
  -- the edit of the second in the new situation
  have key : ∃ Q1, Q.updateFrom e2 = some (Q1, w2) ∧ Q1 = { F2 with asleep := Q.asleep, neighbors := Q.neighbors } := by
    refine ⟨_, ?_, rfl⟩
    unfold updateFrom
    rw [if_neg (by rw [hv]; simp), hw, hF]
    unfold WakeRel at hQr
    rw [hQr]
    rfl
  obtain ⟨Q1, hQ1, rfl⟩ := key
  have hrec := recalculateMass_wake Q.asleep Q.neighbors r2
  rcases System.updateEntity_spec hu with ⟨-, -, hno⟩ | ⟨rfl, E, X1, X2, w, hE, hX1, hX2, hww⟩
  · rw [hno Q hQ] at hQ1; cases hQ1
  rw [hQ] at hE; cases hE
  rw [hQ1] at hX1; cases hX1
  simp only at hX2
  rw [ha, hrec] at hX2
  cases hX2
  obtain ⟨hw2, d, hd⟩ : WakesIf w2 o2 h2 (a.entities.set h2 { P2 with asleep := Q.asleep, neighbors := Q.neighbors }) ab.entities ∧
      ∃ d, ab = { a with entities := ab.entities, debug := d } := by
    rcases hww with ⟨hw', rfl⟩ | ⟨hw', A, D, hA, rfl⟩
    · exact ⟨Or.inl ⟨hw', rfl⟩, _, rfl⟩
    · exact ⟨Or.inr ⟨hw', _, _, hA⟩, _, rfl⟩
  refine ⟨rfl, ⟨d, hd⟩, ?_, ?_⟩
  · exact hw2.evolves.shape.trans ((Arena.sameShape_set _ _ _).trans (hev.shape.trans (Arena.sameShape_set _ _ _)))
  · intro f hf W hW k x hx
    have n2 : P2.asleep = E2.asleep ∧ P2.neighbors = E2.neighbors := by rw [hrel.asleep, hrel.neighbors, hF]; exact ⟨rfl, rfl⟩
    have f1 : f.get h1 = some P1 := by rw [hf, if_pos rfl]
    have f2 : f.get h2 = some P2 := by rw [hf, if_neg (Ne.symm hne), if_pos rfl]
    have a1h1 : (s.entities.set h1 P1).get h1 = some P1 := Arena.get_set_self g1 _
    have a1h2 : (s.entities.set h1 P1).get h2 = some E2 := by rw [Arena.get_set_ne (Ne.symm hne)]; exact g2
    have fne : ∀ k, k ≠ h2 → f.get k = (s.entities.set h1 P1).get k := by
      intro k hk
      by_cases hk1 : k = h1
      · rw [hk1, f1, a1h1]
      · rw [hf, if_neg hk1, if_neg hk, Arena.get_set_ne hk1]
    have a2h2 := Arena.get_set_self hQ ({ P2 with asleep := Q.asleep, neighbors := Q.neighbors } : InternalEntity α)
    have a2ne : ∀ k, k ≠ h2 → (a.entities.set h2 { P2 with asleep := Q.asleep, neighbors := Q.neighbors }).get k = a.entities.get k := fun k hk => Arena.get_set_ne hk _
    -- the entity in the end
    have hsome : ∃ z, ab.entities.get k = some z ∧ WakeRel x z := by
      by_cases hk : k = h2
      · subst hk
        rw [f2] at hx; cases hx
        obtain ⟨z, hz, hr⟩ := hw2.evolves.get a2h2
        refine ⟨z, hz, ?_⟩
        unfold WakeRel at hr ⊢
        rw [hr]
      · rw [fne k hk] at hx
        obtain ⟨y, hy, hr⟩ := hev.get hx
        obtain ⟨z, hz, hr'⟩ := hw2.evolves.get (by rw [a2ne k hk]; exact hy)
        exact ⟨z, hz, hr.trans hr'⟩
    obtain ⟨z, hz, hr⟩ := hsome
    refine ⟨z, hz, hr, ?_⟩
    refine two_wakes (f := f) ?_ ?_ ?_ hw1 ?_ ?_ ?_ ?_ hw2 hW hx hz
    · intro k x hx
      by_cases hk : k = h2
      · exact ⟨E2, by rw [hk]; exact a1h2⟩
      · exact ⟨x, by rw [← fne k hk]; exact hx⟩
    · intro k y hy
      by_cases hk : k = h2
      · exact ⟨P2, by rw [hk]; exact f2⟩
      · exact ⟨y, by rw [fne k hk]; exact hy⟩
    · intro k x y hx hy
      by_cases hk : k = h2
      · subst hk
        rw [f2] at hx; rw [a1h2] at hy; cases hx; cases hy
        exact ⟨n2.1.symm, n2.2.symm, fun h => (keep (h.resolve_left (fun h => h rfl))).symm⟩
      · rw [fne k hk, hy] at hx; cases hx
        exact ⟨rfl, rfl, fun _ => rfl⟩
    · intro k y hy
      by_cases hk : k = h2
      · exact ⟨_, by rw [hk]; exact a2h2⟩
      · exact ⟨y, by rw [a2ne k hk]; exact hy⟩
    · intro k z hz
      by_cases hk : k = h2
      · exact ⟨Q, by rw [hk]; exact hQ⟩
      · exact ⟨z, by rw [← a2ne k hk]; exact hz⟩
    · intro k y z hy hz
      by_cases hk : k = h2
      · subst hk
        rw [hQ] at hy; rw [a2h2] at hz; cases hy; cases hz
        exact ⟨rfl, rfl⟩
      · rw [a2ne k hk, hy] at hz; cases hz
        exact ⟨rfl, rfl⟩
    · intro k x z hx hz
      by_cases hk : k = h2
      · subst hk
        rw [f2] at hx; rw [a2h2] at hz; cases hx; cases hz
        rfl
      · rw [a2ne k hk] at hz
        rw [fne k hk] at hx
        rw [(hev.rel k x z hx hz).totalMass]

/-- The first of the edits. -/
theorem edit_first {s a : System α γ} {h1 : Handle} {o1 : IterOrder} {e1 : Entity α} {x : Bool} (hu : s.updateEntity o1 h1 e1 = .ok (a, x)) :
    (x = false ∧ a = s ∧ ∀ E, s.entities.get h1 = some E → Scalar.lt e1.ownMass zero = true) ∨
    (x = true ∧ ∃ E1 F1 P1 w1, s.entities.get h1 = some E1 ∧ E1.updateFrom e1 = some (F1, w1) ∧
      recalculateMass (o1.colliders h1 F1.colliders) s.colliders F1 = .ok P1 ∧ P1.asleep = E1.asleep ∧ P1.neighbors = E1.neighbors ∧
      WakesIf w1 o1 h1 (s.entities.set h1 P1) a.entities ∧ ∃ d, a = { s with entities := a.entities, debug := d }) := by
  rcases System.updateEntity_spec hu with ⟨rfl, rfl, hno⟩ | ⟨rfl, E, F, P, w, hE, hF, hP, hww⟩
  · refine Or.inl ⟨rfl, rfl, fun E hE => ?_⟩
    have := hno E hE
    unfold updateFrom at this
    split at this
    · assumption
    · cases this
  · have hrel := recalculateMass_massRel hP
    obtain ⟨-, -, hF'⟩ := System.updateFrom_fields hF
    have n1 : P.asleep = E.asleep := by rw [hrel.asleep, hF']
    have n2 : P.neighbors = E.neighbors := by rw [hrel.neighbors, hF']
    refine Or.inr ⟨rfl, E, F, P, w, hE, hF, hP, n1, n2, ?_⟩
    rcases hww with ⟨hw', rfl⟩ | ⟨hw', A, D, hA, rfl⟩
    · exact ⟨Or.inl ⟨hw', rfl⟩, _, rfl⟩
    · exact ⟨Or.inr ⟨hw', _, _, hA⟩, _, rfl⟩

/-- An edit that is refused is refused after an edit of another body as well. -/
theorem edit_refused {s b ba : System α γ} {h1 : Handle} {o1 : IterOrder} {e1 : Entity α} {x' : Bool}
    (hno : ∀ E, s.entities.get h1 = some E → Scalar.lt e1.ownMass zero = true) (hs : Arena.SameShape b.entities s.entities)
    (hu : b.updateEntity o1 h1 e1 = .ok (ba, x')) : x' = false ∧ ba = b := by
  rcases System.updateEntity_spec hu with ⟨rfl, rfl, -⟩ | ⟨-, E, F, P, w, hE, hF, -⟩
  · exact ⟨rfl, rfl⟩
  · exfalso
    have := hs.isSome h1
    rw [hE] at this
    obtain ⟨E', hE'⟩ := Option.isSome_iff_exists.mp this.symm
    have h := (System.updateFrom_fields hF).1
    rw [hno E' hE'] at h
    cases h

theorem edit_shape {s a : System α γ} {h1 : Handle} {o1 : IterOrder} {e1 : Entity α} {x : Bool} (hu : s.updateEntity o1 h1 e1 = .ok (a, x)) :
    Arena.SameShape a.entities s.entities := by
  rcases edit_first hu with ⟨-, rfl, -⟩ | ⟨-, E, F, P, w, -, -, -, -, -, hw, -⟩
  · exact .refl _
  · exact hw.evolves.shape.trans (Arena.sameShape_set _ _ _)

/-- **C105 (any arithmetic, e.g. `f32`).** Edits of two different bodies give the same in either order, up to the debug messages, unless one of them makes the total
mass of its body infinite or finite without counting as a change. -/
theorem C105_any_partial {s a ab b ba : System α γ} (hr : Reachable s) {h1 h2 : Handle} (hne : h1 ≠ h2) {o1 o2 : IterOrder} {e1 e2 : Entity α} {x y x' y' : Out γ}
    (hA1 : s.exec o1 (.updateEntity h1 e1) = .ok (a, x)) (hA2 : a.exec o2 (.updateEntity h2 e2) = .ok (ab, y))
    (hB1 : s.exec o2 (.updateEntity h2 e2) = .ok (b, y')) (hB2 : b.exec o1 (.updateEntity h1 e1) = .ok (ba, x'))
    (k1 : ∀ p q, s.getEntity h1 = some p → a.getEntity h1 = some q → Scalar.eq p.ownMass q.ownMass = true →
      Scalar.isInfinite q.lastTotalMass = Scalar.isInfinite p.lastTotalMass)
    (k2 : ∀ p q, s.getEntity h2 = some p → b.getEntity h2 = some q → Scalar.eq p.ownMass q.ownMass = true →
      Scalar.isInfinite q.lastTotalMass = Scalar.isInfinite p.lastTotalMass) :
    x = x' ∧ y = y' ∧ ({ ab with debug := [] } : System α γ) = { ba with debug := [] } := by
  simp only [System.exec] at hA1 hA2 hB1 hB2
  obtain ⟨⟨a, x⟩, iA1, q⟩ := Res.bind_eq_ok.mp hA1; cases q; clear hA1
  obtain ⟨⟨ab, y⟩, iA2, q⟩ := Res.bind_eq_ok.mp hA2; cases q; clear hA2
  obtain ⟨⟨b, y'⟩, iB1, q⟩ := Res.bind_eq_ok.mp hB1; cases q; clear hB1
  obtain ⟨⟨ba, x'⟩, iB2, q⟩ := Res.bind_eq_ok.mp hB2; cases q; clear hB2
  simp only at *
  have sA := edit_shape iA1
  have sB := edit_shape iB1
  rcases edit_first iA1 with ⟨rfl, rfl, no⟩ | ⟨rfl, E1, F1, P1, w1, g1, u1, r1, n1, n1', hw1, d1, hd1⟩
  · obtain ⟨rfl, rfl⟩ := edit_refused no sB iB2
    rw [iB1] at iA2
    cases iA2
    exact ⟨rfl, rfl, rfl⟩
  rcases edit_first iB1 with ⟨rfl, rfl, no⟩ | ⟨rfl, E2, F2, P2, w2, g2, u2, r2, n2, n2', hw2, d2, hd2⟩
  · obtain ⟨rfl, rfl⟩ := edit_refused no sA iA2
    rw [iA1] at iB2
    cases iB2
    exact ⟨rfl, rfl, rfl⟩
  have keeps : ∀ {h : Handle} {o : IterOrder} {e : Entity α} {E F P : InternalEntity α} {w : Bool} {c : System α γ},
      s.entities.get h = some E → E.updateFrom e = some (F, w) → recalculateMass (o.colliders h F.colliders) s.colliders F = .ok P →
      WakesIf w o h (s.entities.set h P) c.entities →
      (∀ p q, s.getEntity h = some p → c.getEntity h = some q → Scalar.eq p.ownMass q.ownMass = true → Scalar.isInfinite q.lastTotalMass = Scalar.isInfinite p.lastTotalMass) →
      w = false → Scalar.isInfinite P.totalMass = Scalar.isInfinite E.totalMass := by
    intro h o e E F P w c g u r hw k hf
    rcases hw with ⟨-, hc⟩ | ⟨ht, -⟩
    · obtain ⟨-, hch, hF⟩ := System.updateFrom_fields u
      have hrel := recalculateMass_massRel r
      refine k E.makePub P.makePub (getEntity_iff.mpr ⟨E, g, rfl⟩) (getEntity_iff.mpr ⟨P, by rw [hc]; exact Arena.get_set_self g _, rfl⟩) ?_
      show Scalar.eq E.ownMass P.ownMass = true
      rw [hrel.ownMass, hF]
      rw [hf] at hch
      have := hch.symm
      unfold changed at this
      simp only [Bool.or_eq_false_iff, Bool.not_eq_false'] at this
      exact this.1.1.1.1
    · rw [hf] at ht; cases ht
  have keep1 := keeps g1 u1 r1 hw1 k1
  have keep2 := keeps g2 u2 r2 hw2 k2
  obtain ⟨rfl, ⟨dA, hdA⟩, shA, resA⟩ := edit_two hne g1 g2 u2 ⟨n1, n1'⟩ r2 keep2 (by rw [hd1]) hw1 iA2
  obtain ⟨rfl, ⟨dB, hdB⟩, shB, resB⟩ := edit_two (Ne.symm hne) g2 g1 u1 ⟨n2, n2'⟩ r1 keep1 (by rw [hd2]) hw2 iB2
  refine ⟨rfl, rfl, ?_⟩
  have hent : ab.entities = ba.entities := by
    have hf : ∀ k, ((s.entities.set h1 P1).set h2 P2).get k = if k = h1 then some P1 else if k = h2 then some P2 else s.entities.get k := by
      intro k
      by_cases hk2 : k = h2
      · subst hk2
        rw [if_neg (Ne.symm hne), if_pos rfl]
        exact Arena.get_set_self (by rw [Arena.get_set_ne (Ne.symm hne)]; exact g2) _
      · rw [Arena.get_set_ne hk2]
        by_cases hk1 : k = h1
        · subst hk1
          rw [if_pos rfl]
          exact Arena.get_set_self g1 _
        · rw [Arena.get_set_ne hk1, if_neg hk1, if_neg hk2]
    have hf' : ∀ k, ((s.entities.set h1 P1).set h2 P2).get k = if k = h2 then some P2 else if k = h1 then some P1 else s.entities.get k := by
      intro k
      rw [hf]
      by_cases hk1 : k = h1
      · rw [if_pos hk1, if_neg (by rw [hk1]; exact hne), if_pos hk1]
      · rw [if_neg hk1, if_neg hk1]
    generalize (s.entities.set h1 P1).set h2 P2 = f at hf hf'
    obtain ⟨W, hW⟩ : ∃ W : Handle → Prop, ∀ k, W k ↔ (w1 = true ∧ Cluster f h1 k) ∨ (w2 = true ∧ Cluster f h2 k) := ⟨_, fun _ => Iff.rfl⟩
    have RA := resA f hf W hW
    have RB := resB f hf' W (fun k => (hW k).trans Or.comm)
    refine Arena.ext_get (shA.trans shB.symm) (fun k => ?_)
    cases hx : f.get k with
    | none =>
      have hs : s.entities.get k = none := by
        rw [hf] at hx
        split at hx
        · cases hx
        · split at hx
          · cases hx
          · exact hx
      have ga := shA.isSome k
      have gb := shB.isSome k
      rw [hs] at ga gb
      have ga' : ab.entities.get k = none := Option.not_isSome_iff_eq_none.mp (by rw [ga]; simp)
      have gb' : ba.entities.get k = none := Option.not_isSome_iff_eq_none.mp (by rw [gb]; simp)
      rw [ga', gb']
    | some e =>
      obtain ⟨z, hz, rz, a1, a2, a3⟩ := RA k e hx
      obtain ⟨z', hz', rz', b1, b2, b3⟩ := RB k e hx
      have hnd : e.neighbors.Nodup := by
        rw [hf] at hx
        split at hx
        · cases hx; rw [n1']; exact (hr.inv.nodup _ _ g1).2
        · split at hx
          · cases hx; rw [n2']; exact (hr.inv.nodup _ _ g2).2
          · exact (hr.inv.nodup _ _ hx).2
      rw [hz, hz']
      congr 1
      by_cases hWk : W k
      · exact rz.ext rz' (by rw [(a1 hWk).1, (b1 hWk).1]) (by rw [(a1 hWk).2, (b1 hWk).2])
      · refine rz.ext rz' (by rw [(a2 hWk).1, (b2 hWk).1]) ?_
        cases hi : Scalar.isInfinite e.totalMass with
        | false => rw [(a2 hWk).2.1 hi, (b2 hWk).2.1 hi]
        | true => exact sublist_ext hnd a3 b3 (fun t => by rw [(a2 hWk).2.2 hi t, (b2 hWk).2.2 hi t])
  rw [hdA, hdB, hd1, hd2, hent]

end

section
open XReal
variable {γ : Type} [ForceGenerator XReal γ]

/-- **C105.** In exact arithmetic edits of two different bodies give the same in either order, up to the debug messages. -/
theorem C105_partial {s a ab b ba : System XReal γ} (hr : Reachable s) {h1 h2 : Handle} (hne : h1 ≠ h2) {o1 o2 : IterOrder} {e1 e2 : Entity XReal} {x y x' y' : Out γ}
    (hA1 : s.exec o1 (.updateEntity h1 e1) = .ok (a, x)) (hA2 : a.exec o2 (.updateEntity h2 e2) = .ok (ab, y))
    (hB1 : s.exec o2 (.updateEntity h2 e2) = .ok (b, y')) (hB2 : b.exec o1 (.updateEntity h1 e1) = .ok (ba, x')) :
    x = x' ∧ y = y' ∧ ({ ab with debug := [] } : System XReal γ) = { ba with debug := [] } := by
  have key : ∀ {h : Handle} {o : IterOrder} {e : Entity XReal} {c : System XReal γ} {out : Out γ}, s.exec o (.updateEntity h e) = .ok (c, out) →
      ∀ p q, s.getEntity h = some p → c.getEntity h = some q → Scalar.eq p.ownMass q.ownMass = true → Scalar.isInfinite q.lastTotalMass = Scalar.isInfinite p.lastTotalMass := by
    intro h o e c out hh p q hp hq hm
    have hr' : Reachable c := by
      obtain ⟨tr, ht⟩ := hr
      exact ⟨_, .snoc _ _ _ ht hh⟩
    have hm' : p.ownMass = q.ownMass := by
      revert hm
      cases p.ownMass <;> cases q.ownMass <;> simp [Scalar.eq, XReal.eq]
    have hl : linked c q = linked s p := by
      simp only [System.exec] at hh
      obtain ⟨⟨c, z⟩, ih, r⟩ := Res.bind_eq_ok.mp hh; cases r; clear hh
      simp only at *
      obtain ⟨P, hP, rfl⟩ := getEntity_iff.mp hp
      obtain ⟨Q, hQ, rfl⟩ := getEntity_iff.mp hq
      rcases edit_first ih with ⟨-, rfl, -⟩ | ⟨-, E, F, R, w, gE, uF, rR, -, -, hw, d, hd⟩
      · rw [hP] at hQ; cases hQ; rfl
      · rw [hP] at gE; cases gE
        have hrel := recalculateMass_massRel rR
        obtain ⟨-, -, hF⟩ := System.updateFrom_fields uF
        have := (hw.evolves.rel h R Q (Arena.get_set_self hP _) hQ).colliders
        have hc : Q.colliders = P.colliders := by rw [this, hrel.colliders, hF]
        have hcs : c.colliders = s.colliders := by rw [hd]
        rw [linked_eq, linked_eq, hc, hcs]
    have t1 := C13_total_mass hr hp
    have t2 := C13_total_mass hr' hq
    rw [hl, ← hm'] at t2
    by_cases hi : ∃ c ∈ linked s p, c.mass = posInf
    · rw [t1.1 hi, t2.1 hi]
    · push Not at hi
      rw [t1.2 hi, t2.2 hi]
  exact C105_any_partial hr hne hA1 hA2 hB1 hB2 (key hA1) (key hB1)

open Scene Demo in
/-- `C105_partial` speaks about something: two balls lie asleep at each other, and each can be edited in any way, in either order. -/
example [Step.SafeGenerator XReal γ] (e1 e2 : Entity XReal) (o1 o2 : IterOrder) : ∃ (s a ab b ba : System XReal γ) (x y x' y' : Out γ) (p q : Entity XReal), Reachable s ∧ s.getEntity h0 = some p ∧ s.getEntity h1 = some q ∧
    p.asleep = true ∧ q.asleep = true ∧ s.exec o1 (.updateEntity h0 e1) = .ok (a, x) ∧ a.exec o2 (.updateEntity h1 e2) = .ok (ab, y) ∧
    s.exec o2 (.updateEntity h1 e2) = .ok (b, y') ∧ b.exec o1 (.updateEntity h0 e1) = .ok (ba, x') := by
  obtain ⟨s, hs, he, hc, hg, -⟩ := rest (γ := γ) .id (k := 1) (by norm_num) (u := ⟨1, 0, 0⟩) (by ext <;> norm_num) (E := 1)
    (by norm_num [Vec3.dot_def]) (by norm_num [Vec3.dot_def]) 3
  obtain ⟨tr, ht⟩ := start_reachable (γ := γ) (m := 1) (k := 1) (by norm_num) (by norm_num) .o ⟨2, 0, 0⟩ ⟨3, 0, 0⟩ .o 0 1 (3 + 2) (fin 1) (fin 0)
  have hr : Reachable s := ⟨_, .snoc .id (.step (fin 1)) .unit ht (by simp only [System.exec, hs, Res.ok_bind])⟩
  have g0 := two_get0 (dot (fin 1) (⟨1, 0, 0⟩ + (⟨1, 0, 0⟩ : Vec3 ℝ).scale (1 / 2)) ⟨1, 0, 0⟩ [h0] ⟨true, fin 0, true, [h1]⟩)
    (dot (fin 1) (⟨3, 0, 0⟩ + (⟨1, 0, 0⟩ : Vec3 ℝ).scale (1 / 2)) ⟨1, 0, 0⟩ [h1] ⟨true, fin 0, true, [h0]⟩)
  have g1 := two_get1 (dot (fin 1) (⟨1, 0, 0⟩ + (⟨1, 0, 0⟩ : Vec3 ℝ).scale (1 / 2)) ⟨1, 0, 0⟩ [h0] ⟨true, fin 0, true, [h1]⟩)
    (dot (fin 1) (⟨3, 0, 0⟩ + (⟨1, 0, 0⟩ : Vec3 ℝ).scale (1 / 2)) ⟨1, 0, 0⟩ [h1] ⟨true, fin 0, true, [h0]⟩)
  rw [← he] at g0 g1
  have only : ∀ {τ : Type} {u v z : τ} {k : Handle}, (Scene.two u v).get k = some z → k = h0 ∨ k = h1 := by
    intro τ u v z k hk
    have := Arena.mem_handles.mpr ⟨z, hk⟩
    simpa using this
  have tidy : System.Tidy (fun c => ¬ c.IsMesh) s := by
    refine ⟨hr.inv, ?_, ?_⟩
    · intro k E n hE hn
      rcases only (he ▸ hE) with rfl | rfl
      · rw [g0] at hE; cases hE
        simp only [dot, List.mem_singleton] at hn
        exact ⟨_, hn ▸ g1⟩
      · rw [g1] at hE; cases hE
        simp only [dot, List.mem_singleton] at hn
        exact ⟨_, hn ▸ g0⟩
    · intro k c hk
      rw [hc] at hk
      rcases only hk with rfl | rfl
      · rw [two_get0] at hk; cases hk; simp [sphere, Collider.setEntity, Collider.IsMesh]
      · rw [two_get1] at hk; cases hk; simp [sphere, Collider.setEntity, Collider.IsMesh]
  obtain ⟨a, x, hA1, ta⟩ := System.exec_total System.kept_noMesh o1 (.updateEntity h0 e1) tidy trivial
  obtain ⟨ab, y, hA2, -⟩ := System.exec_total System.kept_noMesh o2 (.updateEntity h1 e2) ta trivial
  obtain ⟨b, y', hB1, tb⟩ := System.exec_total System.kept_noMesh o2 (.updateEntity h1 e2) tidy trivial
  obtain ⟨ba, x', hB2, -⟩ := System.exec_total System.kept_noMesh o1 (.updateEntity h0 e1) tb trivial
  exact ⟨s, a, ab, b, ba, x, y, x', y', _, _, hr, getEntity_iff.mpr ⟨_, g0, rfl⟩, getEntity_iff.mpr ⟨_, g1, rfl⟩, rfl, rfl, hA1, hA2, hB1, hB2⟩

end

section
variable {α : Type} [Scalar α] {γ : Type} [ForceGenerator α γ]

/-- **C105 (the next step).** After either order a step of a visible length does the same. -/
theorem C105_step_partial {s a ab b ba : System α γ} (hr : Reachable s) {h1 h2 : Handle} (hne : h1 ≠ h2) {o1 o2 : IterOrder} {e1 e2 : Entity α} {x y x' y' : Out γ}
    (hA1 : s.exec o1 (.updateEntity h1 e1) = .ok (a, x)) (hA2 : a.exec o2 (.updateEntity h2 e2) = .ok (ab, y))
    (hB1 : s.exec o2 (.updateEntity h2 e2) = .ok (b, y')) (hB2 : b.exec o1 (.updateEntity h1 e1) = .ok (ba, x'))
    (k1 : ∀ p q, s.getEntity h1 = some p → a.getEntity h1 = some q → Scalar.eq p.ownMass q.ownMass = true →
      Scalar.isInfinite q.lastTotalMass = Scalar.isInfinite p.lastTotalMass)
    (k2 : ∀ p q, s.getEntity h2 = some p → b.getEntity h2 = some q → Scalar.eq p.ownMass q.ownMass = true →
      Scalar.isInfinite q.lastTotalMass = Scalar.isInfinite p.lastTotalMass)
    (ord : IterOrder) {dt : α} (hdt : Scalar.lt (Scalar.abs dt) EPSILON = false) : ab.step ord dt = ba.step ord dt := by
  obtain ⟨-, -, h⟩ := C105_any_partial hr hne hA1 hA2 hB1 hB2 k1 k2
  have key : ∀ c : System α γ, c.step ord dt = ({ c with debug := [] } : System α γ).step ord dt := by
    intro c
    unfold System.step
    rw [if_neg (by rw [hdt]; simp), if_neg (by rw [hdt]; simp)]
  rw [key ab, key ba, h]

end

section
open F32 Demo
variable [Libm]

/-- Two smooth balls that do not bounce, of 1 kg each; one runs into the other, and after the step both sleep. -/
def clump : List (Op F32 (GravityGenerator F32)) :=
  [.configure 10 (num 100) (num 0) [] [],
   .addEntity (thing (num 1) (vec 0 0 0) (vec 2 0 0)), .addCollider (ball (vec 0 0 0) (num 1) (num 0) (num 0)), .linkCollider h0 (some h0),
   .addEntity (thing (num 1) (vec 3 0 0) (vec 0 0 0)), .addCollider (ball (vec 0 0 0) (num 1) (num 0) (num 0)), .linkCollider h1 (some h1), .step (num 1)]

/-- Put the first ball elsewhere. -/
def shove : Op F32 (GravityGenerator F32) := .updateEntity h0 (thing (num 1) (vec (-9) 0 0) (vec 0 0 0))
/-- Make the collider of the second ball infinitely heavy. -/
def anchor : Op F32 (GravityGenerator F32) := .updateCollider h1 (ball (vec 0 0 0) (num 1) Scalar.inf (num 0))
/-- Put the second ball elsewhere. -/
def shift : Op F32 (GravityGenerator F32) := .updateEntity h1 (thing (num 1) (vec 9 0 0) (vec 0 0 0))

/-- The calls `p` and then `q`. -/
def inTurn (s : System F32 (GravityGenerator F32)) (p q : Op F32 (GravityGenerator F32)) (f : System F32 (GravityGenerator F32) → System F32 (GravityGenerator F32) → Bool) : Bool :=
  (s.exec .id p).test fun a => (a.1.exec .id q).test fun b => f a.1 b.1

/-- The second ball sleeps. -/
def naps (s : System F32 (GravityGenerator F32)) : Option Bool := (s.getEntity h1).map (·.asleep)

theorem inTurn_iff {s : System F32 (GravityGenerator F32)} {p q : Op F32 (GravityGenerator F32)} {f : System F32 (GravityGenerator F32) → System F32 (GravityGenerator F32) → Bool}
    (h : inTurn s p q f = true) : ∃ a x b y, s.exec .id p = .ok (a, x) ∧ a.exec .id q = .ok (b, y) ∧ f a b = true := by
  unfold inTurn at h
  obtain ⟨⟨a, x⟩, ha, h⟩ := Res.of_test h
  obtain ⟨⟨b, y⟩, hb, h⟩ := Res.of_test h
  exact ⟨a, x, b, y, ha, hb, h⟩

/-- **C105 is false** when an edit of a collider is among them, in binary32: two balls lie asleep at each other.  To move the first one wakes the second as well.  To make
the collider of the second infinitely heavy wakes nobody, and then to move the first does not wake the second.  So whether the second sleeps in the end depends on the order. -/
theorem C105_false : ∃ (s a ab b ba : System F32 (GravityGenerator F32)) (x y x' y' : Out (GravityGenerator F32)) (e : Entity F32) (c : Collider F32) (p q : Entity F32), Reachable s ∧
    s.exec .id (.updateEntity h0 e) = .ok (a, x) ∧ a.exec .id (.updateCollider h1 c) = .ok (ab, y) ∧
    s.exec .id (.updateCollider h1 c) = .ok (b, y') ∧ b.exec .id (.updateEntity h0 e) = .ok (ba, x') ∧
    ab.getEntity h1 = some p ∧ ba.getEntity h1 = some q ∧ p.asleep = false ∧ q.asleep = true := by
  have h : ((play (plain clump) (System.new : System F32 (GravityGenerator F32))).test fun r =>
      inTurn r.1 shove anchor (fun _ s => naps s == some false) && inTurn r.1 anchor shove (fun _ s => naps s == some true)) = true := by kernel_refl
  obtain ⟨⟨s, outs⟩, hplay, h⟩ := Res.of_test h
  simp only [Bool.and_eq_true] at h
  obtain ⟨a, x, ab, y, e1, e2, e3⟩ := inTurn_iff h.1
  obtain ⟨b, y', ba, x', e4, e5, e6⟩ := inTurn_iff h.2
  simp only [beq_iff_eq, naps, Option.map_eq_some_iff] at e3 e6
  obtain ⟨p, hp, hp'⟩ := e3
  obtain ⟨q, hq, hq'⟩ := e6
  exact ⟨s, a, ab, b, ba, x, y, x', y', _, _, p, q, play_reachable hplay, e1, e2, e4, e5, hp, hq, hp', hq'⟩

/-- `C105_any_partial` and `C105_step_partial` speak about something: both balls can be moved, in either order, when both sleep, and each move wakes the second. -/
example : ∃ (s a ab b ba : System F32 (GravityGenerator F32)) (x y x' y' : Out (GravityGenerator F32)) (e e' : Entity F32), Reachable s ∧ naps s = some true ∧
    s.exec .id (.updateEntity h0 e) = .ok (a, x) ∧ a.exec .id (.updateEntity h1 e') = .ok (ab, y) ∧
    s.exec .id (.updateEntity h1 e') = .ok (b, y') ∧ b.exec .id (.updateEntity h0 e) = .ok (ba, x') ∧ naps a = some false ∧ naps b = some false ∧
    (∀ p q, s.getEntity h0 = some p → a.getEntity h0 = some q → Scalar.isInfinite q.lastTotalMass = Scalar.isInfinite p.lastTotalMass) ∧
    (∀ p q, s.getEntity h1 = some p → b.getEntity h1 = some q → Scalar.isInfinite q.lastTotalMass = Scalar.isInfinite p.lastTotalMass) := by
  have h : ((play (plain clump) (System.new : System F32 (GravityGenerator F32))).test fun r => naps r.1 == some true &&
      (inTurn r.1 shove shift (fun s _ => naps s == some false && ((s.getEntity h0).map fun q => Scalar.isInfinite q.lastTotalMass) == (r.1.getEntity h0).map fun q => Scalar.isInfinite q.lastTotalMass) &&
      inTurn r.1 shift shove (fun s _ => naps s == some false && ((s.getEntity h1).map fun q => Scalar.isInfinite q.lastTotalMass) == (r.1.getEntity h1).map fun q => Scalar.isInfinite q.lastTotalMass))) = true := by
    kernel_refl
  obtain ⟨⟨s, outs⟩, hplay, h⟩ := Res.of_test h
  simp only [Bool.and_eq_true] at h
  obtain ⟨a, x, ab, y, e1, e2, e3⟩ := inTurn_iff h.2.1
  obtain ⟨b, y', ba, x', e4, e5, e6⟩ := inTurn_iff h.2.2
  simp only [Bool.and_eq_true, beq_iff_eq] at e3 e6 h
  refine ⟨s, a, ab, b, ba, x, y, x', y', _, _, play_reachable hplay, h.1, e1, e2, e4, e5, e3.1, e6.1, fun p q hp hq => ?_, fun p q hp hq => ?_⟩
  · have := e3.2; rw [hp, hq] at this; simpa using this
  · have := e6.2; rw [hp, hq] at this; simpa using this

end
end Fluffy.Props
