import Verif.Props.Commute
import Verif.Props.Jam
/-
C105, panics: whether two edits of different bodies go well does not depend on their order.
-/
set_option linter.unusedSectionVars false
set_option linter.unusedSimpArgs false
namespace Fluffy.Props
open Fluffy InternalEntity

section
variable {α : Type} [Scalar α] {a b s : Arena (InternalEntity α)}

theorem cluster_trans {h k t : Handle} (h1 : Cluster a h k) (h2 : Cluster a k t) : Cluster a h t := by
  induction h2 with
  | start => exact h1
  | link _ q2 q3 q4 q5 ih => exact .link ih q2 q3 q4 q5

theorem broken_trans {h k : Handle} (h1 : Cluster a h k) (h2 : Broken a k) : Broken a h := by
  obtain ⟨t, e, n, hc, r⟩ := h2
  exact ⟨t, e, n, cluster_trans h1 hc, r⟩

/-- The way to a removed neighbour is still there, if whoever is on it keeps it. -/
theorem broken_lift {h : Handle}
    (H : ∀ t x, Broken a t → a.get t = some x → ∃ y, b.get t = some y ∧ (∀ n ∈ x.neighbors, a.get n = none ∨ Broken a n → n ∈ y.neighbors) ∧
      (Scalar.isInfinite x.totalMass = false → Scalar.isInfinite y.totalMass = false))
    (N : ∀ n, a.get n = none → b.get n = none) (hb : Broken a h) : Broken b h := by
  have key : ∀ t, Cluster a h t → Broken a t → Cluster b h t := by
    intro t hc
    induction hc with
    | start => exact fun _ => .start
    | @link t n e m q1 q2 q3 q4 q5 ih =>
      intro hn
      have ht : Broken a t := broken_trans (.link .start q2 q3 q4 q5) hn
      obtain ⟨y, hy, y1, -⟩ := H t e ht q2
      obtain ⟨z, hz, -, z2⟩ := H n m hn q4
      exact .link (ih ht) hy (y1 n q3 (Or.inr hn)) hz (z2 q5)
  obtain ⟨t, e, n, hc, he, hm, hg⟩ := hb
  have ht : Broken a t := ⟨t, e, n, .start, he, hm, hg⟩
  obtain ⟨y, hy, y1, -⟩ := H t e ht he
  exact ⟨t, y, n, key t hc ht, hy, y1 n hm (Or.inl hg), N n hg⟩

theorem cluster_unset {h : Handle} {E P : InternalEntity α} (hE : s.get h = some E) (hn : P.neighbors = E.neighbors) {t : Handle} (hc : Cluster (s.set h P) h t) : Cluster s h t := by
  induction hc with
  | start => exact .start
  | @link t n e m _ q2 q3 q4 q5 ih =>
    by_cases hnh : n = h
    · subst hnh; exact .start
    · rw [Arena.get_set_ne hnh] at q4
      by_cases hth : t = h
      · subst hth
        rw [Arena.get_set_self hE] at q2; cases q2
        exact .link ih hE (by rw [← hn]; exact q3) q4 q5
      · rw [Arena.get_set_ne hth] at q2
        exact .link ih q2 q3 q4 q5

theorem cluster_live {h t : Handle} (hc : Cluster s h t) : t = h ∨ ∃ e, s.get t = some e := by
  cases hc with
  | start => exact Or.inl rfl
  | link _ _ _ q4 _ => exact Or.inr ⟨_, q4⟩

/-- An edit of one body that goes well neither opens nor closes the way from another one to a removed neighbour. -/
theorem broken_edit {h1 h2 : Handle} (hne : h2 ≠ h1) {o : IterOrder} {w : Bool} {E P : InternalEntity α} (hE : s.get h1 = some E) (hn : P.neighbors = E.neighbors)
    (hw : WakesIf w o h1 (s.set h1 P) a) (keep : w = false → Scalar.isInfinite P.totalMass = Scalar.isInfinite E.totalMass) (hok : w = true → ¬ Broken s h1) :
    Broken a h2 ↔ Broken s h2 := by
  have sh : Arena.SameShape a s := hw.evolves.shape.trans (Arena.sameShape_set _ _ _)
  have none1 : ∀ n, a.get n = none → s.get n = none := by
    intro n h
    have := sh.isSome n
    rw [h] at this
    exact Option.not_isSome_iff_eq_none.mp (by rw [← this]; simp)
  have none2 : ∀ n, s.get n = none → a.get n = none := by
    intro n h
    have := sh.isSome n
    rw [h] at this
    exact Option.not_isSome_iff_eq_none.mp (by rw [this]; simp)
  cases w with
  | false =>
    have keep := keep rfl
    have ha : a = s.set h1 P := by
      rcases hw with ⟨-, h⟩ | ⟨h, -⟩
      · exact h
      · cases h
    constructor
    · refine broken_lift (fun t x _ hx => ?_) none1
      rw [ha] at hx
      by_cases ht : t = h1
      · subst ht
        rw [Arena.get_set_self hE] at hx; cases hx
        exact ⟨E, hE, fun n h _ => hn ▸ h, fun h => keep ▸ h⟩
      · rw [Arena.get_set_ne ht] at hx
        exact ⟨x, hx, fun n h _ => h, id⟩
    · refine broken_lift (fun t x _ hx => ?_) none2
      rw [ha]
      by_cases ht : t = h1
      · subst ht
        rw [hE] at hx; cases hx
        exact ⟨P, Arena.get_set_self hE _, fun n h _ => hn ▸ h, fun h => keep ▸ h⟩
      · exact ⟨x, by rw [Arena.get_set_ne ht]; exact hx, fun n h _ => h, id⟩
  | true =>
    have hok := hok rfl
    obtain ⟨C, hC⟩ : ∃ C : Handle → Prop, ∀ k, C k ↔ true = true ∧ Cluster (s.set h1 P) h1 k := ⟨_, fun _ => Iff.rfl⟩
    have S := fun {k x y} (hx : (s.set h1 P).get k = some x) (hy : a.get k = some y) => hw.spec hC hx hy
    have hout : ∀ t, Broken s t → ¬ C t := fun t ht hc => hok (broken_trans (cluster_unset hE hn ((hC t).mp hc).2) ht)
    constructor
    · refine broken_lift (fun t y ht hy => ?_) none1
      have hth : t ≠ h1 := by
        rintro rfl
        have h0 : y.neighbors = [] := ((S (Arena.get_set_self hE _) hy).1 ((hC t).mpr ⟨rfl, .start⟩)).2
        have only : ∀ u, Cluster a t u → u = t := by
          intro u hu
          induction hu with
          | start => rfl
          | link _ q2 q3 _ _ ih =>
            subst ih
            rw [hy] at q2; cases q2
            rw [h0] at q3; cases q3
        obtain ⟨u, e, n, hc, he, hm, -⟩ := ht
        rw [only u hc, hy] at he; cases he
        rw [h0] at hm; cases hm
      have := sh.isSome t
      rw [hy] at this
      obtain ⟨x, hx⟩ := Option.isSome_iff_exists.mp this.symm
      have hx' : (s.set h1 P).get t = some x := by rw [Arena.get_set_ne hth]; exact hx
      refine ⟨x, hx, fun n h _ => (S hx' hy).2.2.subset h, fun h => ?_⟩
      rw [← (hw.evolves.rel t x y hx' hy).totalMass]; exact h
    · refine broken_lift (fun t x ht hx => ?_) none2
      have hth : t ≠ h1 := by rintro rfl; exact hok ht
      have hx' : (s.set h1 P).get t = some x := by rw [Arena.get_set_ne hth]; exact hx
      obtain ⟨y, hy, hrel⟩ := hw.evolves.get hx'
      refine ⟨y, hy, fun n hm h => ?_, fun h => by rw [hrel.totalMass]; exact h⟩
      have hnC : ¬ C n := by
        rcases h with h | h
        · intro hc
          rcases cluster_live (cluster_unset hE hn ((hC n).mp hc).2) with rfl | ⟨e, he⟩
          · rw [hE] at h; cases h
          · rw [h] at he; cases he
        · exact hout n h
      obtain ⟨-, q1, q2⟩ := (S hx' hy).2.1 (hout t ht)
      cases hi : Scalar.isInfinite x.totalMass with
      | false => rw [q1 hi]; exact hm
      | true => exact (q2 hi n).mpr ⟨hm, fun c => hnC c.1⟩

/-- Whether an edit counts as a change does not depend on sleep and neighbours. -/
theorem updateFrom_awake {e e' F : InternalEntity α} {x : Entity α} (h : WakeRel e e') (hu : e.updateFrom x = some (F, true)) : ∃ G, e'.updateFrom x = some (G, true) := by
  obtain ⟨h1, h2, -⟩ := System.updateFrom_fields hu
  have hc : e'.changed x = e.changed x := by rw [h]; rfl
  unfold InternalEntity.updateFrom
  rw [h1, hc, ← h2]
  exact ⟨_, rfl⟩

theorem wakeRel_symm {e e' : InternalEntity α} (h : WakeRel e e') : WakeRel e' e := by
  unfold WakeRel at h ⊢
  rw [h]
end

section
variable {α : Type} [Scalar α] {γ : Type} [ForceGenerator α γ]

theorem reached_after {s s' : System α γ} {ord : IterOrder} {op : Op α γ} {out : Out γ} (hr : Reachable s) (hh : s.exec ord op = .ok (s', out)) : Reachable s' := by
  obtain ⟨tr, h⟩ := hr
  exact ⟨_, .snoc ord op out h hh⟩

/-- **C105, panics (any arithmetic, e.g. `f32`).** If edits of two different bodies go well in one order, they go well in the other, unless one of them makes the total mass of its body
infinite or finite without counting as a change. -/
theorem C105_goes_any_partial {s a ab : System α γ} (hr : Reachable s) {h1 h2 : Handle} (hne : h1 ≠ h2) {o1 o2 : IterOrder} {e1 e2 : Entity α} {x y : Out γ}
    (hA1 : s.exec o1 (.updateEntity h1 e1) = .ok (a, x)) (hA2 : a.exec o2 (.updateEntity h2 e2) = .ok (ab, y))
    (k1 : ∀ p q, s.getEntity h1 = some p → a.getEntity h1 = some q → Scalar.eq p.ownMass q.ownMass = true →
      Scalar.isInfinite q.lastTotalMass = Scalar.isInfinite p.lastTotalMass)
    (k2 : ∀ b z p q, s.exec o2 (.updateEntity h2 e2) = .ok (b, z) → s.getEntity h2 = some p → b.getEntity h2 = some q → Scalar.eq p.ownMass q.ownMass = true →
      Scalar.isInfinite q.lastTotalMass = Scalar.isInfinite p.lastTotalMass) :
    ∃ b y' ba x', s.exec o2 (.updateEntity h2 e2) = .ok (b, y') ∧ b.exec o1 (.updateEntity h1 e1) = .ok (ba, x') := by
  have hra := reached_after hr hA1
  simp only [System.exec] at hA1 hA2
  obtain ⟨⟨a, x⟩, iA1, q⟩ := Res.bind_eq_ok.mp hA1; cases q; clear hA1
  obtain ⟨⟨ab, y⟩, iA2, q⟩ := Res.bind_eq_ok.mp hA2; cases q; clear hA2
  simp only at *
  have keeps : ∀ {h : Handle} {o : IterOrder} {e : Entity α} {E F P : InternalEntity α} {w : Bool} {c : System α γ},
      s.entities.get h = some E → E.updateFrom e = some (F, w) → recalculateMass (o.colliders h F.colliders) s.colliders F = .ok P →
      WakesIf w o h (s.entities.set h P) c.entities →
      (∀ p q, s.getEntity h = some p → c.getEntity h = some q → Scalar.eq p.ownMass q.ownMass = true → Scalar.isInfinite q.lastTotalMass = Scalar.isInfinite p.lastTotalMass) →
      w = false → Scalar.isInfinite P.totalMass = Scalar.isInfinite E.totalMass := by
    intro h o e E F P w c g u r hw k hf
    rcases hw with ⟨-, hc⟩ | ⟨ht, -⟩
    · obtain ⟨-, hch, hF⟩ := System.updateFrom_fields u
      have hrel := recalculateMass_massRel r
      refine k E.makePub P.makePub (getEntity_iff.mpr ⟨E, g, rfl⟩) (getEntity_iff.mpr ⟨P, by rw [hc]; exact Arena.get_set_self g _, rfl⟩) ?_
      show Scalar.eq E.ownMass P.ownMass = true
      rw [hrel.ownMass, hF]
      rw [hf] at hch
      have := hch.symm
      unfold changed at this
      simp only [Bool.or_eq_false_iff, Bool.not_eq_false'] at this
      exact this.1.1.1.1
    · rw [hf] at ht; cases ht
  have safe : ∀ {c d : System α γ} {o : IterOrder} {h : Handle} {e : Entity α} {z : Bool}, Reachable c → c.updateEntity o h e = .ok (d, z) →
      ¬ ((∃ E F, c.entities.get h = some E ∧ E.updateFrom e = some (F, true)) ∧ Broken c.entities h) := by
    intro c d o h e z hc hu hp
    obtain ⟨p, hp⟩ := (updateEntity_unless o hc.inv h e).2 hp
    rw [hu] at hp; cases hp
  rcases edit_first iA1 with ⟨rfl, rfl, no⟩ | ⟨rfl, E1, F1, P1, w1, g1, u1, r1, n1, n1', hw1, d1, hd1⟩
  · have sB := edit_shape iA2
    have hrb : Reachable ab := reached_after (ord := o2) (op := .updateEntity h2 e2) (out := .ok y) hr (by simp only [System.exec, iA2]; rfl)
    obtain ⟨⟨ba, x'⟩, iB2⟩ := (updateEntity_unless o1 hrb.inv h1 e1).1 (by
      rintro ⟨⟨E, F, g, u⟩, -⟩
      have := sB.isSome h1
      rw [g] at this
      obtain ⟨E', g'⟩ := Option.isSome_iff_exists.mp this.symm
      have h := (System.updateFrom_fields u).1
      rw [no E' g'] at h; cases h)
    exact ⟨ab, .ok y, ba, .ok x', by simp only [System.exec, iA2]; rfl, by simp only [System.exec, iB2]; rfl⟩
  have hok1 : w1 = true → ¬ Broken s.entities h1 := fun h hb => safe hr iA1 ⟨⟨E1, F1, g1, h ▸ u1⟩, hb⟩
  have be := broken_edit (Ne.symm hne) g1 n1' hw1 (keeps g1 u1 r1 hw1 k1) hok1
  obtain ⟨⟨b, y'⟩, iB1⟩ := (updateEntity_unless o2 hr.inv h2 e2).1 (by
    rintro ⟨⟨E2, F2, g2, u2⟩, hb⟩
    obtain ⟨E2', g2', hrel⟩ := hw1.evolves.get (h := h2) (x := E2) (by rw [Arena.get_set_ne (Ne.symm hne)]; exact g2)
    obtain ⟨G, hG⟩ := updateFrom_awake hrel u2
    exact safe hra iA2 ⟨⟨E2', G, g2', hG⟩, be.mpr hb⟩)
  have hB1 : s.exec o2 (.updateEntity h2 e2) = .ok (b, .ok y') := by simp only [System.exec, iB1]; rfl
  have hrb := reached_after hr hB1
  rcases edit_first iB1 with ⟨rfl, rfl, no⟩ | ⟨rfl, E2, F2, P2, w2, g2, u2, r2, n2, n2', hw2, d2, hd2⟩
  · exact ⟨_, _, a, _, hB1, by simp only [System.exec, iA1]; rfl⟩
  have hok2 : w2 = true → ¬ Broken s.entities h2 := fun h hb => safe hr iB1 ⟨⟨E2, F2, g2, h ▸ u2⟩, hb⟩
  have be2 := broken_edit hne g2 n2' hw2 (keeps g2 u2 r2 hw2 (fun p q hp hq => k2 b _ p q hB1 hp hq)) hok2
  obtain ⟨⟨ba, x'⟩, iB2⟩ := (updateEntity_unless o1 hrb.inv h1 e1).1 (by
    rintro ⟨⟨E, F, g, u⟩, hb⟩
    obtain ⟨E', g', hrel⟩ := hw2.evolves.get (h := h1) (x := E1) (by rw [Arena.get_set_ne hne]; exact g1)
    rw [g'] at g; cases g
    obtain ⟨G, hG⟩ := updateFrom_awake (wakeRel_symm hrel) u
    exact safe hr iA1 ⟨⟨E1, G, g1, hG⟩, be2.mp hb⟩)
  exact ⟨b, _, ba, .ok x', hB1, by simp only [System.exec, iB2]; rfl⟩
end

section
open XReal
variable {γ : Type} [ForceGenerator XReal γ]

/-- An edit that keeps the own mass keeps the total mass infinite or finite, in exact arithmetic. -/
theorem edit_infinite {s c : System XReal γ} (hr : Reachable s) {h : Handle} {o : IterOrder} {e : Entity XReal} {out : Out γ} (hh : s.exec o (.updateEntity h e) = .ok (c, out))
    {p q : Entity XReal} (hp : s.getEntity h = some p) (hq : c.getEntity h = some q) (hm : Scalar.eq p.ownMass q.ownMass = true) :
    Scalar.isInfinite q.lastTotalMass = Scalar.isInfinite p.lastTotalMass := by
  have hr' := reached_after hr hh
  have hm' : p.ownMass = q.ownMass := by
    revert hm
    cases p.ownMass <;> cases q.ownMass <;> simp [Scalar.eq, XReal.eq]
  have hl : linked c q = linked s p := by
    simp only [System.exec] at hh
    obtain ⟨⟨c, z⟩, ih, r⟩ := Res.bind_eq_ok.mp hh; cases r; clear hh
    simp only at *
    obtain ⟨P, hP, rfl⟩ := getEntity_iff.mp hp
    obtain ⟨Q, hQ, rfl⟩ := getEntity_iff.mp hq
    rcases edit_first ih with ⟨-, rfl, -⟩ | ⟨-, E, F, R, w, gE, uF, rR, -, -, hw, d, hd⟩
    · rw [hP] at hQ; cases hQ; rfl
    · rw [hP] at gE; cases gE
      have hrel := recalculateMass_massRel rR
      obtain ⟨-, -, hF⟩ := System.updateFrom_fields uF
      have := (hw.evolves.rel h R Q (Arena.get_set_self hP _) hQ).colliders
      have hc : Q.colliders = P.colliders := by rw [this, hrel.colliders, hF]
      have hcs : c.colliders = s.colliders := by rw [hd]
      rw [linked_eq, linked_eq, hc, hcs]
  have t1 := C13_total_mass hr hp
  have t2 := C13_total_mass hr' hq
  rw [hl, ← hm'] at t2
  by_cases hi : ∃ c ∈ linked s p, c.mass = posInf
  · rw [t1.1 hi, t2.1 hi]
  · push Not at hi
    rw [t1.2 hi, t2.2 hi]

/-- **C105, with panics (exact arithmetic).** If edits of two different bodies go well in one order, then they go well in the other order, and give the same, up to the debug messages.
That the hypotheses can be met is shown beside `C105_partial`. -/
theorem C105_order_partial {s a ab : System XReal γ} (hr : Reachable s) {h1 h2 : Handle} (hne : h1 ≠ h2) {o1 o2 : IterOrder} {e1 e2 : Entity XReal} {x y : Out γ}
    (hA1 : s.exec o1 (.updateEntity h1 e1) = .ok (a, x)) (hA2 : a.exec o2 (.updateEntity h2 e2) = .ok (ab, y)) :
    ∃ b ba, s.exec o2 (.updateEntity h2 e2) = .ok (b, y) ∧ b.exec o1 (.updateEntity h1 e1) = .ok (ba, x) ∧
      ({ ab with debug := [] } : System XReal γ) = { ba with debug := [] } := by
  obtain ⟨b, y', ba, x', hB1, hB2⟩ := C105_goes_any_partial hr hne hA1 hA2 (fun p q hp hq hm => edit_infinite hr hA1 hp hq hm) (fun b z p q hb hp hq hm => edit_infinite hr hb hp hq hm)
  obtain ⟨rfl, rfl, h⟩ := C105_partial hr hne hA1 hA2 hB1 hB2
  exact ⟨b, ba, hB1, hB2, h⟩
end
end Fluffy.Props
