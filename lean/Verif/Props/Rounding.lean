import Verif.Num.Kernel
import Verif.Props.Inertia
/-
C74: the mass of an entity and the order of its colliders, in binary32, where addition is commutative but not associative.
-/
set_option linter.unusedSectionVars false
set_option linter.unusedSimpArgs false
namespace Fluffy

theorem F32.add_comm' [Libm] (a b : F32) : a + b = b + a := by
  show F32.add a b = F32.add b a
  rcases a with _ | a | ⟨x, a, h⟩ <;> rcases b with _ | b | ⟨y, b, h'⟩ <;> simp only [F32.add]
  · by_cases e : a = b
    · rw [e]
    · rw [if_neg e, if_neg (Ne.symm e)]
  · rw [add_comm, Bool.and_comm]

theorem F32.eq_of {x y : ℚ} {a b : Bool} {h : Rep x a} {h' : Rep y b} (e : x = y) (e' : a = b) : F32.fin x a h = F32.fin y b h' := by
  subst e; subst e'; rfl

theorem F32.pack_rep [Libm] {x : ℚ} {a z : Bool} (h : Rep x a) (hz : x = 0 → z = a) : F32.pack x z = F32.fin x a h := by
  rw [F32.pack_small (by rw [h.1]; exact h.2.1)]
  refine F32.eq_of h.1 ?_
  unfold signBit
  rcases lt_trichotomy x 0 with hx | hx | hx
  · rw [if_pos hx, h.2.2.1 hx]
  · rw [if_neg (by rw [hx]; exact lt_irrefl _), if_neg (by rw [hx]; exact lt_irrefl _)]; exact hz hx
  · rw [if_neg (not_lt.mpr hx.le), if_pos hx, h.2.2.2 hx]

/-- Adding to `+0` only takes the sign off a `-0`. -/
theorem F32.zero_add' [Libm] {a : F32} (h : ∀ k, a ≠ F32.fin 0 true k) : zero + a = a := by
  obtain ⟨k, e⟩ := F32.zero_val
  rw [e]
  show F32.add _ a = a
  rcases a with _ | a | ⟨x, a, h'⟩ <;> simp only [F32.add]
  rw [zero_add]
  refine F32.pack_rep h' fun hx => ?_
  subst hx
  cases a
  · rfl
  · exact absurd rfl (h h')

/-- The order in which two numbers are added to zero. -/
theorem F32.sum_two [Libm] (a b : F32) : zero + a + b = zero + b + a := by
  have key : ∀ c : F32, (∃ k, c = F32.fin 0 true k) → zero + c = zero := by
    rintro c ⟨k, rfl⟩
    obtain ⟨k', e⟩ := F32.zero_val
    rw [e]
    show F32.pack (0 + 0) (false && true) = _
    rw [zero_add]
    exact F32.pack_rep k' fun _ => rfl
  have z0 : ∀ k, (zero : F32) ≠ F32.fin 0 true k := by
    intro k h
    obtain ⟨k', e⟩ := F32.zero_val
    rw [e] at h; cases h
  by_cases ha : ∃ k, a = F32.fin 0 true k
  · rw [key a ha]
    by_cases hb : ∃ k, b = F32.fin 0 true k
    · rw [key b hb, key a ha]
    · push Not at hb
      rw [F32.zero_add' hb]
      rcases b with _ | b | ⟨y, b, h'⟩
      · rfl
      · obtain ⟨k, rfl⟩ := ha; rfl
      · obtain ⟨k, rfl⟩ := ha
        show _ = F32.pack (y + 0) (b && true)
        rw [add_zero]
        refine (F32.pack_rep h' fun hy => ?_).symm
        simp
  · push Not at ha
    rw [F32.zero_add' ha]
    by_cases hb : ∃ k, b = F32.fin 0 true k
    · rw [key b hb, F32.zero_add' ha]
      rcases a with _ | a | ⟨x, a, h'⟩
      · rfl
      · obtain ⟨k, rfl⟩ := hb; rfl
      · obtain ⟨k, rfl⟩ := hb
        show F32.pack (x + 0) (a && true) = _
        rw [add_zero]
        refine (F32.pack_rep h' fun hy => ?_)
        simp
    · push Not at hb
      rw [F32.zero_add' hb, F32.add_comm']

namespace Props
open InternalEntity Step
variable {α : Type} [Scalar α] {γ : Type}

theorem vec_sum_two (h2 : ∀ a b : α, zero + a + b = zero + b + a) (u v : Vec3 α) : Vec3.zeros + u + v = Vec3.zeros + v + u := by
  cases u; cases v
  show Vec3.mk _ _ _ = Vec3.mk _ _ _
  congr 1 <;> exact h2 _ _

theorem mat_sum_two (h2 : ∀ a b : α, zero + a + b = zero + b + a) (u v : Mat3 α) : Mat3.zeros + u + v = Mat3.zeros + v + u := by
  cases u; cases v
  show Mat3.mk _ _ _ = Mat3.mk _ _ _
  congr 1 <;> exact vec_sum_two h2 _ _

/-- Two colliders can be visited in either order if addition to zero commutes. -/
theorem recalculate_two (h2 : ∀ a b : α, zero + a + b = zero + b + a) {a b : Handle} {cs : Arena (Collider α)} (e : InternalEntity α)
    (ha : ∃ c, cs.get a = some c) (hb : ∃ c, cs.get b = some c) : recalculateMass [a, b] cs e = recalculateMass [b, a] cs e := by
  obtain ⟨A, ha⟩ := ha
  obtain ⟨B, hb⟩ := hb
  unfold recalculateMass
  by_cases hA : Scalar.isInfinite A.mass = true <;> by_cases hB : Scalar.isInfinite B.mass = true <;>
    simp only [massLoop, momentLoop, ha, hb, unwrap, Res.ok_bind, hA, hB, if_true, if_false, pure, Except.pure, Bool.false_eq_true]
  all_goals first
    | rfl
    | (rw [vec_sum_two h2, h2, mat_sum_two h2]; done)
    | (simp [recenter]; done)

theorem perm_two {l l' : List Handle} (h : l.Perm l') (hl : l.length ≤ 2) : l = l' ∨ ∃ a b, l = [a, b] ∧ l' = [b, a] := by
  match l, hl with
  | [], _ => left; exact (List.nil_perm.mp h).symm
  | [a], _ => left; exact (List.perm_singleton.mp h.symm).symm
  | [a, b], _ =>
    have hlen := h.length_eq
    match l', hlen with
    | [c, d], _ =>
      have hc : c ∈ [a, b] := h.mem_iff.mpr (by simp)
      simp only [List.mem_cons, List.not_mem_nil, or_false] at hc
      rcases hc with rfl | rfl
      · left
        rw [List.perm_cons] at h
        rw [(List.perm_singleton.mp h.symm)]
      · right
        refine ⟨a, c, rfl, ?_⟩
        have := (List.Perm.swap a c []).trans h
        rw [List.perm_cons] at this
        rw [(List.perm_singleton.mp this.symm)]

theorem recalculate_small (h2 : ∀ a b : α, zero + a + b = zero + b + a) {order order' : List Handle} {cs : Arena (Collider α)} (e : InternalEntity α)
    (h : order.Perm order') (hs : order.length ≤ 2) (hl : ∀ h ∈ order, ∃ c, cs.get h = some c) :
    recalculateMass order cs e = recalculateMass order' cs e := by
  rcases perm_two h hs with rfl | ⟨a, b, rfl, rfl⟩
  · rfl
  · exact recalculate_two h2 e (hl a (by simp)) (hl b (by simp))

theorem length_hsRemove_le {l : List Handle} {h : Handle} : (hsRemove l h).length ≤ l.length := List.length_filter_le _ _

theorem live_in [ForceGenerator α γ] {s : System α γ} (inv : System.Inv s) {k : Handle} {E : InternalEntity α} (hE : s.entities.get k = some E) :
    ∀ c ∈ E.colliders, ∃ C, s.colliders.get c = some C := fun c hc => by
  obtain ⟨C, hC, -⟩ := (inv.links k E c hE).mp hc
  exact ⟨C, hC⟩

theorem live_put {cs : Arena (Collider α)} {h c : Handle} {C : Collider α} (hc : ∃ D, cs.get c = some D) : ∃ D, (cs.set h C).get c = some D := by
  obtain ⟨D, hD⟩ := hc
  rw [Arena.get_set]
  split
  · rename_i h; subst h; rw [hD]; exact ⟨_, rfl⟩
  · exact ⟨D, hD⟩

theorem refresh_small (h2 : ∀ a b : α, zero + a + b = zero + b + a) (ord ord' : IterOrder) (s : System α γ) (eh : Option Handle)
    (hs : ∀ k E, s.entities.get k = some E → E.colliders.length ≤ 2)
    (hl : ∀ k E, eh = some k → s.entities.get k = some E → ∀ c ∈ E.colliders, ∃ C, s.colliders.get c = some C) :
    s.refreshEntity ord eh = s.refreshEntity ord' eh := by
  unfold System.refreshEntity
  cases eh with
  | none => rfl
  | some k =>
    simp only
    cases hE : s.entities.get k with
    | none => rfl
    | some E =>
      simp only
      rw [recalculate_small h2 E ((ord.colliders_perm k _).trans (ord'.colliders_perm k _).symm) (by rw [(ord.colliders_perm k _).length_eq]; exact hs k E hE)
        (fun c hc => hl k E rfl hE c ((ord.colliders_perm k _).mem_iff.mp hc))]

theorem switch_small (h2 : ∀ a b : α, zero + a + b = zero + b + a) (ord ord' : IterOrder) (s : System α γ) (ch : Handle) (eh : Option Handle)
    (hs : ∀ k E, s.entities.get k = some E → E.colliders.length ≤ 2)
    (hl : ∀ k E, (eh ≠ some k) → s.entities.get k = some E → ∀ c ∈ E.colliders, ∃ C, s.colliders.get c = some C) :
    s.switchLink ord ch eh = s.switchLink ord' ch eh := by
  unfold System.switchLink
  cases hC : s.colliders.get ch with
  | none => rfl
  | some C =>
    simp only
    by_cases h : C.entity = eh
    · simp [h]
    · simp only [ne_eq, h, not_false_eq_true, if_true]
      unfold System.unlinkPrior
      cases hp : C.entity with
      | none => rfl
      | some k =>
        simp only
        cases hE : s.entities.get k with
        | none => rfl
        | some E =>
          simp only
          rw [recalculate_small h2 _ ((ord.colliders_perm k _).trans (ord'.colliders_perm k _).symm)
            (by rw [(ord.colliders_perm k _).length_eq]; exact length_hsRemove_le.trans (hs k E hE))
            (fun c hc => live_put (hl k E (by rw [← hp]; exact fun h' => h h'.symm) hE c (mem_hsRemove.mp ((ord.colliders_perm k _).mem_iff.mp hc)).1))]

/-- For every arithmetic in which two numbers can be added to zero in either order. -/
theorem small_order_free [ForceGenerator α γ] (h2 : ∀ a b : α, zero + a + b = zero + b + a) {s : System α γ} (hr : Reachable s) (ord ord' : IterOrder) {op : Op α γ}
    (hop : System.ColliderOp op) (hs : ∀ k E, s.entities.get k = some E → E.colliders.length ≤ 2)
    (hn : ∀ c k E, op = .linkCollider c (some k) → s.entities.get k = some E → (hsInsert E.colliders c).length ≤ 2) : s.exec ord op = s.exec ord' op := by
  have inv := hr.inv
  cases op with
  | addCollider c => rfl
  | removeCollider h => rfl
  | updateCollider h c =>
    simp only [System.exec]
    unfold System.updateCollider
    cases hC : s.colliders.get h with
    | none => rfl
    | some C =>
      simp only
      cases hu : C.updateFrom c with
      | wrongType => rfl
      | invalid =>
        simp only
        rw [refresh_small h2 ord ord' s _ hs (fun k E _ hE => live_in inv hE)]
      | updated D =>
        simp only
        rw [refresh_small h2 ord ord' { s with colliders := s.colliders.set h D } C.entity hs (fun k E _ hE x hx => live_put (live_in inv hE x hx))]
  | linkCollider c e =>
    simp only [System.exec]
    unfold System.linkCollider
    cases hc : s.colliders.contains c with
    | false => rfl
    | true =>
      simp only [Bool.not_true, Bool.false_eq_true, if_false]
      cases e with
      | none =>
        simp only
        rw [switch_small h2 ord ord' s c none hs (fun k E _ hE => live_in inv hE)]
      | some h =>
        simp only
        cases hE : s.entities.get h with
        | none => rfl
        | some E =>
          simp only
          have hlive : ∀ x ∈ hsInsert E.colliders c, ∃ C, s.colliders.get x = some C := by
            intro x hx
            rcases mem_hsInsert.mp hx with hx | rfl
            · exact live_in inv hE x hx
            · rw [Arena.contains] at hc
              exact Option.isSome_iff_exists.mp hc
          rw [recalculate_small h2 _ ((ord.colliders_perm h _).trans (ord'.colliders_perm h _).symm)
            (by rw [(ord.colliders_perm h _).length_eq]; exact hn c h E rfl hE) (fun x hx => hlive x ((ord.colliders_perm h _).mem_iff.mp hx))]
          congr 1
          cases hF : recalculateMass (ord'.colliders h (hsInsert E.colliders c)) s.colliders { E with colliders := hsInsert E.colliders c } with
          | error p => rfl
          | ok F =>
            have hfc := (recalculateMass_massRel hF).colliders
            simp only [Res.ok_bind]
            apply switch_small h2
            · intro k G hG
              rw [Arena.get_set] at hG
              split at hG
              · rename_i hk
                subst hk
                rw [hE] at hG
                simp only [Option.map_some, Option.some.injEq] at hG
                subst hG
                rw [hfc]
                exact hn c _ E rfl hE
              · exact hs k G hG
            · intro k G hk hG
              rw [Arena.get_set, if_neg (fun h' => hk (by rw [h']))] at hG
              exact live_in inv hG
  | addEntity e => cases hop
  | removeEntity h => cases hop
  | updateEntity h e => cases hop
  | addGenerator g => cases hop
  | removeGenerator h => cases hop
  | step dt => cases hop
  | configure n e t rs d => cases hop

open F32 Demo Scene

/-- **C74**, at most two colliders: in binary32, with all its roundings, a call on colliders has the same outcome in every iteration order of the hash sets,
if no entity carries more than two colliders, before and after the call. -/
theorem C74_two_partial [Libm] [ForceGenerator F32 γ] {s : System F32 γ} (hr : Reachable s) (ord ord' : IterOrder) {op : Op F32 γ}
    (hop : System.ColliderOp op) (hs : ∀ k E, s.entities.get k = some E → E.colliders.length ≤ 2)
    (hn : ∀ c k E, op = .linkCollider c (some k) → s.entities.get k = some E → (hsInsert E.colliders c).length ≤ 2) : s.exec ord op = s.exec ord' op :=
  small_order_free sum_two hr ord ord' hop hs hn

/-- A body of two balls of different masses, in its only collider call: the situation of `C74_two_partial`. -/
example [Libm] : ∃ (s : System F32 (GravityGenerator F32)) (op : Op F32 (GravityGenerator F32)), Reachable s ∧ System.ColliderOp op ∧
    (∀ k E, s.entities.get k = some E → E.colliders.length ≤ 2) ∧ (∃ k E, s.entities.get k = some E ∧ E.colliders.length = 1) ∧
    (∀ c k E, op = .linkCollider c (some k) → s.entities.get k = some E → (hsInsert E.colliders c).length = 2) ∧
    ∃ s', s.exec .id op = .ok (s', .ok true) := by
  have h : ((play (plain [.addEntity (thing (num 0) (vec 0 0 0) (vec 0 0 0)), .addCollider (ball (vec 1 0 0) (num 1) (num 3) (num 1)),
      .addCollider (ball (vec 0 2 0) (num 1) (num 1 10) (num 1)), .linkCollider h0 (some h0)]) (System.new : System F32 (GravityGenerator F32))).test fun r =>
      ((r.1.exec .id (.linkCollider h1 (some h0))).test fun q => match q.2 with | .ok b => b | _ => false) &&
      r.1.entities.items.all (fun | some (_, e) => e.colliders == [h0] | none => true) && (r.1.entities.get h0).isSome) = true := by kernel_refl
  obtain ⟨⟨s, outs⟩, h1', h⟩ := Res.of_test h
  simp only [Bool.and_eq_true] at h
  obtain ⟨⟨s', out⟩, h2', h3⟩ := Res.of_test h.1.1
  have hall : ∀ k E, s.entities.get k = some E → E.colliders = [h0] := by
    intro k E hE
    obtain ⟨g, hg⟩ : ∃ g, some (g, E) ∈ s.entities.items := by
      unfold Arena.get at hE
      split at hE
      · rename_i g v hi
        split at hE
        · cases hE; exact ⟨g, List.mem_of_getElem? (by simpa using hi)⟩
        · cases hE
      · cases hE
    have := List.all_eq_true.mp h.1.2 _ hg
    simpa using this
  refine ⟨s, .linkCollider h1 (some h0), play_reachable h1', trivial, fun k E hE => by rw [hall k E hE]; decide, ?_, ?_, ?_⟩
  · obtain ⟨E, hE⟩ := Option.isSome_iff_exists.mp h.2
    exact ⟨h0, E, hE, by rw [hall _ _ hE]; rfl⟩
  · intro c k E hop hE
    injection hop with hc hk
    subst hc
    rw [hall _ _ hE]; rfl
  · cases out with
    | ok b => cases b with
      | true => exact ⟨s', h2'⟩
      | false => cases h3
    | _ => cases h3

/-- The calls that make a body of a heavy ball and two light ones a long way off. -/
def unevenCalls [Libm] : List (Op F32 (GravityGenerator F32)) :=
  [.addEntity (thing (num 0) (vec 0 0 0) (vec 0 0 0)), .addCollider (ball (vec 0 0 0) (num 1) (num 16777216) (num 1)),
    .addCollider (ball (vec 16777216 0 0) (num 1) (num 1) (num 1)), .addCollider (ball (vec 16777216 0 0) (num 1) (num 1) (num 1)),
    .linkCollider h0 (some h0), .linkCollider h1 (some h0), .linkCollider h2 (some h0)]

/-- **C74** is false: made by the same calls, a body of masses `2 ^ 24`, `1` and `1` weighs `2 ^ 24` or `2 ^ 24 + 2` and is in different places, as the hasher
happens to order its colliders. -/
theorem C74_false [Libm] : ∃ (calls : List (Op F32 (GravityGenerator F32))) (o o' : IterOrder) (s s' : System F32 (GravityGenerator F32))
    (outs outs' : List (Out (GravityGenerator F32))) (h : Handle) (e e' : Entity F32),
    play (calls.map (fun x => (o, x))) System.new = .ok (s, outs) ∧ play (calls.map (fun x => (o', x))) System.new = .ok (s', outs') ∧
    s.getEntity h = some e ∧ s'.getEntity h = some e' ∧ Val e.lastTotalMass (2 ^ 24) ∧ Val e'.lastTotalMass (2 ^ 24 + 2) ∧ e.position.x ≠ e'.position.x := by
  have h : ((play (unevenCalls.map (fun x => (IterOrder.id, x))) System.new).test fun r => (play (unevenCalls.map (fun x => (backwards, x))) System.new).test fun r' =>
      match r.1.getEntity h0, r'.1.getEntity h0 with
      | some e, some e' => valued e.lastTotalMass (2 ^ 24) && valued e'.lastTotalMass (2 ^ 24 + 2) && !same e.position.x e'.position.x
      | _, _ => false) = true := by kernel_refl
  obtain ⟨⟨s, outs⟩, h1, h⟩ := Res.of_test h
  obtain ⟨⟨s', outs'⟩, h2, h⟩ := Res.of_test h
  split at h
  · rename_i e e' g g'
    simp only [Bool.and_eq_true, Bool.not_eq_true'] at h
    refine ⟨unevenCalls, .id, backwards, s, s', outs, outs', h0, e, e', h1, h2, g, g', valued_iff.mp h.1.1, valued_iff.mp h.1.2, fun hh => ?_⟩
    rw [same_iff.mpr hh] at h
    cases h.2
  · cases h

end Props
end Fluffy
