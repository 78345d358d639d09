import Verif.Proofs.Astray
import Verif.Props.Anchor
import Verif.Props.Bystander
import Verif.Props.Crash
/-
C95: a body gone bad does not spoil the rest.
-/
set_option linter.unusedSectionVars false
set_option linter.unusedSimpArgs false
namespace Fluffy.Props
open InternalEntity Step
section
variable {α : Type} [Scalar α] [NaNLaws α]

/-! ### The search -/

theorem considerPair_lost {cs : Arena (Collider α)} {first second : InternalEntity α} {i1 i2 : StepInfo α} {n1 n2 : Nat} {c1 c2 : Handle} {best best' : Option (Candidate α)}
    (hl : (first.orientation.afterAffected i1.linearMovement i1.angularMovement).Astray ∨ (second.orientation.afterAffected i2.linearMovement i2.angularMovement).Astray)
    (hh : considerPair cs first second i1 i2 n1 n2 c1 c2 best = .ok best') : best' = best := by
  unfold considerPair at hh
  obtain ⟨x, hx, hh⟩ := Res.bind_eq_ok.mp hh
  obtain ⟨y, hy, hh⟩ := Res.bind_eq_ok.mp hh
  obtain ⟨r, hr, hh⟩ := Res.bind_eq_ok.mp hh
  cases collide_lost hl hr
  cases hh; rfl

theorem searchPair_lost {ord : IterOrder} {w : World α} {i1 i2 : StepInfo α} {n1 n2 : Nat} {best best' : Option (Candidate α)}
    (hl : (∀ e, w.entities.get i1.handle = some e → (e.orientation.afterAffected i1.linearMovement i1.angularMovement).Astray) ∨
      (∀ e, w.entities.get i2.handle = some e → (e.orientation.afterAffected i2.linearMovement i2.angularMovement).Astray))
    (hh : searchPair ord w i1 i2 n1 n2 best = .ok best') : best' = best := by
  unfold searchPair at hh
  obtain ⟨⟨first, second⟩, h1, hh⟩ := Res.bind_eq_ok.mp hh
  obtain ⟨hne, hf, hse⟩ := get2_eq_ok.mp h1
  have hl := hl.imp (fun h => h _ hf) (fun h => h _ hse)
  simp only at hh hl
  have inner : ∀ {c : Handle} {l : List Handle} {b b' : Option (Candidate α)}, secondColliderLoop w.colliders first second i1 i2 n1 n2 c l b = .ok b' → b' = b := by
    intro c l
    induction l with
    | nil => intro b b' hh; cases hh; rfl
    | cons d l ih =>
      intro b b' hh
      unfold secondColliderLoop at hh
      obtain ⟨m, h3, hh⟩ := Res.bind_eq_ok.mp hh
      rw [← considerPair_lost hl h3]; exact ih hh
  have outer : ∀ {l2 l : List Handle} {b b' : Option (Candidate α)}, firstColliderLoop w.colliders first second i1 i2 n1 n2 l2 l b = .ok b' → b' = b := by
    intro l2 l
    induction l with
    | nil => intro b b' hh; cases hh; rfl
    | cons d l ih =>
      intro b b' hh
      unfold firstColliderLoop at hh
      obtain ⟨m, h3, hh⟩ := Res.bind_eq_ok.mp hh
      rw [← inner h3]; exact ih hh
  split at hh
  · cases hh; rfl
  split at hh
  · cases hh; rfl
  exact outer hh

/-! ### The loop -/

variable {K : Handle → Bool}

/-- Where the body is, or what is left of its movement, is not a number. -/
def Strays (K : Handle → Bool) (st : LoopState α) : Prop :=
  ∀ i ∈ st.infos, K i.handle = true → ∀ e, st.world.entities.get i.handle = some e → e.orientation.Astray ∨ i.linearMovement.Astray ∨ i.angularMovement.Astray

theorem strays_quiet {ord : IterOrder} {dt : α} {w0 : World α} {hs : List Handle} (hnd : hs.Nodup) : Step.Quiet K ord dt (fun st => LoopInv w0 hs st ∧ Strays K st) := by
  refine ⟨?_, ?_, ?_⟩
  · rintro st ⟨-, hst⟩ i1 h1 i2 h2 hk n1 n2 best best' hh
    refine searchPair_lost (hk.imp ?_ ?_) hh
    · exact fun hk e he => Orientation.after_astray (hst i1 h1 hk e he)
    · exact fun hk e he => Orientation.after_astray (hst i2 h2 hk e he)
  · rintro st best w st' ⟨hj, hst⟩ - hw ha
    refine ⟨loopInv_advance hnd hj hw ha, ?_⟩
    obtain ⟨k1, -, -, k4⟩ := advance_spec (by rw [hj.handles]; exact hnd) ha
    obtain ⟨-, ev⟩ := wakeColliding_evolves hw
    intro i hi hk e he
    rw [k1] at hi
    obtain ⟨j, hj', rfl⟩ := List.mem_map.mp hi
    obtain ⟨x, hx, hx'⟩ := k4 j hj'
    have hx' : st'.world.entities.get j.handle = _ := hx'
    have he : st'.world.entities.get j.handle = some e := he
    rw [hx'] at he; cases he
    obtain ⟨y, hy, hyx⟩ := ev.get' hx
    have h0 := hst j hj' hk y hy
    have ho : x.orientation = y.orientation := by rw [hyx]
    rw [← ho] at h0
    unfold moved
    split
    · exact h0.imp id (Or.imp (fun h => h.scale _) (fun h => h.scale _))
    · exact .inl (Orientation.after_astray (h0.imp id (Or.imp (fun h => h.scale _) (fun h => h.scale _))))
  · rintro st k st' ⟨hj, hst⟩ hk1 hk2 h1 h2 hix hh
    refine ⟨loopInv_respond' hj h1 h2 hix hh, ?_⟩
    obtain ⟨first, second, i1, i2, hne, g1, g2, e1, e2, rfl⟩ := respond_spec hh
    intro i hi hk e he
    have hhd := respondPair_handles k (st.currentPercent * dt) st.timeLeft first second i1 i2
    have hi' : i ∈ st.infos := by
      rcases List.mem_or_eq_of_mem_set hi with hi | rfl
      · rcases List.mem_or_eq_of_mem_set hi with hi | rfl
        · exact hi
        · rw [hhd.1, h1 i1 e1, hk1] at hk; cases hk
      · rw [hhd.2, h2 i2 e2, hk2] at hk; cases hk
    have n1 : i.handle ≠ k.firstHandle := by rintro h; rw [h, hk1] at hk; cases hk
    have n2 : i.handle ≠ k.secondHandle := by rintro h; rw [h, hk2] at hk; cases hk
    simp only [respond_get hne g1 g2, if_neg n1, if_neg n2] at he
    exact hst i hi' hk e he

/-! ### From step to step -/

variable {γ : Type} [ForceGenerator α γ]

/-- The body is lost: its position or its rotation is not a number, or it is awake and moves with a velocity that is not one. -/
def LostAt (s : System α γ) (k : Handle) : Prop :=
  ∀ e, s.entities.get k = some e → e.orientation.Astray ∨ ((e.velocity.Astray ∨ e.angularVelocity.Astray) ∧ e.asleep = false ∧ 0 < s.iterationMax)

theorem integrateAll_strays {dt : α} {gens : List Handle} : ∀ {l : List Handle} {s s' : System α γ} {is : List (StepInfo α)} {k : Handle} {e e' : InternalEntity α}, l.Nodup →
    integrateAll dt gens l s = .ok (s', is) → s.entities.get k = some e → s'.entities.get k = some e' →
    (e.velocity.Astray → e'.velocity.Astray) ∧ (e.angularVelocity.Astray → e'.angularVelocity.Astray)
  | [], s, s', is, k, e, e', _, hh, he, he' => by
    cases hh; rw [he] at he'; cases he'; exact ⟨id, id⟩
  | h :: l, s, s', is, k, e, e', hnd, hh, he, he' => by
    unfold integrateAll at hh
    obtain ⟨⟨m, i⟩, h1, hh⟩ := Res.bind_eq_ok.mp hh
    obtain ⟨⟨m', is'⟩, h2, hh⟩ := Res.bind_eq_ok.mp hh
    cases hh
    obtain ⟨x, g, a, t, hx, -, rfl, -⟩ := integrateOne_spec h1
    rw [List.nodup_cons] at hnd
    by_cases hk : k = h
    · subst hk
      rw [hx] at he; cases he
      have := integrateAll_strays (k := k) hnd.2 h2 (by rw [Arena.get_set, if_pos rfl, hx]; rfl) he'
      exact ⟨fun h => this.1 (h.add_left _), fun h => this.2 (h.add_left _)⟩
    · exact integrateAll_strays hnd.2 h2 (by rw [Arena.get_set_ne hk]; exact he) he'

theorem lost_begin {dt : α} {s m : System α γ} {is : List (StepInfo α)} {k : Handle} (hk : LostAt s k)
    (h : integrateAll dt s.generators.handles s.entities.handles { s with collisionRecords := [], debug := [] } = .ok (m, is)) :
    Strays (fun h => decide (h = k)) (⟨m.toWorld, is, dt, zero⟩ : LoopState α) := by
  obtain ⟨k1, k2, k3, k4, k5, k6⟩ := integrateAll_spec (Arena.handles_nodup _) h
  intro i hi hik e he
  have hik : i.handle = k := by simpa using hik
  obtain ⟨x, hx, hxi⟩ := k6 i hi
  have he : m.entities.get i.handle = some e := he
  rw [hx] at he
  obtain rfl : e = x := (Option.some.inj he).symm
  obtain ⟨y, hy, hyx⟩ := k3.get' hx
  rw [hik] at hx hy
  have hy : s.entities.get k = some y := hy
  have ho : e.orientation = y.orientation := by rw [hyx]
  have hv := integrateAll_strays (Arena.handles_nodup _) h hy hx
  rcases hk y hy with h0 | ⟨h0 | h0, -⟩
  · left; rw [ho]; exact h0
  · right; left; rw [hxi]; exact (hv.1 h0).scale _
  · right; right; rw [hxi]; exact (hv.2 h0).scale _

/-- The body is lost for good. -/
def Nowhere (k : Handle) (w : World α) : Prop := ∀ e, w.entities.get k = some e → e.orientation.Astray

theorem nowhere_advance {ord : IterOrder} {w0 : World α} {hs : List Handle} (hnd : hs.Nodup) {st st' : LoopState α} {w : World α} {best : Option (Candidate α)} {k : Handle}
    (hj : LoopInv w0 hs st) (hw : wakeColliding ord best st.world = .ok w) (ha : advance best { st with world := w } = .ok st')
    (h : ∀ e, st.world.entities.get k = some e → e.orientation.Astray ∨ (e.asleep = false ∧ ∃ i ∈ st.infos, i.handle = k ∧ (i.linearMovement.Astray ∨ i.angularMovement.Astray))) :
    Nowhere k st'.world := by
  obtain ⟨k1, -, k3, k4⟩ := advance_spec (by rw [hj.handles]; exact hnd) ha
  obtain ⟨-, ev⟩ := wakeColliding_evolves hw
  have hnd' : (st.infos.map StepInfo.handle).Nodup := by rw [hj.handles]; exact hnd
  intro e he
  by_cases hm : k ∈ st.infos.map StepInfo.handle
  · obtain ⟨j, hj', rfl⟩ := List.mem_map.mp hm
    obtain ⟨x, hx, hx'⟩ := k4 j hj'
    rw [hx'] at he; cases he
    obtain ⟨y, hy, hyx⟩ := ev.get' hx
    have ho : x.orientation = y.orientation := by rw [hyx]
    rcases h y hy with h0 | ⟨hs, i, hi, hij, h0⟩
    · rw [← ho] at h0
      unfold moved
      split
      · exact h0
      · exact Orientation.after_astray (.inl h0)
    · have : i = j := List.inj_on_of_nodup_map hnd' hi hj' hij
      subst this
      have hxs : x.asleep = false := by
        cases hxs : x.asleep with
        | false => rfl
        | true => rw [wakeColliding_asleep hw hy hx hxs] at hs; cases hs
      unfold moved
      rw [if_neg (by simp [hxs])]
      exact Orientation.after_astray (.inr (h0.imp (fun h => h.scale _) (fun h => h.scale _)))
  · have he' := k3 k hm
    rw [he] at he'
    obtain ⟨y, hy, hyx⟩ := ev.get' he'.symm
    have ho : e.orientation = y.orientation := by rw [hyx]
    rcases h y hy with h0 | ⟨-, i, hi, hij, -⟩
    · rw [ho]; exact h0
    · exact absurd (List.mem_map.mpr ⟨i, hi, hij⟩) hm

theorem nowhere_respond {dt : α} {c : Candidate α} {st st' : LoopState α} {k : Handle} (h : Nowhere k st.world) (hh : respond dt c st = .ok st') : Nowhere k st'.world := by
  obtain ⟨first, second, i1, i2, hne, g1, g2, e1, e2, rfl⟩ := respond_spec hh
  intro e he
  simp only [respond_get hne g1 g2] at he
  split at he
  · rename_i hk; cases he
    exact (h second (by rw [hk]; exact g2) : second.orientation.Astray)
  split at he
  · rename_i hk; cases he
    exact (h first (by rw [hk]; exact g1) : first.orientation.Astray)
  · exact h e he

theorem nowhere_iterate {ord : IterOrder} {dt : α} {w0 : World α} {hs : List Handle} (hnd : hs.Nodup) {n : Nat} {st st' : LoopState α} {c : Bool} {k : Handle}
    (hj : LoopInv w0 hs st) (h : Nowhere k st.world) (hh : iterate ord dt n st = .ok (st', c)) : Nowhere k st'.world := by
  refine (iterate_induct (P := fun st => LoopInv w0 hs st ∧ Nowhere k st.world) ?_ ⟨hj, h⟩ hh).2
  rintro st best w st1 ⟨hj, h⟩ h1 h2 h3
  have b := loopInv_body (dt := dt) hnd hj h1 h2 h3
  have hn := nowhere_advance hnd hj h2 h3 (fun e he => .inl (h e he))
  exact ⟨fun _ => ⟨b.1, hn⟩, fun c st2 hb h4 => ⟨b.2 c st2 hb h4, nowhere_respond hn h4⟩⟩

/-- A lost body stays lost: after a step its position or its rotation is not a number. -/
theorem lost_step {ord : IterOrder} {dt : α} {s s' : System α γ} {k : Handle} (hk : LostAt s k) (hh : s.step ord dt = .ok s') : LostAt s' k := by
  cases hdt : Scalar.lt (Scalar.abs dt) EPSILON with
  | true =>
    unfold System.step at hh
    rw [if_pos hdt] at hh; cases hh
    exact hk
  | false =>
    obtain ⟨p⟩ := step_phases hdt hh
    have hnd : s.entities.handles.Nodup := Arena.handles_nodup _
    have hinv := integrateAll_inv p.integrate
    have hst := lost_begin hk p.integrate
    obtain ⟨k1, k2, k3, k4, k5, k6⟩ := integrateAll_spec hnd p.integrate
    have hfin : Nowhere k p.final.world := by
      by_cases h0 : ∀ e, s.entities.get k = some e → e.orientation.Astray
      · refine nowhere_iterate hnd hinv ?_ p.iterate
        intro e he
        obtain ⟨y, hy, hyx⟩ := k3.get' he
        have ho : e.orientation = y.orientation := by rw [hyx]
        rw [ho]; exact h0 y hy
      · obtain ⟨e, he, hne⟩ : ∃ e, s.entities.get k = some e ∧ ¬ e.orientation.Astray := by
          by_contra hc; exact h0 (fun e he => by by_contra hn; exact hc ⟨e, he, hn⟩)
        obtain ⟨hv, hs, hpos⟩ := (hk e he).resolve_left hne
        have hit := p.iterate
        obtain ⟨n, hn⟩ : ∃ n, s.iterationMax = n + 1 := ⟨s.iterationMax - 1, by omega⟩
        rw [hn] at hit
        unfold iterate at hit
        obtain ⟨best, h1, hit⟩ := Res.bind_eq_ok.mp hit
        obtain ⟨w, h2, hit⟩ := Res.bind_eq_ok.mp hit
        obtain ⟨st1, h3, hit⟩ := Res.bind_eq_ok.mp hit
        have b := loopInv_body (dt := dt) hnd hinv h1 h2 h3
        have hn1 : Nowhere k st1.world := by
          refine nowhere_advance hnd hinv h2 h3 ?_
          intro x hx
          have hx : p.mid.entities.get k = some x := hx
          obtain ⟨y, hy, hyx⟩ := k3.get' hx
          have hy : s.entities.get k = some y := hy
          rw [he] at hy; cases hy
          have hm : k ∈ p.infos.map StepInfo.handle := by rw [k5]; exact Arena.mem_handles.mpr ⟨e, he⟩
          obtain ⟨i, hi, hik⟩ := List.mem_map.mp hm
          rcases hst i hi (by simp [hik]) x (by rw [hik]; exact hx) with h | h
          · exact .inl h
          · exact .inr ⟨by rw [hyx]; exact hs, i, hi, hik, h⟩
        cases best with
        | none => rw [← (Prod.mk.inj (Except.ok.inj hit)).1]; exact hn1
        | some c =>
          obtain ⟨st2, h4, hit⟩ := Res.bind_eq_ok.mp hit
          exact nowhere_iterate hnd (b.2 c st2 rfl h4) (nowhere_respond hn1 h4) hit
    intro e he
    left
    have hsl := p.sleep
    generalize hw : (if p.concluded then p.final.world else { p.final.world with debug := p.final.world.debug ++ [.ranOut] }) = w at hsl
    have hwe : w.entities = p.final.world.entities := by rw [← hw]; split <;> rfl
    have hpi := p.inv
    obtain ⟨x, hx⟩ : ∃ x, w.entities.get k = some x := by
      obtain ⟨x, hx, -⟩ := (sleepLoop_frame p.selfless hsl).1.entities.get' he
      exact ⟨x, hx⟩
    have hr := sleepLoop_spec (by rw [hpi.handles]; exact hnd) p.selfless hsl k x e hx he
    have h0 := hfin x (hwe ▸ hx)
    have : e.orientation = x.orientation := by
      rw [hr]
      show (if _ then _ else _ : InternalEntity α).orientation = _
      split
      · unfold Step.settle; split
        · rfl
        · split <;> rfl
      · rfl
    rw [this]; exact h0

theorem stepAll_lost (hg : Solitary α γ) {k : Handle} : ∀ {l : List (IterOrder × α)} {s t s' : System α γ}, ApartSystem (fun h => decide (h = k)) s t → LostAt s k →
    stepAll l s = .ok s' → ∃ t', stepAll l t = .ok t' ∧ ApartSystem (fun h => decide (h = k)) s' t' ∧ LostAt s' k
  | [], s, t, s', hs, hk, hh => by cases hh; exact ⟨t, rfl, hs, hk⟩
  | (ord, dt) :: l, s, t, s', hs, hk, hh => by
    unfold stepAll at hh ⊢
    obtain ⟨m, h1, hh⟩ := Res.bind_eq_ok.mp hh
    obtain ⟨m', h2, h3⟩ := step_apart hg hs (strays_quiet (w0 := s.toWorld) (Arena.handles_nodup _))
      (fun _ _ h => ⟨integrateAll_inv h, lost_begin hk h⟩) h1
    rw [h2, Res.ok_bind]
    exact stepAll_lost hg h3 (lost_step hk h1) hh

/-- **C95** as far as it holds: let a coordinate of the position of a body, or a component of its rotation, be no number, or let it be awake and move or turn with a velocity
that is not one.  Let it and the others not remember each other as neighbours.  Take it away.  Then whatever steps are made, all the others are where they would be with
it, in the same state, and the records are the same; and the body stays lost.  The steps with the body must not panic: see `C95_false`. -/
theorem C95_partial (hg : Solitary α γ) {s t s' : System α γ} (hr : Reachable s) {k : Handle} {e : InternalEntity α} (he : s.entities.get k = some e) (hn : e.neighbors = [])
    (hf : ∀ h x, s.entities.get h = some x → k ∉ x.neighbors)
    (hl : e.orientation.Astray ∨ ((e.velocity.Astray ∨ e.angularVelocity.Astray) ∧ e.asleep = false ∧ 0 < s.iterationMax))
    {ord : IterOrder} {b : Bool} (ht : s.removeEntity ord k = .ok (t, b)) {l : List (IterOrder × α)} (hs : stepAll l s = .ok s') :
    ∃ t', stepAll l t = .ok t' ∧ (∀ h, h ≠ k → t'.entities.get h = s'.entities.get h) ∧ t'.collisionRecords = s'.collisionRecords ∧ LostAt s' k := by
  obtain ⟨t', h1, h2, h3⟩ := stepAll_lost hg (removed_apart hr he hn hf ht) (fun x hx => by rw [he] at hx; cases hx; exact hl) hs
  refine ⟨t', h1, fun h hne => h2.apart.get h (by simpa using hne), ?_, h3⟩
  obtain ⟨d, hd⟩ := h2.rest
  rw [hd]

theorem stepAll_total [SafeGenerator α γ] : ∀ (l : List (IterOrder × α)) {s : System α γ}, NeighborsLive s.entities → PairsSafe s.toWorld → ∃ s', stepAll l s = .ok s'
  | [], s, _, _ => ⟨s, rfl⟩
  | (ord, dt) :: l, s, hn, hp => by
    obtain ⟨m, h1, h2⟩ := step_total (ord := ord) dt hn hp
    obtain ⟨s', h3⟩ := stepAll_total l h2 (hp.frame (step_frame h1).1)
    refine ⟨s', ?_⟩
    unfold stepAll
    rw [h1]
    exact h3

/-- **C95** where there are no meshes, and no neighbours that were removed: nothing panics, with or without the lost body, and the others do the same. -/
theorem C95_no_mesh_partial [SafeGenerator α γ] (hg : Solitary α γ) {s t : System α γ} (hr : Reachable s) {k : Handle} {e : InternalEntity α} (he : s.entities.get k = some e)
    (hn : e.neighbors = []) (hf : ∀ h x, s.entities.get h = some x → k ∉ x.neighbors)
    (hl : e.orientation.Astray ∨ ((e.velocity.Astray ∨ e.angularVelocity.Astray) ∧ e.asleep = false ∧ 0 < s.iterationMax))
    (hlive : ∀ h x n, s.entities.get h = some x → n ∈ x.neighbors → ∃ y, s.entities.get n = some y) (hm : ∀ c x, s.colliders.get c = some x → x.type ≠ .mesh)
    {ord : IterOrder} {b : Bool} (ht : s.removeEntity ord k = .ok (t, b)) (l : List (IterOrder × α)) :
    ∃ s' t', stepAll l s = .ok s' ∧ stepAll l t = .ok t' ∧ (∀ h, h ≠ k → t'.entities.get h = s'.entities.get h) ∧ t'.collisionRecords = s'.collisionRecords := by
  have hp : PairsSafe s.toWorld := by
    refine ⟨fun j E c hE hc => hr.inv.live hE c hc, ?_⟩
    intro k1 k2 E1 E2 c1 c2 C1 C2 _ _ _ _ _ hC1 hC2
    have g : ∀ {c : Handle} {C : Collider α}, s.colliders.get c = some C → C.Good ∧ ¬C.IsMesh := by
      intro c C hC
      have := hm c C hC
      cases C <;> simp_all [Collider.type, Collider.Good, Collider.IsMesh]
    exact collide_ok (g hC1).1 (g hC2).1 (fun h => (g hC1).2 h.1)
  obtain ⟨s', hs⟩ := stepAll_total l hlive hp
  obtain ⟨t', h1, h2, h3, -⟩ := C95_partial hg hr he hn hf hl ht hs
  exact ⟨s', t', hs, h1, h2, h3⟩

/-! ### Meshes -/

theorem indices_values {τ : Type} {vs : List τ} : ∀ {f : List Nat}, (∀ i ∈ f, i < vs.length) → ∃ us, List.Forall₂ (fun i v => vs[i]? = some v) f us
  | [], _ => ⟨[], .nil⟩
  | i :: f, h => by
    obtain ⟨us, hu⟩ := indices_values (f := f) (fun j hj => h j (List.mem_cons_of_mem _ hj))
    exact ⟨_, .cons (List.getElem?_eq_getElem (h i List.mem_cons_self)) hu⟩

theorem lost_shut {m : MeshCollider α} (g : m.Good) (hf : m.faces ≠ []) (start : Orientation α) {stop : Orientation α} (h : stop.Astray) : ¬HoldsOpen m start stop := by
  intro ho
  obtain ⟨f, fs, hfs⟩ := List.exists_cons_of_ne_nil hf
  have hm : f ∈ m.faces := by rw [hfs]; simp
  obtain ⟨us, hu⟩ := indices_values (g.faces f hm).2
  obtain ⟨a, b, c, ⟨_, _, _, hb, _⟩, hfin, _⟩ := ho f hm us hu
  obtain ⟨v, _, rfl⟩ := List.mem_map.mp (List.mem_of_getElem? hb)
  have hv : (halfWay m start stop v).Void := ((Orientation.world_void h _).add_right _).unscale _
  rw [NaNLaws.finite ((hv.sub_right a).cross _).magnitude] at hfin
  cases hfin

/-- Whatever the two meshes and wherever the other body is: against a lost body, the search for collisions panics. -/
theorem C95_mesh_panics {m1 m2 : MeshCollider α} (g1 : m1.Good) (g2 : m2.Good) (f1 : m1.faces ≠ []) (v2 : m2.vertices ≠ []) {s1 e1 : Orientation α} (h : e1.Astray)
    (s2 e2 : Orientation α) : collide (.mesh m1) s1 e1 (.mesh m2) s2 e2 = .error .assert ∧ collide (.mesh m2) s2 e2 (.mesh m1) s1 e1 = .error .assert := by
  have v1 : m1.vertices ≠ [] := by
    intro hv
    obtain ⟨f, fs, hfs⟩ := List.exists_cons_of_ne_nil f1
    have hf := g1.faces f (by rw [hfs]; simp)
    rcases f with _ | ⟨i, f⟩
    · simp at hf
    · have := hf.2 i (by simp)
      rw [hv] at this
      simp at this
  exact ⟨(C29_mesh_exact g1 g2 v1 v2 _ _ _ _).2 fun ho => lost_shut g1 f1 s1 h ho.1, (C29_mesh_exact g2 g1 v2 v1 _ _ _ _).2 fun ho => lost_shut g1 f1 s1 h ho.2⟩
end

section
open F32 Demo Scene
variable [Libm]

/-- A triangle with sides of one metre. -/
def squareSet : MeshCollider F32 := match MeshCollider.new.addFace [vec 0 0 0, vec 1 0 0, vec 0 1 0] with | .ok m => m | .error _ => MeshCollider.new

/-- Two entities with a triangle each, the second of them at `x`. -/
def trianglesAt (x : F32) : List (Op F32 (GravityGenerator F32)) :=
  [.addEntity (thing (num 1) (vec 0 0 0) (vec 0 0 0)), .addCollider (.mesh squareSet), .linkCollider h0 (some h0),
   .addEntity (thing (num 1) ⟨x, num 0, num 0⟩ (vec 0 0 0)), .addCollider (.mesh squareSet), .linkCollider h1 (some h1)]

/-- **C95 fails** for meshes: of two bodies with a triangle each, one is put at a place that is not a number.  The next step panics.  With it a hundred metres away, or
taken away, the same step ends well. -/
theorem C95_false : ∃ s t u : System F32 (GravityGenerator F32), ∃ e, Reachable s ∧ s.entities.get h1 = some e ∧ e.orientation.Astray ∧ e.neighbors = [] ∧
    (play (plain (trianglesAt .nan)) System.new).map Prod.fst = .ok s ∧ s.removeEntity .id h1 = .ok (t, true) ∧
    (play (plain (trianglesAt (num 100))) System.new).map Prod.fst = .ok u ∧
    s.step .id (num 1) = .error .assert ∧ (∃ t', t.step .id (num 1) = .ok t') ∧ ∃ u', u.step .id (num 1) = .ok u' := by
  have h : ((play (plain (trianglesAt .nan)) (System.new : System F32 (GravityGenerator F32))).test fun r =>
      (match r.1.step .id (num 1) with | .error .assert => true | _ => false) &&
      (match r.1.entities.get h1 with | some e => Scalar.isNaN e.orientation.position.x && e.neighbors.isEmpty | none => false) &&
      (r.1.removeEntity .id h1).test fun p => p.2 && (p.1.step .id (num 1)).test fun _ => true) = true := by kernel_refl
  have h' : ((play (plain (trianglesAt (num 100))) (System.new : System F32 (GravityGenerator F32))).test fun r => (r.1.step .id (num 1)).test fun _ => true) = true := by
    kernel_refl
  obtain ⟨⟨s, o⟩, hs, h⟩ := Res.of_test h
  obtain ⟨⟨u, o'⟩, hu, h'⟩ := Res.of_test h'
  obtain ⟨u', hu', -⟩ := Res.of_test h'
  simp only [Bool.and_eq_true] at h
  obtain ⟨⟨ha, hb⟩, hc⟩ := h
  obtain ⟨⟨t, b⟩, ht, hc⟩ := Res.of_test hc
  simp only [Bool.and_eq_true] at hc
  obtain ⟨rfl, hc⟩ := hc
  obtain ⟨t', ht', -⟩ := Res.of_test hc
  split at hb
  · rename_i e he
    simp only [Bool.and_eq_true, List.isEmpty_iff] at hb
    refine ⟨s, t, u, e, play_reachable hs, he, .inl (.inl hb.1), hb.2, by rw [hs]; rfl, ht, by rw [hu]; rfl, ?_, ⟨t', ht'⟩, u', hu'⟩
    split at ha
    · assumption
    · cases ha
  · cases hb

/-- A ball in front of another, which it hits in the first step, and a third one with a velocity that is not a number. -/
def straysCalls : List (Op F32 (GravityGenerator F32)) :=
  meetCalls ++ [.addEntity (thing (num 1) (vec 2 1 0) ⟨num 0, .nan, num 0⟩), .addCollider (ball (vec 0 0 0) (num 1) (num 1) (num 1)), .linkCollider h2 (some h2)]

/-- `C95_partial` speaks of something: with the lost ball around, the two others collide. -/
example : ∃ (s s' : System F32 (GravityGenerator F32)) (k : Handle) (e : InternalEntity F32), Reachable s ∧ s.entities.get k = some e ∧ e.neighbors = [] ∧
    (∀ h x, s.entities.get h = some x → k ∉ x.neighbors) ∧ (e.velocity.Astray ∧ e.asleep = false ∧ 0 < s.iterationMax) ∧ e.colliders ≠ [] ∧ stepAll [(.id, num 1)] s = .ok s' ∧ s'.collisionRecords ≠ [] := by
  have h : ((play (plain straysCalls) (System.new : System F32 (GravityGenerator F32))).test fun r => (stepAll [(.id, num 1)] r.1).test fun s' =>
      !s'.collisionRecords.isEmpty && (r.1.entities.handles.all fun h => match r.1.entities.get h with | some e => e.neighbors.isEmpty | none => true) &&
      match r.1.entities.get h2 with
      | some e => !e.colliders.isEmpty && e.neighbors.isEmpty && (Scalar.isNaN e.velocity.y && !e.asleep && decide (0 < r.1.iterationMax))
      | none => false) = true := by kernel_refl
  obtain ⟨⟨s, o⟩, hs, h⟩ := Res.of_test h
  obtain ⟨s', hs', h⟩ := Res.of_test h
  simp only [Bool.and_eq_true, List.all_eq_true] at h
  obtain ⟨⟨ha, hb⟩, hc⟩ := h
  split at hc
  · rename_i e he
    simp only [Bool.and_eq_true, List.isEmpty_iff] at hc
    refine ⟨s, s', h2, e, play_reachable hs, he, hc.1.2, ?_, ⟨.inr (.inl hc.2.1.1), by simpa using hc.2.1.2, by simpa using hc.2.2⟩, ?_, hs', ?_⟩
    · intro h x hx
      have := hb h (Arena.mem_handles.mpr ⟨x, hx⟩)
      simp only [hx, List.isEmpty_iff] at this
      simp [this]
    · intro h; simp [h] at hc
    · intro h; simp [h] at ha
  · cases hc
end
end Fluffy.Props
