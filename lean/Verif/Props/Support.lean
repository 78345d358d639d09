import Verif.Props.Jam
import Verif.Props.Hang
/-
C90: a sleeping body whose support is taken away.
-/
set_option linter.unusedSectionVars false
set_option linter.unusedSimpArgs false
namespace Fluffy.Props
open InternalEntity Step Demo System
section
variable {α : Type} [Scalar α] {γ : Type} [ForceGenerator α γ]

/-- The call has nothing to do with the entity: it does not change or remove it, and does not change, add or take away a collider of it. A change of any other entity is
excluded too, as it may wake this one. -/
def Elsewhere (s : System α γ) (k : Handle) : Op α γ → Prop
  | .updateEntity _ _ => False
  | .removeEntity h => h ≠ k
  | .updateCollider c _ => ∀ C, s.colliders.get c = some C → C.entity ≠ some k
  | .linkCollider c e => e ≠ some k ∧ ∀ C, s.colliders.get c = some C → C.entity ≠ some k
  | _ => True

/-- The entity sleeps, or not, as before. -/
def Naps (e e' : InternalEntity α) : Prop := e'.asleep = e.asleep

/-- **C90**, who wakes a body: a call other than `step` and `update_entity` wakes nobody, and puts nobody to sleep. -/
theorem C90_wakes_nobody {ord : IterOrder} {s s' : System α γ} {op : Op α γ} {out : Out γ} (inv : System.Inv s) (hop : ∀ dt, op ≠ .step dt) (hup : ∀ h e, op ≠ .updateEntity h e)
    (hh : s.exec ord op = .ok (s', out)) {k : Handle} {e e' : InternalEntity α} (hk : s.entities.get k = some e) (hk' : s'.entities.get k = some e') :
    e'.asleep = e.asleep := by
  suffices h : ∃ e0, s.entities.get k = some e0 ∧ Naps e0 e' by
    obtain ⟨e0, h1, h2⟩ := h
    rw [hk] at h1; cases h1; exact h2
  have ofMass : ∀ {x y : InternalEntity α}, MassRel x y → Naps x y := by
    intro x y h; unfold Naps; rw [h]
  have put : ∀ {h : Handle} {x y : InternalEntity α}, s.entities.get h = some x → Naps x y → (s.entities.set h y).get k = some e' → ∃ e0, s.entities.get k = some e0 ∧ Naps e0 e' := by
    intro h x y hx hd hk
    obtain ⟨e0, h1, h2⟩ := (Arena.Evolves.set (fun _ => (rfl : Naps _ _)) hx hd).get' hk
    exact ⟨e0, h1, h2⟩
  cases op with
  | addEntity x =>
    simp only [System.exec] at hh; cases hh
    cases h : InternalEntity.newFrom x with
    | none => rw [System.addEntity_none h] at hk'; exact ⟨_, hk', rfl⟩
    | some x =>
      rw [System.addEntity_some h] at hk'
      simp only [Arena.get_insert inv.wfE] at hk'
      have fresh := Arena.insert_spec inv.wfE x
      split at hk'
      · rename_i hnew
        rw [hnew, fresh.2.2.2.1] at hk; cases hk
      · exact ⟨_, hk', rfl⟩
  | removeEntity h =>
    simp only [System.exec] at hh
    obtain ⟨⟨m, b⟩, hr, hh⟩ := Res.bind_eq_ok.mp hh
    cases hh
    cases hE : s.entities.get h with
    | none => rw [System.removeEntity_none hE] at hr; cases hr; exact ⟨_, hk', rfl⟩
    | some E =>
      rw [System.removeEntity_some inv hE] at hr
      cases hr
      simp only [Arena.get_remove] at hk'
      split at hk'
      · cases hk'
      · exact ⟨_, hk', rfl⟩
  | updateEntity h x => exact absurd rfl (hup h x)
  | addCollider c =>
    simp only [System.exec] at hh; cases hh
    cases h : c.newFrom with
    | none => rw [System.addCollider_none h] at hk'; exact ⟨_, hk', rfl⟩
    | some x => rw [System.addCollider_some h] at hk'; exact ⟨_, hk', rfl⟩
  | removeCollider h =>
    simp only [System.exec] at hh
    obtain ⟨m, hr, hh⟩ := Res.bind_eq_ok.mp hh
    cases hh
    have := System.removeCollider_ok hr
    subst this
    exact ⟨_, hk', rfl⟩
  | updateCollider h c =>
    simp only [System.exec] at hh
    obtain ⟨⟨m, b⟩, hr, hh⟩ := Res.bind_eq_ok.mp hh
    cases hh
    have key : ∀ {s1 : System α γ} {eh}, s1.entities = s.entities → System.refreshEntity ord s1 eh = .ok m →
        ∃ e, s.entities.get k = some e ∧ Naps e e' := by
      intro s1 eh h1 hf
      rcases System.refreshEntity_spec hf with ⟨rfl, -⟩ | ⟨h, E, E2, -, hE, hm, rfl⟩
      · rw [h1] at hk'; exact ⟨_, hk', rfl⟩
      · rw [h1] at hE
        simp only [h1] at hk'
        exact put hE (ofMass (recalculateMass_massRel hm)) hk'
    rcases System.updateCollider_spec hr with ⟨-, rfl, -⟩ | ⟨-, C, hC, hu, hr⟩ | ⟨-, C, C', hC, hu, hr⟩
    · exact ⟨_, hk', rfl⟩
    · exact key rfl hr
    · exact key (s1 := { s with colliders := s.colliders.set h C' }) rfl hr
  | linkCollider c x =>
    simp only [System.exec] at hh
    obtain ⟨⟨m, b⟩, hr, hh⟩ := Res.bind_eq_ok.mp hh
    cases hh
    rcases System.linkCollider_spec inv hr with ⟨-, rfl, -⟩ | ⟨-, C, hC, -, hs', hshape, hev⟩
    · exact ⟨_, hk', rfl⟩
    · refine ⟨e, hk, ?_⟩
      obtain ⟨G', hG', hsame, hr⟩ := hev k e hk
      rw [hk'] at hG'; cases hG'
      by_cases h1 : x = some k
      · have := ofMass (recalculateMass_massRel (hr.1 h1)); exact this
      · by_cases h2 : C.entity = some k
        · have := ofMass (recalculateMass_massRel (hr.2 h1 h2)); exact this
        · rw [hsame h1 h2]; rfl
  | addGenerator g => simp only [System.exec] at hh; cases hh; exact ⟨_, hk', rfl⟩
  | removeGenerator h => simp only [System.exec] at hh; cases hh; exact ⟨_, hk', rfl⟩
  | step dt => exact absurd rfl (hop dt)
  | configure n a t rs d => simp only [System.exec] at hh; cases hh; exact ⟨_, hk', rfl⟩

/-- A call elsewhere, other than `step`, leaves the entity as it is. -/
theorem elsewhere_same {ord : IterOrder} {s s' : System α γ} {op : Op α γ} {out : Out γ} (inv : System.Inv s) (hop : ∀ dt, op ≠ .step dt) {k : Handle} (hel : Elsewhere s k op)
    (hh : s.exec ord op = .ok (s', out)) {e : InternalEntity α} (hk : s.entities.get k = some e) : s'.entities.get k = some e := by
  cases op with
  | addEntity x =>
    simp only [System.exec] at hh; cases hh
    cases h : InternalEntity.newFrom x with
    | none => rw [System.addEntity_none h]; exact hk
    | some x =>
      rw [System.addEntity_some h]
      simp only [Arena.get_insert inv.wfE]
      have fresh := Arena.insert_spec inv.wfE x
      rw [if_neg (by rintro rfl; rw [fresh.2.2.2.1] at hk; cases hk)]; exact hk
  | removeEntity h =>
    simp only [System.exec] at hh
    obtain ⟨⟨m, b⟩, hr, hh⟩ := Res.bind_eq_ok.mp hh
    cases hh
    cases hE : s.entities.get h with
    | none => rw [System.removeEntity_none hE] at hr; cases hr; exact hk
    | some E =>
      rw [System.removeEntity_some inv hE] at hr
      cases hr
      simp only [Arena.get_remove]
      rw [if_neg (fun hc => hel hc.symm)]; exact hk
  | updateEntity h x => exact hel.elim
  | addCollider c =>
    simp only [System.exec] at hh; cases hh
    cases h : c.newFrom with
    | none => rw [System.addCollider_none h]; exact hk
    | some x => rw [System.addCollider_some h]; exact hk
  | removeCollider h =>
    simp only [System.exec] at hh
    obtain ⟨m, hr, hh⟩ := Res.bind_eq_ok.mp hh
    cases hh
    have := System.removeCollider_ok hr
    subst this
    exact hk
  | updateCollider h c =>
    simp only [System.exec] at hh
    obtain ⟨⟨m, b⟩, hr, hh⟩ := Res.bind_eq_ok.mp hh
    cases hh
    have key : ∀ {s1 : System α γ} {eh : Option Handle}, eh ≠ some k → s1.entities = s.entities → System.refreshEntity ord s1 eh = .ok m → m.entities.get k = some e := by
      intro s1 eh hne h1 hf
      rcases System.refreshEntity_spec hf with ⟨rfl, -⟩ | ⟨h, E, E2, he, hE, hm, rfl⟩
      · rw [h1]; exact hk
      · simp only [h1]
        rw [Arena.get_set, if_neg (fun hc => hne (by rw [he, hc]))]; exact hk
    rcases System.updateCollider_spec hr with ⟨-, rfl, -⟩ | ⟨-, C, hC, hu, hr⟩ | ⟨-, C, C', hC, hu, hr⟩
    · exact hk
    · exact key (hel C hC) rfl hr
    · exact key (s1 := { s with colliders := s.colliders.set h C' }) (hel C hC) rfl hr
  | linkCollider c x =>
    simp only [System.exec] at hh
    obtain ⟨⟨m, b⟩, hr, hh⟩ := Res.bind_eq_ok.mp hh
    cases hh
    rcases System.linkCollider_spec inv hr with ⟨-, rfl, -⟩ | ⟨-, C, hC, -, hs', hshape, hev⟩
    · exact hk
    · obtain ⟨G', hG', hsame, hr⟩ := hev k e hk
      rw [hG', hsame hel.1 (hel.2 C hC)]
  | addGenerator g => simp only [System.exec] at hh; cases hh; exact hk
  | removeGenerator h => simp only [System.exec] at hh; cases hh; exact hk
  | step dt => exact absurd rfl (hop dt)
  | configure n a t rs d => simp only [System.exec] at hh; cases hh; exact hk

/-- Calls that have nothing to do with the entity, among them steps in which no collision is recorded. -/
inductive Forsaken (k : Handle) (s : System α γ) : List (Op α γ) → System α γ → Prop
  | nil : Forsaken k s [] s
  | snoc {l : List (Op α γ)} {m s' : System α γ} {ord : IterOrder} {op : Op α γ} {out : Out γ} : Forsaken k s l m → Elsewhere m k op → m.exec ord op = .ok (s', out) →
      ((∃ dt, op = .step dt) → s'.collisionRecords = []) → Forsaken k s (l ++ [op]) s'

/-- **C90.** A body that is asleep is asleep in the same place after any calls that do not concern it and are not a change of another entity, and any steps without
collisions: also if everything it rested on was removed or has lost its colliders, or gravity has changed.
Missing from the full statement: that it falls, which is false (`C90_false`). -/
theorem C90_hangs_partial {k : Handle} {s s' : System α γ} (hr : Reachable s) {l : List (Op α γ)} (hf : Forsaken k s l s') {p : Entity α} (hp : s.getEntity k = some p)
    (ha : p.asleep = true) : ∃ p', s'.getEntity k = some p' ∧ p'.position = p.position ∧ p'.rotation = p.rotation ∧ p'.asleep = true := by
  suffices h : Inv s' ∧ ∃ p', s'.getEntity k = some p' ∧ p'.position = p.position ∧ p'.rotation = p.rotation ∧ p'.asleep = true from h.2
  induction hf with
  | nil =>
    exact ⟨hr.inv, p, hp, rfl, rfl, ha⟩
  | @snoc l m s' ord op out hf hel hh hrec ih =>
    obtain ⟨inv, q, hq, h1, h2, h3⟩ := ih
    refine ⟨exec_inv inv hh, ?_⟩
    by_cases hop : ∃ dt, op = .step dt
    · obtain ⟨dt, rfl⟩ := hop
      simp only [System.exec] at hh
      obtain ⟨x, hx, hh⟩ := Res.bind_eq_ok.mp hh
      cases hh
      by_cases hdt : Scalar.lt (Scalar.abs dt) EPSILON = true
      · unfold System.step at hx
        rw [if_pos hdt] at hx; cases hx
        exact ⟨q, hq, h1, h2, h3⟩
      · obtain ⟨p', hp', a, b, c, -⟩ := C24_no_collision (by unfold Proper; simpa using hdt) hx (hrec ⟨dt, rfl⟩) hq h3
        exact ⟨p', hp', a.trans h1, b.trans h2, c⟩
    · obtain ⟨E, hE, rfl⟩ := getEntity_eq_some.mp hq
      have := elsewhere_same inv (fun dt hdt => hop ⟨dt, hdt⟩) hel hh hE
      exact ⟨E.makePub, getEntity_eq_some.mpr ⟨E, this, rfl⟩, h1, h2, h3⟩

/-- A single entity steps without panic and without collisions, whatever it remembers. -/
theorem solo_step [SafeGenerator α γ] {s : System α γ} (hs : Neat s) {h : Handle} (hl : s.entities.handles = [h]) {dt : α} (hp : Proper dt) (ord : IterOrder) :
    ∃ s', s.step ord dt = .ok s' ∧ s'.collisionRecords = [] ∧ Neat s' ∧ s'.entities.handles = [h] := by
  have hnone : ∀ (st : LoopState α) (i : StepInfo α), st.infos = [i] → searchFirst ord st.world 0 st.infos none = .ok none := by
    intro st i hi; rw [hi]; rfl
  have hj : ¬Jams ord s dt := by
    rintro ⟨-, mid, infos, hi, k, -, st, hm, hbad⟩
    obtain ⟨-, -, -, -, k5, -⟩ := integrateAll_spec (Arena.handles_nodup _) hi
    have k5 : infos.map StepInfo.handle = [h] := k5.trans hl
    obtain ⟨i, rfl⟩ : ∃ i, infos = [i] := by
      match infos, k5 with
      | [i], _ => exact ⟨i, rfl⟩
    cases hm with
    | now =>
      rcases hbad with ⟨n1, n2, i1, i2, e1, e2, c1, c2, m1, m2, hlt, -, h2, -⟩ | ⟨c, x, e, hc, -⟩
      · have : n2 < [i].length := (List.getElem?_eq_some_iff.mp h2).1
        simp at this; omega
      · rw [hnone _ i rfl] at hc; cases hc
    | later h1 h2 h3 h4 h5 => rw [hnone _ i rfl] at h1; cases h1
  obtain ⟨s', hh⟩ := (C29_step_exact ord hs dt).2 hj
  have hfr := (step_frame hh).1
  have hl' : s'.entities.handles = [h] := by rw [hfr.entities.1.handles, hl]
  refine ⟨s', hh, ?_, ⟨exec_inv (op := .step dt) (out := .unit) hs.inv (by simp only [System.exec]; rw [hh]; rfl), ?_⟩, hl'⟩
  · cases hc : s'.collisionRecords with
    | nil => rfl
    | cons r l =>
      obtain ⟨g1, g2, g3⟩ := (C30_records_bounded hp hh).2 r (by rw [hc]; simp)
      have there : ∀ k, s'.getEntity k ≠ none → k = h := by
        intro k hk
        cases hy : s'.entities.get k with
        | none => exact absurd (by show (s'.entities.get _).map makePub = none; rw [hy]; rfl) hk
        | some y =>
          have : k ∈ s'.entities.handles := Arena.mem_handles.mpr ⟨y, hy⟩
          rw [hl'] at this; simpa using this
      exact absurd ((there _ g2).trans (there _ g3).symm) g1
  · rw [hfr.colliders]; exact hs.pointed

/-- As many steps as one likes. -/
theorem solo_undisturbed [SafeGenerator α γ] {s : System α γ} (hs : Neat s) {h : Handle} (hl : s.entities.handles = [h]) {dt : α} (hp : Proper dt) (n : ℕ) :
    ∃ s', Undisturbed dt s n s' := by
  suffices ∃ s', Neat s' ∧ s'.entities.handles = [h] ∧ Undisturbed dt s n s' by
    obtain ⟨s', -, -, h⟩ := this; exact ⟨s', h⟩
  induction n with
  | zero => exact ⟨s, hs, hl, .nil⟩
  | succ n ih =>
    obtain ⟨m, hm, hlm, hu⟩ := ih
    obtain ⟨s', hh, hr, hs', hl'⟩ := solo_step hm hlm hp .id
    exact ⟨s', hs', hl', .snoc hu hh hr⟩
end

/-- Such steps have nothing to do with any entity. -/
theorem Undisturbed.forsaken {α : Type} [Scalar α] {γ : Type} [ForceGenerator α γ] {k : Handle} {dt : α} {s m s' : System α γ} {l : List (Op α γ)} {n : ℕ}
    (hu : Undisturbed dt m n s') (hf : Forsaken k s l m) : Forsaken k s (l ++ List.replicate n (.step dt)) s' := by
  induction hu with
  | nil => simpa using hf
  | @snoc n m' s' ord hu hh hr ih =>
    rw [List.replicate_succ', ← List.append_assoc]
    exact .snoc (ord := ord) (out := .unit) ih trivial (by simp only [System.exec]; rw [hh]; rfl) (fun _ => hr)

/-! ### A ball that rests on a floor, and the floor is removed -/
section
open F32
variable [Libm]

/-- A ball of 1 kg that touches a floor, with a gravity of 10 m/s². -/
def shelfCalls : List (Op F32 (GravityGenerator F32)) :=
  [.addGenerator ⟨⟨num 0, num (-10), num 0⟩⟩,
   .addEntity (thing (num 1) (vec 0 1 0) (vec 0 0 0)), .addCollider (ball (vec 0 0 0) (num 1) (num 0) (num 0)), .linkCollider h0 (some h0),
   .addEntity (thing (.inf false) (vec 0 0 0) (vec 0 0 0)), .addCollider (.plane ⟨none, vec 0 0 0, vec 0 1 0, num 0, ⟨num 0, num 0, num 0, num 0⟩⟩),
   .linkCollider h1 (some h1)]

/-- **C90 is false**: a ball has fallen asleep on a floor; the floor is removed; and the ball hangs where it was however many steps of whatever length follow, though it
is alone in the world and subject to gravity. -/
theorem C90_false : ∃ (s m : System F32 (GravityGenerator F32)) (p : Entity F32), Reachable s ∧ s.getEntity h0 = some p ∧ p.asleep = true ∧ p.ownMass = num 1 ∧
    (∃ e, s.entities.get h0 = some e ∧ e.neighbors = [h1]) ∧
    s.generators.get h0 = some ⟨⟨num 0, num (-10), num 0⟩⟩ ∧ s.exec .id (.removeEntity h1) = .ok (m, .ok true) ∧ m.entities.handles = [h0] ∧
    m.generators = s.generators ∧
    ∀ (dt : F32), Proper dt → ∀ n : ℕ, (∃ s', Undisturbed dt m n s' ∧ Forsaken h0 s (.removeEntity h1 :: List.replicate n (.step dt)) s') ∧
      ∀ s', Undisturbed dt m n s' → ∃ p', s'.getEntity h0 = some p' ∧ p'.position = p.position ∧ p'.asleep = true := by
  have h : ((play (plain (shelfCalls ++ List.replicate 4 (Op.step (num 1 16)))) (System.new : System F32 (GravityGenerator F32))).test fun r =>
      (r.1.colliders.handles == [h0, h1] && (match r.1.entities.get h0, r.1.generators.get h0, r.1.colliders.get h0, r.1.colliders.get h1 with
        | some a, some g, some (.sphere _), some (.plane _) =>
          a.asleep && (a.neighbors == [h1] && (same a.ownMass (num 1) && vecEq g.acceleration ⟨num 0, num (-10), num 0⟩))
        | _, _, _, _ => false)) && (r.1.exec .id (.removeEntity h1)).test fun q => q.1.entities.handles == [h0] && (match q.2 with | .ok true => true | _ => false)) = true := by
    kernel_refl
  obtain ⟨⟨s, outs⟩, hplay, h⟩ := Res.of_test h
  simp only [Bool.and_eq_true, beq_iff_eq] at h
  obtain ⟨⟨hl, h⟩, hx⟩ := h
  split at h
  case h_2 => cases h
  case h_1 a g sp pl ha hg hc0 hc1 =>
  simp only [Bool.and_eq_true, beq_iff_eq, same_iff, vecEq_iff] at h
  obtain ⟨hs, hn, hm, hacc⟩ := h
  obtain ⟨⟨m, out⟩, hrem, hx⟩ := Res.of_test hx
  simp only [Bool.and_eq_true, beq_iff_eq] at hx
  obtain ⟨hlm, hx⟩ := hx
  split at hx
  case h_2 => cases hx
  case h_1 =>
  have hreach := play_reachable hplay
  have hneat : Neat s := by
    refine ⟨hreach.inv, fun k c hk => ?_⟩
    have : k ∈ s.colliders.handles := Arena.mem_handles.mpr ⟨c, hk⟩
    have hl : s.colliders.handles = [h0, h1] := hl
    rw [hl] at this
    simp only [List.mem_cons, List.not_mem_nil, or_false] at this
    rcases this with rfl | rfl
    · have hc0 : s.colliders.get h0 = _ := hc0
      rw [hc0] at hk; cases hk; trivial
    · have hc1 : s.colliders.get h1 = _ := hc1
      rw [hc1] at hk; cases hk; trivial
  have hneat' : Neat m := ⟨exec_inv hreach.inv hrem, exec_pointed (op := .removeEntity h1) hneat trivial hrem⟩
  have hp : s.getEntity h0 = some a.makePub := getEntity_eq_some.mpr ⟨a, ha, rfl⟩
  have hma : m.entities.get h0 = some a := elsewhere_same hreach.inv (by intro dt h; cases h) (k := h0) (by show h1 ≠ h0; decide) hrem ha
  have hpm : m.getEntity h0 = some a.makePub := getEntity_eq_some.mpr ⟨a, hma, rfl⟩
  have hgen : m.generators = s.generators := by
    simp only [System.exec] at hrem
    obtain ⟨⟨m', b⟩, hr, hh⟩ := Res.bind_eq_ok.mp hrem
    cases hh
    cases hE : s.entities.get h1 with
    | none => rw [System.removeEntity_none hE] at hr; cases hr
    | some E => rw [System.removeEntity_some hreach.inv hE] at hr; cases hr; rfl
  refine ⟨s, m, a.makePub, hreach, hp, hs, hm, ⟨a, ha, hn⟩, ?_, hrem, hlm, hgen, fun dt hdt n => ⟨?_, fun s' hu =>
    C89_sleeper_hangs hdt hu hpm hs⟩⟩
  · have : g = ⟨⟨num 0, num (-10), num 0⟩⟩ := by cases g; simp only at hacc; rw [hacc]
    rw [← this]; exact hg
  · obtain ⟨s', hu⟩ := solo_undisturbed hneat' hlm hdt n
    exact ⟨s', hu, hu.forsaken (l := [.removeEntity h1]) (.snoc (l := []) .nil (by show h1 ≠ h0; decide) hrem (by rintro ⟨dt, h⟩; cases h))⟩
end
end Fluffy.Props
