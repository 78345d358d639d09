import Verif.Proofs.ExecTotal
import Verif.Proofs.History
import Verif.Proofs.Carry
/- What the neighbours of an awake entity are like in every reachable state. -/
set_option linter.unusedSectionVars false
set_option linter.unusedSimpArgs false
namespace Fluffy
open InternalEntity Step
variable {α : Type} [Scalar α] {γ : Type}

/-- The handle is live, or no later insertion can hand it out again. -/
def Old {τ : Type} (a : Arena τ) (h : Handle) : Prop := a.get h ≠ none ∨ h.generation < a.generation

theorem Old.grows {τ : Type} {a b : Arena τ} {h : Handle} (ho : Old a h) (g : Arena.Grows a b) : Old b h := by
  rcases ho with ho | ho
  · by_cases hb : b.get h = none
    · exact Or.inr (g.died h ho hb)
    · exact Or.inl hb
  · exact Or.inr (Nat.lt_of_lt_of_le ho g.gen)

/-- The remembered neighbours of an awake entity are asleep and remember the entity in turn; and no remembered handle
can be handed out again. -/
structure Paired (a : Arena (InternalEntity α)) : Prop where
  old : ∀ k e n, a.get k = some e → n ∈ e.neighbors → Old a n
  pair : ∀ k e n x, a.get k = some e → e.asleep = false → n ∈ e.neighbors → a.get n = some x →
    x.asleep = true ∧ k ∈ x.neighbors

/-- Sleep and neighbours are as before. -/
def Quiet (e e' : InternalEntity α) : Prop := e'.asleep = e.asleep ∧ e'.neighbors = e.neighbors

theorem Quiet.refl (e : InternalEntity α) : Quiet e e := ⟨rfl, rfl⟩
theorem Quiet.of_vel {e e' : InternalEntity α} (h : VelRel e e') : Quiet e e' := by
  constructor <;> rw [h]
theorem Quiet.of_mass {e e' : InternalEntity α} (h : MassRel e e') : Quiet e e' := ⟨h.asleep, h.neighbors⟩
theorem Quiet.of_moved (p : α) (i : StepInfo α) (e : InternalEntity α) : Quiet e (moved p i e) := by
  unfold moved
  split <;> exact ⟨rfl, rfl⟩

theorem Paired.quiet {a b : Arena (InternalEntity α)} (h : Paired a) (ev : Arena.Evolves Quiet a b) : Paired b := by
  constructor
  · intro k e n he hn
    obtain ⟨e0, he0, -, q⟩ := ev.get' he
    rw [q] at hn
    exact (h.old k e0 n he0 hn).grows ev.shape.grows
  · intro k e n x he ha hn hx
    obtain ⟨e0, he0, q1, q2⟩ := ev.get' he
    obtain ⟨x0, hx0, r1, r2⟩ := ev.get' hx
    rw [q1] at ha; rw [q2] at hn
    rw [r1, r2]
    exact h.pair k e0 n x0 he0 ha hn hx0

theorem Paired.new : Paired (Arena.new : Arena (InternalEntity α)) := by
  constructor <;> intro k e n <;> simp [Arena.get_new]

theorem Paired.wakeUp {ord : IterOrder} {start : Handle} {a b : Arena (InternalEntity α)} {d d' : List DebugMsg}
    (h : Paired a) (hw : wakeUp ord start a d = .ok (b, d')) : Paired b := by
  obtain ⟨h1, h2, -⟩ := wakeUp_spec hw
  constructor
  · intro k e n he hn
    obtain ⟨e0, he0, -⟩ := h1.get' he
    exact (h.old k e0 n he0 ((h2 k e0 e he0 he).2.2.subset hn)).grows h1.shape.grows
  · intro k e n x he ha hn hx
    obtain ⟨e0, he0, -⟩ := h1.get' he
    obtain ⟨x0, hx0, -⟩ := h1.get' hx
    obtain ⟨c1, c2, c3⟩ := h2 k e0 e he0 he
    obtain ⟨d1, d2, -⟩ := h2 n x0 x hx0 hx
    by_cases hk : Cluster a start k
    · rw [(c1 hk).2] at hn; cases hn
    · obtain ⟨k1, k2, k3⟩ := c2 hk
      rw [k1] at ha
      obtain ⟨p1, p2⟩ := h.pair k e0 n x0 he0 ha (c3.subset hn) hx0
      by_cases hnc : Cluster a start n
      · cases hi : Scalar.isInfinite e0.totalMass with
        | false => exact absurd (.link hnc hx0 p2 he0 hi) hk
        | true => exact absurd ⟨hnc, x0, hx0, p2⟩ ((k3 hi n).mp hn).2
      · obtain ⟨n1, n2, n3⟩ := d2 hnc
        refine ⟨by rw [n1]; exact p1, ?_⟩
        cases hi : Scalar.isInfinite x0.totalMass with
        | false => rw [n2 hi]; exact p2
        | true => exact (n3 hi k).mpr ⟨p2, fun hc => hk hc.1⟩

theorem Paired.wakeIfFinite {ord : IterOrder} {h : Handle} {w w' : World α} (hp : Paired w.entities)
    (hh : wakeIfFinite ord h w = .ok w') : Paired w'.entities := by
  unfold Step.wakeIfFinite at hh
  obtain ⟨e, -, hh⟩ := Res.bind_eq_ok.mp hh
  split at hh
  · obtain ⟨⟨b, d⟩, hb, hh⟩ := Res.bind_eq_ok.mp hh
    cases hh
    exact hp.wakeUp hb
  · cases hh; exact hp

theorem Paired.wakeColliding {ord : IterOrder} {best : Option (Candidate α)} {w w' : World α} (hp : Paired w.entities)
    (hh : wakeColliding ord best w = .ok w') : Paired w'.entities := by
  unfold Step.wakeColliding at hh
  split at hh
  · cases hh; exact hp
  · obtain ⟨m, hm, hh⟩ := Res.bind_eq_ok.mp hh
    exact (hp.wakeIfFinite hm).wakeIfFinite hh

theorem evolves_quiet_advance {best : Option (Candidate α)} {st st' : LoopState α}
    (hnd : (st.infos.map StepInfo.handle).Nodup) (hh : advance best st = .ok st') :
    Arena.Evolves Quiet st.world.entities st'.world.entities := by
  obtain ⟨-, k2, k3, k4⟩ := advance_spec hnd hh
  refine ⟨k2.shape, ?_⟩
  intro h x y hx hy
  by_cases hm : h ∈ st.infos.map StepInfo.handle
  · obtain ⟨i, hi, rfl⟩ := List.mem_map.mp hm
    obtain ⟨e, he, he'⟩ := k4 i hi
    rw [he] at hx; cases hx
    rw [he'] at hy; cases hy
    exact .of_moved _ _ _
  · rw [k3 h hm, hx] at hy; cases hy; exact .refl _

theorem Paired.sleepOne {ord : IterOrder} {dt : α} {i : StepInfo α} {w w' : World α} (hp : Paired w.entities)
    (hself : i.handle ∉ i.neighbors) (hlive : ∀ n ∈ i.neighbors, ∃ e, w.entities.get n = some e)
    (hh : sleepOne ord dt i w = .ok w') : Paired w'.entities := by
  obtain ⟨-, shape, ⟨e, e', he, he', hset, g1, g2, ho⟩, -⟩ := sleepOne_spec hself hh
  have back : ∀ {k y}, w'.entities.get k = some y → ∃ x, w.entities.get k = some x := by
    intro k y hy
    have := shape.isSome k
    rw [hy] at this
    exact Option.isSome_iff_exists.mp this.symm
  have old : ∀ {n}, Old w.entities n → Old w'.entities n := fun h => h.grows shape.grows
  -- an entity that was asleep stays asleep
  have stay : e.asleep = true → e'.asleep = true := by
    intro h
    have : e'.asleep = (settle w dt e).asleep := by rw [hset]
    rw [this]; unfold settle; rw [if_pos h]; exact h
  constructor
  · intro k y n hy hn
    obtain ⟨x, hx⟩ := back hy
    by_cases hk : k = i.handle
    · subst hk
      rw [he] at hx; cases hx
      rw [he'] at hy; cases hy
      cases ha : e.asleep with
      | true => rw [g2 (Or.inl ha)] at hn; exact old (hp.old _ _ _ he hn)
      | false =>
        cases hb : e'.asleep with
        | true =>
          rw [g1 ha hb] at hn
          obtain ⟨z, hz⟩ := hlive n hn
          exact old (Or.inl (by rw [hz]; simp))
        | false => rw [g2 (Or.inr hb)] at hn; exact old (hp.old _ _ _ he hn)
    · rw [(ho k x y hk hx hy).2] at hn
      split at hn
      · rcases mem_hsInsert.mp hn with hn | rfl
        · exact old (hp.old _ _ _ hx hn)
        · exact old (Or.inl (by rw [he]; simp))
      · exact old (hp.old _ _ _ hx hn)
  · intro k y n z hy ha hn hz
    obtain ⟨x, hx⟩ := back hy
    obtain ⟨u, hu⟩ := back hz
    -- what became of the neighbour
    have keep : u.asleep = true → k ∈ u.neighbors → z.asleep = true ∧ k ∈ z.neighbors := by
      intro h1 h2
      by_cases hn' : n = i.handle
      · subst hn'
        rw [he] at hu; cases hu
        rw [he'] at hz; cases hz
        rw [g2 (Or.inl h1)]
        exact ⟨stay h1, h2⟩
      · obtain ⟨hr, hnb⟩ := ho n u z hn' hu hz
        have : z.asleep = u.asleep := by rw [hr]
        refine ⟨by rw [this]; exact h1, ?_⟩
        rw [hnb]
        split
        · exact mem_hsInsert.mpr (Or.inl h2)
        · exact h2
    by_cases hk : k = i.handle
    · subst hk
      rw [he] at hx; cases hx
      rw [he'] at hy; cases hy
      rw [g2 (Or.inr ha)] at hn
      have hae : e.asleep = false := by
        cases h : e.asleep with
        | false => rfl
        | true => rw [stay h] at ha; cases ha
      obtain ⟨p1, p2⟩ := hp.pair _ _ _ _ he hae hn hu
      exact keep p1 p2
    · obtain ⟨hr, hnb⟩ := ho k x y hk hx hy
      have hax : x.asleep = false := by rw [← ha, hr]
      rw [hnb] at hn
      split at hn
      · rename_i hc
        rcases mem_hsInsert.mp hn with hn | rfl
        · obtain ⟨p1, p2⟩ := hp.pair _ _ _ _ hx hax hn hu
          exact keep p1 p2
        · rw [he'] at hz; cases hz
          rw [g1 hc.1.1 hc.1.2]
          exact ⟨hc.1.2, hc.2⟩
      · obtain ⟨p1, p2⟩ := hp.pair _ _ _ _ hx hax hn hu
        exact keep p1 p2

theorem Paired.sleepLoop {ord : IterOrder} {dt : α} : ∀ {l : List (StepInfo α)} {w w' : World α}, Paired w.entities →
    (∀ i ∈ l, i.handle ∉ i.neighbors ∧ ∀ n ∈ i.neighbors, ∃ e, w.entities.get n = some e) →
    sleepLoop ord dt l w = .ok w' → Paired w'.entities
  | [], w, w', hp, _, hh => by unfold Step.sleepLoop at hh; cases hh; exact hp
  | i :: l, w, w', hp, hl, hh => by
    unfold Step.sleepLoop at hh
    obtain ⟨m, h1, hh⟩ := Res.bind_eq_ok.mp hh
    obtain ⟨a1, a2⟩ := hl i (by simp)
    refine Paired.sleepLoop (hp.sleepOne a1 a2 h1) (fun j hj => ?_) hh
    obtain ⟨b1, b2⟩ := hl j (by simp [hj])
    refine ⟨b1, fun n hn => ?_⟩
    obtain ⟨x, hx⟩ := b2 n hn
    obtain ⟨x', hx', -⟩ := (sleepOne_frame a1 h1).entities.get hx
    exact ⟨x', hx'⟩

variable [ForceGenerator α γ]

theorem Paired.step {ord : IterOrder} {s s' : System α γ} {dt : α} (hp : Paired s.entities)
    (hh : s.step ord dt = .ok s') : Paired s'.entities := by
  cases hdt : Scalar.lt (Scalar.abs dt) EPSILON with
  | true =>
    unfold System.step at hh
    rw [if_pos hdt] at hh; cases hh
    exact hp
  | false =>
    obtain ⟨p⟩ := step_phases hdt hh
    obtain ⟨-, -, k3, -, -, -⟩ := integrateAll_spec (Arena.handles_nodup _) p.integrate
    have hfin : LoopInv s.toWorld s.entities.handles p.final ∧ Paired p.final.world.entities := by
      refine iterate_induct (P := fun st => LoopInv s.toWorld s.entities.handles st ∧
          Paired st.world.entities) (ord := ord) (dt := dt) ?_
          ⟨p.inv0, hp.quiet (k3.mono (fun _ _ => Quiet.of_vel))⟩ p.iterate
      intro st best w st1 hP h1 h2 h3
      obtain ⟨b1, b2⟩ := loopInv_body (dt := dt) (Arena.handles_nodup _) hP.1 h1 h2 h3
      have hnd : (st.infos.map StepInfo.handle).Nodup := by rw [hP.1.handles]; exact Arena.handles_nodup _
      have n1 : Paired st1.world.entities :=
        (hP.2.wakeColliding h2).quiet (evolves_quiet_advance (st := { st with world := w }) hnd h3)
      refine ⟨fun _ => ⟨b1, n1⟩, fun k st2 hk h4 => ⟨b2 k st2 hk h4, ?_⟩⟩
      obtain ⟨first, second, i1, i2, hne, hf, hs, -, -, rfl⟩ := respond_spec h4
      exact n1.quiet ((respond_evolves hne hf hs (respondPair_first k (st1.currentPercent * dt) st1.timeLeft first
          second i1 i2) (respondPair_second k (st1.currentPercent * dt) st1.timeLeft first second i1 i2)).mono
          (fun _ _ => Quiet.of_vel))
    obtain ⟨inv, hfin⟩ := hfin
    refine Paired.sleepLoop ?_ ?_ p.sleep
    · split <;> exact hfin
    · intro i hi
      refine ⟨fun hc => ((inv.neighbors i hi).2 _ hc).2 rfl, fun n hn => ?_⟩
      obtain ⟨x, hx⟩ := inv.live _ ((inv.neighbors i hi).2 n hn).1
      exact ⟨x, by split <;> exact hx⟩

theorem Paired.exec {ord : IterOrder} {s s' : System α γ} {op : Op α γ} {out : Out γ} (inv : System.Inv s)
    (hp : Paired s.entities) (hh : s.exec ord op = .ok (s', out)) : Paired s'.entities := by
  have put : ∀ {h : Handle} {e e' : InternalEntity α}, s.entities.get h = some e → Quiet e e' →
      Paired (s.entities.set h e') := fun he hq => hp.quiet (.set Quiet.refl he hq)
  cases op with
  | addEntity e =>
    simp only [System.exec] at hh; cases hh
    cases h : InternalEntity.newFrom e with
    | none => rw [System.addEntity_none h]; exact hp
    | some x =>
      rw [System.addEntity_some h]
      have hg := Arena.get_insert inv.wfE x
      have hx := (System.newFrom_fields h).2.2.2
      have fresh := Arena.insert_spec inv.wfE x
      constructor
      · intro k y n hy hn
        simp only [hg] at hy
        split at hy
        · cases hy; rw [hx] at hn; cases hn
        · exact (hp.old k y n hy hn).grows (Arena.grows_insert inv.wfE x)
      · intro k y n z hy ha hn hz
        simp only [hg] at hy hz
        split at hy
        · cases hy; rw [hx] at hn; cases hn
        · split at hz
          · rename_i hnew
            subst hnew
            rcases hp.old k y _ hy hn with ho | ho
            · exact absurd fresh.2.2.2.1 ho
            · rw [fresh.2.1] at ho; omega
          · exact hp.pair k y n z hy ha hn hz
  | removeEntity h =>
    simp only [System.exec] at hh
    obtain ⟨⟨m, b⟩, hr, hh⟩ := Res.bind_eq_ok.mp hh
    cases hh
    cases hE : s.entities.get h with
    | none => rw [System.removeEntity_none hE] at hr; cases hr; exact hp
    | some E =>
      rw [System.removeEntity_some inv hE] at hr
      cases hr
      constructor
      · intro k y n hy hn
        simp only [Arena.get_remove] at hy
        split at hy
        · cases hy
        · exact (hp.old k y n hy hn).grows (Arena.grows_remove inv.wfE h)
      · intro k y n z hy ha hn hz
        simp only [Arena.get_remove] at hy hz
        split at hy
        · cases hy
        · split at hz
          · cases hz
          · exact hp.pair k y n z hy ha hn hz
  | updateEntity h e =>
    simp only [System.exec] at hh
    obtain ⟨⟨m, b⟩, hr, hh⟩ := Res.bind_eq_ok.mp hh
    cases hh
    rcases System.updateEntity_spec hr with ⟨-, rfl, -⟩ | ⟨-, E, E1, E2, w, hE, hu, hm, hw⟩
    · exact hp
    · obtain ⟨-, -, hE1⟩ := System.updateFrom_fields hu
      have hm' := recalculateMass_massRel hm
      have hq : Quiet E E2 := ⟨by rw [hm'.asleep, hE1], by rw [hm'.neighbors, hE1]⟩
      rcases hw with ⟨-, rfl⟩ | ⟨-, a, d, hwk, rfl⟩
      · exact put hE hq
      · exact (put hE hq).wakeUp hwk
  | addCollider c =>
    simp only [System.exec] at hh; cases hh
    cases h : c.newFrom with
    | none => rw [System.addCollider_none h]; exact hp
    | some x => rw [System.addCollider_some h]; exact hp
  | removeCollider h =>
    simp only [System.exec] at hh
    obtain ⟨m, hr, hh⟩ := Res.bind_eq_ok.mp hh
    cases hh
    have := System.removeCollider_ok hr
    subst this
    exact hp
  | updateCollider h c =>
    simp only [System.exec] at hh
    obtain ⟨⟨m, b⟩, hr, hh⟩ := Res.bind_eq_ok.mp hh
    cases hh
    have key : ∀ {s1 : System α γ} {eh}, s1.entities = s.entities → System.refreshEntity ord s1 eh = .ok m →
        Paired m.entities := by
      intro s1 eh h1 hf
      rcases System.refreshEntity_spec hf with ⟨rfl, -⟩ | ⟨h, E, E2, -, hE, hm, rfl⟩
      · rw [h1]; exact hp
      · rw [h1] at hE
        simp only [h1]
        exact put hE (.of_mass (recalculateMass_massRel hm))
    rcases System.updateCollider_spec hr with ⟨-, rfl, -⟩ | ⟨-, C, hC, hu, hr⟩ | ⟨-, C, C', hC, hu, hr⟩
    · exact hp
    · exact key rfl hr
    · exact key (s1 := { s with colliders := s.colliders.set h C' }) rfl hr
  | linkCollider c e =>
    simp only [System.exec] at hh
    obtain ⟨⟨m, b⟩, hr, hh⟩ := Res.bind_eq_ok.mp hh
    cases hh
    rcases System.linkCollider_spec inv hr with ⟨-, rfl, -⟩ | ⟨-, C, hC, -, hs', hshape, hev⟩
    · exact hp
    · refine hp.quiet ⟨hshape, ?_⟩
      intro k F G hF hG
      obtain ⟨G', hG', hsame, hr⟩ := hev k F hF
      rw [hG] at hG'; cases hG'
      by_cases h1 : e = some k
      · have := recalculateMass_massRel (hr.1 h1)
        exact ⟨this.asleep, this.neighbors⟩
      · by_cases h2 : C.entity = some k
        · have := recalculateMass_massRel (hr.2 h1 h2)
          exact ⟨this.asleep, this.neighbors⟩
        · rw [hsame h1 h2]; exact .refl _
  | addGenerator g => simp only [System.exec] at hh; cases hh; exact hp
  | removeGenerator h => simp only [System.exec] at hh; cases hh; exact hp
  | step dt =>
    simp only [System.exec] at hh
    obtain ⟨m, hr, hh⟩ := Res.bind_eq_ok.mp hh
    cases hh
    exact hp.step hr
  | configure n e t rs d => simp only [System.exec] at hh; cases hh; exact hp

theorem reachable_paired {s : System α γ} (h : Reachable s) : Paired s.entities := by
  obtain ⟨tr, hs⟩ := h
  induction hs with
  | nil => exact .new
  | snoc ord op out h1 h2 ih => exact ih.exec (System.steps_inv System.inv_new h1) h2

end Fluffy
