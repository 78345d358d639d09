import Verif.Props.Support
import Verif.Props.Handles
import Verif.Props.Wake
/-
C91: a body that was woken, and how soon it sleeps again.
-/
set_option linter.unusedSectionVars false
set_option linter.unusedSimpArgs false
namespace Fluffy.Props
open InternalEntity Step Demo System
section
variable {α : Type} [Scalar α] {γ : Type} [ForceGenerator α γ]

/-- Calls, none of which sets the thresholds. -/
inductive Unset (s : System α γ) : System α γ → Prop
  | nil : Unset s s
  | snoc {m s' : System α γ} {ord : IterOrder} {op : Op α γ} {out : Out γ} : Unset s m → (∀ n e t rs d, op ≠ .configure n e t rs d) → m.exec ord op = .ok (s', out) → Unset s s'

/-- Calls, none of which is a step or sets the thresholds. -/
inductive Between (s : System α γ) : System α γ → Prop
  | nil : Between s s
  | snoc {m s' : System α γ} {ord : IterOrder} {op : Op α γ} {out : Out γ} : Between s m → (∀ dt, op ≠ .step dt) → (∀ n e t rs d, op ≠ .configure n e t rs d) →
      m.exec ord op = .ok (s', out) → Between s s'

/-- The clock of whoever sleeps has run down. -/
def RunDown (s : System α γ) : Prop :=
  ∀ k e, s.entities.get k = some e → e.asleep = true → e.fallingAsleep = true ∧ Scalar.lt e.fallingAsleepTime s.sleepTimeThreshold = false

/-- Calls that set no thresholds leave the thresholds. -/
theorem exec_thresholds {ord : IterOrder} {s s' : System α γ} {op : Op α γ} {out : Out γ} (inv : Inv s) (hc : ∀ n e t rs d, op ≠ .configure n e t rs d)
    (hh : s.exec ord op = .ok (s', out)) : s'.sleepTimeThreshold = s.sleepTimeThreshold ∧ s'.energySleepThreshold = s.energySleepThreshold := by
  cases op with
  | addEntity x =>
    simp only [System.exec] at hh; cases hh
    cases h : InternalEntity.newFrom x with
    | none => rw [System.addEntity_none h]; exact ⟨rfl, rfl⟩
    | some x => rw [System.addEntity_some h]; exact ⟨rfl, rfl⟩
  | removeEntity h =>
    simp only [System.exec] at hh
    obtain ⟨⟨m, b⟩, hr, hh⟩ := Res.bind_eq_ok.mp hh
    cases hh
    cases hE : s.entities.get h with
    | none => rw [System.removeEntity_none hE] at hr; cases hr; exact ⟨rfl, rfl⟩
    | some E => rw [System.removeEntity_some inv hE] at hr; cases hr; exact ⟨rfl, rfl⟩
  | updateEntity h x =>
    simp only [System.exec] at hh
    obtain ⟨⟨m, b⟩, hr, hh⟩ := Res.bind_eq_ok.mp hh
    cases hh
    rcases System.updateEntity_spec hr with ⟨-, rfl, -⟩ | ⟨-, E, E1, E2, w, hE, hu, hm, ⟨-, rfl⟩ | ⟨-, a, d, hwk, rfl⟩⟩ <;> exact ⟨rfl, rfl⟩
  | addCollider c =>
    simp only [System.exec] at hh; cases hh
    cases h : c.newFrom with
    | none => rw [System.addCollider_none h]; exact ⟨rfl, rfl⟩
    | some x => rw [System.addCollider_some h]; exact ⟨rfl, rfl⟩
  | removeCollider h =>
    simp only [System.exec] at hh
    obtain ⟨m, hr, hh⟩ := Res.bind_eq_ok.mp hh
    cases hh
    have := System.removeCollider_ok hr
    subst this
    exact ⟨rfl, rfl⟩
  | updateCollider h c =>
    simp only [System.exec] at hh
    obtain ⟨⟨m, b⟩, hr, hh⟩ := Res.bind_eq_ok.mp hh
    cases hh
    rcases System.updateCollider_spec hr with ⟨-, rfl, -⟩ | ⟨-, C, hC, hu, hr⟩ | ⟨-, C, C', hC, hu, hr⟩
    · exact ⟨rfl, rfl⟩
    · rcases System.refreshEntity_spec hr with ⟨rfl, -⟩ | ⟨h, E, E2, -, hE, hm, rfl⟩ <;> exact ⟨rfl, rfl⟩
    · rcases System.refreshEntity_spec hr with ⟨rfl, -⟩ | ⟨h, E, E2, -, hE, hm, rfl⟩ <;> exact ⟨rfl, rfl⟩
  | linkCollider c x =>
    simp only [System.exec] at hh
    obtain ⟨⟨m, b⟩, hr, hh⟩ := Res.bind_eq_ok.mp hh
    cases hh
    rcases System.linkCollider_spec inv hr with ⟨-, rfl, -⟩ | ⟨-, C, hC, -, hs', hshape, hev⟩
    · exact ⟨rfl, rfl⟩
    · rw [hs']; exact ⟨rfl, rfl⟩
  | addGenerator g => simp only [System.exec] at hh; cases hh; exact ⟨rfl, rfl⟩
  | removeGenerator h => simp only [System.exec] at hh; cases hh; exact ⟨rfl, rfl⟩
  | step dt =>
    simp only [System.exec] at hh
    obtain ⟨m, hr, hh⟩ := Res.bind_eq_ok.mp hh
    cases hh
    exact ⟨(step_frame hr).1.time, (step_frame hr).1.energy⟩
  | configure n e t rs d => exact absurd rfl (hc n e t rs d)

/-- Whoever is asleep after a call that is not a step was asleep before, with the same clock. -/
theorem exec_asleep {ord : IterOrder} {s s' : System α γ} {op : Op α γ} {out : Out γ} (inv : Inv s) (hop : ∀ dt, op ≠ .step dt) (hh : s.exec ord op = .ok (s', out)) {k : Handle}
    {e' : InternalEntity α} (hk : s'.entities.get k = some e') (ha : e'.asleep = true) : ∃ e, s.entities.get k = some e ∧ e.asleep = true ∧ Dozes e e' := by
  rcases exec_dozes inv hop hh hk with ⟨e, he, hd⟩ | ⟨-, -, -, -, h⟩
  swap
  · rw [ha] at h; cases h
  refine ⟨e, he, ?_, hd⟩
  by_cases hup : ∃ h x, op = .updateEntity h x
  · obtain ⟨h, x, rfl⟩ := hup
    simp only [System.exec] at hh
    obtain ⟨⟨m, b⟩, hr, hh⟩ := Res.bind_eq_ok.mp hh
    cases hh
    rcases System.updateEntity_spec hr with ⟨-, rfl, -⟩ | ⟨-, E, E1, E2, w, hE, hu, hm, hw⟩
    · rw [he] at hk; cases hk; exact ha
    · obtain ⟨-, -, hE1⟩ := System.updateFrom_fields hu
      have hm' := recalculateMass_massRel hm
      have hq : E2.asleep = E.asleep := by rw [hm', hE1]
      have key : ∀ F, (s.entities.set h E2).get k = some F → F.asleep = true → e.asleep = true := by
        intro F hF hFa
        rw [Arena.get_set] at hF
        split at hF
        · rename_i hc
          subst hc
          rw [he] at hE; cases hE
          rw [he] at hF; simp only [Option.map_some, Option.some.injEq] at hF
          subst hF
          rw [← hq]; exact hFa
        · rw [he] at hF; cases hF; exact hFa
      rcases hw with ⟨-, rfl⟩ | ⟨-, a, d, hwk, rfl⟩
      · exact key e' hk ha
      · obtain ⟨hev, hcl, -⟩ := wakeUp_spec hwk
        obtain ⟨F, hF, -⟩ := hev.get' hk
        apply key F hF
        obtain ⟨c1, c2, -⟩ := hcl k F e' hF hk
        by_cases hc : Cluster (s.entities.set h E2) h k
        · rw [(c1 hc).1] at ha; cases ha
        · rw [← (c2 hc).1]; exact ha
  · rw [← C90_wakes_nobody inv hop (fun h x hx => hup ⟨h, x, hx⟩) hh he hk]; exact ha

/-- **C91**, what a sleeper brings along: as long as the thresholds are not set again, the clock of whoever sleeps has run down. -/
theorem run_down {s s' : System α γ} (inv : Inv s) (hs : RunDown s) (hf : Unset s s') : Inv s' ∧ RunDown s' := by
  induction hf with
  | nil => exact ⟨inv, hs⟩
  | @snoc m s' ord op out hf hc hh ih =>
    obtain ⟨inv, hs⟩ := ih
    refine ⟨exec_inv inv hh, fun k e' hk ha => ?_⟩
    obtain ⟨ht, -⟩ := exec_thresholds inv hc hh
    by_cases hop : ∃ dt, op = .step dt
    · obtain ⟨dt, rfl⟩ := hop
      simp only [System.exec] at hh
      obtain ⟨x, hx, hh⟩ := Res.bind_eq_ok.mp hh
      cases hh
      by_cases hdt : Scalar.lt (Scalar.abs dt) EPSILON = true
      · unfold System.step at hx
        rw [if_pos hdt] at hx; cases hx
        exact hs k e' hk ha
      · obtain ⟨e, he, -⟩ := (step_frame hx).1.entities.get' hk
        rcases step_dozes (by unfold Proper; simpa using hdt) hx he hk with ⟨-, h, ⟨d1, d2⟩, -⟩ | ⟨-, -, h, -⟩ | ⟨-, -, h1, -, h2⟩
        · rw [d1, d2, ht]; exact hs k e he h
        · rw [ha] at h; cases h
        · refine ⟨h1, ?_⟩
          rw [ha] at h2; simpa using h2.symm
    · obtain ⟨e, he, h1, d1, d2⟩ := exec_asleep inv (fun dt h => hop ⟨dt, h⟩) hh hk ha
      rw [d1, d2, ht]; exact hs k e he h1

/-- Nobody sleeps in a new system. -/
theorem run_down_new : RunDown (System.new : System α γ) := by
  intro k e hk
  have hk : (Arena.new : Arena (InternalEntity α)).get k = some e := hk
  rw [Arena.get_new] at hk; cases hk

theorem Between.steps {s s' : System α γ} (hb : Between s s') : ∃ tr, Steps s tr s' := by
  induction hb with
  | nil => exact ⟨[], .nil⟩
  | snoc _ _ _ hh ih => obtain ⟨tr, ih⟩ := ih; exact ⟨_, .snoc _ _ _ ih hh⟩

/-- Between steps the clock stands still, also if the body is woken. -/
theorem Between.dozes {s s' : System α γ} (hr : Reachable s) (hb : Between s s') {k : Handle} {e e' : InternalEntity α} (hk : s.entities.get k = some e)
    (hk' : s'.entities.get k = some e') : Dozes e e' ∧ s'.sleepTimeThreshold = s.sleepTimeThreshold := by
  suffices h : s'.sleepTimeThreshold = s.sleepTimeThreshold ∧ ∀ x, s'.entities.get k = some x → Dozes e x from ⟨h.2 _ hk', h.1⟩
  clear hk' e'
  induction hb with
  | nil => exact ⟨rfl, fun x hx => by rw [hk] at hx; cases hx; exact .refl _⟩
  | @snoc m s' ord op out hb hop hc hh ih =>
    obtain ⟨tr, htr⟩ := hb.steps
    have inv : Inv m := System.steps_inv hr.inv htr
    refine ⟨(exec_thresholds inv hc hh).1.trans ih.1, fun x hx => ?_⟩
    cases hy : m.entities.get k with
    | none =>
      have := (C02_removed_stays_dead hr htr (.snoc ord op out .nil hh)).1 k (by simp [World.getEntity, hk]) (by simp [World.getEntity, hy])
      have := this.1
      simp [World.getEntity, hx] at this
    | some y =>
      rcases exec_dozes inv hop hh hx with ⟨e0, he0, hd⟩ | ⟨h, -⟩
      · rw [hy] at he0; cases he0
        exact (ih.2 y hy).trans hd
      · rw [hy] at h; cases h
end

/-! ### In exact arithmetic -/
section
open XReal
variable {γ : Type} [ForceGenerator XReal γ]

/-- **C91.** At `s0` nobody sleeps (say, in a new system), and the thresholds are not set after that. A body sleeps at `s`; it may then be woken by calls that are not
steps, or by a collision in the step that follows. At the end of that first step it is asleep exactly if its energy is not above the threshold (or it was not woken, in
which case no waking is reported for it).
Missing from the full statement: that it stays awake for the time threshold, which is false (`C91_false`). -/
theorem C91_first_step_partial {s0 s m s' : System XReal γ} (hr0 : Reachable s0) (h0 : ∀ k e, s0.entities.get k = some e → e.asleep = false) (hs : Unset s0 s)
    (hb : Between s m) {ord : IterOrder} {d : ℝ} (hd : 1 / 1000000 ≤ d)
    (hh : m.step ord (fin d) = .ok s') {k : Handle} {e e1 e2 : InternalEntity XReal} (hk : s.entities.get k = some e) (ha : e.asleep = true)
    (hk1 : m.entities.get k = some e1) (hk2 : s'.entities.get k = some e2) :
    (e1.asleep = false ∨ ¬SleptThrough s' k e2 → (e2.asleep = true ↔ Scalar.lt s'.energySleepThreshold e2.totalEnergy = false)) ∧
    (e1.asleep = true → ¬SleptThrough s' k e2 → .wakingUp k ∈ s'.debug) := by
  have hreach : Reachable s := by
    obtain ⟨t0, ht0⟩ := hr0
    suffices ∃ tr, Steps System.new tr s from this
    clear hb hh hk ha hk1 hk2
    induction hs with
    | nil => exact ⟨t0, ht0⟩
    | snoc _ _ hh ih => obtain ⟨tr, ih⟩ := ih; exact ⟨_, .snoc _ _ _ ih hh⟩
  obtain ⟨-, hrd⟩ := run_down hr0.inv (fun k e hk ha => by rw [h0 k e hk] at ha; cases ha) hs
  obtain ⟨h1, h2⟩ := hrd k e hk ha
  obtain ⟨⟨d1, d2⟩, ht⟩ := hb.dozes hreach hk hk1
  have hp : Proper (fin d : XReal) := proper_fin hd
  have hd0 : 0 < d := lt_of_lt_of_le (by norm_num) hd
  have ht' : s'.sleepTimeThreshold = s.sleepTimeThreshold := (step_frame hh).1.time.trans ht
  have late : Scalar.lt (e.fallingAsleepTime + fin d) s.sleepTimeThreshold = false := by
    revert h2
    generalize e.fallingAsleepTime = a
    generalize s.sleepTimeThreshold = b
    intro h2
    cases a <;> cases b <;> simp_all [Scalar.lt, XReal.lt]
    linarith
  refine ⟨fun hw => ?_, fun h3 h4 => ?_⟩
  · rcases step_dozes hp hh hk1 hk2 with ⟨c1, c3, -⟩ | ⟨-, c1, c2, -⟩ | ⟨-, c1, -, c3, c4⟩
    · rcases hw with hw | hw
      · rw [hw] at c3; cases c3
      · exact absurd c1 hw
    · rw [c1, c2]; simp
    · rw [d1, h1, if_pos rfl, d2] at c3
      rw [c3, ht', late] at c4
      rw [c1, c4]; simp
  · refine C24_woken_is_reported hp hh (getEntity_eq_some.mpr ⟨e1, hk1, rfl⟩) (getEntity_eq_some.mpr ⟨e2, hk2, rfl⟩) h3 ?_
    cases h5 : e2.asleep with
    | false => exact .inl h5
    | true => exact .inr (.inl (not_not.mp fun h6 => h4 ⟨h5, h6⟩))
/-- The hypotheses are met by a body that has fallen asleep, is lifted by 5 m, and so woken. -/
theorem C91_applies [SafeGenerator XReal γ] : ∃ (s0 s m s' : System XReal γ) (e e1 e2 : InternalEntity XReal), Reachable s0 ∧
    (∀ k e, s0.entities.get k = some e → e.asleep = false) ∧ Unset s0 s ∧ Between s m ∧ m.step .id (fin 1) = .ok s' ∧ s.entities.get h0 = some e ∧ e.asleep = true ∧
    m.entities.get h0 = some e1 ∧ e1.asleep = false ∧ s'.entities.get h0 = some e2 := by
  let s : System XReal γ := lone (γ := γ) turnedAsleep [.puttingToSleep h0]
  obtain ⟨tr, ht⟩ := lone_reachable (γ := γ)
  have hst : (lone (γ := γ) turned []).exec .id (.step (fin 1)) = .ok (s, .unit) := by simp only [System.exec, turned_sleeps, Res.ok_bind, s]
  have hr : Reachable s := ⟨_, .snoc .id (.step (fin 1)) .unit ht hst⟩
  have he : s.entities.get h0 = some turnedAsleep := rfl
  have hl : s.entities.handles = [h0] := rfl
  have ha : (⟨.o, ⟨-1, 0, 0, 0⟩, .o, .o⟩ : Situation).Of turnedAsleep := ⟨rfl, rfl, rfl, rfl⟩
  have hb : (⟨⟨0, 5, 0⟩, Quat.e, .o, .o⟩ : Situation).Asked (Scene.source (fin 1) ⟨0, 5, 0⟩ .o) := by
    refine ⟨rfl, ⟨.o, ?_, by simp⟩, rfl, ?_⟩ <;> simp [Scene.source, Entity.new]
  obtain ⟨⟨m, b⟩, hm⟩ := System.updateEntity_total hr.inv .id h0 (Scene.source (fin 1) ⟨0, 5, 0⟩ .o) (by
    intro k E n hE hn
    rw [lone_get hE] at hn
    cases hn)
  have hbt : b = true := by
    rcases System.updateEntity_spec hm with ⟨-, -, hc⟩ | ⟨hc, -⟩
    · have := hc _ he
      unfold InternalEntity.updateFrom at this
      rw [if_neg (by simp [Scene.source])] at this
      cases this
    · exact hc
  subst hbt
  obtain ⟨e1, he1, h1, hn1⟩ := (C28_update_wakes_iff he ha hb (by simp [Scene.source]) hm).1 (Or.inr (Or.inr (Or.inl (by
      unfold Quat.gap Quat.e
      rw [show ((-1 - 1 : ℝ)) ^ 2 + (0 - 0) ^ 2 + (0 - 0) ^ 2 + (0 - 0) ^ 2 = 2 ^ 2 by norm_num, Real.sqrt_sq (by norm_num)]
      norm_num))))
  have hex : s.exec .id (.updateEntity h0 (Scene.source (fin 1) ⟨0, 5, 0⟩ .o)) = .ok (m, .ok true) := by
    simp only [System.exec, hm, Res.ok_bind]
  have hinv : Inv m := exec_inv hr.inv hex
  have hall : m.colliders = s.colliders ∧ ∀ k E, m.entities.get k = some E → k = h0 := by
    have key : ∀ E2 : InternalEntity XReal, ∀ k E, (s.entities.set h0 E2).get k = some E → k = h0 := by
      intro E2 k E hE
      rw [Arena.get_set] at hE
      split at hE
      · rename_i hk; first | exact hk.symm | exact hk | exact hk.1
      · have : k ∈ s.entities.handles := Arena.mem_handles.mpr ⟨E, hE⟩
        rw [hl, List.mem_singleton] at this; exact this
    rcases System.updateEntity_spec hm with ⟨h, -⟩ | ⟨-, E, E1, E2, w, hE, hu, hmm, ⟨-, rfl⟩ | ⟨-, a, d, hwk, rfl⟩⟩
    · cases h
    · exact ⟨rfl, key _⟩
    · refine ⟨rfl, fun k x hx => ?_⟩
      have := ((C26_wake_up_wakes_cluster .id h0 _ _).2 _ _ hwk).1 k
      cases hy : (s.entities.set h0 E2).get k with
      | none => have hx' := this.mpr hy; exact absurd (hx'.symm.trans hx) (by simp)
      | some y => exact key _ k y hy
  have hnc : ∀ k E, m.entities.get k = some E → k = h0 ∧ E.colliders = [] := by
    intro k E hE
    refine ⟨hall.2 k E hE, List.eq_nil_iff_forall_not_mem.mpr fun c hc => ?_⟩
    obtain ⟨C, hC, -⟩ := (hinv.links k E c hE).mp hc
    rw [hall.1] at hC
    have hC : (Arena.new : Arena (Collider XReal)).get c = some C := hC
    rw [Arena.get_new] at hC; cases hC
  have hher : Hermit m := ⟨⟨e1, he1⟩, hnc, fun k E n hE hn => by
    obtain rfl := hall.2 k E hE
    rw [he1] at hE; cases hE; rw [hn1] at hn; cases hn⟩
  obtain ⟨s', hs', -, ⟨e2, he2⟩, -⟩ := hher.step (dt := fin 1) (proper_fin (by norm_num)) .id
  refine ⟨_, s, m, s', _, e1, e2, ⟨tr, ht⟩, fun k e hk => by rw [lone_get hk]; rfl, .snoc .nil (by simp) hst, .snoc .nil (by simp) (by simp) hex, hs', he, rfl, he1, h1, he2⟩
end

/-! ### In binary32 -/
section
open F32
variable [Libm]

theorem Unset.play {l : List (IterOrder × Op F32 (GravityGenerator F32))} (hl : ∀ x ∈ l, ∀ n e t rs d, x.2 ≠ .configure n e t rs d) {s s' : System F32 (GravityGenerator F32)} {outs}
    (h : play l s = .ok (s', outs)) {s0 : System F32 (GravityGenerator F32)} (hs : Unset s0 s) : Unset s0 s' := by
  induction l generalizing s outs with
  | nil => simp only [Props.play] at h; cases h; exact hs
  | cons x l ih =>
    obtain ⟨ord, op⟩ := x
    simp only [Props.play] at h
    obtain ⟨⟨m, o⟩, hm, h⟩ := Res.bind_eq_ok.mp h
    obtain ⟨⟨q, os⟩, hq, h⟩ := Res.bind_eq_ok.mp h
    cases h
    exact ih (fun x hx => hl x (List.mem_cons_of_mem _ hx)) hq (.snoc hs (hl _ List.mem_cons_self) hm)

/-- **C91 is false**: a ball of 1 kg has fallen asleep on a floor. The user lifts it by 4 m, which wakes it, and takes the floor away. A single step of 1/256 s later the
ball sleeps again, though the sleep time is 1/10 s, and there it hangs however many steps of whatever length follow. -/
theorem C91_false : ∃ (s m m' s' : System F32 (GravityGenerator F32)) (e e1 e2 : InternalEntity F32), Unset System.new s ∧
    s.entities.get h0 = some e ∧ e.asleep = true ∧ e.ownMass = num 1 ∧ s.sleepTimeThreshold = num 1 10 ∧ s.generators.get h0 = some ⟨⟨num 0, num (-10), num 0⟩⟩ ∧
    s.exec .id (.updateEntity h0 (thing (num 1) (vec 0 5 0) (vec 0 0 0))) = .ok (m, .ok true) ∧ m.exec .id (.removeEntity h1) = .ok (m', .ok true) ∧
    m'.entities.handles = [h0] ∧ m'.entities.get h0 = some e1 ∧ e1.asleep = false ∧
    m'.exec .id (.step (num 1 256)) = .ok (s', .unit) ∧ s'.entities.get h0 = some e2 ∧ e2.asleep = true ∧
    (∀ (dt : F32), Proper dt → ∀ n : ℕ, (∃ t, Undisturbed dt s' n t) ∧
      ∀ t, Undisturbed dt s' n t → ∃ p', t.getEntity h0 = some p' ∧ p'.position = e2.orientation.position ∧ p'.asleep = true) := by
  have h : ((play (plain (shelfCalls ++ List.replicate 4 (Op.step (num 1 16)))) (System.new : System F32 (GravityGenerator F32))).test fun r =>
      (same r.1.sleepTimeThreshold (num 1 10) && (match r.1.entities.get h0, r.1.generators.get h0 with
        | some a, some g => a.asleep && (same a.ownMass (num 1) && vecEq g.acceleration ⟨num 0, num (-10), num 0⟩)
        | _, _ => false)) && (r.1.exec .id (.updateEntity h0 (thing (num 1) (vec 0 5 0) (vec 0 0 0)))).test fun q =>
        (match q.2 with | .ok true => true | _ => false) && (q.1.exec .id (.removeEntity h1)).test fun q =>
          (match q.2, q.1.entities.get h0 with | .ok true, some b => !b.asleep && (q.1.entities.handles == [h0]) | _, _ => false) &&
          (q.1.exec .id (.step (num 1 256))).test fun t =>
            (match t.2, t.1.entities.get h0, t.1.colliders.get h0 with
              | .unit, some c, some (.sphere _) => c.asleep && (t.1.entities.handles == [h0] && (t.1.colliders.handles == [h0])) | _, _, _ => false)) = true := by
    kernel_refl
  obtain ⟨⟨s, outs⟩, hplay, h⟩ := Res.of_test h
  simp only [Bool.and_eq_true, same_iff] at h
  obtain ⟨⟨ht, h⟩, hx⟩ := h
  split at h
  case h_2 => cases h
  case h_1 a g ha hg =>
  simp only [Bool.and_eq_true, same_iff, vecEq_iff] at h
  obtain ⟨hs, hm, hacc⟩ := h
  obtain ⟨⟨m, out⟩, hup, hx⟩ := Res.of_test hx
  simp only [Bool.and_eq_true] at hx
  obtain ⟨hout, hx⟩ := hx
  split at hout
  case h_2 => cases hout
  case h_1 =>
  obtain ⟨⟨m', out'⟩, hrem, hx⟩ := Res.of_test hx
  simp only [Bool.and_eq_true] at hx
  obtain ⟨hout', hx⟩ := hx
  split at hout'
  case h_2 => cases hout'
  case h_1 _ b hb =>
  simp only [Bool.and_eq_true, Bool.not_eq_true', beq_iff_eq] at hout'
  obtain ⟨hba, hbl⟩ := hout'
  obtain ⟨⟨s', out''⟩, hst, hx⟩ := Res.of_test hx
  split at hx
  case h_2 => cases hx
  case h_1 _ _ _ c sp ho2 hc hcol =>
  have ho2 : out'' = .unit := ho2
  subst ho2
  simp only [Bool.and_eq_true, beq_iff_eq] at hx
  obtain ⟨hca, hcl, hcc⟩ := hx
  have hfix : Unset System.new s := Unset.play (by simp [plain, shelfCalls]) hplay .nil
  have hinv : Inv s' := exec_inv (exec_inv (exec_inv (play_reachable hplay).inv hup) hrem) hst
  have hneat : Neat s' := by
    refine ⟨hinv, fun k x hk => ?_⟩
    have : k ∈ s'.colliders.handles := Arena.mem_handles.mpr ⟨x, hk⟩
    have hcc : s'.colliders.handles = [h0] := hcc
    rw [hcc, List.mem_singleton] at this
    subst this
    have hcol : s'.colliders.get h0 = _ := hcol
    rw [hcol] at hk; cases hk; trivial
  refine ⟨s, m, m', s', a, b, c, hfix, ha, hs, hm, ht, ?_, hup, hrem, hbl, hb, hba, hst, hc, hca, fun dt hdt n => ⟨solo_undisturbed hneat hcl hdt n, fun t hu => ?_⟩⟩
  · have : g = ⟨⟨num 0, num (-10), num 0⟩⟩ := by cases g; simp only at hacc; rw [hacc]
    rw [← this]; exact hg
  · exact C89_sleeper_hangs hdt hu (getEntity_eq_some.mpr ⟨c, hc, rfl⟩) hca
end
end Fluffy.Props
