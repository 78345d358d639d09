import Verif.Props.Links
import Verif.Proofs.Sleep
/- Properties of sleeping, of the number of iterations and of the collision records that hold for every number type. -/
set_option linter.unusedSectionVars false
set_option linter.unusedSimpArgs false
namespace Fluffy.Props
open InternalEntity Step
variable {α : Type} [Scalar α] {γ : Type} [ForceGenerator α γ]

/-- `dt` is not so small that `step` returns at once. -/
def Proper (dt : α) : Prop := Scalar.lt (Scalar.abs dt) EPSILON = false

/-! ### C24 -/

/-- **C24.** A sleeping entity that is not woken during the step keeps its pose and its sleep state, and has zero
velocities afterwards.  (Waking an entity always leaves the message `wakingUp` in the debug list of the step:
`C24_woken_is_reported`.) -/
theorem C24_sleeper_does_not_move {s s' : System α γ} {ord : IterOrder} {dt : α} (hdt : Proper dt)
    (h : s.step ord dt = .ok s') {k : Handle} {p : Entity α} (hp : s.getEntity k = some p) (ha : p.asleep = true)
    (hw : .wakingUp k ∉ s'.debug) :
    ∃ p', s'.getEntity k = some p' ∧ p'.position = p.position ∧ p'.rotation = p.rotation ∧
      p'.lastOrientation = p.lastOrientation ∧ p'.asleep = true ∧ p'.velocity = Vec3.zeros ∧
      p'.angularVelocity = Vec3.zeros := by
  obtain ⟨ph⟩ := step_phases hdt h
  obtain ⟨E, hE, rfl⟩ := getEntity_eq_some.mp hp
  obtain ⟨-, x, hx, -, -, -, hkeep⟩ := ph.watch hE
  obtain ⟨d, hd, -, hend⟩ := ph.ending
  obtain ⟨y, hy, -⟩ := ((step_frame h).1.entities).get hE
  have hw' : DebugMsg.wakingUp k ∉ ph.final.world.debug := by
    intro hc; apply hw; rw [hd]; simp [hc]
  obtain ⟨h1, h2⟩ := hkeep ha hw'
  have hr := (hend k x y hx hy).2
  unfold settle at hr
  rw [if_pos h1] at hr
  refine ⟨y.makePub, getEntity_eq_some.mpr ⟨y, hy, rfl⟩, ?_, ?_, ?_, ?_, ?_, ?_⟩
  all_goals
    rw [hr]
    simp only [makePub, h2, h1]

/-- **C24**, the message: an entity that was asleep and is not (still) asleep after the step, or is put to sleep again
during it, has been woken, and this is reported. -/
theorem C24_woken_is_reported {s s' : System α γ} {ord : IterOrder} {dt : α} (hdt : Proper dt)
    (h : s.step ord dt = .ok s') {k : Handle} {p p' : Entity α} (hp : s.getEntity k = some p)
    (hp' : s'.getEntity k = some p') (ha : p.asleep = true)
    (hw : p'.asleep = false ∨ .puttingToSleep k ∈ s'.debug ∨ p'.position ≠ p.position ∨ p'.rotation ≠ p.rotation) :
    .wakingUp k ∈ s'.debug := by
  refine Classical.byContradiction fun hn => ?_
  obtain ⟨q, hq, h1, h2, -, h3, -⟩ := C24_sleeper_does_not_move hdt h hp ha hn
  rw [hp'] at hq; cases hq
  rcases hw with hw | hw | hw | hw
  · rw [h3] at hw; cases hw
  · obtain ⟨ph⟩ := step_phases hdt h
    obtain ⟨E, hE, rfl⟩ := getEntity_eq_some.mp hp
    obtain ⟨hmsg, x, hx, -, -, -, hkeep⟩ := ph.watch hE
    obtain ⟨d, hd, -, hend⟩ := ph.ending
    obtain ⟨y, hy, -⟩ := ((step_frame h).1.entities).get hE
    have hw' : DebugMsg.wakingUp k ∉ ph.final.world.debug := by
      intro hc; apply hn; rw [hd]; simp [hc]
    obtain ⟨hxa, -⟩ := hkeep ha hw'
    rw [hd, List.mem_append, List.mem_append] at hw
    rcases hw with (hw | hw) | hw
    · exact hmsg _ hw
    · split at hw <;> simp at hw
    · have := ((hend k x y hx hy).1.mp hw).1
      rw [hxa] at this; cases this
  · exact hw h1
  · exact hw h2

/-- **C24**, corollary: in a step without collisions no sleeping entity moves or wakes, whatever the forces. -/
theorem C24_no_collision {s s' : System α γ} {ord : IterOrder} {dt : α} (hdt : Proper dt)
    (h : s.step ord dt = .ok s') (hr : s'.collisionRecords = []) {k : Handle} {p : Entity α}
    (hp : s.getEntity k = some p) (ha : p.asleep = true) :
    ∃ p', s'.getEntity k = some p' ∧ p'.position = p.position ∧ p'.rotation = p.rotation ∧ p'.asleep = true ∧
      p'.velocity = Vec3.zeros ∧ p'.angularVelocity = Vec3.zeros := by
  have hn : DebugMsg.wakingUp k ∉ s'.debug := by
    obtain ⟨ph⟩ := step_phases hdt h
    obtain ⟨d, hd, hd', -⟩ := ph.ending
    have hrec : ph.final.world.collisionRecords = [] := by
      have := (sleepLoop_frame ph.selfless ph.sleep).2
      rw [hr] at this
      cases hc : ph.concluded <;> rw [hc] at this <;> simpa using this.symm
    obtain ⟨k1, -⟩ := integrateAll_spec (Arena.handles_nodup _) ph.integrate
    have hdb : ph.final.world.debug = [] := by
      have hmid : ph.mid.debug = [] := by
        show ph.mid.toWorld.debug = []; rw [k1]
      rcases iterate_quiet ph.iterate (by rw [hrec]; simp only; rw [k1]) with ⟨-, h1, -⟩ | ⟨-, h1, -⟩
      · rw [h1]; exact hmid
      · unfold advance at h1
        obtain ⟨⟨a, is⟩, -, h1⟩ := Res.bind_eq_ok.mp h1
        simp only [Except.ok.injEq] at h1
        rw [← h1]; exact hmid
    intro hc
    rw [hd, hdb] at hc
    simp only [List.nil_append, List.mem_append] at hc
    rcases hc with hc | hc
    · split at hc <;> simp at hc
    · obtain ⟨q, hq⟩ := hd' _ hc
      cases hq
  obtain ⟨p', h1, h2, h3, -, h4, h5, h6⟩ := C24_sleeper_does_not_move hdt h hp ha hn
  exact ⟨p', h1, h2, h3, h4, h5, h6⟩

/-! ### C53 -/

/-- **C53**, reporting: a step reports that it ran out of iterations exactly when each of the `iteration_max` iterations
handled a collision, that is, wrote a record. -/
theorem C53_ran_out_iff {s s' : System α γ} {ord : IterOrder} {dt : α} (hdt : Proper dt) (h : s.step ord dt = .ok s') :
    .ranOut ∈ s'.debug ↔ s'.collisionRecords.length = s.iterationMax := by
  obtain ⟨ph⟩ := step_phases hdt h
  obtain ⟨k1, -⟩ := integrateAll_spec (Arena.handles_nodup _) ph.integrate
  obtain ⟨d, hd, hd', -⟩ := ph.ending
  have hrec : s'.collisionRecords = ph.final.world.collisionRecords := by
    have := (sleepLoop_frame ph.selfless ph.sleep).2
    cases hc : ph.concluded <;> rw [hc] at this <;> simpa using this
  have hmid : ph.mid.collisionRecords = [] := by show ph.mid.toWorld.collisionRecords = []; rw [k1]
  have hcount := iterate_count ph.iterate
  simp only [hmid, List.length_nil, Nat.zero_add] at hcount
  have hmsgs : ∀ m ∈ ph.final.world.debug, IsWake m := by
    have := iterate_induct (ord := ord) (dt := dt) (P := fun st => ∀ m ∈ st.world.debug, IsWake m)
      (fun st best w st1 hp h1 h2 h3 => by
        have hw : ∀ m ∈ w.debug, IsWake m := by
          unfold wakeColliding at h2
          split at h2
          · cases h2; exact hp
          · obtain ⟨m, g1, g2⟩ := Res.bind_eq_ok.mp h2
            have step : ∀ {hh : Handle} {a b : World α}, (∀ m ∈ a.debug, IsWake m) → wakeIfFinite ord hh a = .ok b →
                ∀ m ∈ b.debug, IsWake m := by
              intro hh a b ha hb
              obtain ⟨x, -, (⟨-, rfl⟩ | ⟨-, ar, d, hr, rfl⟩)⟩ := wakeIfFinite_spec hb
              · exact ha
              · obtain ⟨⟨l, rfl, hl⟩, -⟩ := wakeUp_debug hr
                intro m hm
                rcases List.mem_append.mp hm with hm | hm
                · exact ha m hm
                · exact hl m hm
            exact step (step hp g1) g2
        have hd1 : st1.world.debug = w.debug := by
          unfold advance at h3
          obtain ⟨⟨a, is⟩, -, h3⟩ := Res.bind_eq_ok.mp h3
          cases h3; rfl
        refine ⟨fun _ => by rw [hd1]; exact hw, fun q st2 _ h4 => ?_⟩
        obtain ⟨first, second, i1, i2, -, -, -, -, -, h5⟩ := respond_spec h4
        rw [h5]; simp only; rw [hd1]; exact hw)
      (by simp only; rw [show ph.mid.toWorld.debug = [] by rw [k1]]; simp) ph.iterate
    exact this
  have hran : .ranOut ∈ s'.debug ↔ ph.concluded = false := by
    rw [hd]
    simp only [List.mem_append]
    constructor
    · rintro ((hm | hm) | hm)
      · exact (hmsgs _ hm).elim
      · split at hm
        · simp at hm
        · rename_i hc; simpa using hc
      · obtain ⟨q, hq⟩ := hd' _ hm; cases hq
    · intro hc; left; right; rw [hc]; simp
  rw [hran, hrec]
  cases hc : ph.concluded <;> rw [hc] at hcount <;> simp at hcount ⊢ <;> omega

/-- **C53**, no iterations: with `iteration_max = 0` nothing moves. -/
theorem C53_no_iterations {s s' : System α γ} {ord : IterOrder} {dt : α} (h : s.step ord dt = .ok s')
    (h0 : s.iterationMax = 0) {k : Handle} {p p' : Entity α} (hp : s.getEntity k = some p)
    (hp' : s'.getEntity k = some p') :
    p'.position = p.position ∧ p'.rotation = p.rotation ∧ p'.lastOrientation = p.lastOrientation := by
  obtain ⟨E, hE, rfl⟩ := getEntity_eq_some.mp hp
  obtain ⟨y, hy, rfl⟩ := getEntity_eq_some.mp hp'
  suffices y.orientation = E.orientation by simp [makePub, this]
  cases hdt : Scalar.lt (Scalar.abs dt) EPSILON with
  | true =>
    rw [C20_negligible_step s ord dt hdt] at h; cases h
    rw [hE] at hy; cases hy; rfl
  | false =>
    obtain ⟨ph⟩ := step_phases hdt h
    obtain ⟨-, -, k3, -, -, -⟩ := integrateAll_spec (Arena.handles_nodup _) ph.integrate
    obtain ⟨d, -, -, hend⟩ := ph.ending
    have hfin := ph.iterate
    rw [h0] at hfin
    unfold iterate at hfin
    simp only [Except.ok.injEq, Prod.mk.injEq] at hfin
    obtain ⟨x, hx, hv⟩ := k3.get hE
    have hr := (hend k x y (by rw [← hfin.1]; exact hx) hy).2
    have : (settle s.toWorld dt x).orientation = x.orientation := by
      unfold settle; split
      · rfl
      · split <;> rfl
    rw [hr, this, hv]

/-! ### C30, the part that holds for every number type -/

/-- **C30**, bounds and names: after a proper step there are at most `iteration_max` records, each naming two
different live entities. -/
theorem C30_records_bounded {s s' : System α γ} {ord : IterOrder} {dt : α} (hdt : Proper dt) (h : s.step ord dt = .ok s') :
    s'.collisionRecords.length ≤ s.iterationMax ∧
    ∀ r ∈ s'.collisionRecords, r.firstEntity ≠ r.secondEntity ∧ s'.getEntity r.firstEntity ≠ none ∧
      s'.getEntity r.secondEntity ≠ none := by
  obtain ⟨ph⟩ := step_phases hdt h
  obtain ⟨k1, -, k3, -⟩ := integrateAll_spec (Arena.handles_nodup _) ph.integrate
  have hrec : s'.collisionRecords = ph.final.world.collisionRecords := by
    have := (sleepLoop_frame ph.selfless ph.sleep).2
    cases hc : ph.concluded <;> rw [hc] at this <;> simpa using this
  have hmid : ph.mid.collisionRecords = [] := by show ph.mid.toWorld.collisionRecords = []; rw [k1]
  have hcount := iterate_count ph.iterate
  simp only [hmid, List.length_nil, Nat.zero_add] at hcount
  refine ⟨?_, ?_⟩
  · rw [hrec]; split at hcount <;> omega
  · intro r hr
    rw [hrec] at hr
    obtain ⟨l, hl, hall⟩ := iterate_record ph.iterate
    simp only [hmid, List.nil_append] at hl
    rw [hl] at hr
    obtain ⟨i, hi, hir⟩ := List.mem_iff_getElem.mp hr
    obtain ⟨st1, k, w, st2, first, second, i1, i2, q1, q2, q3, q4, q5, q6, q7, q8, rfl⟩ :=
      hall i r (by rw [List.getElem?_eq_getElem hi, hir])
    have hc := (searchFirst_contact q2).indices
    have inv1 := iterate_inv (Arena.handles_nodup _) ph.inv0 q1
    obtain ⟨-, hne, -, -, -, -, -, -, f, g, hf, hg⟩ := hc
    have live : ∀ {q : Handle} {e : InternalEntity α}, st1.world.entities.get q = some e → s'.getEntity q ≠ none := by
      intro q e he
      obtain ⟨e0, he0, -⟩ := inv1.frame.entities.get' he
      obtain ⟨e1, he1, -⟩ := ((step_frame h).1.entities).get he0
      rw [Ne, getEntity_eq_none, he1]; simp
    exact ⟨hne, live hf, live hg⟩

end Fluffy.Props
