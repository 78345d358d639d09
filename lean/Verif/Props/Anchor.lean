import Verif.Proofs.Anchor
import Verif.Props.Rest
import Verif.Props.Inertia

/-! C80: an immovable body at rest never moves, in exact arithmetic and in binary32. -/

set_option linter.unusedSectionVars false
set_option linter.unusedSimpArgs false

namespace Fluffy.Props
open Step Rest InfLaws InternalEntity
variable {α : Type} [Scalar α] [InfLaws α] {γ : Type} [ForceGenerator α γ]

/-- All entries are zero. -/
def MZero (m : Mat3 α) : Prop := Zero m.r1 ∧ Zero m.r2 ∧ Zero m.r3

/-- An immovable body at rest: its mass is infinite, its inverse moment of inertia is zero, its pose is finite, and it does not move. -/
structure Anchored (e : InternalEntity α) : Prop where
  mass : Scalar.isInfinite e.totalMass = true
  inverse : MZero e.inverseMomentOfInertia
  position : Fin e.orientation.position
  rotation : QFin e.orientation.rotation
  velocity : Zero e.velocity
  angularVelocity : Zero e.angularVelocity

theorem VSim.zero {v w : Vec3 α} (h : VSim v w) (h' : Zero w) : Zero v :=
  ⟨by rw [ZeroLaws.sim_eq h.1]; exact h'.1, by rw [ZeroLaws.sim_eq h.2.1]; exact h'.2.1, by rw [ZeroLaws.sim_eq h.2.2]; exact h'.2.2⟩

theorem MSim.zero {v w : Mat3 α} (h : MSim v w) (h' : MZero w) : MZero v := ⟨VSim.zero h.1 h'.1, VSim.zero h.2.1 h'.2.1, VSim.zero h.2.2 h'.2.2⟩

theorem Still.mzero {e e' : InternalEntity α} (h : Still e e') (hi : MZero e.inverseMomentOfInertia) : MZero e'.inverseMomentOfInertia := by
  have key : ∀ x : InternalEntity α, x.inverseMomentOfInertia = x.momentOfInertia.tryInverse.getD Mat3.zeros := by
    intro x; unfold InternalEntity.inverseMomentOfInertia; cases x.momentOfInertia.tryInverse <;> rfl
  rw [key] at hi ⊢
  refine MSim.zero (MSim.inverse ?_) hi
  unfold InternalEntity.momentOfInertia Orientation.finalizeMomentOfInertia rotateMomentOfInertia
  rw [h.moment]
  have hm := h.rotation.matrix
  exact (hm.mul (.refl _)).mul hm.transpose

theorem fin_of_add {v w : Vec3 α} (h : Fin (v + w)) : Fin v ∧ Fin w :=
  ⟨⟨(finite_add h.1).1, (finite_add h.2.1).1, (finite_add h.2.2).1⟩, (finite_add h.1).2, (finite_add h.2.1).2, (finite_add h.2.2).2⟩

/-- If a vector times zero is finite, it is zero. -/
theorem zero_of_scale {v : Vec3 α} {k : α} (hk : Scalar.eq k zero = true) (h : Fin (v.scale k)) : Zero (v.scale k) :=
  ⟨ZeroLaws.mul_zero (finite_mul h.1).1 hk, ZeroLaws.mul_zero (finite_mul h.2.1).1 hk, ZeroLaws.mul_zero (finite_mul h.2.2).1 hk⟩

theorem zero_of_dot {u v : Vec3 α} (hu : Zero u) (h : Scalar.isFinite (u.dot v) = true) : Scalar.eq (u.dot v) zero = true := by
  obtain ⟨h, h3⟩ := finite_add h
  obtain ⟨h1, h2⟩ := finite_add h
  exact hu.dot ⟨(finite_mul h1).2, (finite_mul h2).2, (finite_mul h3).2⟩

theorem zero_of_mulVec {m : Mat3 α} {v : Vec3 α} (hm : MZero m) (h : Fin (m.mulVec v)) : Zero (m.mulVec v) :=
  ⟨zero_of_dot hm.1 h.1, zero_of_dot hm.2.1 h.2.1, zero_of_dot hm.2.2 h.2.2⟩

/-- The velocities of a body are not all finite. -/
def Burst (e : InternalEntity α) : Prop := ¬(Fin e.velocity ∧ Fin e.angularVelocity)

theorem burst_kick {e : InternalEntity α} (h : Burst e) (p j : Vec3 α) : Burst (e.applyImpulse p j) := by
  rintro ⟨h1, h2⟩
  exact h ⟨(fin_of_add h1).1, (fin_of_add h2).1⟩

/-- An impulse leaves an immovable body at rest, or makes its velocity something that is not finite. -/
theorem anchor_kick {e : InternalEntity α} (hm : Scalar.isInfinite e.totalMass = true) (hi : MZero e.inverseMomentOfInertia)
    (hv : Zero e.velocity) (hw : Zero e.angularVelocity) (p j : Vec3 α) :
    (Zero (e.applyImpulse p j).velocity ∧ Zero (e.applyImpulse p j).angularVelocity) ∨ Burst (e.applyImpulse p j) := by
  by_cases h : Burst (e.applyImpulse p j)
  · exact Or.inr h
  · obtain ⟨h1, h2⟩ := not_not.mp h
    exact Or.inl ⟨hv.add (zero_of_scale (div_inf hm) (fin_of_add h1).2), hw.add (zero_of_mulVec hi (fin_of_add h2).2)⟩

/-- Where an immovable body is in the course of a step: still in place, or with velocities that are not finite. -/
def Held (e0 e : InternalEntity α) (i : StepInfo α) : Prop :=
  (Still e0 e ∧ Zero e.velocity ∧ Zero e.angularVelocity ∧ Zero i.linearMovement ∧ Zero i.angularMovement) ∨
    (Burst e ∧ (e.asleep = true → Still e0 e))

theorem held_kick {e0 e : InternalEntity α} {i : StepInfo α} (ha : Anchored e0) (hm : e.totalMass = e0.totalMass) (h : Held e0 e i)
    (p j : Vec3 α) {t : α} (ht : Scalar.isFinite t = true) :
    Held e0 (applyCollisionImpulse e i p j t).1 (applyCollisionImpulse e i p j t).2 := by
  rcases h with ⟨hs, hv, hw, -, -⟩ | ⟨hb, hs⟩
  · have hst : Still e0 (e.applyImpulse p j) := ⟨hs.position, hs.rotation, hs.moment⟩
    rcases anchor_kick (hm ▸ ha.mass) (Still.mzero hs ha.inverse) hv hw p j with ⟨h1, h2⟩ | h
    · exact Or.inl ⟨hst, h1, h2, h1.scale ht, h2.scale ht⟩
    · exact Or.inr ⟨h, fun _ => hst⟩
  · exact Or.inr ⟨burst_kick hb p j, fun h => ⟨(hs h).position, (hs h).rotation, (hs h).moment⟩⟩

theorem held_moved {e0 e : InternalEntity α} {i : StepInfo α} (ha : Anchored e0) (h : Held e0 e i) {p : α}
    (h0 : Scalar.le zero p = true) (h1 : Scalar.le p one = true) : Held e0 (moved p i e) (shrink p i) := by
  have hp := unit_finite h0 h1
  have hp' := sub_finite h0 h1
  rcases h with ⟨hs, hv, hw, hl, hr⟩ | ⟨hb, hs⟩
  · refine Or.inl ⟨?_, ?_, ?_, hl.scale hp', hr.scale hp'⟩
    · unfold moved
      split
      · exact hs
      · have hq : QFin e.orientation.rotation := hs.rotation.fin ha.rotation
        have hx : Fin e.orientation.position := hs.position.fin ha.position
        refine ⟨(hx.add_zero (hl.scale hp)).trans hs.position, QSame.trans ?_ hs.rotation, hs.moment⟩
        show QSame ((Quat.fromScaledAxis (i.angularMovement.scale p)).mul e.orientation.rotation) e.orientation.rotation
        rw [fromScaledAxis_zero (hr.scale hp)]; exact identity_mul hq
    · unfold moved; split <;> exact hv
    · unfold moved; split <;> exact hw
  · unfold moved
    split
    · rename_i hc; exact Or.inr ⟨hb, hs⟩
    · rename_i hc; exact Or.inr ⟨hb, fun h => absurd h hc⟩

theorem held_wake {e0 e e' : InternalEntity α} {i : StepInfo α} (h : Held e0 e i) (hw : WakeRel e e') (hs : e'.asleep = true → e.asleep = true) :
    Held e0 e' i := by
  have ho : e'.orientation = e.orientation := by rw [hw]
  have hp : e'.preppedMoment = e.preppedMoment := by rw [hw]
  have hv : e'.velocity = e.velocity := by rw [hw]
  have hr : e'.angularVelocity = e.angularVelocity := by rw [hw]
  have st : Still e0 e → Still e0 e' := fun h => ⟨by rw [ho]; exact h.position, by rw [ho]; exact h.rotation, by rw [hp]; exact h.moment⟩
  unfold Held Burst at *
  rw [hv, hr]
  rcases h with ⟨h1, h2⟩ | ⟨h1, h2⟩
  · exact Or.inl ⟨st h1, h2⟩
  · exact Or.inr ⟨h1, fun h => st (h2 (hs h))⟩

omit [InfLaws α] in
/-- Waking puts nothing to sleep. -/
theorem wakeColliding_asleep {ord : IterOrder} {best : Option (Candidate α)} {w w' : World α} (hh : wakeColliding ord best w = .ok w')
    {h : Handle} {x y : InternalEntity α} (hx : w.entities.get h = some x) (hy : w'.entities.get h = some y) (ha : y.asleep = true) : x.asleep = true := by
  have one : ∀ {w w' : World α} {g : Handle}, wakeIfFinite ord g w = .ok w' → ∀ {x y : InternalEntity α}, w.entities.get h = some x →
      w'.entities.get h = some y → y.asleep = true → x.asleep = true := by
    intro w w' g hh x y hx hy ha
    obtain ⟨e, -, (⟨-, rfl⟩ | ⟨-, b, d, hr, rfl⟩)⟩ := wakeIfFinite_spec hh
    · rw [hx] at hy; cases hy; exact ha
    · obtain ⟨h1, h2, -⟩ := (wakeUp_spec hr).2.1 h x y hx hy
      by_cases hc : Cluster w.entities g h
      · rw [(h1 hc).1] at ha; cases ha
      · rw [← (h2 hc).1]; exact ha
  unfold wakeColliding at hh
  split at hh
  · cases hh; rw [hx] at hy; cases hy; exact ha
  · obtain ⟨m, h1, h2⟩ := Res.bind_eq_ok.mp hh
    obtain ⟨z, hz, -⟩ := (wakeIfFinite_evolves h1).2.get hx
    exact one h1 hx hz (one h2 hz hy ha)

/-- What is kept in the course of a step. -/
def Hold (h : Handle) (e0 : InternalEntity α) (st : LoopState α) : Prop :=
  Scalar.isFinite st.timeLeft = true ∧ ∀ i ∈ st.infos, i.handle = h → ∀ e, st.world.entities.get h = some e → Held e0 e i

theorem hold_respond {w0 : World α} {hs : List Handle} {dt : α} {k : Candidate α} {st st' : LoopState α} {h : Handle} {e0 : InternalEntity α}
    (hnd : hs.Nodup) (inv : LoopInv w0 hs st) (h0 : w0.entities.get h = some e0) (ha : Anchored e0)
    (hk : ∃ i1 i2, st.infos[k.firstIndex]? = some i1 ∧ st.infos[k.secondIndex]? = some i2 ∧ i1.handle = k.firstHandle ∧ i2.handle = k.secondHandle)
    (hp : Hold h e0 st) (hh : respond dt k st = .ok st') : Hold h e0 st' := by
  obtain ⟨first, second, i1, i2, hne, hf, hs', g1, g2, rfl⟩ := respond_spec hh
  obtain ⟨j1, j2, e1, e2, e3, e4⟩ := hk
  rw [g1] at e1; cases e1; rw [g2] at e2; cases e2
  obtain ⟨ht, hp⟩ := hp
  refine ⟨ht, ?_⟩
  have mass : ∀ e, st.world.entities.get h = some e → e.totalMass = e0.totalMass :=
    fun e he => (staticRel_iff.mp (inv.frame.entities.2 h e0 e h0 he)).2.2.1
  have hu : ∀ (m n : Nat) (a b : StepInfo α), st.infos[m]? = some a → st.infos[n]? = some b → a.handle = b.handle → m = n := by
    intro m n a b hm hn hab
    have hnd' : (st.infos.map StepInfo.handle).Nodup := by rw [inv.handles]; exact hnd
    obtain ⟨lm, -⟩ := List.getElem?_eq_some_iff.mp hm
    refine (List.getElem?_inj (by simpa using lm) hnd').mp ?_
    rw [List.getElem?_map, List.getElem?_map, hm, hn]; simp [hab]
  intro i hi hih e he
  rw [respond_get hne hf hs'] at he
  obtain ⟨n, hn⟩ := List.mem_iff_getElem?.mp hi
  simp only at hn
  split at he
  · rename_i hhk
    cases he
    have : n = k.secondIndex := by
      by_contra hc
      rw [List.getElem?_set_ne (Ne.symm hc), List.getElem?_set] at hn
      split at hn
      · split at hn
        · cases hn
          have hi1 : (respondPair k (st.currentPercent * dt) st.timeLeft first second i1 i2).firstInfo.handle = i1.handle := by
            unfold respondPair; simp only; split <;> rfl
          rw [hi1, e3] at hih
          exact hne (hih.trans hhk)
        · cases hn
      · exact hc (hu n _ i i2 hn g2 (by rw [hih, e4, hhk]))
    subst this
    rw [List.getElem?_set] at hn
    split at hn
    · split at hn
      · cases hn
        have hold := hp i2 (List.mem_of_getElem? g2) (by rw [e4, hhk]) second (by rw [hhk]; exact hs')
        have hm := mass second (by rw [hhk]; exact hs')
        have r1 := held_kick ha hm hold k.collision.position (-collisionImpulse first second k.restitution k.collision) ht
        unfold respondPair
        simp only
        have r2 := held_kick ha (e := (applyCollisionImpulse second i2 k.collision.position (-collisionImpulse first second k.restitution k.collision) st.timeLeft).1)
          (by rw [← hm]; rfl) r1 k.collision.position (-(frictionImpulse (applyCollisionImpulse first i1 k.collision.position (collisionImpulse first second k.restitution k.collision) st.timeLeft).1
            (applyCollisionImpulse second i2 k.collision.position (-collisionImpulse first second k.restitution k.collision) st.timeLeft).1
            (collisionImpulse first second k.restitution k.collision) k).1) ht
        split
        · exact r2
        · exact r2
      · cases hn
    · rename_i hc; exact absurd rfl hc
  · rename_i hns
    split at he
    · rename_i hhk
      cases he
      have hne2 : n ≠ k.secondIndex := by
        rintro rfl
        rw [List.getElem?_set] at hn
        split at hn
        · split at hn
          · cases hn
            have hi2 : (respondPair k (st.currentPercent * dt) st.timeLeft first second i1 i2).secondInfo.handle = i2.handle := by
              unfold respondPair; simp only; split <;> rfl
            rw [hi2, e4] at hih
            exact hns hih.symm
          · cases hn
        · rename_i hc; exact absurd rfl hc
      rw [List.getElem?_set_ne (Ne.symm hne2), List.getElem?_set] at hn
      split at hn
      · split at hn
        · cases hn
          have hold := hp i1 (List.mem_of_getElem? g1) (by rw [e3, hhk]) first (by rw [hhk]; exact hf)
          have hm := mass first (by rw [hhk]; exact hf)
          have r1 := held_kick ha hm hold k.collision.position (collisionImpulse first second k.restitution k.collision) ht
          unfold respondPair
          simp only
          have r2 := held_kick ha (e := (applyCollisionImpulse first i1 k.collision.position (collisionImpulse first second k.restitution k.collision) st.timeLeft).1)
            (by rw [← hm]; rfl) r1 k.collision.position (frictionImpulse (applyCollisionImpulse first i1 k.collision.position (collisionImpulse first second k.restitution k.collision) st.timeLeft).1
              (applyCollisionImpulse second i2 k.collision.position (-collisionImpulse first second k.restitution k.collision) st.timeLeft).1
              (collisionImpulse first second k.restitution k.collision) k).1 ht
          split
          · exact r2
          · exact r2
        · cases hn
      · rename_i hc
        exact absurd (hu _ _ i1 i g1 hn (by rw [hih, e3, hhk])) hc
    · rename_i hnf
      have : i ∈ st.infos := by
        have hi1 : (respondPair k (st.currentPercent * dt) st.timeLeft first second i1 i2).firstInfo.handle = i1.handle := by
          unfold respondPair; simp only; split <;> rfl
        have hi2 : (respondPair k (st.currentPercent * dt) st.timeLeft first second i1 i2).secondInfo.handle = i2.handle := by
          unfold respondPair; simp only; split <;> rfl
        rcases List.mem_or_eq_of_mem_set hi with hi | hi
        · rcases List.mem_or_eq_of_mem_set hi with hi | hi
          · exact hi
          · rw [hi, hi1, e3] at hih; exact absurd hih.symm hnf
        · rw [hi, hi2, e4] at hih; exact absurd hih.symm hns
      exact hp i this hih e he

variable [LawfulOrder α]

theorem iterate_hold {w0 : World α} {hs : List Handle} (hnd : hs.Nodup) {ord : IterOrder} {dt : α} {n : Nat} {st st' : LoopState α} {c : Bool} {h : Handle}
    {e0 : InternalEntity α} (inv : LoopInv w0 hs st) (h0 : w0.entities.get h = some e0) (ha : Anchored e0) (hp : Hold h e0 st)
    (hh : iterate ord dt n st = .ok (st', c)) : Hold h e0 st' := by
  refine (iterate_induct (P := fun st => LoopInv w0 hs st ∧ Hold h e0 st) ?_ ⟨inv, hp⟩ hh).2
  rintro st best w st1 ⟨inv, ht, hp⟩ h1 h2 h3
  have b := loopInv_body (dt := dt) hnd inv h1 h2 h3
  have hperc : Scalar.le zero (percentOf best) = true ∧ Scalar.le (percentOf best) one = true := by
    cases best with
    | none => exact ⟨zero_le_one, one_le_one⟩
    | some k =>
      obtain ⟨_, _, _, _, -, -, -, _, _, -, -, -, -, -, _, -, _, -, _, _, q, -, -, hq, -, rfl⟩ := searchFirst_contact h1
      obtain ⟨-, q1, q2, q3⟩ := C52_times hq
      exact ⟨q1, le_trans' q2 q3⟩
  have hnd' : (st.infos.map StepInfo.handle).Nodup := by rw [inv.handles]; exact hnd
  obtain ⟨a1, -, a3, a4⟩ := advance_spec (st := { st with world := w }) hnd' h3
  have hold1 : Hold h e0 st1 := by
    constructor
    · rw [a1]; exact mul_finite ht hperc.1 hperc.2
    · intro i hi hih e he
      have hinf : st1.infos = st.infos.map (shrink (percentOf best)) := by rw [a1]
      rw [hinf] at hi
      obtain ⟨j, hj, rfl⟩ := List.mem_map.mp hi
      have hjh : j.handle = h := hih
      obtain ⟨x, hx, hx'⟩ := a4 j hj
      rw [hjh] at hx hx'
      rw [hx'] at he; cases he
      obtain ⟨hw1, hw2⟩ := wakeColliding_evolves h2
      obtain ⟨y, hy, hyx⟩ := hw2.get' hx
      exact held_moved ha (held_wake (hp j hj hjh y hy) hyx (wakeColliding_asleep h2 hy hx)) hperc.1 hperc.2
  refine ⟨fun _ => ⟨b.1, hold1⟩, fun k st2 hb h4 => ⟨b.2 k st2 hb h4, ?_⟩⟩
  subst hb
  exact hold_respond hnd b.1 h0 ha (contact_infos hnd' h1 h3).1 hold1 h4

theorem MZero.fin {m : Mat3 α} (h : MZero m) : MFin m := ⟨h.1.fin, h.2.1.fin, h.2.2.fin⟩

/-- Forces do nothing to an immovable body. -/
theorem integrateAll_anchor {dt : α} (hdt : Scalar.isFinite dt = true) {gens : List Handle} {h : Handle} :
    ∀ {l : List Handle} {s s' : System α γ} {infos : List (StepInfo α)} {e : InternalEntity α}, s.entities.get h = some e → Anchored e →
    integrateAll dt gens l s = .ok (s', infos) → ∃ e', s'.entities.get h = some e' ∧ Anchored e'
  | [], s, s', infos, e, he, ha, hh => by unfold integrateAll at hh; cases hh; exact ⟨e, he, ha⟩
  | k :: l, s, s', infos, e, he, ha, hh => by
    unfold integrateAll at hh
    obtain ⟨⟨m, i⟩, h1, hh⟩ := Res.bind_eq_ok.mp hh
    obtain ⟨⟨s2, is⟩, h2, hh⟩ := Res.bind_eq_ok.mp hh
    cases hh
    obtain ⟨x, g, a, t, hx, hg, rfl, rfl⟩ := integrateOne_spec h1
    by_cases hk : h = k
    · subst hk
      rw [he] at hx; cases hx
      obtain ⟨rfl, rfl⟩ : a = Vec3.zeros ∧ t = Vec3.zeros := by
        unfold Accelerates at hg
        rw [inf_infinite ha.mass] at hg
        cases hg; exact ⟨rfl, rfl⟩
      refine integrateAll_anchor hdt (Arena.get_set_self he _) ?_ h2
      exact ⟨ha.mass, ha.inverse, ha.position, ha.rotation, ha.velocity.add (zeros_zero.scale hdt),
        ha.angularVelocity.add (ha.inverse.fin.mulVec (zeros_zero.scale hdt))⟩
    · exact integrateAll_anchor hdt (by simp only; rw [Arena.get_set_ne hk]; exact he) ha h2

/-- **C80, one step.** Whatever the other bodies and the forces are, after a step an immovable body that was at rest is still one, exactly
where it was, or its velocity or angular velocity is not finite. -/
theorem C80_step_partial {s s' : System α γ} {ord : IterOrder} {dt : α} (hdt : Scalar.isFinite dt = true) {h : Handle} {e : InternalEntity α}
    (he : s.entities.get h = some e) (ha : Anchored e) (hh : s.step ord dt = .ok s') :
    ∃ e', s'.entities.get h = some e' ∧ ((Anchored e' ∧ Still e e') ∨ Burst e') := by
  have hself : Still e e := ⟨ha.position.same, ha.rotation.same, rfl⟩
  by_cases hp : Scalar.lt (Scalar.abs dt) EPSILON = true
  · rw [C20_negligible_step s ord dt hp] at hh; cases hh
    exact ⟨e, he, Or.inl ⟨ha, hself⟩⟩
  obtain ⟨p⟩ := step_phases (by simpa using hp) hh
  obtain ⟨x, hx, hxa⟩ := integrateAll_anchor hdt (s := { s with collisionRecords := [], debug := [] }) he ha p.integrate
  obtain ⟨k1, k2, k3, k4, k5, k6⟩ := integrateAll_spec (Arena.handles_nodup _) p.integrate
  have hex : Still e x := by
    have := k3.2 h e x he hx
    rw [VelRel] at this
    rw [this]; exact ⟨ha.position.same, ha.rotation.same, rfl⟩
  have hold0 : Hold h e ⟨p.mid.toWorld, p.infos, dt, zero⟩ := by
    refine ⟨hdt, ?_⟩
    intro i hi hih y hy
    rw [hx] at hy; cases hy
    obtain ⟨z, hz, hiz⟩ := k6 i hi
    rw [hih, hx] at hz; cases hz
    refine Or.inl ⟨hex, hxa.velocity, hxa.angularVelocity, ?_, ?_⟩
    · rw [hiz]; exact hxa.velocity.scale hdt
    · rw [hiz]; exact hxa.angularVelocity.scale hdt
  obtain ⟨-, hold⟩ := iterate_hold (Arena.handles_nodup _) p.inv0 he ha hold0 p.iterate
  have hnd : (p.final.infos.map StepInfo.handle).Nodup := by rw [p.inv.handles]; exact Arena.handles_nodup _
  have hmem : h ∈ p.final.infos.map StepInfo.handle := by rw [p.inv.handles]; exact Arena.mem_handles.mpr ⟨e, he⟩
  obtain ⟨i, hi, hih⟩ := List.mem_map.mp hmem
  obtain ⟨y, hy, hys⟩ := p.inv.frame.entities.get he
  obtain ⟨fr, -⟩ := sleepLoop_frame p.selfless p.sleep
  have hw0 : ∀ h, (if p.concluded then p.final.world else { p.final.world with debug := p.final.world.debug ++ [.ranOut] }).entities.get h =
      p.final.world.entities.get h := by intro h; split <;> rfl
  obtain ⟨z, hz, -⟩ := fr.entities.get (show _ = some y from (hw0 h).trans hy)
  have hrel := sleepLoop_spec hnd p.selfless p.sleep h y z ((hw0 h).trans hy) hz
  rw [if_pos hmem, NeighborRel] at hrel
  generalize (if p.concluded then p.final.world else { p.final.world with debug := p.final.world.debug ++ [.ranOut] }) = w at hrel
  have hmass : y.totalMass = e.totalMass := (staticRel_iff.mp hys).2.2.1
  refine ⟨z, hz, ?_⟩
  rcases hold i hi hih y hy with ⟨hs, hv, hw, -, -⟩ | ⟨hb, hs⟩
  · left
    have ho : z.orientation = y.orientation := by rw [hrel]; unfold settle; split <;> [rfl; (split <;> rfl)]
    have hm : z.preppedMoment = y.preppedMoment := by rw [hrel]; unfold settle; split <;> [rfl; (split <;> rfl)]
    have ht : z.totalMass = y.totalMass := by rw [hrel]; unfold settle; split <;> [rfl; (split <;> rfl)]
    have st : Still e z := ⟨by rw [ho]; exact hs.position, by rw [ho]; exact hs.rotation, by rw [hm]; exact hs.moment⟩
    refine ⟨⟨by rw [ht, hmass]; exact ha.mass, Still.mzero st ha.inverse, st.position.fin ha.position, st.rotation.fin ha.rotation, ?_, ?_⟩, st⟩
    · rw [hrel]; unfold settle; split <;> [exact zeros_zero; (split <;> exact hv)]
    · rw [hrel]; unfold settle; split <;> [exact zeros_zero; (split <;> exact hw)]
  · by_cases hsl : y.asleep = true
    · left
      have hz' : z = { y with velocity := Vec3.zeros, angularVelocity := Vec3.zeros, neighbors := z.neighbors } := by
        have hset : settle w dt y = { y with velocity := Vec3.zeros, angularVelocity := Vec3.zeros } := by unfold settle; rw [if_pos hsl]
        rw [hset] at hrel; exact hrel
      have hs := hs hsl
      have st : Still e z := by rw [hz']; exact ⟨hs.position, hs.rotation, hs.moment⟩
      refine ⟨⟨by rw [hz']; exact hmass ▸ ha.mass, Still.mzero st ha.inverse, st.position.fin ha.position, st.rotation.fin ha.rotation, ?_, ?_⟩, st⟩
      · rw [hz']; exact zeros_zero
      · rw [hz']; exact zeros_zero
    · right
      have hv : z.velocity = y.velocity := by rw [hrel]; unfold settle; rw [if_neg hsl]; split <;> rfl
      have hw : z.angularVelocity = y.angularVelocity := by rw [hrel]; unfold settle; rw [if_neg hsl]; split <;> rfl
      unfold Burst; rw [hv, hw]; exact hb

/-- Calls of `step` one after the other, with finite lengths, after each of which the velocities of entity `h` are finite. -/
inductive SaneRun (h : Handle) : System α γ → List (IterOrder × α) → System α γ → Prop where
  | nil {s : System α γ} : SaneRun h s [] s
  | cons {s m s' : System α γ} {ord : IterOrder} {dt : α} {l : List (IterOrder × α)} : Scalar.isFinite dt = true →
      s.step ord dt = .ok m → (∀ p, m.getEntity h = some p → Fin p.velocity ∧ Fin p.angularVelocity) → SaneRun h m l s' → SaneRun h s ((ord, dt) :: l) s'

/-- **C80.** An immovable body at rest - infinite mass, no moment of inertia - stays at rest and exactly in its place during any number of steps of any
lengths, whatever hits it, rests on it or pulls it, as long as the velocities reported for it are finite after every step. -/
theorem C80_partial {h : Handle} : ∀ {l : List (IterOrder × α)} {s s' : System α γ} {e : InternalEntity α}, s.entities.get h = some e → Anchored e →
    SaneRun h s l s' → ∃ e', s'.entities.get h = some e' ∧ Anchored e' ∧ Still e e'
  | _, _, _, e, he, ha, .nil => ⟨e, he, ha, ha.position.same, ha.rotation.same, rfl⟩
  | _, s, s', e, he, ha, .cons (m := m) hdt hh hf hc => by
    obtain ⟨x, hx, h'⟩ := C80_step_partial hdt he ha hh
    have hfin := hf x.makePub (getEntity_eq_some.mpr ⟨x, hx, rfl⟩)
    rcases h' with ⟨h1, h2⟩ | h'
    · obtain ⟨y, hy, h3, h4⟩ := C80_partial hx h1 hc
      exact ⟨y, hy, h3, h2.trans h4⟩
    · exact absurd hfin h'

end Fluffy.Props

namespace Fluffy.Props
open XReal Rest

/-- **C80 (which bodies it is about).** In every reachable state of exact arithmetic, a body at rest with a linked collider of infinite mass and a finite pose is
one that `C80_partial` speaks of. -/
theorem C80_from_collider {γ : Type} [ForceGenerator XReal γ] {s : System XReal γ} (hr : Reachable s) {k : Handle} {E : InternalEntity XReal}
    (hE : s.entities.get k = some E) (hf : FinitePose E.orientation) (hi : ∃ c ∈ linked s E.makePub, c.mass = posInf)
    (hv : Zero E.velocity) (hw : Zero E.angularVelocity) : Anchored E := by
  obtain ⟨h1, -, h3⟩ := C36_from_collider hr hE hf hi
  exact ⟨by rw [h1]; simp, by rw [h3]; exact ⟨zeros_zero, zeros_zero, zeros_zero⟩, hf.position, ⟨hf.w, hf.v⟩, hv, hw⟩

end Fluffy.Props

namespace Fluffy.Props
open F32 Demo Rest Step
variable [Libm]

def mzeroTest (m : Mat3 F32) : Bool := zeroTest m.r1 && (zeroTest m.r2 && zeroTest m.r3)
def anchorTest (e : InternalEntity F32) : Bool := Scalar.isInfinite e.totalMass && mzeroTest e.inverseMomentOfInertia && finTest e.orientation.position &&
  (Scalar.isFinite e.orientation.rotation.w && finTest e.orientation.rotation.vec) && zeroTest e.velocity && zeroTest e.angularVelocity
theorem mzeroTest_iff {m : Mat3 F32} : mzeroTest m = true ↔ MZero m := by simp only [mzeroTest, MZero, Bool.and_eq_true, zeroTest_iff]
theorem anchorTest_iff {e : InternalEntity F32} : anchorTest e = true ↔ Anchored e := by
  simp only [anchorTest, Bool.and_eq_true, finTest_iff, mzeroTest_iff, zeroTest_iff]
  constructor
  · rintro ⟨⟨⟨⟨⟨a, b⟩, c⟩, d⟩, e⟩, f⟩; exact ⟨a, b, c, d, e, f⟩
  · rintro ⟨a, b, c, d, e, f⟩; exact ⟨⟨⟨⟨⟨a, b⟩, c⟩, d⟩, e⟩, f⟩

/-- A ball with a collider of infinite mass at rest, and another that flies towards it at 4 m/s. -/
def anchoredCalls : List (Op F32 (GravityGenerator F32)) :=
  [.addEntity (thing (num 0) (vec 0 0 0) (vec 0 0 0)), .addCollider (ball (vec 0 0 0) (num 1) Scalar.inf (num 1)), .linkCollider h0 (some h0),
   .addEntity (thing (num 0) (vec 4 0 0) (vec (-4) 0 0)), .addCollider (ball (vec 0 0 0) (num 1) (num 3) (num 1)), .linkCollider h1 (some h1)]

/-- The hypotheses of `C80_partial` can be met in binary32, by a body that is hit in the first of two steps. -/
example : ∃ (s m s' : System F32 (GravityGenerator F32)) (e : InternalEntity F32), Reachable s ∧ s.entities.get h0 = some e ∧ Anchored e ∧
    s.step .id one = .ok m ∧ m.collisionRecords.length = 1 ∧ SaneRun h0 s [(.id, one), (.id, one)] s' := by
  have h : ((play (plain anchoredCalls) (System.new : System F32 (GravityGenerator F32))).test fun r =>
      (match r.1.entities.get h0 with
      | some a => anchorTest a
      | _ => false) && Scalar.isFinite (one : F32) && (r.1.step .id one).test fun m => m.collisionRecords.length == 1 && (match m.getEntity h0 with
      | some a => finTest a.velocity && finTest a.angularVelocity
      | _ => false) &&
      (m.step .id one).test fun f => (match f.getEntity h0 with
      | some a => finTest a.velocity && finTest a.angularVelocity
      | _ => false)) = true := by kernel_refl
  obtain ⟨⟨s, outs⟩, hplay, h⟩ := Res.of_test h
  simp only [Bool.and_eq_true, beq_iff_eq] at h
  obtain ⟨⟨hE, hf⟩, h⟩ := h
  obtain ⟨m, hm, h⟩ := Res.of_test h
  simp only [Bool.and_eq_true, beq_iff_eq] at h
  obtain ⟨⟨hlen, hmE⟩, h⟩ := h
  obtain ⟨f, hf', h⟩ := Res.of_test h
  split at hE
  case h_2 => cases hE
  case h_1 a ha =>
  split at hmE
  case h_2 => cases hmE
  case h_1 b hb =>
  split at h
  case h_2 => cases h
  case h_1 c hc =>
  simp only [Bool.and_eq_true, finTest_iff] at hmE h
  refine ⟨s, m, f, a, play_reachable hplay, ha, anchorTest_iff.mp hE, hm, hlen, .cons hf hm ?_ (.cons hf hf' ?_ .nil)⟩
  · intro p hp; rw [hb] at hp; cases hp; exact hmE
  · intro p hp; rw [hc] at hp; cases hp; exact h

/-- A ball to add, with friction. -/
def roughBall (m : F32) : Collider F32 := .sphere ⟨none, vec 0 0 0, num 1, m, ⟨num 1, num 1, num 1, num 1⟩⟩

/-- A body of infinite mass at rest whose ball has a mass of 1 kg, and another ball that grazes it. -/
def grazedCalls : List (Op F32 (GravityGenerator F32)) :=
  [.addEntity (thing Scalar.inf (vec 0 0 0) (vec 0 0 0)), .addCollider (roughBall (num 1)), .linkCollider h0 (some h0),
   .addEntity (thing (num 0) (vec 3 (-1) 0) (vec (-2) 2 0)), .addCollider (roughBall (num 1)), .linkCollider h1 (some h1),
   .configure 1 (num 1 1000) (num 1 10) [] []]

/-- **C80** fails for a body whose own mass is infinite but whose collider has a finite one: it has a moment of inertia, and a ball that grazes it makes it spin.
(One iteration is enough, and the limit is set to one here.) -/
theorem C80_false : ∃ (s s' : System F32 (GravityGenerator F32)) (p e : Entity F32), Reachable s ∧ s.generators.handles = [] ∧
    s.getEntity h0 = some p ∧ Scalar.isInfinite p.lastTotalMass = true ∧ Zero p.velocity ∧ Zero p.angularVelocity ∧ s.step .id one = .ok s' ∧
    s'.getEntity h0 = some e ∧ Rest.Fin e.angularVelocity ∧ ¬Zero e.angularVelocity := by
  have h : ((play (plain grazedCalls) (System.new : System F32 (GravityGenerator F32))).test fun r =>
      r.1.generators.handles == [] && (match r.1.getEntity h0 with
      | some a => Scalar.isInfinite a.lastTotalMass && zeroTest a.velocity && zeroTest a.angularVelocity
      | _ => false) && (r.1.step .id one).test fun m => match m.getEntity h0 with
      | some a => finTest a.angularVelocity && !zeroTest a.angularVelocity
      | _ => false) = true := by kernel_refl
  obtain ⟨⟨s, outs⟩, hplay, h⟩ := Res.of_test h
  simp only [Bool.and_eq_true, beq_iff_eq] at h
  obtain ⟨⟨hg, hE⟩, h⟩ := h
  obtain ⟨m, hm, h⟩ := Res.of_test h
  split at hE
  case h_2 => cases hE
  case h_1 a ha =>
  split at h
  case h_2 => cases h
  case h_1 b hb =>
  simp only [Bool.and_eq_true, Bool.not_eq_true', finTest_iff, zeroTest_iff] at hE h
  refine ⟨s, m, a, b, play_reachable hplay, hg, ha, hE.1.1, hE.1.2, hE.2, hm, hb, h.1, ?_⟩
  rw [← zeroTest_iff, h.2]; simp

end Fluffy.Props
