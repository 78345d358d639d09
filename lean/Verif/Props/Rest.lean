import Verif.Proofs.Rest
import Verif.Props.Bystander
import Verif.Num.Kernel

/-! C79: a world at rest stays at rest, in exact arithmetic and in binary32. -/

set_option linter.unusedSectionVars false
set_option linter.unusedSimpArgs false

namespace Fluffy.Props
open Step Rest
variable {α : Type} [Scalar α] [ZeroLaws α] {γ : Type} [ForceGenerator α γ]

/-- Nothing moves, and the numbers of every entity are finite. -/
def AtRest (s : System α γ) : Prop := ∀ h e, s.entities.get h = some e → Resting e

/-- A record whose normal is finite and whose point has a finite distance from the two entities. -/
def FiniteRecord (s : System α γ) (r : CollisionRecord α) : Prop :=
  Fin r.normal ∧ (∀ e, s.entities.get r.firstEntity = some e → Fin (r.position - e.orientation.position)) ∧
    ∀ e, s.entities.get r.secondEntity = some e → Fin (r.position - e.orientation.position)

theorem integrateVelocity_rest {dt : α} (hdt : Scalar.isFinite dt = true) {e : InternalEntity α} (h : Resting e) :
    Resting (integrateVelocity dt Vec3.zeros Vec3.zeros e) where
  velocity := h.velocity.add (zeros_zero.scale hdt)
  angularVelocity := h.angularVelocity.add (h.inverse.mulVec (zeros_zero.scale hdt))
  position := h.position
  rotation := h.rotation
  inverse := h.inverse

theorem integrateAll_rest {dt : α} (hdt : Scalar.isFinite dt = true) : ∀ {l : List Handle} {s s' : System α γ} {infos : List (StepInfo α)},
    AtRest s → integrateAll dt [] l s = .ok (s', infos) → AtRest s'
  | [], s, s', infos, hr, hh => by unfold integrateAll at hh; cases hh; exact hr
  | h :: l, s, s', infos, hr, hh => by
    unfold integrateAll at hh
    obtain ⟨⟨m, i⟩, h1, hh⟩ := Res.bind_eq_ok.mp hh
    obtain ⟨⟨s2, is⟩, h2, hh⟩ := Res.bind_eq_ok.mp hh
    cases hh
    obtain ⟨e, g, a, t, he, hg, rfl, rfl⟩ := integrateOne_spec h1
    obtain ⟨rfl, rfl⟩ : a = Vec3.zeros ∧ t = Vec3.zeros := by
      unfold Accelerates at hg
      split at hg
      · unfold generatorLoop at hg; cases hg; exact ⟨rfl, rfl⟩
      · cases hg; exact ⟨rfl, rfl⟩
    refine integrateAll_rest hdt ?_ h2
    intro k x hx
    by_cases hk : k = h
    · subst hk
      rw [Arena.get_set_self he] at hx; cases hx
      exact integrateVelocity_rest hdt (hr k e he)
    · rw [Arena.get_set_ne hk] at hx; exact hr k x hx

/-- The bodies of a contact approach each other, so in a world at rest the contact has a number that is not finite. -/
theorem contact_rest {w : World α} {infos : List (StepInfo α)} {k : Candidate α}
    (hr : ∀ h e, w.entities.get h = some e → Resting e) (hc : Contact w infos k) :
    ¬(Fin k.collision.normal ∧
      (∀ e, w.entities.get k.firstHandle = some e → Fin (k.collision.position - e.orientation.position)) ∧
      ∀ e, w.entities.get k.secondHandle = some e → Fin (k.collision.position - e.orientation.position)) := by
  obtain ⟨n, m, i1, i2, -, -, -, first, second, hf, hs, -, -, -, ch1, -, ch2, -, c1, c2, c, -, -, -, hlt, rfl⟩ := hc
  rintro ⟨hn, h1, h2⟩
  have z := ((hr _ _ hf).velocityAt (h1 _ hf)).sub ((hr _ _ hs).velocityAt (h2 _ hs))
  simp only at hn
  rw [ZeroLaws.lt_eps (z.dot hn)] at hlt
  cases hlt

/-- Records are only added. -/
theorem iterate_records {ord : IterOrder} {dt : α} (r : CollisionRecord α) {n : Nat} {st st' : LoopState α} {c : Bool}
    (hr : r ∈ st.world.collisionRecords) (hh : iterate ord dt n st = .ok (st', c)) : r ∈ st'.world.collisionRecords := by
  refine iterate_induct (P := fun st => r ∈ st.world.collisionRecords) ?_ hr hh
  intro st best w st1 hp _ hw ha
  have hw' : w.collisionRecords = st.world.collisionRecords := by rw [(wakeColliding_evolves hw).1]
  have h1 : st1.world.collisionRecords = st.world.collisionRecords := by
    rw [← hw']
    unfold advance at ha
    obtain ⟨⟨a, is⟩, -, ha⟩ := Res.bind_eq_ok.mp ha
    cases ha; rfl
  refine ⟨fun _ => by rw [h1]; exact hp, ?_⟩
  intro k st2 _ h2
  obtain ⟨_, _, _, _, -, -, -, -, -, rfl⟩ := respond_spec h2
  simp only [List.mem_append]
  exact Or.inl (by rw [h1]; exact hp)

theorem moved_rest {percent : α} (hp : Scalar.isFinite percent = true) {i : StepInfo α} (hl : Zero i.linearMovement)
    (ha : Zero i.angularMovement) {e : InternalEntity α} (h : Resting e) :
    Resting (moved percent i e) ∧ Still e (moved percent i e) := by
  unfold moved
  split
  · exact ⟨h, h.still⟩
  · have hq : QSame ((Quat.fromScaledAxis (i.angularMovement.scale percent)).mul e.orientation.rotation) e.orientation.rotation := by
      rw [fromScaledAxis_zero (ha.scale hp)]; exact identity_mul h.rotation
    have st : Still e { e with orientation := e.orientation.afterAffected (i.linearMovement.scale percent) (i.angularMovement.scale percent) } :=
      ⟨h.position.add_zero (hl.scale hp), hq, rfl⟩
    exact ⟨⟨h.velocity, h.angularVelocity, st.position.fin h.position, st.rotation.fin h.rotation, st.inverse h.inverse⟩, st⟩

theorem settle_rest {w : World α} {dt : α} {e y : InternalEntity α} (h : Resting e) (hy : NeighborRel (settle w dt e) y) :
    Resting y ∧ Still e y := by
  have hs : Resting (settle w dt e) ∧ Still e (settle w dt e) := by
    unfold settle
    split
    · exact ⟨⟨zeros_zero, zeros_zero, h.position, h.rotation, h.inverse⟩, h.position.same, h.rotation.same, rfl⟩
    · split
      · exact ⟨⟨h.velocity, h.angularVelocity, h.position, h.rotation, h.inverse⟩, h.position.same, h.rotation.same, rfl⟩
      · exact ⟨⟨h.velocity, h.angularVelocity, h.position, h.rotation, h.inverse⟩, h.position.same, h.rotation.same, rfl⟩
  obtain ⟨a, b⟩ := hs
  rw [NeighborRel] at hy
  rw [hy]
  exact ⟨⟨a.velocity, a.angularVelocity, a.position, a.rotation, a.inverse⟩, b.position, b.rotation, b.moment⟩

/-- **C79, one step.** Without force generators, a step of a world at rest makes no record of a collision with finite numbers;
and if it makes no other record either, it makes none at all and everything stays at rest where it is. -/
theorem C79_step_partial {s s' : System α γ} {ord : IterOrder} {dt : α} (hdt : Scalar.isFinite dt = true)
    (hp : Scalar.lt (Scalar.abs dt) EPSILON = false) (hg : s.generators.handles = []) (hr : AtRest s)
    (hh : s.step ord dt = .ok s') (hrec : ∀ r ∈ s'.collisionRecords, FiniteRecord s r) :
    s'.collisionRecords = [] ∧ AtRest s' ∧
      ∀ h e e', s.entities.get h = some e → s'.entities.get h = some e' → Still e e' := by
  obtain ⟨p⟩ := step_phases hp hh
  have hint := p.integrate
  rw [hg] at hint
  have hmid : AtRest p.mid := integrateAll_rest hdt (s := { s with collisionRecords := [], debug := [] }) hr hint
  obtain ⟨k1, k2, k3, k4, k5, k6⟩ := integrateAll_spec (Arena.handles_nodup _) p.integrate
  have hstill : ∀ h e e', s.entities.get h = some e → p.mid.entities.get h = some e' → Still e e' := by
    intro h e e' he he'
    have := k3.2 h e e' he he'
    rw [VelRel] at this
    have hre := hr h e he
    rw [this]
    exact ⟨hre.position.same, hre.rotation.same, rfl⟩
  obtain ⟨fr, hsr⟩ := sleepLoop_frame p.selfless p.sleep
  have hsr : s'.collisionRecords = p.final.world.collisionRecords := by
    rw [hsr]; split <;> rfl
  have hmr : p.mid.collisionRecords = [] := by
    have := congrArg World.collisionRecords k1; exact this
  -- the iterations
  have key : p.final.world.collisionRecords = [] ∧ (∀ h e, p.final.world.entities.get h = some e → Resting e) ∧
      ∀ h e e', s.entities.get h = some e → p.final.world.entities.get h = some e' → Still e e' := by
    have hit := p.iterate
    cases hn : s.iterationMax with
    | zero =>
      rw [hn] at hit
      unfold iterate at hit
      simp only [Except.ok.injEq, Prod.mk.injEq] at hit
      rw [← hit.1]
      exact ⟨hmr, hmid, hstill⟩
    | succ n =>
      rw [hn] at hit
      unfold iterate at hit
      obtain ⟨best, h1, hit⟩ := Res.bind_eq_ok.mp hit
      obtain ⟨w, h2, hit⟩ := Res.bind_eq_ok.mp hit
      obtain ⟨st1, h3, hit⟩ := Res.bind_eq_ok.mp hit
      cases best with
      | some k =>
        exfalso
        have hcon := contact_rest hmid (searchFirst_contact h1)
        simp only at hit
        obtain ⟨st2, h4, hit⟩ := Res.bind_eq_ok.mp hit
        obtain ⟨first, second, i1, i2, -, hf, hs, -, -, e2⟩ := respond_spec h4
        have hmem : (respondPair k (st1.currentPercent * dt) st1.timeLeft first second i1 i2).record ∈ p.final.world.collisionRecords :=
          iterate_records _ (by rw [e2]; simp) hit
        rw [← hsr] at hmem
        obtain ⟨f1, f2, f3⟩ := hrec _ hmem
        have back : ∀ h e, p.mid.entities.get h = some e → ∃ x, s.entities.get h = some x ∧ e.orientation = x.orientation := by
          intro h e he
          obtain ⟨x, hx⟩ := Option.isSome_iff_exists.mp ((k3.1.isSome h).symm.trans (by rw [he]; rfl))
          have := k3.2 h x e hx he
          rw [VelRel] at this
          exact ⟨x, hx, by rw [this]⟩
        refine hcon ⟨f1, ?_, ?_⟩
        · intro e he
          obtain ⟨x, hx, ho⟩ := back _ e he
          rw [ho]; exact f2 x hx
        · intro e he
          obtain ⟨x, hx, ho⟩ := back _ e he
          rw [ho]; exact f3 x hx
      | none =>
        simp only [Except.ok.injEq, Prod.mk.injEq] at hit
        rw [← hit.1]
        have hw : w = p.mid.toWorld := by
          unfold wakeColliding at h2; cases h2; rfl
        rw [hw] at h3
        have hnd : (p.infos.map StepInfo.handle).Nodup := by rw [k5]; exact Arena.handles_nodup _
        obtain ⟨a1, a2, a3, a4⟩ := advance_spec hnd h3
        have hent : ∀ h e, st1.world.entities.get h = some e → ∃ x, p.mid.entities.get h = some x ∧ Resting e ∧ Still x e := by
          intro h e he
          by_cases hm : h ∈ p.infos.map StepInfo.handle
          · obtain ⟨i, hi, rfl⟩ := List.mem_map.mp hm
            obtain ⟨x, hx, hx'⟩ := a4 i hi
            rw [hx'] at he; cases he
            obtain ⟨y, hy, hi'⟩ := k6 i hi
            have hry := hmid _ _ hy
            have := moved_rest (percent := (one : α)) ZeroLaws.one_finite (i := i)
              (by rw [hi']; exact hry.velocity.scale hdt) (by rw [hi']; exact hry.angularVelocity.scale hdt) (hmid _ _ hx)
            exact ⟨x, hx, this⟩
          · rw [a3 h hm] at he
            exact ⟨e, he, hmid _ _ he, (hmid _ _ he).still⟩
        refine ⟨?_, fun h e he => (hent h e he).choose_spec.2.1, ?_⟩
        · rw [a1]; exact hmr
        · intro h e e' he he'
          obtain ⟨x, hx, -, hst⟩ := hent h e' he'
          exact (hstill h e x he hx).trans hst
  obtain ⟨r1, r2, r3⟩ := key
  have hw0 : ∀ h, (if p.concluded then p.final.world else { p.final.world with debug := p.final.world.debug ++ [.ranOut] }).entities.get h =
      p.final.world.entities.get h := by intro h; split <;> rfl
  have hlast : ∀ h e', s'.entities.get h = some e' → ∃ x, p.final.world.entities.get h = some x ∧ Resting e' ∧ Still x e' := by
    intro h e' he'
    obtain ⟨x, hx⟩ := Option.isSome_iff_exists.mp ((fr.entities.1.isSome h).symm.trans (by rw [he']; rfl))
    have hx' := hx
    rw [hw0] at hx'
    have hnd : (p.final.infos.map StepInfo.handle).Nodup := by rw [p.inv.handles]; exact Arena.handles_nodup _
    have := sleepLoop_spec hnd p.selfless p.sleep h x e' hx he'
    refine ⟨x, hx', ?_⟩
    split at this
    · exact settle_rest (r2 h x hx') this
    · rw [NeighborRel] at this
      have hrx := r2 h x hx'
      rw [this]
      exact ⟨⟨hrx.velocity, hrx.angularVelocity, hrx.position, hrx.rotation, hrx.inverse⟩, hrx.position.same, hrx.rotation.same, rfl⟩
  refine ⟨by rw [hsr]; exact r1, fun h e he => (hlast h e he).choose_spec.2.1, ?_⟩
  intro h e e' he he'
  obtain ⟨x, hx, -, hst⟩ := hlast h e' he'
  exact (r3 h e x he hx).trans hst

/-- Calls of `step` one after the other, with finite lengths, after each of which the records have finite numbers. -/
inductive Calm : System α γ → List (IterOrder × α) → System α γ → Prop where
  | nil {s : System α γ} : Calm s [] s
  | cons {s m s' : System α γ} {ord : IterOrder} {dt : α} {l : List (IterOrder × α)} : Scalar.isFinite dt = true →
      s.step ord dt = .ok m → (∀ r ∈ m.collisionRecords, FiniteRecord s r) → Calm m l s' → Calm s ((ord, dt) :: l) s'

theorem step_generators {s s' : System α γ} {ord : IterOrder} {dt : α} (hg : s.generators.handles = [])
    (hh : s.step ord dt = .ok s') : s'.generators.handles = [] := by
  by_cases hp : Scalar.lt (Scalar.abs dt) EPSILON = true
  · rw [C20_negligible_step s ord dt hp] at hh; cases hh; exact hg
  · rw [(step_frame hh).2.handles, hg]

/-- **C79.** What is partial is that the numbers in records are taken to be finite, and so is the inverse moment of inertia of every entity: in a world
without force generators in which nothing moves, any number of steps, of any lengths, leave everything at rest, in the place and with the rotation that it had,
and report no collision.  In exact arithmetic and in binary32 alike. -/
theorem C79_partial : ∀ {l : List (IterOrder × α)} {s s' : System α γ}, s.generators.handles = [] → AtRest s → Calm s l s' →
    AtRest s' ∧ (∀ h e e', s.entities.get h = some e → s'.entities.get h = some e' → Still e e') ∧
      (s.collisionRecords = [] → s'.collisionRecords = [])
  | _, _, _, hg, hr, .nil => ⟨hr, fun h e e' he he' => by rw [he] at he'; cases he'; exact (hr h e he).still, id⟩
  | _, s, s', hg, hr, .cons (m := m) (ord := ord) (dt := dt) hdt hh hrec hc => by
    have ih := fun h => C79_partial (step_generators hg hh) h hc
    by_cases hp : Scalar.lt (Scalar.abs dt) EPSILON = true
    · rw [C20_negligible_step s ord dt hp] at hh; cases hh
      exact ih hr
    · obtain ⟨h1, h2, h3⟩ := C79_step_partial hdt (by simpa using hp) hg hr hh hrec
      obtain ⟨i1, i2, i3⟩ := ih h2
      refine ⟨i1, ?_, fun _ => i3 h1⟩
      intro h e e' he he'
      have hs := (step_frame hh).1.entities.1.isSome h
      rw [he] at hs
      obtain ⟨x, hx⟩ := Option.isSome_iff_exists.mp hs
      exact (h3 h e x he hx).trans (i2 h x e' hx he')

end Fluffy.Props

namespace Fluffy.Props
open F32 Demo Rest Step
open Fluffy.Scene (h2)
variable [Libm]

def zeroTest (v : Vec3 F32) : Bool := Scalar.eq v.x zero && (Scalar.eq v.y zero && Scalar.eq v.z zero)
def finTest (v : Vec3 F32) : Bool := Scalar.isFinite v.x && (Scalar.isFinite v.y && Scalar.isFinite v.z)
def mfinTest (m : Mat3 F32) : Bool := finTest m.r1 && (finTest m.r2 && finTest m.r3)
def restTest (e : InternalEntity F32) : Bool := zeroTest e.velocity && zeroTest e.angularVelocity && finTest e.orientation.position &&
  (Scalar.isFinite e.orientation.rotation.w && finTest e.orientation.rotation.vec) && mfinTest e.inverseMomentOfInertia

theorem zeroTest_iff {v : Vec3 F32} : zeroTest v = true ↔ Zero v := by simp only [zeroTest, Rest.Zero, Bool.and_eq_true]
theorem finTest_iff {v : Vec3 F32} : finTest v = true ↔ Rest.Fin v := by simp only [finTest, Rest.Fin, Bool.and_eq_true]
theorem mfinTest_iff {m : Mat3 F32} : mfinTest m = true ↔ MFin m := by simp only [mfinTest, MFin, Bool.and_eq_true, finTest_iff]
theorem restTest_iff {e : InternalEntity F32} : restTest e = true ↔ Resting e := by
  simp only [restTest, Bool.and_eq_true, finTest_iff, mfinTest_iff, zeroTest_iff]
  constructor
  · rintro ⟨⟨⟨⟨a, b⟩, c⟩, d⟩, e⟩; exact ⟨a, b, c, d, e⟩
  · rintro ⟨a, b, c, d, e⟩; exact ⟨⟨⟨⟨a, b⟩, c⟩, d⟩, e⟩

/-- Two balls at rest that touch, and a third further away. -/
def restingCalls : List (Op F32 (GravityGenerator F32)) :=
  [.addEntity (thing (num 0) (vec 0 0 0) (vec 0 0 0)), .addCollider (ball (vec 0 0 0) (num 1) (num 1) (num 1)), .linkCollider h0 (some h0),
   .addEntity (thing (num 0) (vec 2 0 0) (vec 0 0 0)), .addCollider (ball (vec 0 0 0) (num 1) (num 3) (num 1)), .linkCollider h1 (some h1),
   .addEntity (thing (num 0) (vec 9 8 7) (vec 0 0 0)), .addCollider (ball (vec 0 0 0) (num 2) (num 5) (num 1)), .linkCollider h2 (some h2)]

/-- The hypotheses of `C79_partial` can be met in binary32, with two steps. -/
example : ∃ s s' : System F32 (GravityGenerator F32), Reachable s ∧ s.entities.handles = [h0, h1, h2] ∧ s.generators.handles = [] ∧ AtRest s ∧
    Calm s [(.id, one), (.id, num 1 60)] s' := by
  have h : ((play (plain restingCalls) (System.new : System F32 (GravityGenerator F32))).test fun r =>
      r.1.generators.handles == [] && r.1.entities.handles == [h0, h1, h2] && (match r.1.entities.get h0, r.1.entities.get h1, r.1.entities.get h2 with
      | some a, some b, some c => restTest a && (restTest b && restTest c)
      | _, _, _ => false) && (Scalar.isFinite (one : F32) && Scalar.isFinite (num 1 60)) && (r.1.step .id one).test fun m => m.collisionRecords.isEmpty &&
      (m.step .id (num 1 60)).test fun f => f.collisionRecords.isEmpty) = true := by kernel_refl
  obtain ⟨⟨s, outs⟩, hplay, h⟩ := Res.of_test h
  simp only [Bool.and_eq_true, beq_iff_eq] at h
  obtain ⟨⟨⟨⟨hg, hh⟩, hE⟩, hf1, hf2⟩, h⟩ := h
  obtain ⟨m, hm, h⟩ := Res.of_test h
  simp only [Bool.and_eq_true, List.isEmpty_iff] at h
  obtain ⟨hr, h⟩ := h
  obtain ⟨f, hf, h⟩ := Res.of_test h
  simp only [List.isEmpty_iff] at h
  split at hE
  case h_2 => cases hE
  case h_1 a b c ha hb hc =>
  simp only [Bool.and_eq_true, restTest_iff] at hE
  refine ⟨s, f, play_reachable hplay, hh, hg, ?_, .cons hf1 hm (by rw [hr]; simp) (.cons hf2 hf (by rw [h]; simp) .nil)⟩
  intro k e he
  have hk : k ∈ s.entities.handles := Arena.mem_handles.mpr ⟨e, he⟩
  rw [hh] at hk
  simp only [List.mem_cons, List.not_mem_nil, or_false] at hk
  rcases hk with rfl | rfl | rfl
  · rw [ha] at he; cases he; exact hE.1
  · rw [hb] at he; cases he; exact hE.2.1
  · rw [hc] at he; cases he; exact hE.2.2

/-- One heavy ball: 10²⁰ kg, radius 1 m, not moving, nothing else in the world. -/
def heavyCalls : List (Op F32 (GravityGenerator F32)) :=
  [.addEntity (thing (num 0) (vec 0 0 0) (vec 0 0 0)), .addCollider (ball (vec 0 0 0) (num 1) (num 100000000000000000000) (num 1)), .linkCollider h0 (some h0)]

/-- **C79** fails in binary32 for a body whose inverse moment of inertia is not finite: its components overflow from 1.8 · 10¹⁹ kg m² on.  A ball of 10²⁰ kg, alone and
at rest, has an angular velocity that is not a number after one step. -/
theorem C79_false : ∃ (s s' : System F32 (GravityGenerator F32)) (p e : Entity F32), Reachable s ∧ s.generators.handles = [] ∧ s.entities.handles = [h0] ∧
    s.getEntity h0 = some p ∧ Zero p.velocity ∧ Zero p.angularVelocity ∧ MFin p.lastMomentOfInertia ∧ s.step .id one = .ok s' ∧ s'.collisionRecords = [] ∧
    s'.getEntity h0 = some e ∧ e.angularVelocity = ⟨.nan, .nan, .nan⟩ := by
  have h : ((play (plain heavyCalls) (System.new : System F32 (GravityGenerator F32))).test fun r =>
      r.1.generators.handles == [] && r.1.entities.handles == [h0] && (match r.1.entities.get h0, r.1.colliders.get h0 with
      | some E, some _ => E.neighbors == [] && E.colliders == [h0] && zeroTest E.velocity && zeroTest E.angularVelocity && mfinTest E.makePub.lastMomentOfInertia
      | _, _ => false) && !Scalar.lt (Scalar.abs (one : F32)) EPSILON &&
      (Step.integrateAll one r.1.generators.handles r.1.entities.handles { r.1 with collisionRecords := [], debug := [] }).test fun m =>
        (Step.iterate .id one r.1.iterationMax ⟨m.1.toWorld, m.2, one, zero⟩).test fun f => f.1.world.collisionRecords.isEmpty && match f.1.world.entities.get h0 with
          | some e => !e.asleep && same e.angularVelocity.x .nan && same e.angularVelocity.y .nan && same e.angularVelocity.z .nan
          | _ => false) = true := by kernel_refl
  obtain ⟨⟨s, outs⟩, hplay, h⟩ := Res.of_test h
  simp only [Bool.and_eq_true, Bool.not_eq_true', beq_iff_eq] at h
  obtain ⟨⟨⟨⟨hg, hh⟩, hE⟩, hdt⟩, h⟩ := h
  obtain ⟨⟨mid, infos⟩, hint, h⟩ := Res.of_test h
  obtain ⟨⟨f, c⟩, hit, h⟩ := Res.of_test h
  simp only [Bool.and_eq_true, List.isEmpty_iff] at h
  obtain ⟨hrec, h⟩ := h
  simp only at hg hh hint hit hrec
  split at hE
  case h_2 => cases hE
  case h_1 E C hE0 hC0 =>
  simp only [Bool.and_eq_true, beq_iff_eq, zeroTest_iff, mfinTest_iff] at hE
  obtain ⟨⟨⟨⟨hn, hc⟩, hv⟩, ha⟩, hm⟩ := hE
  split at h
  case h_2 => cases h
  case h_1 e he =>
  simp only [Bool.and_eq_true, Bool.not_eq_true', same_iff] at h
  obtain ⟨⟨⟨hs, hx⟩, hy⟩, hz⟩ := h
  have only : ∀ k x, s.entities.get k = some x → k = h0 := by
    intro k x hk
    have : k ∈ s.entities.handles := Arena.mem_handles.mpr ⟨x, hk⟩
    rw [hh] at this; simpa using this
  obtain ⟨s', hstep, -⟩ := Step.step_total (ord := .id) (s := s) (one : F32) (by
    intro k x n hk hnn
    obtain rfl := only k x hk
    rw [hE0] at hk; cases hk; rw [hn] at hnn; cases hnn) (by
    refine ⟨?_, ?_⟩
    · intro k x n hk hnn
      obtain rfl := only k x hk
      rw [hE0] at hk; cases hk; rw [hc] at hnn
      simp only [List.mem_singleton] at hnn; subst hnn; exact ⟨C, hC0⟩
    · intro k1 k2 E1 E2 c1 c2 C1 C2 hne h1 h2
      exact absurd ((only k1 _ h1).trans (only k2 _ h2).symm) hne)
  obtain ⟨p⟩ := step_phases hdt hstep
  have e1 := p.integrate
  rw [hint] at e1
  simp only [Except.ok.injEq, Prod.mk.injEq] at e1
  have e2 := p.iterate
  rw [← e1.1, ← e1.2, hit] at e2
  simp only [Except.ok.injEq, Prod.mk.injEq] at e2
  obtain ⟨fr, hsr⟩ := sleepLoop_frame p.selfless p.sleep
  have hfe : (if p.concluded then p.final.world else { p.final.world with debug := p.final.world.debug ++ [.ranOut] }).entities.get h0 = some e := by
    rw [← he, e2.1]; split <;> rfl
  obtain ⟨y, hy'⟩ := Option.isSome_iff_exists.mp ((fr.entities.1.isSome h0).trans (by rw [hfe]; rfl))
  have hnd : (p.final.infos.map StepInfo.handle).Nodup := by rw [p.inv.handles]; exact Arena.handles_nodup _
  have hset := sleepLoop_spec hnd p.selfless p.sleep h0 e y hfe hy'
  have hang : y.angularVelocity = e.angularVelocity := by
    have hw : ∀ w, (settle w one e).angularVelocity = e.angularVelocity := by
      intro w; unfold settle; rw [hs]; split
      · contradiction
      · split <;> rfl
    split at hset
    · rw [NeighborRel] at hset; rw [hset]; exact hw _
    · rw [NeighborRel] at hset; rw [hset]
  refine ⟨s, s', E.makePub, y.makePub, play_reachable hplay, hg, hh, ?_, hv, ha, hm, hstep, ?_, ?_, ?_⟩
  · exact getEntity_eq_some.mpr ⟨E, hE0, rfl⟩
  · rw [hsr, ← hrec, e2.1]; split <;> rfl
  · exact getEntity_eq_some.mpr ⟨y, hy', rfl⟩
  · show y.angularVelocity = _
    rw [hang]
    cases hav : e.angularVelocity
    rw [hav] at hx hy hz
    simp only at hx hy hz
    rw [hx, hy, hz]

end Fluffy.Props
