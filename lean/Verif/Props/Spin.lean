import Verif.Props.Conserve
set_option linter.unusedSectionVars false
set_option linter.unusedSimpArgs false
/- Angular momentum and energy of bodies that nothing touches (C65) and of closed systems (C66). -/
namespace Fluffy.Props
open Fluffy XReal InternalEntity Step

variable {γ : Type} [ForceGenerator XReal γ]

/-! ### Specification -/

/-- `(x - q) × m v + I ω`, the angular momentum about `q`. -/
noncomputable def angularMomentumOf (p : Entity XReal) (q : Vec3 XReal) : Vec3 XReal :=
  (p.position - q).cross (p.velocity.scale p.lastTotalMass) + (inertiaOf p).mulVec p.angularVelocity
/-- The sum over all entities. -/
noncomputable def totalAngularMomentum (s : World XReal) (q : Vec3 XReal) : Vec3 XReal :=
  ((entitiesOf s).map fun p => angularMomentumOf p q).foldr (· + ·) Vec3.zeros

/-- The entity turns about a principal axis of its moment of inertia. -/
def PrincipalSpin (p : Entity XReal) : Prop := ∃ l : ℝ, (inertiaOf p).mulVec p.angularVelocity = p.angularVelocity.scale (fin l)

/-! ### A body that turns about its axis -/

/-- The body has moved on along its velocity and has turned, leaving its axis of rotation where it is. -/
def Swung (b0 b : Body) : Prop := ∃ (q : Quat ℝ) (τ : ℝ) (I : Mat3 ℝ), q.normSq = 1 ∧ q.rot b0.ang = b0.ang ∧ q.conj.rot b0.ang = b0.ang ∧
  b = { b0 with inertia := I, pos := b0.pos + b0.vel.scale τ } ∧ ∀ w, I.mulVec w = q.rot (b0.inertia.mulVec (q.conj.rot w))

theorem Swung.refl (b : Body) : Swung b b := by
  refine ⟨Quat.e, 0, b.inertia, Quat.e_normSq, ?_, ?_, ?_, ?_⟩
  · simp
  · simp
  · have : b.pos + b.vel.scale 0 = b.pos := by ext <;> simp
    rw [this]
  · intro w; simp

theorem Swung.go {b0 b : Body} (h : Swung b0 b) {τ : ℝ} {I : Mat3 ℝ}
    (hI : ∀ w, I.mulVec w = (Quat.exp (b.ang.scale τ)).rot (b.inertia.mulVec ((Quat.exp (b.ang.scale τ)).conj.rot w))) :
    Swung b0 { b with inertia := I, pos := b.pos + b.vel.scale τ } := by
  obtain ⟨q, σ, J, h1, h2, h3, rfl, h5⟩ := h
  simp only at hI ⊢
  have hq := Quat.exp_normSq (b0.ang.scale τ)
  refine ⟨(Quat.exp (b0.ang.scale τ)).mul q, σ + τ, I, ?_, ?_, ?_, ?_, ?_⟩
  · rw [Quat.mul_mul_normSq, hq, h1, one_mul]
  · rw [Quat.rot_mul _ hq h1, h2, exp_rot_self]
  · rw [conj_mul_rot hq h1, exp_conj_rot_self, h3]
  · congr 1
    ext <;> simp <;> ring
  · intro w
    rw [hI, h5, Quat.rot_mul _ hq h1, conj_mul_rot hq h1]

theorem Swung.kinetic {b0 b : Body} (h : Swung b0 b) : kinetic b = kinetic b0 := by
  obtain ⟨q, σ, J, h1, h2, h3, rfl, h5⟩ := h
  unfold Props.kinetic
  cases b0.mass with
  | none => rfl
  | some m =>
    simp only
    congr 2
    rw [h5, h3]
    have := Quat.rot_dot (b0.inertia.mulVec b0.ang) b0.ang h1
    rw [h2] at this
    exact this

theorem Swung.spin {b0 b : Body} (h : Swung b0 b) : (b.inertia.mulVec b.ang).dot (b.inertia.mulVec b.ang) =
      (b0.inertia.mulVec b0.ang).dot (b0.inertia.mulVec b0.ang) ∧
    ∀ l : ℝ, b0.inertia.mulVec b0.ang = b0.ang.scale l → ∀ m x, angularMomentum m b x = angularMomentum m b0 x := by
  obtain ⟨q, σ, J, h1, h2, h3, rfl, h5⟩ := h
  constructor
  · simp only
    rw [h5, h3, Quat.rot_dot _ _ h1]
  · intro l hl m x
    unfold angularMomentum
    simp only
    rw [h5, h3, hl]
    have : q.rot (b0.ang.scale l) = b0.ang.scale l := by
      have : q.rot (b0.ang.scale l) = (q.rot b0.ang).scale l := by
        unfold Quat.rot; ext <;> simp <;> ring
      rw [this, h2]
    rw [this]
    ext <;> simp <;> ring

/-! ### C65 -/

/-- The state of an entity that no record names. -/
theorem untouched {s s' : System XReal γ} {ord : IterOrder} {d : ℝ} (hd : 1 / 1000000 ≤ d) (hh : s.step ord (fin d) = .ok s') (hs : FreeOfForces s)
    {k : Handle} {E : InternalEntity XReal} (hE : s.entities.get k = some E) (ha : E.asleep = false)
    (hn : ∀ r ∈ s'.collisionRecords, r.firstEntity ≠ k ∧ r.secondEntity ≠ k) :
    ∃ E', s'.entities.get k = some E' ∧ Fine E' ∧ Swung (bodyOf E) (bodyOf E') := by
  have h0 : 0 ≤ d := le_trans (by norm_num) hd
  obtain ⟨hc, hf⟩ := hs.finite
  obtain ⟨ph⟩ := step_phases (proper_fin hd) hh
  have fr := (step_frame hh).1
  obtain ⟨b1, b2, b3⟩ := bodies_integrate (s := { s with collisionRecords := [], debug := [] }) hs.generators hf ph.integrate
  obtain ⟨k1, -, k3, -, k5, k6⟩ := integrateAll_spec (Arena.handles_nodup _) ph.integrate
  obtain ⟨M, hM, hrel⟩ := k3.get hE
  have hM : ph.mid.entities.get k = some M := hM
  have hMb : bodyOf M = bodyOf E := by
    rw [← bodies_get hM, ← bodies_get hE, b1]
  have hnd := Arena.handles_nodup s.entities
  have hk : k ∈ s.entities.handles := Arena.mem_handles.mpr ⟨E, hE⟩
  have main := iterate_induct (ord := ord) (dt := fin d) (P := fun st => (∃ c, Running s d c st) ∧
      ((∃ r ∈ st.world.collisionRecords, r.firstEntity = k ∨ r.secondEntity = k) ∨
        ∃ X, st.world.entities.get k = some X ∧ X.asleep = false ∧ Fine X ∧ Swung (bodyOf E) (bodyOf X))) ?_
    ⟨⟨0, ph.running.1⟩, Or.inr ⟨M, hM, by rw [hrel]; exact ha, b2 k M hM, by rw [hMb]; exact .refl _⟩⟩ ph.iterate
  · obtain ⟨-, ⟨r, hr, hr'⟩ | ⟨X, hX, hXa, fX, tX⟩⟩ := main
    · rw [← ph.records] at hr
      rcases hr' with h | h
      · exact absurd h (hn r hr).1
      · exact absurd h (hn r hr).2
    · obtain ⟨E', hE', -⟩ := fr.entities.get hE
      obtain ⟨dd, -, -, hend⟩ := ph.ending
      have hnr := (hend k X E' hX hE').2
      have fE' : Fine E' := (fine_settle fX s.toWorld (fin d)).of hnr.static (by rw [hnr]; exact (fine_settle fX s.toWorld (fin d)).pose)
        (by rw [hnr]; exact (fine_settle fX s.toWorld (fin d)).vel) (by rw [hnr]; exact (fine_settle fX s.toWorld (fin d)).ang)
      refine ⟨E', hE', fE', ?_⟩
      have hb : bodyOf E' = bodyOf (settle s.toWorld (fin d) X) := by rw [hnr]; rfl
      have hb' : bodyOf (settle s.toWorld (fin d) X) = bodyOf X := by
        unfold settle
        rw [if_neg (by simp [hXa])]
        split <;> rfl
      rw [hb, hb']; exact tX
  · rintro st best w st1 ⟨⟨c, hr⟩, hk1⟩ q1 q2 q3
    obtain ⟨p, hp0, -, -, -, r1, r2⟩ := hr.body h0 q1 q2 q3
    obtain ⟨w1, w2⟩ := wakeColliding_evolves q2
    have hnd' : (st.infos.map StepInfo.handle).Nodup := by rw [hr.inv.handles]; exact hnd
    obtain ⟨a1, a2, a3, a4⟩ := advance_spec (st := { st with world := w }) hnd' q3
    have hcr : st1.world.collisionRecords = st.world.collisionRecords := by rw [a1]; simp only []; rw [w1]
    have adv : (∃ r ∈ st1.world.collisionRecords, r.firstEntity = k ∨ r.secondEntity = k) ∨
        ∃ X, st1.world.entities.get k = some X ∧ X.asleep = false ∧ Fine X ∧ Swung (bodyOf E) (bodyOf X) := by
      rcases hk1 with ⟨r, hr1, hr2⟩ | ⟨X, hX, hXa, fX, tX⟩
      · exact Or.inl ⟨r, by rw [hcr]; exact hr1, hr2⟩
      · right
        have hk' := hk
        rw [← hr.inv.handles] at hk'
        obtain ⟨i, hi, rfl⟩ := List.mem_map.mp hk'
        obtain ⟨m, hm⟩ := List.getElem?_of_mem hi
        obtain ⟨X', hX', m1, m2⟩ := hr.course m i hm
        rw [hX] at hX'; cases hX'
        obtain ⟨Y, hY, hY'⟩ := a4 i hi
        have hY : w.entities.get i.handle = some Y := hY
        obtain ⟨Y0, hY0, hrel'⟩ := w2.get hX
        rw [hY] at hY0; cases hY0
        have haY : Y.asleep = false := wakeColliding_awake q2 hX hY hXa
        have fY : Fine Y := fX.of (WakeRel.static hrel') (by rw [hrel']; exact fX.pose) (by rw [hrel']; exact fX.vel) (by rw [hrel']; exact fX.ang)
        rw [hr.clock.left] at m1 m2
        refine ⟨_, hY', ?_, ?_, ?_⟩
        · unfold moved; rw [if_neg (by simp [haY])]; exact haY
        · rw [hp0]
          exact fY.moved (by rw [m1]; exact fin_scale fX.vel _) (by rw [m2]; exact fin_scale fX.ang _) p
        · rw [hp0]
          obtain ⟨I, e1, e2⟩ := fY.turned haY (i := i) (t := (1 - c) * d) (by rw [m1, hrel']) (by rw [m2, hrel']) p
          rw [bodyOf_wake hrel'] at e1 e2
          rw [e1]
          exact tX.go e2
    refine ⟨fun _ => ⟨⟨_, r1⟩, adv⟩, fun K st2 hb hres => ⟨⟨_, (r2 K st2 hb hres).1⟩, ?_⟩⟩
    obtain ⟨e1, e2, i1, i2, hne, g1, g2, n1, n2, rfl⟩ := respond_spec hres
    by_cases hn : K.firstHandle = k ∨ K.secondHandle = k
    · left
      exact ⟨_, List.mem_append_right _ (List.mem_singleton.mpr rfl), hn⟩
    · rcases adv with ⟨r, hr, hr'⟩ | ⟨e, he, hrest⟩
      · left; exact ⟨r, List.mem_append_left _ hr, hr'⟩
      · right
        refine ⟨e, ?_, hrest⟩
        simp only
        rw [respond_get hne g1 g2, if_neg (fun hc => hn (Or.inr hc.symm)), if_neg (fun hc => hn (Or.inl hc.symm))]
        exact he

theorem Fine.angularMomentum {E : InternalEntity XReal} (h : Fine E) {m : ℝ} (hm : E.totalMass = fin m) (x : Vec3 ℝ) :
    angularMomentumOf E.makePub x.f = (angularMomentum m (bodyOf E) x).f := by
  have o := h.is
  have hI : inertiaOf E.makePub = (bodyOf E).inertia.f := o.inertia
  unfold angularMomentumOf Props.angularMomentum
  rw [hI]
  show (E.orientation.position - x.f).cross (E.velocity.scale E.totalMass) + (bodyOf E).inertia.f.mulVec E.angularVelocity = _
  rw [hm, o.pos, o.vel, o.ang]
  simp

/-- **C65.** An awake entity that no contact names keeps its velocity, its angular velocity, its kinetic energy and the amount of its
angular momentum about its centre of mass, over a step without force generators. -/
theorem C65_energy {s s' : System XReal γ} {ord : IterOrder} {d : ℝ} (h0 : 0 ≤ d) (hh : s.step ord (fin d) = .ok s') (hs : FreeOfForces s)
    {k : Handle} {p : Entity XReal} (hp : s.getEntity k = some p) (ha : p.asleep = false)
    (hn : ∀ r ∈ s'.collisionRecords, r.firstEntity ≠ k ∧ r.secondEntity ≠ k) :
    ∃ p', s'.getEntity k = some p' ∧ p'.velocity = p.velocity ∧ p'.angularVelocity = p.angularVelocity ∧ kineticOf p' = kineticOf p ∧
      ((inertiaOf p').mulVec p'.angularVelocity).magnitude = ((inertiaOf p).mulVec p.angularVelocity).magnitude := by
  by_cases hd : 1 / 1000000 ≤ d
  swap
  · rw [step_short h0 (not_le.mp hd) hh]; exact ⟨p, hp, rfl, rfl, rfl, rfl⟩
  obtain ⟨E, hE, rfl⟩ := getEntity_iff.mp hp
  have fE := hs.finite.2 k E hE
  obtain ⟨E', hE', fE', t⟩ := untouched hd hh hs hE ha hn
  have o := fE.is
  have o' := fE'.is
  have hI : inertiaOf E.makePub = (bodyOf E).inertia.f := o.inertia
  have hI' : inertiaOf E'.makePub = (bodyOf E').inertia.f := o'.inertia
  refine ⟨E'.makePub, getEntity_iff.mpr ⟨E', hE', rfl⟩, ?_, ?_, ?_, ?_⟩
  · show E'.velocity = E.velocity
    rw [o'.vel, o.vel]
    obtain ⟨q, τ, I, -, -, -, e, -⟩ := t
    rw [e]
  · show E'.angularVelocity = E.angularVelocity
    rw [o'.ang, o.ang]
    obtain ⟨q, τ, I, -, -, -, e, -⟩ := t
    rw [e]
  · rw [fE'.kineticOf, fE.kineticOf]
    unfold kin
    rw [t.kinetic]
  · rw [hI, hI']
    show ((bodyOf E').inertia.f.mulVec E'.angularVelocity).magnitude = ((bodyOf E).inertia.f.mulVec E.angularVelocity).magnitude
    rw [o.ang, o'.ang, Mat3.f_mulVec, Mat3.f_mulVec, Vec3.f_magnitude, Vec3.f_magnitude]
    unfold Vec3.len
    rw [t.spin.1]

/-- **C65 (partial), the angular momentum**: if the entity turns about a principal axis it keeps its angular momentum about every point.
Missing: other axes (`C65_false`). -/
theorem C65_principal_partial {s s' : System XReal γ} {ord : IterOrder} {d : ℝ} (h0 : 0 ≤ d) (hh : s.step ord (fin d) = .ok s') (hs : FreeOfForces s)
    {k : Handle} {p : Entity XReal} (hp : s.getEntity k = some p) (ha : p.asleep = false) (hm : p.lastTotalMass ≠ posInf) (hl : PrincipalSpin p)
    (hn : ∀ r ∈ s'.collisionRecords, r.firstEntity ≠ k ∧ r.secondEntity ≠ k) :
    ∃ p', s'.getEntity k = some p' ∧ PrincipalSpin p' ∧ ∀ x : Vec3 ℝ, angularMomentumOf p' x.f = angularMomentumOf p x.f := by
  by_cases hd : 1 / 1000000 ≤ d
  swap
  · rw [step_short h0 (not_le.mp hd) hh]; exact ⟨p, hp, hl, fun _ => rfl⟩
  obtain ⟨E, hE, rfl⟩ := getEntity_iff.mp hp
  have fE := hs.finite.2 k E hE
  obtain ⟨E', hE', fE', t⟩ := untouched hd hh hs hE ha hn
  have o := fE.is
  have o' := fE'.is
  have hI : inertiaOf E.makePub = (bodyOf E).inertia.f := o.inertia
  have hI' : inertiaOf E'.makePub = (bodyOf E').inertia.f := o'.inertia
  obtain ⟨l, hl⟩ := hl
  rw [hI, show E.makePub.angularVelocity = E.angularVelocity from rfl, o.ang, Mat3.f_mulVec, Vec3.f_scale, Vec3.f_inj] at hl
  obtain ⟨m, hm⟩ : ∃ m, E.totalMass = fin m := by
    rcases fE.mass with ht | ⟨m, -, ht⟩
    · exact absurd ht hm
    · exact ⟨m, ht⟩
  obtain ⟨X, hX, hst⟩ := (step_frame hh).1.entities.get hE
  have hX : s'.entities.get k = some X := hX
  rw [hE'] at hX; cases hX
  have hm' : E'.totalMass = fin m := by rw [← hm]; exact (staticRel_iff.mp hst).2.2.1
  refine ⟨E'.makePub, getEntity_iff.mpr ⟨E', hE', rfl⟩, ⟨l, ?_⟩, fun x => ?_⟩
  · rw [hI', show E'.makePub.angularVelocity = E'.angularVelocity from rfl, o'.ang, Mat3.f_mulVec, Vec3.f_scale, Vec3.f_inj]
    obtain ⟨q, τ, I, -, h2, h3, e, h5⟩ := t
    rw [e]
    simp only
    rw [h5, h3, hl]
    have : q.rot ((bodyOf E).ang.scale l) = (q.rot (bodyOf E).ang).scale l := by
      unfold Quat.rot; ext <;> simp <;> ring
    rw [this, h2]
  · rw [fE.angularMomentum hm, fE'.angularMomentum hm', t.spin.2 l hl]

/-! ### A body that wobbles -/

open Demo in
/-- `ball`, spinning. -/
noncomputable def spunBall (w : Vec3 XReal) : Entity XReal := { ball with angularVelocity := w }
open Demo in
noncomputable def spunBallE (w : Vec3 XReal) : InternalEntity XReal := { ballE with angularVelocity := w }
theorem spunBall_newFrom {w : Vec3 XReal} : InternalEntity.newFrom (spunBall w) = some (spunBallE w) := by
  simp [InternalEntity.newFrom, spunBall, spunBallE, Demo.ball, Demo.ballE, Entity.new, Entity.makeOrientation]

open Demo in
/-- A system with one spinning entity of mass 1 at the origin, before and after a collider is linked to it. -/
theorem demo_spun (w : Vec3 XReal) {c : Collider XReal} (hc : c.newFrom = some c) :
    ∃ (s t : System XReal γ) (E : InternalEntity XReal),
    Reachable s ∧ s.exec .id (.linkCollider h0 (some h0)) = .ok (t, .ok true) ∧ Reachable t ∧
    s.entities.get h0 = some (spunBallE w) ∧ t.entities.get h0 = some E ∧ t.colliders.get h0 = some (c.setEntity (some h0)) ∧
    E.colliders = [h0] ∧ recalculateMass [h0] t.colliders { spunBallE w with colliders := [h0] } = .ok E ∧
    t.entities.handles = [h0] ∧ t.generators = Arena.new ∧ t.iterationMax = 5 ∧ t.colliders.handles = [h0] := by
  let s1 : System XReal γ := (System.new.addEntity (spunBall w)).1
  have exec1 : (System.new : System XReal γ).exec .id (.addEntity (spunBall w)) = .ok (s1, .entity (some h0)) := by
    simp only [System.exec, s1, System.addEntity, spunBall_newFrom]; rfl
  let s : System XReal γ := (s1.addCollider c).1
  have hs : s1.exec .id (.addCollider c) = .ok (s, .collider (some h0)) := by
    simp only [System.exec, s, s1, System.addEntity, System.addCollider, spunBall_newFrom, hc]; rfl
  have hreach : Reachable s := ⟨_, .snoc .id _ _ (.snoc .id _ _ .nil exec1) hs⟩
  have hE : s.entities.get h0 = some (spunBallE w) := by
    simp only [s, s1, System.addEntity, System.addCollider, spunBall_newFrom, hc]; rfl
  have hC : s.colliders.get h0 = some c := by
    simp only [s, s1, System.addEntity, System.addCollider, spunBall_newFrom, hc]; rfl
  have hent : ∀ d, c.newFrom = some d → d.entity = none := by
    intro d h
    cases c <;> simp only [Collider.newFrom] at h <;> split at h <;> cases h <;> rfl
  have hent := hent c hc
  obtain ⟨F, hF⟩ := recalculateMass_ok (order := [h0]) (cs := s.colliders) { spunBallE w with colliders := [h0] }
    (by intro h hh; simp at hh; subst hh; exact ⟨c, hC⟩)
  have hins : hsInsert (spunBallE w).colliders h0 = [h0] := rfl
  have hex : ∃ t, s.exec .id (.linkCollider h0 (some h0)) = .ok (t, .ok true) := by
    refine ⟨{ s with entities := s.entities.set h0 F, colliders := s.colliders.set h0 (c.setEntity (some h0)) }, ?_⟩
    simp only [System.exec, System.linkCollider]
    have hcon : s.colliders.contains h0 = true := by rw [Arena.contains, hC]; rfl
    rw [hcon, hE]
    simp only [Bool.not_true, Bool.false_eq_true, if_false, hins]
    have : IterOrder.id.colliders h0 [h0] = [h0] := rfl
    rw [this, hF]
    simp only [Res.ok_bind, System.switchLink, hC, hent]
    simp [System.unlinkPrior]
  obtain ⟨t, ht⟩ := hex
  have hreach' : Reachable t := live_after hreach ht
  have ht' := ht
  simp only [System.exec] at ht'
  obtain ⟨⟨m, b⟩, hl, hh⟩ := Res.bind_eq_ok.mp ht'
  injection hh with hh
  injection hh with h1 h2
  subst h1
  injection h2 with h2
  rcases System.linkCollider_spec hreach.inv hl with ⟨hb, -⟩ | ⟨-, D, hD, -, hs', hshape, hev⟩
  · simp only at h2; rw [h2] at hb; cases hb
  · rw [hC] at hD; cases hD
    obtain ⟨G, hG, -, hr, -⟩ := hev h0 (spunBallE w) hE
    have hr := hr rfl
    have hcol : m.colliders = s.colliders.set h0 (c.setEntity (some h0)) := by rw [hs']
    rw [← hcol] at hr
    refine ⟨s, m, G, hreach, ht, hreach', hE, hG, ?_, (recalculateMass_massRel hr).colliders, hr, ?_, ?_, ?_, ?_⟩
    · rw [hcol, Arena.get_set, if_pos rfl, hC]; rfl
    · rw [hshape.handles]
      simp only [s, s1, System.addEntity, System.addCollider, spunBall_newFrom, hc]; rfl
    · rw [hs']; simp only [s, s1, System.addEntity, System.addCollider, spunBall_newFrom, hc]; rfl
    · rw [hs']; simp only [s, s1, System.addEntity, System.addCollider, spunBall_newFrom, hc]; rfl
    · rw [hcol, (Arena.sameShape_set _ h0 _).handles]
      simp only [s, s1, System.addEntity, System.addCollider, spunBall_newFrom, hc]; rfl


open Demo in
/-- A null collider of mass 2 at (3, 0, 0) with the given principal moments of inertia. -/
noncomputable def rod (i : Vec3 ℝ) : Collider XReal :=
  .null { entity := none, position := ⟨fin 3, fin 0, fin 0⟩, mass := fin 2, momentOfInertia := (Mat3.diag i).f }

open Demo in
/-- A reachable system with one entity: a ball of mass 1 with a bar of mass 2 at (3, 0, 0), spinning, and nothing else. -/
theorem demo_wobble [Step.SafeGenerator XReal γ] (w : Vec3 ℝ) {i : Vec3 ℝ} (hi : 0 ≤ i.x ∧ 0 ≤ i.y ∧ 0 ≤ i.z) {dt : XReal} (hdt : Proper dt) :
    ∃ (s s' : System XReal γ) (p : Entity XReal), FreeOfForces s ∧ s.step .id dt = .ok s' ∧ s'.collisionRecords = [] ∧ s.iterationMax ≠ 0 ∧
    s.entities.handles = [h0] ∧ s.getEntity h0 = some p ∧ p.asleep = false ∧ p.velocity = Vec3.o.f ∧ p.angularVelocity = w.f ∧
    p.lastTotalMass = fin 3 ∧ p.position = (⟨3, 0, 0⟩ : Vec3 ℝ).f ∧ p.lastOrientation.rotation = Quat.e.f ∧ p.lastPreppedMoment = (Mat3.diag i).f := by
  have hb : (rod i).newFrom = some (rod i) := by simp [rod, Collider.newFrom, NullCollider.isValid]
  obtain ⟨s0, t, E', hs0, hex, ht, hE, hE', hC, hcol, hrec, hhs, hgen, hit, hch⟩ := demo_spun (γ := γ) w.f hb
  have hor : (spunBallE w.f).orientation = (⟨Vec3.o, Quat.e, Vec3.o⟩ : Orientation ℝ).f := by
    have := Orientation.f_new Vec3.o Vec3.o Vec3.o
    rw [Quat.exp_o] at this
    rw [← this]
    simp [spunBallE, Demo.ballE, Demo.ball, Entity.makeOrientation, Entity.new, Orientation.new]
  have hlump : List.Forall₂ Lump.Of [⟨2, ⟨3, 0, 0⟩, Mat3.diag i⟩] (found t.colliders [Demo.h0]) := by
    have : found t.colliders [Demo.h0] = [(rod i).setEntity (some Demo.h0)] := by simp [found, hC]
    rw [this]
    exact .cons ⟨rfl, rfl, rfl⟩ .nil
  have hmr := recalculateMass_massRel hrec
  rw [recalculateMass_loose _ (by intro h hh; simp at hh; subst hh; exact ⟨_, hC⟩) (forall₂_infinite hlump)] at hrec
  injection hrec with hrec
  obtain ⟨r1, r2, r3⟩ := loose_real (e := { spunBallE w.f with colliders := [Demo.h0] }) hor (by simp [Orientation.Unit]) hlump
  rw [hrec] at r1 r2 r3
  have hmean : Lump.mean [⟨2, ⟨3, 0, 0⟩, Mat3.diag i⟩] = ⟨3, 0, 0⟩ := by
    norm_num [Lump.mean, Lump.total]
    ext <;> norm_num
  rw [hmean] at r1 r3
  have r2 : E'.totalMass = fin 3 := by rw [r2]; norm_num [Lump.total, spunBallE, Demo.ballE]
  have r1 : E'.orientation = (⟨⟨3, 0, 0⟩, Quat.e, ⟨-3, 0, 0⟩⟩ : Orientation ℝ).f := by
    rw [r1]
    congr 1
    simp only [Orientation.recentered, Orientation.toWorld]
    congr 1 <;> ext <;> simp
  have r3 : E'.preppedMoment = (Mat3.diag i).f := by
    rw [r3]
    congr 1
    simp [Lump.about, Mat3.sum, Mat3.diag, Mat3.outer, Mat3.scale, Vec3.dot_def]
    ext <;> simp
  have hlive : ∀ k E, t.entities.get k = some E → k = h0 ∧ E = E' := by
    intro k E hk
    have : k ∈ t.entities.handles := Arena.mem_handles.mpr ⟨E, hk⟩
    rw [hhs] at this
    simp at this
    subst this
    have hk : t.entities.get h0 = some E := hk
    rw [hE'] at hk; cases hk
    exact ⟨rfl, rfl⟩
  obtain ⟨s', hstep, -⟩ := Step.step_total (ord := .id) (s := t) dt (by
      intro k E n hk hn
      obtain ⟨-, rfl⟩ := hlive k E hk
      rw [hmr.neighbors] at hn
      simp [spunBallE, Demo.ballE] at hn)
    ⟨fun k E c hk hc => ht.inv.live hk c hc, by
      intro k1 k2 E1 E2 c1 c2 C1 C2 hne h1 h2
      exact absurd ((hlive _ _ h1).1.trans (hlive _ _ h2).1.symm) hne⟩
  have hp : t.getEntity h0 = some E'.makePub := getEntity_eq_some.mpr ⟨E', hE', rfl⟩
  have hnor : s'.collisionRecords = [] := by
    obtain ⟨-, hb⟩ := C30_records_bounded hdt hstep
    by_contra hne
    obtain ⟨r, hr⟩ := List.exists_mem_of_ne_nil _ hne
    obtain ⟨q1, q2, q3⟩ := hb r hr
    have hl : ∀ k, s'.getEntity k ≠ none → k = h0 := by
      intro k hk
      obtain ⟨P, hP⟩ := Option.ne_none_iff_exists'.mp hk
      obtain ⟨X, hX, -⟩ := getEntity_eq_some.mp hP
      have f := step_frame hstep
      have : k ∈ s'.entities.handles := Arena.mem_handles.mpr ⟨X, hX⟩
      rw [f.1.entities.shape.handles] at this
      obtain ⟨Y, hY⟩ := Arena.mem_handles.mp this
      exact (hlive _ _ hY).1
    exact q1 ((hl _ q2).trans (hl _ q3).symm)
  refine ⟨t, s', E'.makePub, ⟨ht, by rw [hgen]; rfl, ?_, ?_⟩, hstep, hnor, by rw [hit]; simp, hhs, hp, hmr.asleep, ?_, hmr.angularVelocity, r2, ?_, ?_, r3⟩
  · intro j c hc
    rw [getCollider_eq] at hc
    have : j ∈ t.colliders.handles := Arena.mem_handles.mpr ⟨c, hc⟩
    rw [hch] at this
    simp at this
    subst this
    have hc : t.colliders.get Demo.h0 = some c := hc
    rw [hC] at hc; cases hc
    refine ⟨finite3_f ⟨3, 0, 0⟩, finite3_f ⟨i.x, 0, 0⟩, finite3_f ⟨0, i.y, 0⟩, finite3_f ⟨0, 0, i.z⟩, ?_⟩
    refine (symPsd_f (Mat3.diag i)).mpr ⟨fun u v => by simp [Mat3.diag, Vec3.dot_def]; ring, fun u => ?_⟩
    simp [Mat3.diag, Vec3.dot_def]
    nlinarith [mul_nonneg hi.1 (mul_self_nonneg u.x), mul_nonneg hi.2.1 (mul_self_nonneg u.y), mul_nonneg hi.2.2 (mul_self_nonneg u.z)]
  · intro k p hp
    obtain ⟨X, hX, rfl⟩ := getEntity_eq_some.mp hp
    obtain ⟨-, rfl⟩ := hlive _ _ hX
    refine ⟨?_, ?_, ?_, ?_⟩
    · show FinitePose X.orientation; rw [r1]; exact finitePose_f _
    · show Finite3 X.velocity; rw [show X.velocity = Vec3.o.f by rw [← Vec3.f_zeros]; exact hmr.velocity]; exact finite3_f _
    · show Finite3 X.angularVelocity; rw [show X.angularVelocity = w.f from hmr.angularVelocity]; exact finite3_f _
    · show X.ownMass ≠ nan
      rw [show X.ownMass = fin 1 from hmr.ownMass]; simp
  · rw [← Vec3.f_zeros]; exact hmr.velocity
  · show E'.orientation.position = _; rw [r1]; rfl
  · show E'.orientation.rotation = _; rw [r1]; rfl

theorem rotated_mulVec (M : Mat3 ℝ) {q : Quat ℝ} (hq : q.normSq = 1) (w : Vec3 ℝ) :
    (rotateMomentOfInertia M.f q.f).mulVec w.f = (q.rot (M.mulVec (q.conj.rot w))).f := by
  have : rotateMomentOfInertia M.f q.f = ((q.matrix.mul M).mul q.matrix.transpose).f := by simp [rotateMomentOfInertia]
  rw [this, Mat3.f_mulVec, Mat3.mul_mulVec, Mat3.mul_mulVec, Quat.matrix_transpose_mulVec hq, ← Quat.rot_eq_matrix _ _ hq]

theorem exp_half_turn {k : ℝ} (hk : 0 < k) (hk2 : k * k * 2 = Real.pi * Real.pi) :
    Quat.exp ⟨k, k, 0⟩ = ⟨0, k / Real.pi, k / Real.pi, 0⟩ := by
  have hpi := Real.pi_pos
  have h3 := Real.two_le_pi
  have hdot : ((⟨k, k, 0⟩ : Vec3 ℝ).scale 2⁻¹).dot ((⟨k, k, 0⟩ : Vec3 ℝ).scale 2⁻¹) = (Real.pi / 2) * (Real.pi / 2) := by
    simp [Vec3.dot_def]; nlinarith
  have hlen : ((⟨k, k, 0⟩ : Vec3 ℝ).scale 2⁻¹).len = Real.pi / 2 := by
    unfold Vec3.len
    rw [hdot, Real.sqrt_mul_self (by positivity)]
  unfold Quat.exp
  rw [hdot, hlen, if_neg]
  · simp only [Real.cos_pi_div_two, Real.sin_pi_div_two]
    ext <;> simp <;> field_simp
  · unfold Quat.meps
    nlinarith

/-- **C65 fails for the angular momentum**: a body that spins freely about an axis that is not a principal one changes its angular
momentum about every point, although nothing acts on it. -/
theorem C65_false [Step.SafeGenerator XReal γ] : ∃ (s s' : System XReal γ) (k : Handle) (p p' : Entity XReal), FreeOfForces s ∧
    s.step .id (fin 1) = .ok s' ∧ s'.collisionRecords = [] ∧ s.entities.handles = [k] ∧ s.getEntity k = some p ∧ s'.getEntity k = some p' ∧
    p.asleep = false ∧ p.lastTotalMass = fin 3 ∧
    ∃ L L' : Vec3 ℝ, L ≠ L' ∧ ∀ x : Vec3 ℝ, angularMomentumOf p x.f = L.f ∧ angularMomentumOf p' x.f = L'.f := by
  obtain ⟨k, hk, hk2⟩ : ∃ k : ℝ, 0 < k ∧ k * k * 2 = Real.pi * Real.pi := by
    refine ⟨Real.pi / √2, by positivity, ?_⟩
    have : √2 * √2 = (2 : ℝ) := Real.mul_self_sqrt (by norm_num)
    field_simp
    nlinarith
  obtain ⟨s, s', p, hs, hh, hr, hn, hhs, hp, ha, hv, hw, hm, hx, hq, hI⟩ := demo_wobble (γ := γ) ⟨k, k, 0⟩ (i := ⟨1, 2, 3⟩) (by norm_num) (dt := fin 1) (proper_fin (by norm_num))
  obtain ⟨p', hp', hv', hw', -, -⟩ := C65_energy (by norm_num) hh hs hp ha (by rw [hr]; simp)
  obtain ⟨-, -, -, -, p1, -, -, -, -, -, hp1, -, -, hx', hq'⟩ := C21_free_flight (proper_fin (by norm_num)) hh hr hn hp ha
  rw [hp'] at hp1; cases hp1
  obtain ⟨E, hE, rfl⟩ := getEntity_iff.mp hp
  obtain ⟨E', hE', rfl⟩ := getEntity_iff.mp hp'
  obtain ⟨X, hX, hst⟩ := (step_frame hh).1.entities.get hE
  have hX : s'.entities.get _ = some X := hX
  rw [hE'] at hX; cases hX
  have hmo : E'.preppedMoment = E.preppedMoment := (staticRel_iff.mp hst).2.2.2.1
  refine ⟨s, s', Demo.h0, _, _, hs, hh, hr, hhs, hp, hp', ha, hm, ⟨k, 2 * k, 0⟩, ⟨2 * k, k, 0⟩, ?_, ?_⟩
  · intro h
    have := congrArg Vec3.y h
    simp at this
    linarith
  intro x
  rw [hw', hw, hq, show (fin 1 : XReal) = one from one_eq.symm, scale_oneX, scale_oneX, Quat.f_fromScaledAxis, exp_half_turn hk hk2] at hq'
  have hor : E.orientation.rotation = Quat.e.f := hq
  have hor' : E'.orientation.rotation = (⟨0, k / Real.pi, k / Real.pi, 0⟩ : Quat ℝ).f := by
    show E'.makePub.lastOrientation.rotation = _
    rw [hq']; simp
  have hI : E.preppedMoment = (Mat3.diag ⟨1, 2, 3⟩).f := hI
  have e1 : (inertiaOf E.makePub).mulVec E.makePub.angularVelocity = (⟨k, 2 * k, 0⟩ : Vec3 ℝ).f := by
    rw [hw]
    unfold inertiaOf
    show (rotateMomentOfInertia E.preppedMoment E.orientation.rotation).mulVec _ = _
    rw [hI, hor, rotated_mulVec _ Quat.e_normSq]
    simp [Mat3.diag, Vec3.dot_def]
    try ext <;> simp
  have e2 : (inertiaOf E'.makePub).mulVec E'.makePub.angularVelocity = (⟨2 * k, k, 0⟩ : Vec3 ℝ).f := by
    rw [hw', hw]
    unfold inertiaOf
    show (rotateMomentOfInertia E'.preppedMoment E'.orientation.rotation).mulVec _ = _
    have hpi := Real.pi_pos
    obtain ⟨l, hl, hkl⟩ : ∃ l : ℝ, l * l * 2 = 1 ∧ k / Real.pi = l := ⟨_, by field_simp; nlinarith, rfl⟩
    rw [hmo, hI, hor', hkl, rotated_mulVec _ (by simp [Quat.normSq]; linarith), Vec3.f_inj]
    have hl3 : l * l = 1 / 2 := by linarith
    unfold Quat.rot
    ext <;> simp [Mat3.diag, Quat.vec, Quat.conj, Vec3.dot_def]
    · linear_combination k * hl
    · linear_combination -k * hl
  have fE' : Finite3 E'.makePub.position := by
    rw [hx', hx, hv', hv, show (fin 1 : XReal) = one from one_eq.symm, scale_oneX, scale_oneX, Vec3.f_add]
    exact finite3_f _
  have hm' : E'.makePub.lastTotalMass = fin 3 := (staticRel_iff.mp hst).2.2.1.trans hm
  have v0 : ∀ (y : Vec3 XReal), Finite3 y → (y - x.f).cross (Vec3.o.f.scale (fin 3)) = Vec3.o.f := by
    intro y hy
    obtain ⟨y, rfl⟩ := hy.f
    rw [Vec3.f_sub, Vec3.f_scale, Vec3.f_cross, Vec3.f_inj]
    ext <;> simp
  unfold angularMomentumOf
  rw [e1, e2, hm, hm', hv', hv, v0 _ fE', v0 _ (by rw [hx]; exact finite3_f _), Vec3.f_add, Vec3.f_add, Vec3.f_inj, Vec3.f_inj]
  constructor <;> ext <;> simp

/-- A case of both theorems that hold: the same body, turning about a principal axis. -/
example [Step.SafeGenerator XReal γ] : ∃ (s s' : System XReal γ) (k : Handle) (p : Entity XReal), FreeOfForces s ∧ s.step .id (fin 1) = .ok s' ∧
    s.getEntity k = some p ∧ p.asleep = false ∧ p.lastTotalMass ≠ posInf ∧ PrincipalSpin p ∧ p.angularVelocity = (⟨5, 0, 0⟩ : Vec3 ℝ).f ∧
    ∀ r ∈ s'.collisionRecords, r.firstEntity ≠ k ∧ r.secondEntity ≠ k := by
  obtain ⟨s, s', p, hs, hh, hr, hn, hhs, hp, ha, hv, hw, hm, hx, hq, hI⟩ := demo_wobble (γ := γ) ⟨5, 0, 0⟩ (i := ⟨1, 2, 3⟩) (by norm_num) (dt := fin 1) (proper_fin (by norm_num))
  refine ⟨s, s', Demo.h0, p, hs, hh, hp, ha, by rw [hm]; simp, ⟨1, ?_⟩, hw, by rw [hr]; simp⟩
  rw [hw]
  unfold inertiaOf
  show (rotateMomentOfInertia p.lastPreppedMoment p.lastOrientation.rotation).mulVec _ = _
  rw [hI, hq, rotated_mulVec _ Quat.e_normSq, Vec3.f_scale, Vec3.f_inj]
  ext <;> simp [Mat3.diag, Vec3.dot_def]

/-! ### C66 -/

/-- The entity is movable and its moment of inertia is the same about every axis. -/
def Round (p : Entity XReal) : Prop := p.lastTotalMass ≠ posInf ∧ ∃ l : ℝ, 0 < l ∧ ∀ w : Vec3 ℝ, (inertiaOf p).mulVec w.f = (w.scale l).f

/-- The body is as heavy as said and round. -/
def RoundBody (b : Body) (m : ℝ) : Prop := b.mass = some m ∧ ∃ l : ℝ, 0 < l ∧ ∀ w : Vec3 ℝ, b.inertia.mulVec w = w.scale l

theorem RoundBody.det {b : Body} {m : ℝ} (h : RoundBody b m) : b.inertia.det ≠ 0 := by
  obtain ⟨-, l, hl, h⟩ := h
  have e1 := h ⟨1, 0, 0⟩
  have e2 := h ⟨0, 1, 0⟩
  have e3 := h ⟨0, 0, 1⟩
  have : b.inertia = Mat3.diag ⟨l, l, l⟩ := by
    ext
    · simpa [Vec3.dot_def, Mat3.diag] using congrArg Vec3.x e1
    · simpa [Vec3.dot_def, Mat3.diag] using congrArg Vec3.x e2
    · simpa [Vec3.dot_def, Mat3.diag] using congrArg Vec3.x e3
    · simpa [Vec3.dot_def, Mat3.diag] using congrArg Vec3.y e1
    · simpa [Vec3.dot_def, Mat3.diag] using congrArg Vec3.y e2
    · simpa [Vec3.dot_def, Mat3.diag] using congrArg Vec3.y e3
    · simpa [Vec3.dot_def, Mat3.diag] using congrArg Vec3.z e1
    · simpa [Vec3.dot_def, Mat3.diag] using congrArg Vec3.z e2
    · simpa [Vec3.dot_def, Mat3.diag] using congrArg Vec3.z e3
  rw [this]
  simp [Mat3.det, Mat3.diag]
  exact hl.ne'

theorem RoundBody.kick {b : Body} {m : ℝ} (h : RoundBody b m) (p j : Vec3 ℝ) : RoundBody (b.kick p j) m := h

theorem Drift.round {B B' : Handle → Body} (h : Drift B B') {k : Handle} {m : ℝ} (hr : RoundBody (B k) m) :
    RoundBody (B' k) m ∧ ∀ x, angularMomentum m (B' k) x = angularMomentum m (B k) x := by
  rcases h k with e | ⟨τ, I, e, hI⟩
  · rw [e]; exact ⟨hr, fun _ => rfl⟩
  · obtain ⟨hm, l, hl, hrd⟩ := hr
    have hq := Quat.exp_normSq ((B k).ang.scale τ)
    have hI' : ∀ w, I.mulVec w = w.scale l := by
      intro w
      rw [hI, hrd]
      have : (Quat.exp ((B k).ang.scale τ)).rot (((Quat.exp ((B k).ang.scale τ)).conj.rot w).scale l) =
          ((Quat.exp ((B k).ang.scale τ)).rot ((Quat.exp ((B k).ang.scale τ)).conj.rot w)).scale l := by
        unfold Quat.rot; ext <;> simp <;> ring
      rw [this, Quat.rot_rot_conj _ hq]
    rw [e]
    refine ⟨⟨hm, l, hl, hI'⟩, fun x => ?_⟩
    unfold angularMomentum
    simp only
    rw [hI', hrd]
    ext <;> simp <;> ring

theorem Bounce.angularMomentum {cs : Arena (Collider XReal)} {x : CollisionRecord XReal} {b1 b2 b1' b2' : Body} {p n : Vec3 ℝ} {e μ : ℝ}
    (h : Bounce cs x b1 b2 b1' b2' p n e μ) {m1 m2 : ℝ} (r1 : RoundBody b1 m1) (r2 : RoundBody b2 m2) (q : Vec3 ℝ) :
    RoundBody b1' m1 ∧ RoundBody b2' m2 ∧
      Props.angularMomentum m1 b1' q + Props.angularMomentum m2 b2' q = Props.angularMomentum m1 b1 q + Props.angularMomentum m2 b2 q := by
  rw [h.first, h.second]
  refine ⟨r1, r2, ?_⟩
  rw [angularMomentum_kick (h.phys1.kick _ _) (m := m1) r1.1 (r1.kick _ _).det, angularMomentum_kick h.phys1 r1.1 r1.det,
    angularMomentum_kick (h.phys2.kick _ _) (m := m2) r2.1 (r2.kick _ _).det, angularMomentum_kick h.phys2 r2.1 r2.det]
  ext <;> simp <;> ring

theorem total_angularMomentum {s : World XReal} (hf : FineWorld s) {m : Handle → ℝ}
    (hm : ∀ k E, s.entities.get k = some E → E.totalMass = fin (m k)) (x : Vec3 ℝ) :
    totalAngularMomentum s x.f = (Vec3.sum (s.entities.handles.map (fun k => angularMomentum (m k) (bodies s.entities k) x))).f := by
  unfold totalAngularMomentum entitiesOf
  have : ∀ l : List Handle, (∀ k ∈ l, ∃ E, s.entities.get k = some E) →
      ((l.filterMap s.getEntity).map (fun p => angularMomentumOf p x.f)).foldr (· + ·) Vec3.zeros =
        (Vec3.sum (l.map (fun k => angularMomentum (m k) (bodies s.entities k) x))).f := by
    intro l
    induction l with
    | nil => intro _; simp
    | cons k l ih =>
      intro hl
      obtain ⟨E, hE⟩ := hl k (by simp)
      have hp : s.getEntity k = some E.makePub := getEntity_eq_some.mpr ⟨E, hE, rfl⟩
      rw [List.filterMap_cons_some hp, List.map_cons, List.foldr_cons, ih (fun k hk => hl k (by simp [hk])), (hf k E hE).angularMomentum (hm k E hE),
        List.map_cons, Vec3.sum_cons, bodies_get hE, Vec3.f_add]
  exact this _ (fun k hk => Arena.mem_handles.mp hk)

/-- **C66 (partial).** A step without force generators keeps the total angular momentum about every point, through any number of
collisions, with friction too, if no entity is asleep, all are movable and each has the same moment of inertia about every axis.
Missing: bodies that are not round (`C66_false`). -/
theorem C66_round_partial {s s' : System XReal γ} {ord : IterOrder} {d : ℝ} (h0 : 0 ≤ d) (hh : s.step ord (fin d) = .ok s') (hs : FreeOfForces s)
    (hr : ∀ k p, s.getEntity k = some p → Round p ∧ p.asleep = false) (hrec : ∀ r ∈ s'.collisionRecords, SoundContact s' r) (q : Vec3 ℝ) :
    totalAngularMomentum s'.toWorld q.f = totalAngularMomentum s.toWorld q.f := by
  by_cases hd : 1 / 1000000 ≤ d
  swap
  · rw [step_short h0 (not_le.mp hd) hh]
  obtain ⟨hc, hf⟩ := hs.finite
  have hmass : ∀ k, ∃ m : ℝ, ∀ E, s.entities.get k = some E → E.totalMass = fin m := by
    intro k
    cases hE : s.entities.get k with
    | none => exact ⟨0, fun E h => by cases h⟩
    | some E =>
      rcases (hf k E hE).mass with ht | ⟨m, -, ht⟩
      · exact absurd ht (hr k E.makePub (getEntity_iff.mpr ⟨E, hE, rfl⟩)).1.1
      · exact ⟨m, fun X hX => by cases hX; exact ht⟩
  choose m hm using hmass
  have hnd := Arena.handles_nodup s.entities
  let T : (Handle → Body) → Vec3 ℝ := fun B => Vec3.sum (s.entities.handles.map (fun k => angularMomentum (m k) (B k) q))
  let P : (Handle → Body) → Prop := fun B => (∀ k ∈ s.entities.handles, RoundBody (B k) (m k)) ∧ T B = T (bodies s.entities)
  have K := bodies_step (P := P) (ok := fun _ => True) hd hh hs.generators hc hf (fun r h => ⟨hrec r h, trivial⟩) ?_ ?_ ?_
  · obtain ⟨B, ⟨-, hB1⟩, hB⟩ := K
    have hf' : FineWorld s'.toWorld := by
      intro k E' hE'
      obtain ⟨E, hE, -⟩ := (step_frame hh).1.entities.get' hE'
      obtain ⟨X, -, hX, -, hfx, -⟩ := hB k E hE
      have hX : s'.entities.get k = some X := hX
      rw [hX] at hE'; cases hE'
      exact hfx
    have hm' : ∀ k E, s'.entities.get k = some E → E.totalMass = fin (m k) := by
      intro k E' hE'
      obtain ⟨E, hE, hst⟩ := (step_frame hh).1.entities.get' hE'
      rw [(staticRel_iff.mp hst).2.2.1]
      exact hm k E hE
    rw [total_angularMomentum hf' hm', total_angularMomentum hf hm]
    have hh' : s'.entities.handles = s.entities.handles := (step_frame hh).1.handles
    rw [show s'.toWorld.entities.handles = s.entities.handles from hh', Vec3.f_inj]
    refine Eq.trans ?_ hB1
    refine congrArg Vec3.sum (List.map_congr_left (fun k hk => ?_))
    obtain ⟨E, hE⟩ := Arena.mem_handles.mp hk
    obtain ⟨E', X, hE', fX, -, e1, e2⟩ := hB k E hE
    rw [bodies_get hE', e1]
    rcases e2 with e2 | ⟨ha, -⟩
    · rw [e2]
    · have := (hr k E.makePub (getEntity_iff.mpr ⟨E, hE, rfl⟩)).2
      rw [show E.makePub.asleep = E.asleep from rfl, ha] at this
      cases this
  · rintro B B' ⟨b1, b2⟩ - hdr
    refine ⟨fun k hk => (hdr.round (b1 k hk)).1, ?_⟩
    rw [← b2]
    exact congrArg Vec3.sum (List.map_congr_left (fun k hk => (hdr.round (b1 k hk)).2 q))
  · rintro B h1 h2 r c1 c2 p n e μ ⟨b1, b2⟩ hne m1 m2 - hb
    obtain ⟨k1, k2, k3⟩ := hb.angularMomentum (b1 h1 m1) (b1 h2 m2) q
    refine ⟨?_, ?_⟩
    · intro k hk
      simp only
      split
      · next h => subst h; exact k2
      · split
        · next h => subst h; exact k1
        · exact b1 k hk
    · rw [← b2]
      refine sum_change2 hnd m1 m2 hne ?_ ?_
      · intro k _ q1 q2; simp [q1, q2]
      · simp only [if_true, if_neg hne]; exact k3
  · refine ⟨fun k hk => ?_, rfl⟩
    obtain ⟨E, hE⟩ := Arena.mem_handles.mp hk
    have fE := hf k E hE
    have o := fE.is
    obtain ⟨⟨hfin, l, hl, hI⟩, -⟩ := hr k E.makePub (getEntity_iff.mpr ⟨E, hE, rfl⟩)
    rw [bodies_get hE]
    refine ⟨?_, l, hl, fun w => ?_⟩
    · have := o.mass
      rw [hm k E hE] at this
      cases hb : (bodyOf E).mass with
      | none => rw [hb] at this; cases this
      | some x => rw [hb] at this; simp only [fin_inj] at this; rw [this]
    · have := hI w
      rw [show inertiaOf E.makePub = (bodyOf E).inertia.f from o.inertia, Mat3.f_mulVec, Vec3.f_inj] at this
      exact this

/-- A case: a round body that spins, flying nowhere. -/
example [Step.SafeGenerator XReal γ] : ∃ (s s' : System XReal γ), FreeOfForces s ∧ s.step .id (fin 1) = .ok s' ∧ s.entities.handles ≠ [] ∧
    (∀ k p, s.getEntity k = some p → Round p ∧ p.asleep = false ∧ p.angularVelocity = (⟨5, 4, 3⟩ : Vec3 ℝ).f) ∧
    ∀ r ∈ s'.collisionRecords, SoundContact s' r := by
  obtain ⟨s, s', p, hs, hh, hr, hn, hhs, hp, ha, hv, hw, hm, hx, hq, hI⟩ := demo_wobble (γ := γ) ⟨5, 4, 3⟩ (i := ⟨2, 2, 2⟩) (by norm_num)
    (dt := fin 1) (proper_fin (by norm_num))
  refine ⟨s, s', hs, hh, by rw [hhs]; simp, ?_, by rw [hr]; simp⟩
  intro j x hx
  obtain ⟨E, hE, rfl⟩ := getEntity_iff.mp hx
  have := Arena.mem_handles.mpr ⟨E, hE⟩
  rw [hhs, List.mem_singleton] at this
  subst this
  rw [hp] at hx; cases hx
  refine ⟨⟨by rw [hm]; simp, 2, by norm_num, fun w => ?_⟩, ha, hw⟩
  unfold inertiaOf
  show (rotateMomentOfInertia E.makePub.lastPreppedMoment E.makePub.lastOrientation.rotation).mulVec _ = _
  rw [hI, hq, rotated_mulVec _ Quat.e_normSq, Vec3.f_inj]
  ext <;> simp [Mat3.diag, Vec3.dot_def] <;> ring

/-- **C66 fails for other bodies**: nothing collides and the only entity spins freely, and the total angular momentum changes. -/
theorem C66_false [Step.SafeGenerator XReal γ] : ∃ (s s' : System XReal γ), FreeOfForces s ∧ s.step .id (fin 1) = .ok s' ∧
    s'.collisionRecords = [] ∧ (∀ k p, s.getEntity k = some p → p.asleep = false ∧ p.lastTotalMass = fin 3) ∧
    ∀ x : Vec3 ℝ, totalAngularMomentum s'.toWorld x.f ≠ totalAngularMomentum s.toWorld x.f := by
  obtain ⟨s, s', k, p, p', hs, hh, hr, hk, hp, hp', ha, hm, L, L', hne, hL⟩ := C65_false (γ := γ)
  have hk' : s'.entities.handles = [k] := by rw [← hk]; exact (step_frame hh).1.handles
  refine ⟨s, s', hs, hh, hr, ?_, ?_⟩
  · intro j x hx
    obtain ⟨E, hE, rfl⟩ := getEntity_iff.mp hx
    have := Arena.mem_handles.mpr ⟨E, hE⟩
    rw [hk, List.mem_singleton] at this
    subst this
    rw [hp] at hx; cases hx
    exact ⟨ha, hm⟩
  · intro x
    have e : ∀ (w : World XReal) (y : Entity XReal), w.entities.handles = [k] → w.getEntity k = some y →
        totalAngularMomentum w x.f = angularMomentumOf y x.f + Vec3.zeros := by
      intro w y h1 h2
      unfold totalAngularMomentum entitiesOf
      rw [h1, List.filterMap_cons_some h2]; rfl
    rw [e _ p' hk' hp', e _ p hk hp]
    rw [(hL x).1, (hL x).2, Vec3.f_zeros, Vec3.f_add, Vec3.f_add, Ne, Vec3.f_inj]
    intro h
    refine hne ?_
    ext
    · simpa using (congrArg Vec3.x h).symm
    · simpa using (congrArg Vec3.y h).symm
    · simpa using (congrArg Vec3.z h).symm

end Fluffy.Props
