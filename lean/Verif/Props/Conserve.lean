import Verif.Props.Finite
import Verif.Props.Momentum
import Verif.Props.Response
/-
C65 and C67: what becomes of the kinetic energy over a whole step.
-/
set_option linter.unusedSectionVars false
set_option linter.unusedSimpArgs false
namespace Fluffy.Props
open Fluffy XReal InternalEntity Step
variable {γ : Type} [ForceGenerator XReal γ]

/-! ### Specification -/

/-- The moment of inertia about the centre of mass, in world coordinates, that the engine uses for the entity. -/
noncomputable def inertiaOf (p : Entity XReal) : Mat3 XReal := p.lastOrientation.finalizeMomentOfInertia p.lastPreppedMoment
/-- `(m v·v + ω·I ω) / 2`; entities of infinite mass count zero. -/
noncomputable def kineticOf (p : Entity XReal) : XReal :=
  match p.lastTotalMass with
  | posInf => fin 0
  | m => m * p.velocity.dot p.velocity / fin 2 + ((inertiaOf p).mulVec p.angularVelocity).dot p.angularVelocity / fin 2
/-- The sum over all entities. -/
noncomputable def totalKinetic (s : World XReal) : XReal := ((entitiesOf s).map kineticOf).foldr (· + ·) (fin 0)

/-- The entity's rotation obeys Newton's laws in the code: it has an invertible moment of inertia; or none, and does not
spin; or it is immovable and at rest. -/
def RegularEntity (p : Entity XReal) : Prop :=
  ∃ I : Mat3 ℝ, inertiaOf p = I.f ∧
    ((p.lastTotalMass ≠ posInf ∧ I.det ≠ 0) ∨
     (p.lastTotalMass ≠ posInf ∧ I.det = 0 ∧ p.angularVelocity = Vec3.o.f) ∨
     (p.lastTotalMass = posInf ∧ I.det = 0 ∧ p.velocity = Vec3.o.f ∧ p.angularVelocity = Vec3.o.f))

/-- The surface has no friction and does not give back more than it takes. -/
def Frictionless (m : Material XReal) : Prop :=
  m.staticFriction = fin 0 ∧ m.dynamicFriction = fin 0 ∧ ∃ r : ℝ, m.restitution = fin r ∧ 0 ≤ r ∧ r ≤ 1

/-- All numbers of the entity's state are finite; its mass may be infinite. -/
def FiniteState (p : Entity XReal) : Prop :=
  FinitePose p.lastOrientation ∧ Finite3 p.velocity ∧ Finite3 p.angularVelocity ∧ p.ownMass ≠ nan

/-- A state that calls can lead to, in which all numbers are finite and no force generators are left. -/
structure FreeOfForces (s : System XReal γ) : Prop where
  reachable : Reachable s
  generators : s.generators.handles = []
  colliders : ∀ j c, s.getCollider j = some c → FiniteNumbers c
  entities : ∀ k p, s.getEntity k = some p → FiniteState p

/-! ### Turning about the axis of rotation -/

theorem rot_parallel {q : Quat ℝ} {r : Vec3 ℝ} {c : ℝ} (h : q.vec = r.scale c) : q.rot r = r := by
  unfold Quat.rot
  rw [h]
  ext <;> simp <;> ring

theorem exp_vec (r : Vec3 ℝ) (k : ℝ) : ∃ c, (Quat.exp (r.scale k)).vec = r.scale c := by
  unfold Quat.exp
  split
  · exact ⟨0, by ext <;> simp [Quat.e, Quat.vec]⟩
  · refine ⟨k * 2⁻¹ * (Real.sin ((r.scale k).scale 2⁻¹).len / ((r.scale k).scale 2⁻¹).len), ?_⟩
    ext <;> simp [Quat.vec] <;> ring

/-- A turn about `r` leaves `r` alone. -/
theorem exp_rot_self (r : Vec3 ℝ) (k : ℝ) : (Quat.exp (r.scale k)).rot r = r :=
  let ⟨_, h⟩ := exp_vec r k
  rot_parallel h

theorem exp_conj_rot_self (r : Vec3 ℝ) (k : ℝ) : (Quat.exp (r.scale k)).conj.rot r = r := by
  obtain ⟨c, h⟩ := exp_vec r k
  refine rot_parallel (c := -c) ?_
  have : (Quat.exp (r.scale k)).conj.vec = -(Quat.exp (r.scale k)).vec := rfl
  rw [this, h]
  ext <;> simp

theorem conj_mul_rot {p q : Quat ℝ} (hp : p.normSq = 1) (hq : q.normSq = 1) (v : Vec3 ℝ) :
    (p.mul q).conj.rot v = q.conj.rot (p.conj.rot v) := by
  have hpq : (p.mul q).normSq = 1 := by rw [Quat.mul_mul_normSq, hp, hq, one_mul]
  have : v = (p.mul q).rot (q.conj.rot (p.conj.rot v)) := by
    rw [Quat.rot_mul _ hp hq, Quat.rot_rot_conj _ hq, Quat.rot_rot_conj _ hp]
  conv_lhs => rw [this]
  rw [Quat.rot_conj_rot _ hpq]

/-- The finished tensor acts as the stored one in local coordinates. -/
theorem finalize_acts {o : Orientation ℝ} (ho : o.Unit) (a : Mat3 ℝ) :
    ∃ I : Mat3 ℝ, o.f.finalizeMomentOfInertia a.f = I.f ∧ ∀ w, I.mulVec w = o.rotation.rot (a.mulVec (o.rotation.conj.rot w)) := by
  refine ⟨(o.rotation.matrix.mul a).mul o.rotation.matrix.transpose, ?_, ?_⟩
  · simp [Orientation.finalizeMomentOfInertia, rotateMomentOfInertia]
  · intro w
    rw [Mat3.mul_mulVec, Mat3.mul_mulVec, Quat.matrix_transpose_mulVec ho, ← Quat.rot_eq_matrix _ _ ho]

theorem Fine.prepped {E : InternalEntity XReal} (h : Fine E) : ∃ a : Mat3 ℝ, E.preppedMoment = a.f := by
  obtain ⟨I, hI, -⟩ := h.moment ⟨.o, Quat.e, .o⟩ Quat.e_normSq
  generalize E.preppedMoment = A at hI
  obtain ⟨⟨a, b, c⟩, ⟨d, e, f⟩, ⟨g, k, l⟩⟩ := A
  have h1 := congrArg (fun m : Mat3 XReal => m.r1.x) hI
  simp only [Orientation.finalizeMomentOfInertia, rotateMomentOfInertia, Orientation.f_rotation, Quat.f_matrix, Mat3.f_transpose] at h1
  have f1 : Scalar.isFinite (((Mat3.f (Quat.matrix Quat.e)).mul ⟨⟨a, b, c⟩, ⟨d, e, f⟩, ⟨g, k, l⟩⟩).mul (Mat3.f (Quat.matrix Quat.e).transpose)).r1.x = true := by
    rw [h1]; rfl
  have f2 := XReal.fin_of_add f1
  have f3 := XReal.fin_of_add f2.1
  have ex := (XReal.fin_of_mul f3.1).1
  have ey := (XReal.fin_of_mul f3.2).1
  have ez := (XReal.fin_of_mul f2.2).1
  have split3 : ∀ {u v w x y z : XReal}, Scalar.isFinite (u * x + v * y + w * z) = true →
      (∃ r, x = fin r) ∧ (∃ r, y = fin r) ∧ ∃ r, z = fin r := by
    intro u v w x y z hh
    have a1 := XReal.fin_of_add hh
    have a2 := XReal.fin_of_add a1.1
    exact ⟨isFinite_iff.mp (XReal.fin_of_mul a2.1).2, isFinite_iff.mp (XReal.fin_of_mul a2.2).2, isFinite_iff.mp (XReal.fin_of_mul a1.2).2⟩
  obtain ⟨⟨a, rfl⟩, ⟨d, rfl⟩, ⟨g, rfl⟩⟩ := split3 ex
  obtain ⟨⟨b, rfl⟩, ⟨e, rfl⟩, ⟨k, rfl⟩⟩ := split3 ey
  obtain ⟨⟨c, rfl⟩, ⟨f, rfl⟩, ⟨l, rfl⟩⟩ := split3 ez
  exact ⟨⟨⟨a, b, c⟩, ⟨d, e, f⟩, ⟨g, k, l⟩⟩, rfl⟩

/-! ### The body an entity is -/

/-- The number, or 0. -/
noncomputable def real : XReal → ℝ
  | fin r => r
  | _ => 0
/-- The vector of the numbers. -/
noncomputable def real3 (v : Vec3 XReal) : Vec3 ℝ := ⟨real v.x, real v.y, real v.z⟩
@[simp] theorem real3_f (v : Vec3 ℝ) : real3 v.f = v := rfl

/-- The body the numbers of an entity describe. -/
noncomputable def bodyOf (E : InternalEntity XReal) : Body :=
  { mass := match E.totalMass with | posInf => none | m => some (real m)
    inertia := ⟨real3 E.momentOfInertia.r1, real3 E.momentOfInertia.r2, real3 E.momentOfInertia.r3⟩
    pos := real3 E.orientation.position
    vel := real3 E.velocity
    ang := real3 E.angularVelocity }

theorem bodyOf_eq {b : Body} {E : InternalEntity XReal} (h : b.Of E) : bodyOf E = b := by
  obtain ⟨m, I, x, v, w⟩ := b
  unfold bodyOf
  rw [h.mass, h.inertia, h.pos, h.vel, h.ang]
  cases m <;> simp [Mat3.f, real]

theorem Fine.is {E : InternalEntity XReal} (h : Fine E) : (bodyOf E).Of E := by
  obtain ⟨o, ho, hu⟩ := h.pose
  obtain ⟨v, hv⟩ := h.vel
  obtain ⟨a, ha⟩ := h.ang
  obtain ⟨I, hI, h1, h2⟩ := h.moment o hu
  have hI : E.momentOfInertia = I.f := by unfold momentOfInertia; rw [ho, hI]
  have : ∃ b : Body, b.Of E := by
    rcases h.mass with ht | ⟨m, -, ht⟩
    · exact ⟨⟨none, I, o.position, v, a⟩, ht, hI, by rw [ho]; rfl, hv, ha⟩
    · exact ⟨⟨some m, I, o.position, v, a⟩, ht, hI, by rw [ho]; rfl, hv, ha⟩
  obtain ⟨b, hb⟩ := this
  rw [bodyOf_eq hb]; exact hb

theorem Fine.physical {E : InternalEntity XReal} (h : Fine E) (hm : E.totalMass ≠ fin 0) : (bodyOf E).Physical := by
  obtain ⟨b, o, p, -⟩ := h.body hm
  rw [bodyOf_eq o]; exact p

/-- The kinetic energy of the stored entity. -/
noncomputable def kin (E : InternalEntity XReal) : ℝ := kinetic (bodyOf E)

theorem Fine.kineticOf {E : InternalEntity XReal} (h : Fine E) : kineticOf E.makePub = fin (kin E) := by
  have o := h.is
  have hI : inertiaOf E.makePub = (bodyOf E).inertia.f := o.inertia
  unfold Props.kineticOf kin kinetic
  rw [hI]
  show (match E.totalMass with | posInf => fin 0 | m => m * E.velocity.dot E.velocity / fin 2 +
    (((bodyOf E).inertia.f).mulVec E.angularVelocity).dot E.angularVelocity / fin 2) = _
  rw [o.mass, o.vel, o.ang]
  cases (bodyOf E).mass with
  | none => simp
  | some m => simp; rw [fin_div two_ne_zero, fin_div two_ne_zero, fin_add]

theorem Fine.kin_nonneg {E : InternalEntity XReal} (h : Fine E) : 0 ≤ kin E := by
  obtain ⟨o, ho, hu⟩ := h.pose
  obtain ⟨I, hI, -, h2⟩ := h.moment o hu
  have hI' : (bodyOf E).inertia = I := by
    have := h.is.inertia
    unfold momentOfInertia at this
    rw [ho, hI, Mat3.f_inj] at this
    exact this.symm
  have hm := h.is.mass
  unfold kin kinetic
  cases hmm : (bodyOf E).mass with
  | none => exact le_refl _
  | some m =>
    rw [hmm] at hm
    have h0 : 0 ≤ m := by
      rcases h.mass with ht | ⟨m', h0, ht⟩
      · rw [ht] at hm; cases hm
      · rw [ht] at hm; simp only [fin_inj] at hm; rw [← hm]; exact h0
    have e1 := mul_nonneg h0 (Vec3.dot_self_nonneg (bodyOf E).vel)
    have e2 := h2 (bodyOf E).ang
    rw [← hI'] at e2
    simp only
    linarith

/-- `RegularEntity`, of the body. -/
theorem regular_iff {E : InternalEntity XReal} (h : Fine E) : RegularEntity E.makePub ↔ Regular (bodyOf E) := by
  have o := h.is
  have hI : inertiaOf E.makePub = (bodyOf E).inertia.f := o.inertia
  have hm : E.makePub.lastTotalMass = posInf ↔ (bodyOf E).mass = none := by
    show E.totalMass = posInf ↔ _
    rw [o.mass]
    cases (bodyOf E).mass <;> simp
  have hv : E.makePub.velocity = Vec3.o.f ↔ (bodyOf E).vel = Vec3.o := by
    show E.velocity = _ ↔ _
    rw [o.vel, Vec3.f_inj]
  have hw : E.makePub.angularVelocity = Vec3.o.f ↔ (bodyOf E).ang = Vec3.o := by
    show E.angularVelocity = _ ↔ _
    rw [o.ang, Vec3.f_inj]
  unfold RegularEntity Regular
  simp only [hI, hm, hv, hw, Mat3.f_inj, ne_eq]
  constructor
  · rintro ⟨I, rfl, h⟩; exact h
  · intro h; exact ⟨_, rfl, h⟩

theorem Regular.kick {b : Body} (h : Regular b) (p j : Vec3 ℝ) : Regular (b.kick p j) := by
  rcases h with ⟨hm, hi⟩ | ⟨hm, hi, hw⟩ | ⟨hm, hi, hv, hw⟩
  · exact Or.inl ⟨hm, hi⟩
  · refine Or.inr (Or.inl ⟨hm, hi, ?_⟩)
    have hW : b.W = Mat3.o := Mat3.inv_of_det hi
    simp [Body.kick, hW, hw]
  · refine Or.inr (Or.inr ⟨hm, hi, ?_, ?_⟩)
    · have h0 : b.im = 0 := by unfold Body.im; rw [hm]
      simp [Body.kick, h0, hv]
    · have hW : b.W = Mat3.o := Mat3.inv_of_det hi
      simp [Body.kick, hW, hw]

/-! ### Moving on -/

theorem det_mul (a b : Mat3 ℝ) : (a.mul b).det = a.det * b.det := by
  simp only [Mat3.det, Mat3.mul, Mat3.transpose, Vec3.dot_def]; ring

theorem matrix_det {q : Quat ℝ} (h : q.normSq = 1) : q.matrix.det * q.matrix.transpose.det = 1 := by
  rw [← det_mul]
  have : q.matrix.mul q.matrix.transpose = Mat3.i := by
    apply Mat3.ext_mulVec
    intro u
    rw [Mat3.mul_mulVec, Quat.matrix_transpose_mulVec h, ← Quat.rot_eq_matrix _ _ h, Quat.rot_rot_conj _ h]
    ext <;> simp [Mat3.i]
  rw [this]; simp [Mat3.det, Mat3.i]

theorem det_turned {q : Quat ℝ} (h : q.normSq = 1) {I J : Mat3 ℝ} (hI : ∀ w, I.mulVec w = q.rot (J.mulVec (q.conj.rot w))) : I.det = J.det := by
  have : I = (q.matrix.mul J).mul q.matrix.transpose := by
    apply Mat3.ext_mulVec
    intro u
    rw [Mat3.mul_mulVec, Mat3.mul_mulVec, Quat.matrix_transpose_mulVec h, ← Quat.rot_eq_matrix _ _ h, hI]
  rw [this, det_mul, det_mul]
  linear_combination J.det * matrix_det h

/-- An entity that is awake and on course moves on along its velocity and turns about its axis of rotation. -/
theorem Fine.turned {E : InternalEntity XReal} (h : Fine E) (ha : E.asleep = false) {i : StepInfo XReal} {t : ℝ}
    (h1 : i.linearMovement = E.velocity.scale (fin t)) (h2 : i.angularMovement = E.angularVelocity.scale (fin t)) (p : ℝ) :
    ∃ I : Mat3 ℝ, bodyOf (Step.moved (fin p) i E) = { bodyOf E with inertia := I, pos := (bodyOf E).pos + (bodyOf E).vel.scale (t * p) } ∧
      ∀ w, I.mulVec w = (Quat.exp ((bodyOf E).ang.scale (t * p))).rot
        ((bodyOf E).inertia.mulVec ((Quat.exp ((bodyOf E).ang.scale (t * p))).conj.rot w)) := by
  obtain ⟨o, ho, hu⟩ := h.pose
  obtain ⟨a, hA⟩ := h.prepped
  have of := h.is
  have hq := Quat.exp_normSq ((bodyOf E).ang.scale (t * p))
  have hmv : (Step.moved (fin p) i E).orientation = (o.after ((bodyOf E).vel.scale (t * p)) ((bodyOf E).ang.scale (t * p))).f := by
    unfold Step.moved
    rw [if_neg (by simp [ha])]
    simp only [ho, h1, h2, of.vel, of.ang, Vec3.f_scale, Orientation.f_afterAffected, Vec3.scale_scale]
  obtain ⟨I, hI, hact⟩ := finalize_acts (Orientation.after_unit o hu ((bodyOf E).vel.scale (t * p)) ((bodyOf E).ang.scale (t * p))) a
  obtain ⟨J, hJ, hJact⟩ := finalize_acts hu a
  have hJ' : (bodyOf E).inertia = J := by
    have := of.inertia
    unfold momentOfInertia at this
    rw [ho, hA, hJ, Mat3.f_inj] at this
    exact this.symm
  have hs := staticRel_iff.mp (moved_static (fin p) i E)
  refine ⟨I, bodyOf_eq ⟨?_, ?_, ?_, ?_, ?_⟩, ?_⟩
  · rw [hs.2.2.1]; exact of.mass
  · unfold momentOfInertia
    rw [hmv, hs.2.2.2.1, hA, hI]
  · rw [hmv]
    have := of.pos
    rw [ho] at this
    have : o.position = (bodyOf E).pos := (Vec3.f_inj _ _).mp this
    simp [Orientation.after, this]
  · unfold Step.moved; rw [if_neg (by simp [ha])]; exact of.vel
  · unfold Step.moved; rw [if_neg (by simp [ha])]; exact of.ang
  · intro w
    rw [hact, hJ', hJact]
    show ((Quat.exp ((bodyOf E).ang.scale (t * p))).mul o.rotation).rot (a.mulVec (((Quat.exp ((bodyOf E).ang.scale (t * p))).mul o.rotation).conj.rot w)) = _
    rw [Quat.rot_mul _ hq hu, conj_mul_rot hq hu]

theorem Fine.kin_moved {E : InternalEntity XReal} (h : Fine E) {i : StepInfo XReal} {t : ℝ}
    (h1 : i.linearMovement = E.velocity.scale (fin t)) (h2 : i.angularMovement = E.angularVelocity.scale (fin t)) (p : ℝ) :
    kin (Step.moved (fin p) i E) = kin E ∧ (Regular (bodyOf E) → Regular (bodyOf (Step.moved (fin p) i E))) := by
  by_cases ha : E.asleep = true
  · unfold Step.moved; rw [if_pos ha]; exact ⟨rfl, id⟩
  obtain ⟨I, hb, hI⟩ := h.turned (by simpa using ha) h1 h2 p
  have hq := Quat.exp_normSq ((bodyOf E).ang.scale (t * p))
  have hd := det_turned hq hI
  unfold kin
  rw [hb]
  constructor
  · unfold kinetic
    cases (bodyOf E).mass with
    | none => rfl
    | some m =>
      simp only
      congr 2
      rw [hI, exp_conj_rot_self]
      have := Quat.rot_dot ((bodyOf E).inertia.mulVec (bodyOf E).ang) (bodyOf E).ang hq
      rw [exp_rot_self] at this
      exact this
  · unfold Regular
    simp only [hd]
    exact id

/-! ### A step, seen as motion of bodies -/

/-- The bodies of a state. -/
noncomputable def bodies (a : Arena (InternalEntity XReal)) (k : Handle) : Body :=
  match a.get k with
  | some E => bodyOf E
  | none => ⟨none, .o, .o, .o, .o⟩
theorem bodies_get {a : Arena (InternalEntity XReal)} {k : Handle} {E : InternalEntity XReal} (h : a.get k = some E) : bodies a k = bodyOf E := by
  unfold bodies; rw [h]
theorem bodies_none {a : Arena (InternalEntity XReal)} {k : Handle} (h : a.get k = none) : bodies a k = ⟨none, .o, .o, .o, .o⟩ := by
  unfold bodies; rw [h]

/-- Every body rests (it is asleep) or moves on with its velocity and turns with its angular velocity. -/
def Drift (B B' : Handle → Body) : Prop :=
  ∀ k, B' k = B k ∨ ∃ (τ : ℝ) (I : Mat3 ℝ), B' k = { B k with inertia := I, pos := (B k).pos + (B k).vel.scale τ } ∧
    ∀ w, I.mulVec w = (Quat.exp ((B k).ang.scale τ)).rot ((B k).inertia.mulVec ((Quat.exp ((B k).ang.scale τ)).conj.rot w))

/-- The response to the contact of a record, on bodies: an impulse along the normal and one of friction. -/
structure Bounce (cs : Arena (Collider XReal)) (r : CollisionRecord XReal) (b1 b2 b1' b2' : Body) (p n : Vec3 ℝ) (e μ : ℝ) : Prop where
  phys1 : b1.Physical
  phys2 : b2.Physical
  movable : b1.mass ≠ none ∨ b2.mass ≠ none
  position : r.position = p.f
  normal : r.normal = n.f
  material : ∃ h1 h2 c1 c2, cs.get h1 = some c1 ∧ cs.get h2 = some c2 ∧ fin e = c1.material.restitution * c2.material.restitution ∧
    (fin μ = c1.material.staticFriction * c2.material.staticFriction ∨ fin μ = c1.material.dynamicFriction * c2.material.dynamicFriction)
  first : b1' = (b1.kick p (Body.normalImpulse b1 b2 e p n)).kick p (Body.frictionImpulse (b1.kick p (Body.normalImpulse b1 b2 e p n))
    (b2.kick p (-Body.normalImpulse b1 b2 e p n)) μ (Body.normalImpulse b1 b2 e p n) p n)
  second : b2' = (b2.kick p (-Body.normalImpulse b1 b2 e p n)).kick p (-Body.frictionImpulse (b1.kick p (Body.normalImpulse b1 b2 e p n))
    (b2.kick p (-Body.normalImpulse b1 b2 e p n)) μ (Body.normalImpulse b1 b2 e p n) p n)

theorem bodyOf_wake {E X : InternalEntity XReal} (h : WakeRel E X) : bodyOf X = bodyOf E := by
  rw [h]; rfl

/-- What is kept while bodies drift and bounce is kept by the iterations of a step. -/
theorem bodies_iterate {s : System XReal γ} {d : ℝ} (hd : 0 ≤ d) {ord : IterOrder} {n : Nat} {st st' : LoopState XReal} {c : Bool}
    {P : (Handle → Body) → Prop} {ok : CollisionRecord XReal → Prop}
    (hc : ∀ j c, s.colliders.get j = some c → FiniteNumbers c)
    (hdrift : ∀ B B', P B → (∀ k, k ∉ s.entities.handles → B' k = B k) → Drift B B' → P B')
    (hbounce : ∀ B h1 h2 r b1 b2 p n e μ, P B → h1 ≠ h2 → h1 ∈ s.entities.handles → h2 ∈ s.entities.handles → ok r →
      Bounce s.colliders r (B h1) (B h2) b1 b2 p n e μ → P (fun k => if k = h2 then b2 else if k = h1 then b1 else B k))
    (h0 : ∃ c, Running s d c st) (hf : FineLoop s.entities st) (hP : P (bodies st.world.entities))
    (hh : iterate ord (fin d) n st = .ok (st', c)) (hrec : ∀ r ∈ st'.world.collisionRecords, SoundIn s.entities r ∧ ok r) :
    FineWorld st'.world ∧ P (bodies st'.world.entities) := by
  have hnd := Arena.handles_nodup s.entities
  have main := iterate_induct (P := fun st => (∃ c, Running s d c st) ∧ FineLoop s.entities st ∧
      ((∀ r ∈ st.world.collisionRecords, SoundIn s.entities r ∧ ok r) → P (bodies st.world.entities))) ?_ ⟨h0, hf, fun _ => hP⟩ hh
  · exact ⟨(main.2.1 (fun r hr => (hrec r hr).1)).1, main.2.2 hrec⟩
  · rintro st best w st1 ⟨⟨c, hr⟩, hfl, hp⟩ h1 h2 h3
    obtain ⟨p, hp0, -, -, -, r1, r2⟩ := hr.body hd h1 h2 h3
    obtain ⟨f1, f2⟩ := fine_body (dt := fin d) hnd hc hr.inv hfl h1 h2 h3
    obtain ⟨w1, w2⟩ := wakeColliding_evolves h2
    have hnd' : (st.infos.map StepInfo.handle).Nodup := by rw [hr.inv.handles]; exact hnd
    obtain ⟨a1, a2, a3, a4⟩ := advance_spec (st := { st with world := w }) hnd' h3
    have hcr : st1.world.collisionRecords = st.world.collisionRecords := by rw [a1]; simp only []; rw [w1]
    have adv : (∀ r ∈ st1.world.collisionRecords, SoundIn s.entities r ∧ ok r) → P (bodies st1.world.entities) := by
      intro hrec
      rw [hcr] at hrec
      have hP := hp hrec
      obtain ⟨fw, -, -⟩ := hfl (fun r hr => (hrec r hr).1)
      have hsame : ∀ k, k ∉ s.entities.handles → bodies st1.world.entities k = bodies st.world.entities k := by
        intro k hk
        rw [← hr.inv.handles] at hk
        have e1 := a3 k hk
        have e2 : w.entities.get k = none := by
          cases hw : w.entities.get k with
          | none => rfl
          | some X =>
            obtain ⟨E, hE, -⟩ := w2.get' hw
            obtain ⟨E0, hE0, -⟩ := hr.inv.frame.entities.get' hE
            rw [hr.inv.handles] at hk
            exact absurd (Arena.mem_handles.mpr ⟨E0, hE0⟩) hk
        have e3 : st.world.entities.get k = none := by
          cases hw : st.world.entities.get k with
          | none => rfl
          | some X =>
            obtain ⟨E0, hE0, -⟩ := hr.inv.frame.entities.get' hw
            rw [hr.inv.handles] at hk
            exact absurd (Arena.mem_handles.mpr ⟨E0, hE0⟩) hk
        rw [bodies_none e3, bodies_none (e1.trans e2)]
      refine hdrift _ _ hP hsame ?_
      intro k
      by_cases hk : k ∈ s.entities.handles
      · rw [← hr.inv.handles] at hk
        obtain ⟨i, hi, rfl⟩ := List.mem_map.mp hk
        obtain ⟨m, hm⟩ := List.getElem?_of_mem hi
        obtain ⟨E, hE, m1, m2⟩ := hr.course m i hm
        obtain ⟨X, hX, hX'⟩ := a4 i hi
        have hX : w.entities.get i.handle = some X := hX
        obtain ⟨X0, hX0, hrel⟩ := w2.get hE
        rw [hX] at hX0; cases hX0
        rw [bodies_get hE, bodies_get hX', hp0]
        have fE := fw _ _ hE
        have fX : Fine X := fE.of (WakeRel.static hrel) (by rw [hrel]; exact fE.pose) (by rw [hrel]; exact fE.vel) (by rw [hrel]; exact fE.ang)
        rw [hr.clock.left] at m1 m2
        by_cases ha : X.asleep = true
        · left
          unfold moved; rw [if_pos ha]
          exact bodyOf_wake hrel
        · right
          have hb := fX.turned (by simpa using ha) (i := i) (t := (1 - c) * d) (by rw [m1, hrel]) (by rw [m2, hrel]) p
          rw [bodyOf_wake hrel] at hb
          exact ⟨_, hb⟩
      · exact Or.inl (hsame k hk)
    refine ⟨fun _ => ⟨⟨_, r1⟩, f1, adv⟩, fun k st2 hb hres => ⟨⟨_, (r2 k st2 hb hres).1⟩, f2 k st2 hb hres, ?_⟩⟩
    intro hrec
    obtain ⟨e1, e2, i1, i2, hne, g1, g2, n1, n2, rfl⟩ := respond_spec hres
    have hrec1 : ∀ r ∈ st1.world.collisionRecords, SoundIn s.entities r ∧ ok r := fun r hr => hrec r (by simp [hr])
    have hP := adv hrec1
    obtain ⟨fw, -, -⟩ := f1 (fun r hr => (hrec1 r hr).1)
    obtain ⟨⟨s1, s2, s3⟩, hok⟩ := hrec (respondPair k (st1.currentPercent * fin d) st1.timeLeft e1 e2 i1 i2).record (by simp)
    obtain ⟨x1, y1, z1⟩ := r1.inv.frame.entities.get' g1
    obtain ⟨x2, y2, z2⟩ := r1.inv.frame.entities.get' g2
    obtain ⟨m1, m2, m3⟩ := s3 x1 x2 y1 y2
    rw [← (staticRel_iff.mp z1).2.2.1] at m1 m3
    rw [← (staticRel_iff.mp z2).2.2.1] at m2 m3
    have o1 := (fw _ _ g1).is
    have o2 := (fw _ _ g2).is
    have p1 := (fw _ _ g1).physical m1
    have p2 := (fw _ _ g2).physical m2
    have mov : (bodyOf e1).mass ≠ none ∨ (bodyOf e2).mass ≠ none := by
      have key : ∀ {e : InternalEntity XReal}, (bodyOf e).Of e → e.totalMass ≠ posInf → (bodyOf e).mass ≠ none := by
        intro e o hm hn
        have := o.mass
        rw [hn] at this
        exact hm this
      exact m3.imp (key o1) (key o2)
    obtain ⟨P0, hP0⟩ := s1.f
    obtain ⟨N, hN⟩ := s2.f
    subst hb
    obtain ⟨_, _, _, _, -, -, -, first, second, -, -, -, -, -, ch1, -, ch2, -, c1, c2, cc, q1, q2, -, -, hk⟩ := searchFirst_contact h1
    rw [hr.inv.frame.colliders] at q1 q2
    have k3 : k.restitution = c1.material.restitution * c2.material.restitution := by rw [hk]
    have k4 : k.staticFriction = c1.material.staticFriction * c2.material.staticFriction := by rw [hk]
    have k5 : k.dynamicFriction = c1.material.dynamicFriction * c2.material.dynamicFriction := by rw [hk]
    obtain ⟨u1, u2, u3⟩ := (hc _ _ q1).material
    obtain ⟨v1, v2, v3⟩ := (hc _ _ q2).material
    obtain ⟨u1', u1⟩ := isFinite_iff.mp u1
    obtain ⟨u2', u2⟩ := isFinite_iff.mp u2
    obtain ⟨u3', u3⟩ := isFinite_iff.mp u3
    obtain ⟨v1', v1⟩ := isFinite_iff.mp v1
    obtain ⟨v2', v2⟩ := isFinite_iff.mp v2
    obtain ⟨v3', v3⟩ := isFinite_iff.mp v3
    rw [u1, v1, fin_mul] at k3
    rw [u2, v2, fin_mul] at k4
    rw [u3, v3, fin_mul] at k5
    obtain ⟨μ, F, hμ, rfl, w1, w2⟩ := Body.respondPair o1 o2 p1 p2 (Body.denom_pos p1 p2 mov P0 N).ne' (k := k) hP0 hN k3 k4 k5
      (st1.currentPercent * fin d) st1.timeLeft i1 i2
    have hb := hbounce _ k.firstHandle k.secondHandle (respondPair k (st1.currentPercent * fin d) st1.timeLeft e1 e2 i1 i2).record
      (bodyOf (respondPair k (st1.currentPercent * fin d) st1.timeLeft e1 e2 i1 i2).first)
      (bodyOf (respondPair k (st1.currentPercent * fin d) st1.timeLeft e1 e2 i1 i2).second) P0 N (u1' * v1') μ hP hne
      (Arena.mem_handles.mpr ⟨x1, y1⟩) (Arena.mem_handles.mpr ⟨x2, y2⟩) hok (by
        rw [bodies_get g1, bodies_get g2]
        refine ⟨p1, p2, mov, hP0, hN, ⟨ch1, ch2, c1, c2, q1, q2, ?_, ?_⟩, bodyOf_eq w1, bodyOf_eq w2⟩
        · rw [u1, v1, fin_mul]
        · rcases hμ with rfl | rfl
          · left; rw [u2, v2, fin_mul]
          · right; rw [u3, v3, fin_mul])
    refine (congrArg P ?_).mp hb
    funext h
    simp only
    unfold bodies
    rw [respond_get hne g1 g2]
    split_ifs <;> rfl

theorem Fine.inverse {E : InternalEntity XReal} (h : Fine E) : ∃ W : Mat3 ℝ, inverseInertia E.makePub = W.f :=
  ⟨(bodyOf E).W, by have := h.is.W; exact this⟩

/-- Without generators the integration changes no body. -/
theorem bodies_integrate {s mid : System XReal γ} {infos : List (StepInfo XReal)} {d : ℝ} (hg : s.generators.handles = [])
    (hf : FineWorld s.toWorld) (hh : integrateAll (fin d) s.generators.handles s.entities.handles s = .ok (mid, infos)) :
    bodies mid.entities = bodies s.entities ∧ FineWorld mid.toWorld ∧ FineInfos infos := by
  obtain ⟨k1, -, k3, -, k5, k6⟩ := integrateAll_spec (Arena.handles_nodup _) hh
  have each : ∀ k E, s.entities.get k = some E → ∃ M, mid.entities.get k = some M ∧ bodyOf M = bodyOf E ∧ Fine M := by
    intro k E hE
    obtain ⟨w, g, g', fs, -, -, -, -, h4, h5⟩ := integrated hh (getEntity_eq_some.mpr ⟨E, hE, rfl⟩)
    rw [show (if Pushable E.makePub = true then s.generators.handles else []) = [] by rw [hg]; split <;> rfl] at h4
    cases h4
    obtain ⟨M, hM, he⟩ := getEntity_eq_some.mp h5
    obtain ⟨M', hM', hrel⟩ := k3.get hE
    have hM : mid.entities.get k = some M := hM
    rw [hM] at hM'; cases hM'
    have fE := hf k E hE
    obtain ⟨W, hW⟩ := fE.inverse
    have z1 : (accelerationOf E.makePub []).scale (fin d) = Vec3.o.f := by
      show (Vec3.zeros : Vec3 XReal).scale (fin d) = _; simp
    have z2 : (inverseInertia E.makePub).mulVec ((torqueOf E.makePub []).scale (fin d)) = Vec3.o.f := by
      rw [hW]
      show W.f.mulVec ((Vec3.zeros : Vec3 XReal).scale (fin d)) = _; simp
    rw [z1, z2, vec_add_o, vec_add_o] at he
    have v1 : M.velocity = E.velocity := congrArg Entity.velocity he
    have v2 : M.angularVelocity = E.angularVelocity := congrArg Entity.angularVelocity he
    have : M = E := by rw [hrel, v1, v2]
    rw [this] at hM
    exact ⟨E, hM, rfl, fE⟩
  have hfm : FineWorld mid.toWorld := by
    intro k M hM
    obtain ⟨E, hE, -⟩ := k3.get' hM
    obtain ⟨M', hM', -, hf'⟩ := each k E hE
    have hM : mid.entities.get k = some M := hM
    rw [hM] at hM'; cases hM'
    exact hf'
  refine ⟨?_, hfm, ?_⟩
  · funext k
    cases hE : s.entities.get k with
    | some E =>
      obtain ⟨M, hM, hb, -⟩ := each k E hE
      rw [bodies_get hM, bodies_get hE, hb]
    | none =>
      have : mid.entities.get k = none := by
        cases hM : mid.entities.get k with
        | none => rfl
        | some M =>
          obtain ⟨E, hE', -⟩ := k3.get' hM
          have hE' : s.entities.get k = some E := hE'
          rw [hE] at hE'; cases hE'
      rw [bodies_none this, bodies_none hE]
  · intro i hi
    obtain ⟨e, he, hie⟩ := k6 i hi
    have fe := hfm _ _ he
    rw [hie]
    exact ⟨fin_scale fe.vel d, fin_scale fe.ang d⟩

/-- What is kept while bodies drift and bounce is kept by a step without generators, up to the stopping of sleepers at its end. -/
theorem bodies_step {s s' : System XReal γ} {ord : IterOrder} {d : ℝ} (hd : 1 / 1000000 ≤ d) (hh : s.step ord (fin d) = .ok s')
    {P : (Handle → Body) → Prop} {ok : CollisionRecord XReal → Prop} (hg : s.generators.handles = [])
    (hc : ∀ j c, s.colliders.get j = some c → FiniteNumbers c) (hf : FineWorld s.toWorld)
    (hrec : ∀ r ∈ s'.collisionRecords, SoundContact s' r ∧ ok r)
    (hdrift : ∀ B B', P B → (∀ k, k ∉ s.entities.handles → B' k = B k) → Drift B B' → P B')
    (hbounce : ∀ B h1 h2 r b1 b2 p n e μ, P B → h1 ≠ h2 → h1 ∈ s.entities.handles → h2 ∈ s.entities.handles → ok r →
      Bounce s.colliders r (B h1) (B h2) b1 b2 p n e μ → P (fun k => if k = h2 then b2 else if k = h1 then b1 else B k))
    (hP : P (bodies s.entities)) :
    ∃ B, P B ∧ ∀ k E, s.entities.get k = some E → ∃ E' X, s'.entities.get k = some E' ∧ Fine X ∧ Fine E' ∧ B k = bodyOf X ∧
      (bodyOf E' = bodyOf X ∨ (E.asleep = true ∧ bodyOf E' = { bodyOf X with vel := .o, ang := .o })) := by
  obtain ⟨ph⟩ := step_phases (proper_fin hd) hh
  have fr := (step_frame hh).1
  obtain ⟨b1, b2, b3⟩ := bodies_integrate (s := { s with collisionRecords := [], debug := [] }) hg hf ph.integrate
  have start : FineLoop s.entities ⟨ph.mid.toWorld, ph.infos, fin d, zero⟩ := fun _ => ⟨b2, b3, d, rfl⟩
  obtain ⟨f1, f2⟩ := bodies_iterate (le_trans (by norm_num) hd) (P := P) (ok := ok) hc hdrift hbounce ⟨0, ph.running.1⟩ start
    (by rw [show (⟨ph.mid.toWorld, ph.infos, fin d, zero⟩ : LoopState XReal).world.entities = ph.mid.entities from rfl, b1]; exact hP) ph.iterate (by
      intro r hr
      rw [← ph.records] at hr
      obtain ⟨⟨r1, r2, r3⟩, hok⟩ := hrec r hr
      refine ⟨⟨r1, r2, ?_⟩, hok⟩
      intro E F hE hF
      obtain ⟨E', hE', zE⟩ := fr.entities.get hE
      obtain ⟨F', hF', zF⟩ := fr.entities.get hF
      have := r3 E'.makePub F'.makePub (getEntity_iff.mpr ⟨E', hE', rfl⟩) (getEntity_iff.mpr ⟨F', hF', rfl⟩)
      rw [← (staticRel_iff.mp zE).2.2.1, ← (staticRel_iff.mp zF).2.2.1]
      exact this)
  refine ⟨_, f2, ?_⟩
  intro k E hE
  obtain ⟨E', hE', -⟩ := fr.entities.get hE
  obtain ⟨X, hX, -, -, ha, -⟩ := (ph.watch hE).entity
  obtain ⟨dd, -, -, hend⟩ := ph.ending
  have hn := (hend k X E' hX hE').2
  have fX := f1 k X hX
  have fE' : Fine E' := (fine_settle fX s.toWorld (fin d)).of hn.static (by rw [hn]; exact (fine_settle fX s.toWorld (fin d)).pose)
    (by rw [hn]; exact (fine_settle fX s.toWorld (fin d)).vel) (by rw [hn]; exact (fine_settle fX s.toWorld (fin d)).ang)
  refine ⟨E', X, hE', fX, fE', bodies_get hX, ?_⟩
  have hb : bodyOf E' = bodyOf (settle s.toWorld (fin d) X) := by rw [hn]; rfl
  rw [hb]
  by_cases hXa : X.asleep = true
  · right
    refine ⟨?_, ?_⟩
    · cases hEa : E.asleep with
      | true => rfl
      | false => rw [ha hEa] at hXa; cases hXa
    · unfold settle
      rw [if_pos hXa]
      simp only [bodyOf, Vec3.f_zeros, real3_f]
      rfl
  · left
    unfold settle
    rw [if_neg hXa]
    split <;> rfl

theorem FreeOfForces.finite {s : System XReal γ} (h : FreeOfForces s) :
    (∀ j c, s.colliders.get j = some c → FiniteNumbers c) ∧ FineWorld s.toWorld := by
  have hc : ∀ j c, s.colliders.get j = some c → FiniteNumbers c := fun j c hj => h.colliders j c (by rw [getCollider_eq]; exact hj)
  refine ⟨hc, fun k E hE => ?_⟩
  obtain ⟨h1, h2, h3, h4⟩ := h.entities k E.makePub (getEntity_iff.mpr ⟨E, hE, rfl⟩)
  exact fine_of h.reachable hc hE (reachable_unit h.reachable hE h1) h2.f h3.f h4

/-- A step of no length changes nothing. -/
theorem step_short {s s' : System XReal γ} {ord : IterOrder} {d : ℝ} (h0 : 0 ≤ d) (hd : d < 1 / 1000000) (hh : s.step ord (fin d) = .ok s') : s' = s := by
  unfold System.step at hh
  rw [if_pos (by
    rw [XReal.EPSILON_eq]
    simp only [fin_abs, fin_lt, decide_eq_true_eq, abs_of_nonneg h0]
    norm_num at hd ⊢
    exact hd)] at hh
  cases hh; rfl

/-! ### C67 -/

theorem Drift.kinetic {B B' : Handle → Body} (h : Drift B B') (k : Handle) :
    kinetic (B' k) = kinetic (B k) ∧ (Regular (B k) → Regular (B' k)) := by
  rcases h k with e | ⟨τ, I, e, hI⟩
  · rw [e]; exact ⟨rfl, id⟩
  · have hq := Quat.exp_normSq ((B k).ang.scale τ)
    have hd := det_turned hq hI
    rw [e]
    constructor
    · unfold Props.kinetic
      cases (B k).mass with
      | none => rfl
      | some m =>
        simp only
        congr 2
        rw [hI, exp_conj_rot_self]
        have := Quat.rot_dot ((B k).inertia.mulVec (B k).ang) (B k).ang hq
        rw [exp_rot_self] at this
        exact this
    · unfold Regular
      simp only [hd]
      exact id

/-- The energy balance of the normal impulse, of bodies. -/
theorem kinetic_normal {b1 b2 : Body} (p1 : b1.Physical) (p2 : b2.Physical) (hm : b1.mass ≠ none ∨ b2.mass ≠ none) (r1 : Regular b1)
    (r2 : Regular b2) {p n : Vec3 ℝ} (hn : n.dot n = 1) (r : ℝ) :
    kinetic (b1.kick p (Body.normalImpulse b1 b2 r p n)) + kinetic (b2.kick p (-Body.normalImpulse b1 b2 r p n)) =
      kinetic b1 + kinetic b2 + (r * r - 1) / 2 * (Body.closing b1 b2 p n * Body.closing b1 b2 p n) / Body.denom b1 b2 p n := by
  have hD := (Body.denom_pos p1 p2 hm p n).ne'
  rw [kinetic_kick p1 r1, kinetic_kick p2 r2, Body.give_neg]
  unfold Body.normalImpulse
  rw [Body.give_scale, Body.give_scale, Body.give_unit hn, Body.give_unit hn, Vec3.dot_neg, Vec3.dot_scale, Vec3.dot_scale]
  have hc : Body.closing b1 b2 p n = (b1.at' p).dot n - (b2.at' p).dot n := by unfold Body.closing; rw [Vec3.sub_dot]
  have hd : Body.denom b1 b2 p n = b1.comply p n + b2.comply p n := rfl
  have hx : -(1 + r) * Body.closing b1 b2 p n / Body.denom b1 b2 p n * Body.denom b1 b2 p n = -(1 + r) * Body.closing b1 b2 p n := by field_simp
  have hy : (r * r - 1) / 2 * (Body.closing b1 b2 p n * Body.closing b1 b2 p n) / Body.denom b1 b2 p n =
      -(r - 1) / 2 * Body.closing b1 b2 p n * (-(1 + r) * Body.closing b1 b2 p n / Body.denom b1 b2 p n) := by field_simp; ring
  rw [hy]
  generalize hX : -(1 + r) * Body.closing b1 b2 p n / Body.denom b1 b2 p n = x at *
  rw [hd] at hx
  rw [hc] at hx ⊢
  linear_combination x / 2 * hx

theorem Bounce.kinetic {cs : Arena (Collider XReal)} {x : CollisionRecord XReal} {b1 b2 b1' b2' : Body} {p n : Vec3 ℝ} {e μ : ℝ}
    (h : Bounce cs x b1 b2 b1' b2' p n e μ) (hcs : ∀ j c, cs.get j = some c → Frictionless c.material) (hn : n.dot n = 1)
    (r1 : Regular b1) (r2 : Regular b2) :
    Regular b1' ∧ Regular b2' ∧ kinetic b1' + kinetic b2' ≤ kinetic b1 + kinetic b2 ∧
      ((∀ j c, cs.get j = some c → c.material.restitution = fin 1) → kinetic b1' + kinetic b2' = kinetic b1 + kinetic b2) := by
  obtain ⟨h1, h2, c1, c2, g1, g2, he, hμ⟩ := h.material
  obtain ⟨s1, d1, x1, y1, z1, w1⟩ := hcs _ _ g1
  obtain ⟨s2, d2, x2, y2, z2, w2⟩ := hcs _ _ g2
  have hμ : μ = 0 := by
    rw [s1, s2, d1, d2] at hμ
    simpa using hμ
  have hf : ∀ J, Body.frictionImpulse (b1.kick p (Body.normalImpulse b1 b2 e p n)) (b2.kick p (-Body.normalImpulse b1 b2 e p n)) μ J p n = .o := by
    intro J
    unfold Body.frictionImpulse
    rw [hμ]
    ext <;> simp
  have e1 : b1' = b1.kick p (Body.normalImpulse b1 b2 e p n) := by
    rw [h.first, hf]
    simp [Body.kick]
  have e2 : b2' = b2.kick p (-Body.normalImpulse b1 b2 e p n) := by
    rw [h.second, hf]
    simp [Body.kick]
  have key := kinetic_normal h.phys1 h.phys2 h.movable r1 r2 (p := p) hn e
  have hD := Body.denom_pos h.phys1 h.phys2 h.movable p n
  rw [e1, e2]
  refine ⟨r1.kick _ _, r2.kick _ _, ?_, ?_⟩
  · rw [key]
    have hee : e = x1 * x2 := by rw [y1, y2] at he; simpa using he
    have : (e * e - 1) / 2 * (Body.closing b1 b2 p n * Body.closing b1 b2 p n) / Body.denom b1 b2 p n ≤ 0 := by
      apply div_nonpos_of_nonpos_of_nonneg _ hD.le
      apply mul_nonpos_of_nonpos_of_nonneg _ (mul_self_nonneg _)
      have a1 : 0 ≤ e := by rw [hee]; positivity
      have a2 : e ≤ 1 := by rw [hee]; nlinarith
      nlinarith
    linarith
  · intro hall
    have : e = 1 := by rw [hall _ _ g1, hall _ _ g2] at he; simpa using he
    rw [key, this]; ring

theorem list_sum_le2 {f g : Handle → ℝ} {h1 h2 : Handle} {l : List Handle} (hnd : l.Nodup) (hm1 : h1 ∈ l) (hm2 : h2 ∈ l)
    (hne : h1 ≠ h2) (hg : ∀ k ∈ l, k ≠ h1 → k ≠ h2 → g k = f k) : (l.map g).sum - (l.map f).sum = g h1 + g h2 - (f h1 + f h2) := by
  have one : ∀ (a b : Handle → ℝ) (h : Handle) (l : List Handle), l.Nodup → h ∈ l → (∀ k ∈ l, k ≠ h → b k = a k) →
      (l.map b).sum - (l.map a).sum = b h - a h := by
    intro a b h l
    induction l with
    | nil => intro _ hm; cases hm
    | cons x l ih =>
      intro hnd hm hab
      rw [List.nodup_cons] at hnd
      rw [List.map_cons, List.map_cons, List.sum_cons, List.sum_cons]
      by_cases hx : x = h
      · subst hx
        have : l.map b = l.map a := by
          apply List.map_congr_left
          intro k hk
          exact hab k (by simp [hk]) (by rintro rfl; exact hnd.1 hk)
        rw [this]; ring
      · have := ih hnd.2 (by simpa [Ne.symm hx] using hm) (fun k hk => hab k (by simp [hk]))
        rw [hab x (by simp) hx]
        linarith
  have e1 := one f (fun k => if k = h1 then g h1 else f k) h1 l hnd hm1 (by intro k _ hk; simp [hk])
  have e2 := one (fun k => if k = h1 then g h1 else f k) g h2 l hnd hm2 (by
    intro k hk hk2
    by_cases hk1 : k = h1
    · subst hk1; simp
    · simp only [if_neg hk1]; exact hg k hk hk1 hk2)
  simp only [if_true, if_neg hne.symm] at e1 e2
  linarith

theorem total_kinetic {s : World XReal} (hf : FineWorld s) : totalKinetic s = fin ((s.entities.handles.map (fun k => kinetic (bodies s.entities k))).sum) := by
  unfold totalKinetic entitiesOf
  have : ∀ l : List Handle, (∀ k ∈ l, ∃ E, s.entities.get k = some E) →
      ((l.filterMap s.getEntity).map kineticOf).foldr (· + ·) (fin 0) = fin ((l.map (fun k => kinetic (bodies s.entities k))).sum) := by
    intro l
    induction l with
    | nil => intro _; rfl
    | cons k l ih =>
      intro hl
      obtain ⟨E, hE⟩ := hl k (by simp)
      have hp : s.getEntity k = some E.makePub := getEntity_eq_some.mpr ⟨E, hE, rfl⟩
      rw [List.filterMap_cons_some hp, List.map_cons, List.foldr_cons, ih (fun k hk => hl k (by simp [hk])), (hf k E hE).kineticOf,
        List.map_cons, List.sum_cons, bodies_get hE, fin_add]
      rfl
  exact this _ (fun k hk => Arena.mem_handles.mp hk)

/-- **C67.** Without force generators and without friction a step never increases the total kinetic energy, however many entities
and collisions there are; if all collisions are elastic and nothing is asleep it keeps the energy exactly. -/
theorem C67_energy_partial {s s' : System XReal γ} {ord : IterOrder} {d : ℝ} (h0 : 0 ≤ d) (hh : s.step ord (fin d) = .ok s') (hs : FreeOfForces s)
    (hreg : ∀ k p, s.getEntity k = some p → RegularEntity p) (hfr : ∀ j c, s.getCollider j = some c → Frictionless c.material)
    (hrec : ∀ r ∈ s'.collisionRecords, SoundContact s' r ∧ r.normal.dot r.normal = fin 1) :
    ∃ a b : ℝ, totalKinetic s.toWorld = fin a ∧ totalKinetic s'.toWorld = fin b ∧ 0 ≤ b ∧ b ≤ a ∧
      ((∀ j c, s.getCollider j = some c → c.material.restitution = fin 1) → (∀ k p, s.getEntity k = some p → p.asleep = false) → b = a) := by
  obtain ⟨hc, hf⟩ := hs.finite
  have hfr' : ∀ j c, s.colliders.get j = some c → Frictionless c.material := fun j c hj => hfr j c (by rw [getCollider_eq]; exact hj)
  have nonneg : ∀ {w : World XReal}, FineWorld w → 0 ≤ (w.entities.handles.map (fun k => kinetic (bodies w.entities k))).sum := by
    intro w hw
    apply List.sum_nonneg
    intro x hx
    obtain ⟨k, hk, rfl⟩ := List.mem_map.mp hx
    obtain ⟨E, hE⟩ := Arena.mem_handles.mp hk
    rw [bodies_get hE]
    exact (hw k E hE).kin_nonneg
  by_cases hd : 1 / 1000000 ≤ d
  swap
  · rw [step_short h0 (not_le.mp hd) hh]
    exact ⟨_, _, total_kinetic hf, total_kinetic hf, nonneg hf, le_refl _, fun _ _ => rfl⟩
  let T : (Handle → Body) → ℝ := fun B => (s.entities.handles.map (fun k => kinetic (B k))).sum
  let P : (Handle → Body) → Prop := fun B => (∀ k ∈ s.entities.handles, Regular (B k)) ∧ T B ≤ T (bodies s.entities) ∧
    ((∀ j c, s.colliders.get j = some c → c.material.restitution = fin 1) → T B = T (bodies s.entities))
  have hnd := Arena.handles_nodup s.entities
  have K := bodies_step (P := P) (ok := fun r => r.normal.dot r.normal = fin 1) hd hh hs.generators hc hf hrec ?_ ?_ ?_
  · obtain ⟨B, ⟨-, hB1, hB2⟩, hB⟩ := K
    have hf' : FineWorld s'.toWorld := by
      intro k E' hE'
      obtain ⟨E, hE, -⟩ := (step_frame hh).1.entities.get' hE'
      obtain ⟨X, -, hX, -, hfx, -⟩ := hB k E hE
      have hX : s'.entities.get k = some X := hX
      rw [hX] at hE'; cases hE'
      exact hfx
    have each : ∀ k ∈ s.entities.handles, kinetic (bodies s'.entities k) ≤ kinetic (B k) ∧
        ((∀ k p, s.getEntity k = some p → p.asleep = false) → kinetic (bodies s'.entities k) = kinetic (B k)) := by
      intro k hk
      obtain ⟨E, hE⟩ := Arena.mem_handles.mp hk
      obtain ⟨E', X, hE', fX, -, e1, e2⟩ := hB k E hE
      rw [bodies_get hE', e1]
      rcases e2 with e2 | ⟨ha, e2⟩
      · rw [e2]; exact ⟨le_refl _, fun _ => rfl⟩
      · refine ⟨?_, fun hall => ?_⟩
        · have := fX.kin_nonneg
          rw [e2]
          unfold kin at this
          refine le_trans (le_of_eq ?_) this
          unfold kinetic
          cases (bodyOf X).mass with
          | none => rfl
          | some m => simp
        · have := hall k E.makePub (getEntity_iff.mpr ⟨E, hE, rfl⟩)
          rw [show E.makePub.asleep = E.asleep from rfl, ha] at this
          cases this
    have hh' : s'.entities.handles = s.entities.handles := (step_frame hh).1.handles
    refine ⟨_, _, total_kinetic hf, total_kinetic hf', nonneg hf', ?_, ?_⟩
    · rw [show s'.toWorld.entities.handles = s.entities.handles from hh']
      exact le_trans (List.sum_le_sum (fun k hk => (each k hk).1)) hB1
    · intro g1 g2
      rw [show s'.toWorld.entities.handles = s.entities.handles from hh']
      refine Eq.trans ?_ (hB2 (fun j c hj => g1 j c (by rw [getCollider_eq]; exact hj)))
      exact congrArg List.sum (List.map_congr_left (fun k hk => (each k hk).2 g2))
  · rintro B B' ⟨b1, b2, b3⟩ - hd
    have : T B' = T B := congrArg List.sum (List.map_congr_left (fun k _ => (hd.kinetic k).1))
    exact ⟨fun k hk => (hd.kinetic k).2 (b1 k hk), by rw [this]; exact b2, fun g => by rw [this]; exact b3 g⟩
  · rintro B h1 h2 r c1 c2 p n e μ ⟨b1, b2, b3⟩ hne m1 m2 hok hb
    have hn : n.dot n = 1 := by
      rw [hb.normal, Vec3.f_dot, fin_inj] at hok; exact hok
    obtain ⟨k1, k2, k3, k4⟩ := hb.kinetic hfr' hn (b1 h1 m1) (b1 h2 m2)
    have key := list_sum_le2 (f := fun k => kinetic (B k)) (g := fun k => kinetic (if k = h2 then c2 else if k = h1 then c1 else B k)) hnd m1 m2 hne
      (by intro k _ q1 q2; simp [q1, q2])
    simp only [if_true, if_neg hne] at key
    refine ⟨?_, ?_, ?_⟩
    · intro k hk
      simp only
      split
      · exact k2
      · split
        · exact k1
        · exact b1 k hk
    · show (s.entities.handles.map (fun k => kinetic (if k = h2 then c2 else if k = h1 then c1 else B k))).sum ≤ _
      have : T B = (s.entities.handles.map (fun k => kinetic (B k))).sum := rfl
      linarith
    · intro g
      show (s.entities.handles.map (fun k => kinetic (if k = h2 then c2 else if k = h1 then c1 else B k))).sum = _
      have : T B = (s.entities.handles.map (fun k => kinetic (B k))).sum := rfl
      have := b3 g
      have := k4 g
      linarith
  · refine ⟨?_, le_refl _, fun _ => rfl⟩
    intro k hk
    obtain ⟨E, hE⟩ := Arena.mem_handles.mp hk
    rw [bodies_get hE]
    exact (regular_iff (hf k E hE)).mp (hreg k E.makePub (getEntity_iff.mpr ⟨E, hE, rfl⟩))

open Scene in
theorem dot_regular {m : ℝ} {p v : Vec3 ℝ} {cs : List Handle} {z : Nap} : RegularEntity (dot (fin m) p v cs z).makePub :=
  ⟨.o, dot_moment (fin m) p v cs z, Or.inr (Or.inl ⟨by simp [dot, makePub], by simp [Mat3.det, Mat3.o, Vec3.o], rfl⟩)⟩

open Scene in
theorem dot_kinetic (m : ℝ) (p v : Vec3 ℝ) (cs : List Handle) (z : Nap) : kineticOf (dot (fin m) p v cs z).makePub = fin (m * v.dot v / 2) := by
  have h : inertiaOf (dot (fin m) p v cs z).makePub = (Mat3.o).f := dot_moment (fin m) p v cs z
  unfold kineticOf
  rw [h]
  simp only [dot, makePub, Vec3.f_dot, fin_mul, Mat3.f_mulVec, fin_div two_ne_zero, fin_add]
  simp

open Scene Demo in
theorem two_either {τ : Type} {x y z : τ} {h : Handle} (hz : (Scene.two x y).get h = some z) : (h = h0 ∧ z = x) ∨ (h = h1 ∧ z = y) := by
  have hm : h ∈ (Scene.two x y).handles := Arena.mem_handles.mpr ⟨z, hz⟩
  rw [two_handles] at hm
  simp only [List.mem_cons, List.not_mem_nil, or_false] at hm
  rcases hm with rfl | rfl
  · rw [two_get0] at hz; exact Or.inl ⟨rfl, (Option.some.inj hz).symm⟩
  · rw [two_get1] at hz; exact Or.inr ⟨rfl, (Option.some.inj hz).symm⟩

open Scene Demo in
theorem free_scene {m k : ℝ} (hm : 0 ≤ m) (hk : 0 ≤ k) (p v q w : Vec3 ℝ) (a b : ℝ) (n : Nat) (e t : XReal) :
    FreeOfForces (scene (γ := γ) (dot (fin m) p v [h0] up) (dot (fin k) q w [h1] up) (sphere a) (sphere b) n e t) := by
  refine ⟨start_reachable hm hk p v q w a b n e t, rfl, ?_, ?_⟩
  · intro j c hc
    rw [getCollider_eq] at hc
    rcases two_either hc with ⟨-, rfl⟩ | ⟨-, rfl⟩ <;> exact ⟨finite3_f _, rfl, rfl, rfl, rfl⟩
  · intro j x hx
    obtain ⟨E, hE, rfl⟩ := getEntity_iff.mp hx
    rcases two_either hE with ⟨-, rfl⟩ | ⟨-, rfl⟩ <;>
      exact ⟨⟨finite3_f _, finite3_f .o, rfl, finite3_f .o⟩, finite3_f _, finite3_f _, fun h => by cases h⟩

/-- A case of `C67_energy_partial` with a collision: a ball of mass 1 runs into another one and loses half of the energy. -/
example : ∃ (s s' : System XReal γ), s.step .id (fin 1) = .ok s' ∧ FreeOfForces s ∧ (∀ k p, s.getEntity k = some p → RegularEntity p) ∧
    (∀ j c, s.getCollider j = some c → Frictionless c.material) ∧
    (∀ r ∈ s'.collisionRecords, SoundContact s' r ∧ r.normal.dot r.normal = fin 1) ∧ s'.collisionRecords ≠ [] ∧
    totalKinetic s.toWorld = fin 2 ∧ totalKinetic s'.toWorld = fin 1 := by
  obtain ⟨s', hs, he, hc, hg, hrec⟩ := Scene.rest (γ := γ) .id (k := 1) (by norm_num) (u := ⟨1, 0, 0⟩) (by ext <;> norm_num) (E := 1)
    (by norm_num [Vec3.dot_def]) (by norm_num [Vec3.dot_def]) 3
  refine ⟨_, s', hs, free_scene (by norm_num) (by norm_num) _ _ _ _ _ _ _ _ _, ?_, ?_, ?_, by rw [hrec]; simp, ?_, ?_⟩
  · intro j x hx
    obtain ⟨E, hE, rfl⟩ := getEntity_iff.mp hx
    rcases two_either hE with ⟨-, rfl⟩ | ⟨-, rfl⟩ <;> exact dot_regular
  · intro j c hc
    rw [getCollider_eq] at hc
    rcases two_either hc with ⟨-, rfl⟩ | ⟨-, rfl⟩
    · exact ⟨rfl, rfl, 0, rfl, le_refl _, zero_le_one⟩
    · exact ⟨rfl, rfl, 1, rfl, zero_le_one, le_refl _⟩
  · intro r hr
    rw [hrec, List.mem_singleton] at hr
    subst hr
    refine ⟨⟨finite3_f _, finite3_f _, ?_⟩, by rw [Vec3.f_dot]; norm_num [Vec3.dot_def]⟩
    intro a b ha hb
    obtain ⟨A, hA, rfl⟩ := getEntity_iff.mp ha
    obtain ⟨B, hB, rfl⟩ := getEntity_iff.mp hb
    rw [he] at hA hB
    simp only [Scene.two_get0, Scene.two_get1, Option.some.injEq] at hA hB
    subst hA; subst hB
    simp [Scene.dot, makePub]
  · have : entitiesOf (Scene.scene (γ := γ) (Scene.dot (fin 1) .o ⟨2, 0, 0⟩ [Demo.h0] Scene.up) (Scene.dot (fin 1) ⟨3, 0, 0⟩ .o [Demo.h1] Scene.up) (Scene.sphere 0)
      (Scene.sphere 1) (3 + 2) (fin 1) (fin 0)).toWorld = [(Scene.dot (fin 1) .o ⟨2, 0, 0⟩ [Demo.h0] Scene.up).makePub, (Scene.dot (fin 1) ⟨3, 0, 0⟩ .o [Demo.h1] Scene.up).makePub] := rfl
    unfold totalKinetic
    rw [this]
    simp only [List.map_cons, List.map_nil, List.foldr_cons, List.foldr_nil, dot_kinetic, fin_add]
    norm_num [Vec3.dot_def]
  · have : ∀ (a b : InternalEntity XReal), s'.entities = Scene.two a b → entitiesOf s'.toWorld = [a.makePub, b.makePub] := by
      intro a b h
      unfold entitiesOf World.getEntity
      rw [h]; rfl
    unfold totalKinetic
    rw [this _ _ he]
    simp only [List.map_cons, List.map_nil, List.foldr_cons, List.foldr_nil, dot_kinetic, fin_add]
    norm_num [Vec3.dot_def]

end Fluffy.Props
