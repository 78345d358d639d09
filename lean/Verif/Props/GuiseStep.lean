import Verif.Props.GuiseHit
import Verif.Props.PlaceApi
/-
C85 and C86, continued: a step of a scene in another guise is the step in that guise.
-/
set_option linter.unusedSectionVars false
set_option linter.unusedSimpArgs false
namespace Fluffy
open XReal

/-! ### A scene in another guise -/

/-- A stored entity in other axes (the body's own axes turned as well) and another unit of mass. -/
noncomputable def InternalEntity.recast (g : Guise) (e : InternalEntity XReal) : InternalEntity XReal :=
  { e with
    orientation := e.orientation.turn g.axes
    ownMass := e.ownMass * fin g.unit
    totalMass := e.totalMass * fin g.unit
    preppedMoment := (e.preppedMoment.turn g.axes).scale (fin g.unit)
    velocity := e.velocity.turn g.axes
    angularVelocity := e.angularVelocity.turn g.axes }
/-- A public entity in another guise. -/
noncomputable def Entity.recast (g : Guise) (e : Entity XReal) : Entity XReal :=
  { e with
    position := e.position.turn g.axes
    rotation := e.rotation.turn g.axes
    velocity := e.velocity.turn g.axes
    angularVelocity := e.angularVelocity.turn g.axes
    ownMass := e.ownMass * fin g.unit
    lastOrientation := e.lastOrientation.turn g.axes
    lastTotalMass := e.lastTotalMass * fin g.unit
    lastPreppedMoment := (e.lastPreppedMoment.turn g.axes).scale (fin g.unit) }
/-- A collision record in another guise: the impulse is measured in the new unit. -/
noncomputable def CollisionRecord.recast (g : Guise) (r : CollisionRecord XReal) : CollisionRecord XReal :=
  { r with position := r.position.turn g.axes, normal := r.normal.turn g.axes, impulseMagnitude := r.impulseMagnitude * fin g.unit }
/-- A force in another guise: measured in the new unit, so that it accelerates the same bodies alike. -/
noncomputable def Force.recast (g : Guise) (f : Force XReal) : Force XReal := ⟨(f.force.turn g.axes).scale (fin g.unit), f.position.turn g.axes⟩
/-- A planned movement in the turned axes. -/
noncomputable def StepInfo.recast (g : Guise) (i : StepInfo XReal) : StepInfo XReal :=
  { i with linearMovement := i.linearMovement.turn g.axes, angularMovement := i.angularMovement.turn g.axes }
/-- A world in another guise; the energy below which bodies fall asleep is measured in the new unit. -/
noncomputable def World.recast (g : Guise) (w : World XReal) : World XReal :=
  { w with
    entities := w.entities.map (InternalEntity.recast g)
    colliders := w.colliders.map (Collider.recast g)
    collisionRecords := w.collisionRecords.map (CollisionRecord.recast g)
    energySleepThreshold := w.energySleepThreshold * fin g.unit }
/-- A system in another guise; `act` says what that means for a force generator. -/
noncomputable def System.recast {γ : Type} (g : Guise) (act : γ → γ) (s : System XReal γ) : System XReal γ :=
  { toWorld := s.toWorld.recast g, generators := s.generators.map act }

namespace Props
open Step InternalEntity

/-- However the body is turned, its moment of inertia is finite. -/
def Sturdy (m : Mat3 XReal) : Prop := ∀ q : Quat ℝ, q.normSq = 1 → ∃ r : Mat3 ℝ, rotateMomentOfInertia m q.f = Mat3.f r
theorem sturdy_f (r : Mat3 ℝ) : Sturdy (Mat3.f r) := fun q _ => ⟨(q.matrix.mul r).mul q.matrix.transpose, by simp [rotateMomentOfInertia]⟩

/-- What a stored entity must satisfy: if the axes are turned, its rotation is one (or all NaN), and its moment of inertia is finite; and it counts as heavy enough to be pushed by forces in one unit exactly if it does in the other. -/
structure Fit (g : Guise) (e : InternalEntity XReal) : Prop where
  turns : g.axes = .stay ∨ e.orientation.rotation.Ok ∧ Sturdy e.preppedMoment
  pushed : Scalar.lt EPSILON (e.totalMass * fin g.unit) = Scalar.lt EPSILON e.totalMass

/-- Every stored entity is fit. -/
def AllFit (g : Guise) (a : Arena (InternalEntity XReal)) : Prop := ∀ h e, a.get h = some e → Fit g e
/-- What the colliders must satisfy: no boxes if the axes are turned, no friction if the unit of mass changes. -/
def Suits (g : Guise) (cs : Arena (Collider XReal)) : Prop :=
  ∀ h c, cs.get h = some c → Turnable g.axes c ∧ (g.unit = 1 ∨ c.material.staticFriction = fin 0 ∧ c.material.dynamicFriction = fin 0)

/-- Force generators that understand guises: `act x` in the recast world makes the recast force; and if the unit of mass changes, all forces act at the centre of mass. -/
structure Fair (γ : Type) [ForceGenerator XReal γ] (g : Guise) (act : γ → γ) : Prop where
  recast : ∀ (x : γ) (dt : XReal) (w : World XReal) (h : Handle),
    ForceGenerator.makeForce (act x) dt (w.recast g) h = (ForceGenerator.makeForce x dt w h).map (Prod.map (Force.recast g) act)
  central : g.unit = 1 ∨ ∀ (x x' : γ) (dt : XReal) (w : World XReal) (h : Handle) (f : Force XReal) (e : Entity XReal),
    ForceGenerator.makeForce x dt w h = .ok (f, x') → w.getEntity h = some e → f.position = e.position

theorem AllFit.set {g : Guise} {a : Arena (InternalEntity XReal)} (ht : AllFit g a) (h : Handle) {e : InternalEntity XReal} (he : Fit g e) : AllFit g (a.set h e) := by
  intro k x hx
  rw [Arena.get_set] at hx
  split at hx
  · cases hg : a.get h with
    | none => rw [hg] at hx; cases hx
    | some y => rw [hg] at hx; cases hx; exact he
  · exact ht k x hx
theorem AllFit.evolves {g : Guise} {R : InternalEntity XReal → InternalEntity XReal → Prop} (hR : ∀ x y, R x y → Fit g x → Fit g y) {a b : Arena (InternalEntity XReal)}
    (ht : AllFit g a) (h : Arena.Evolves R a b) : AllFit g b := by
  intro k y hy
  obtain ⟨x, hx, hr⟩ := h.get' hy
  exact hR x y hr (ht k x hx)

variable (g : Guise)

/-! ### Entities -/

theorem finalize_recast (o : Orientation XReal) (m : Mat3 XReal) :
    (o.turn g.axes).finalizeMomentOfInertia ((m.turn g.axes).scale (fin g.unit)) = ((o.finalizeMomentOfInertia m).turn g.axes).scale (fin g.unit) :=
  (rotateMoment_times g.pos _ _).trans (congrArg (Mat3.scale · (fin g.unit)) (rotateMoment_turn g.axes m o.rotation))
theorem moment_recast (e : InternalEntity XReal) : (e.recast g).momentOfInertia = (e.momentOfInertia.turn g.axes).scale (fin g.unit) :=
  finalize_recast g e.orientation e.preppedMoment

theorem lost_finalize {q : Quat XReal} (hq : q = Quat.lost) (m : Mat3 XReal) :
    rotateMomentOfInertia m q = ⟨⟨nan, nan, nan⟩, ⟨nan, nan, nan⟩, ⟨nan, nan, nan⟩⟩ := by
  subst hq
  have h : (Quat.lost : Quat XReal).toRotationMatrix = ⟨⟨nan, nan, nan⟩, ⟨nan, nan, nan⟩, ⟨nan, nan, nan⟩⟩ := by
    simp [Quat.toRotationMatrix, Quat.lost]
  unfold rotateMomentOfInertia
  simp only [h, Mat3.mul, Mat3.transpose, Vec3.dot, nan_mul, nan_add]

theorem Fit.moment {g : Guise} {e : InternalEntity XReal} (he : Fit g e) (hs : g.axes ≠ .stay) :
    (∃ r : Mat3 ℝ, e.momentOfInertia = Mat3.f r) ∨ e.momentOfInertia = ⟨⟨nan, nan, nan⟩, ⟨nan, nan, nan⟩, ⟨nan, nan, nan⟩⟩ := by
  rcases he.turns with h | ⟨h, hr⟩
  · exact absurd h hs
  · rcases h with ⟨q, hq, h1⟩ | hq
    · left
      obtain ⟨r, h2⟩ := hr q h1
      exact ⟨r, by rw [← h2, ← hq]; rfl⟩
    · right; exact lost_finalize hq _

theorem zeros_times (k : ℝ) : (Mat3.zeros : Mat3 XReal).scale (fin k) = Mat3.zeros := by
  simp [Mat3.scale, Mat3.zeros, Vec3.scale, Vec3.zeros, zero_eq]

theorem inverseMoment_recast {g : Guise} {e : InternalEntity XReal} (he : Fit g e) :
    (e.recast g).inverseMomentOfInertia = (e.inverseMomentOfInertia.turn g.axes).scale (fin g.unit⁻¹) := by
  have h : (e.momentOfInertia.turn g.axes).tryInverse = e.momentOfInertia.tryInverse.map (Mat3.turn g.axes) := by
    by_cases hs : g.axes = .stay
    · rw [hs]
      show e.momentOfInertia.tryInverse = e.momentOfInertia.tryInverse.map id
      cases e.momentOfInertia.tryInverse <;> rfl
    · exact Mat3.tryInverse_turn _ (he.moment hs)
  unfold inverseMomentOfInertia
  rw [moment_recast, Mat3.tryInverse_times g.pos, h]
  cases e.momentOfInertia.tryInverse with
  | none => simp only [Option.map_none]; rw [Mat3.turn_zeros, zeros_times]
  | some m => rfl

theorem makePub_recast (e : InternalEntity XReal) : (e.recast g).makePub = e.makePub.recast g := by
  unfold makePub Entity.recast InternalEntity.recast
  simp only [Orientation.turn_rotationVec]
  rfl
theorem velocityAt_recast (e : InternalEntity XReal) (p : Vec3 XReal) : (e.recast g).velocityAt (p.turn g.axes) = (e.velocityAt p).turn g.axes := by
  show e.velocity.turn g.axes + (e.angularVelocity.turn g.axes).cross (p.turn g.axes - e.orientation.position.turn g.axes) = _
  turns
  rfl

/-- An inverse moment in the new unit times a vector in the new unit. -/
theorem inverse_mulVec (m : Mat3 XReal) (v : Vec3 XReal) :
    ((m.turn g.axes).scale (fin g.unit⁻¹)).mulVec ((v.turn g.axes).scale (fin g.unit)) = (m.mulVec v).turn g.axes := by
  rw [Mat3.times_mulVec (inv_pos.mpr g.pos), Mat3.mulVec_times g.pos, Vec3.inv_times g.pos, Mat3.turn_mulVec]

theorem one_div_times (a : XReal) : (one : XReal) / (a * fin g.unit) = one / a * fin g.unit⁻¹ := div_times g.pos _ _
theorem scale_quotient (v : Vec3 XReal) (k : XReal) : (v.scale (fin g.unit)).scale (k * fin g.unit⁻¹) = v.scale k := by
  rw [Vec3.scale_times (inv_pos.mpr g.pos), Vec3.times_scale g.pos, Vec3.inv_times g.pos]

theorem applyImpulse_recast {g : Guise} {e : InternalEntity XReal} (he : Fit g e) (p j : Vec3 XReal) :
    (e.recast g).applyImpulse (p.turn g.axes) ((j.turn g.axes).scale (fin g.unit)) = (e.applyImpulse p j).recast g := by
  unfold applyImpulse
  rw [inverseMoment_recast he]
  have h1 : (e.recast g).velocity + ((j.turn g.axes).scale (fin g.unit)).scale (one / (e.recast g).totalMass) = (e.velocity + j.scale (one / e.totalMass)).turn g.axes := by
    show e.velocity.turn g.axes + ((j.turn g.axes).scale (fin g.unit)).scale (one / (e.totalMass * fin g.unit)) = _
    rw [one_div_times, scale_quotient]
    turns
  have h2 : (e.recast g).angularVelocity + ((e.inverseMomentOfInertia.turn g.axes).scale (fin g.unit⁻¹)).mulVec
      ((p.turn g.axes - (e.recast g).orientation.position).cross ((j.turn g.axes).scale (fin g.unit))) =
      (e.angularVelocity + e.inverseMomentOfInertia.mulVec ((p - e.orientation.position).cross j)).turn g.axes := by
    show e.angularVelocity.turn g.axes + ((e.inverseMomentOfInertia.turn g.axes).scale (fin g.unit⁻¹)).mulVec
      ((p.turn g.axes - e.orientation.position.turn g.axes).cross ((j.turn g.axes).scale (fin g.unit))) = _
    rw [Vec3.cross_times g.pos]
    turns
    rw [Vec3.turn_scale, inverse_mulVec]
    turns
  rw [h1, h2]
  rfl

theorem half_times (a : XReal) : a * fin g.unit / two = a / two * fin g.unit := times_div g.pos _ _

theorem totalEnergy_recast (e : InternalEntity XReal) : (e.recast g).totalEnergy = e.totalEnergy * fin g.unit := by
  unfold totalEnergy
  rw [moment_recast]
  show (if Scalar.isInfinite (e.totalMass * fin g.unit) = true then
      if (Scalar.lt (e.velocity.turn g.axes).magnitude EPSILON && Scalar.lt (e.angularVelocity.turn g.axes).magnitude EPSILON) = true then zero else Scalar.inf
    else ((e.velocity.turn g.axes).scale (e.totalMass * fin g.unit)).dot (e.velocity.turn g.axes) / two +
      (((e.momentOfInertia.turn g.axes).scale (fin g.unit)).mulVec (e.angularVelocity.turn g.axes)).dot (e.angularVelocity.turn g.axes) / two) = _
  rw [isInfinite_times g.pos, Vec3.scale_times g.pos, Vec3.times_dot g.pos, Mat3.times_mulVec g.pos, Vec3.times_dot g.pos, Mat3.turn_mulVec]
  turns
  rw [half_times, half_times, ← XReal.add_times g.pos]
  split
  · split
    · simp [zero_eq]
    · exact (posInf_times g.pos).symm
  · rfl

theorem getEntity_recast (w : World XReal) (h : Handle) : (w.recast g).getEntity h = (w.getEntity h).map (Entity.recast g) := by
  unfold World.getEntity
  rw [show (w.recast g).entities = w.entities.map (InternalEntity.recast g) from rfl, get_map]
  cases w.entities.get h with
  | none => rfl
  | some e => exact congrArg some (makePub_recast g e)

theorem lastMoment_recast (e : Entity XReal) : (e.recast g).lastMomentOfInertia = (e.lastMomentOfInertia.turn g.axes).scale (fin g.unit) := by
  have : (e.recast g).makeOrientation = e.makeOrientation.turn g.axes := Orientation.turn_new g.axes _ _ _
  unfold Entity.lastMomentOfInertia
  rw [this]
  exact finalize_recast g _ _

/-! ### Integration -/

/-- Nothing but zeros and NaN. -/
def Blank (v : Vec3 XReal) : Prop := (v.x = nan ∨ v.x = fin 0) ∧ (v.y = nan ∨ v.y = fin 0) ∧ (v.z = nan ∨ v.z = fin 0)

theorem blank_mul {a : XReal} (h : a = nan ∨ a = fin 0) (b : XReal) : a * b = nan ∨ a * b = fin 0 := by
  rcases h with rfl | rfl
  · left; simp
  · cases b with
    | fin r => right; simp
    | nan => left; simp
    | posInf => left; show infSign 0 = nan; simp [infSign]
    | negInf => left; show infSign (-0) = nan; simp [infSign]
theorem mul_blank {b : XReal} (a : XReal) (h : b = nan ∨ b = fin 0) : a * b = nan ∨ a * b = fin 0 := by rw [mul_cm]; exact blank_mul h a
theorem blank_add {a b : XReal} (h : a = nan ∨ a = fin 0) (h' : b = nan ∨ b = fin 0) : a + b = nan ∨ a + b = fin 0 := by
  rcases h with rfl | rfl <;> rcases h' with rfl | rfl <;> simp
theorem blank_neg {a : XReal} (h : a = nan ∨ a = fin 0) : -a = nan ∨ -a = fin 0 := by
  rcases h with rfl | rfl <;> simp
theorem blank_sub {a b : XReal} (h : a = nan ∨ a = fin 0) (h' : b = nan ∨ b = fin 0) : a - b = nan ∨ a - b = fin 0 := by
  rw [sub_add]; exact blank_add h (blank_neg h')
theorem blank_self (a : XReal) : a - a = nan ∨ a - a = fin 0 := by
  cases a <;> simp

theorem Blank.add {a b : Vec3 XReal} (h : Blank a) (h' : Blank b) : Blank (a + b) :=
  ⟨blank_add h.1 h'.1, blank_add h.2.1 h'.2.1, blank_add h.2.2 h'.2.2⟩
theorem Blank.scale {a : Vec3 XReal} (h : Blank a) (k : XReal) : Blank (a.scale k) := ⟨blank_mul h.1 k, blank_mul h.2.1 k, blank_mul h.2.2 k⟩
theorem Blank.cross {a : Vec3 XReal} (h : Blank a) (b : Vec3 XReal) : Blank (a.cross b) :=
  ⟨blank_sub (blank_mul h.2.1 _) (blank_mul h.2.2 _), blank_sub (blank_mul h.2.2 _) (blank_mul h.1 _), blank_sub (blank_mul h.1 _) (blank_mul h.2.1 _)⟩
theorem Blank.dot {b : Vec3 XReal} (a : Vec3 XReal) (h : Blank b) : a.dot b = nan ∨ a.dot b = fin 0 :=
  blank_add (blank_add (mul_blank _ h.1) (mul_blank _ h.2.1)) (mul_blank _ h.2.2)
theorem Blank.mulVec {v : Vec3 XReal} (m : Mat3 XReal) (h : Blank v) : Blank (m.mulVec v) := ⟨h.dot _, h.dot _, h.dot _⟩
theorem Blank.times {v : Vec3 XReal} (h : Blank v) (k : ℝ) : v.scale (fin k) = v := by
  have : ∀ a : XReal, a = nan ∨ a = fin 0 → a * fin k = a := by rintro a (rfl | rfl) <;> simp
  ext
  · exact this _ h.1
  · exact this _ h.2.1
  · exact this _ h.2.2
theorem blank_zeros : Blank Vec3.zeros := ⟨.inr zero_eq, .inr zero_eq, .inr zero_eq⟩
theorem Blank.turn {v : Vec3 XReal} (h : Blank v) (t : Turn) : Blank (v.turn t) := by
  cases t
  · exact h
  · exact ⟨h.2.2, h.1, h.2.1⟩
  · exact ⟨blank_neg h.2.1, h.1, h.2.2⟩
theorem times_one (a : XReal) : a * fin 1 = a := by
  cases a <;> simp [posInf_times one_pos, negInf_times one_pos]
theorem scale_fin_one (v : Vec3 XReal) : v.scale (fin 1) = v := by ext <;> exact times_one _
theorem scale_unit_one {g : Guise} (h : g.unit = 1) (v : Vec3 XReal) : v.scale (fin g.unit) = v := by
  rw [h, scale_fin_one]

section
variable {γ : Type} [ForceGenerator XReal γ] {act : γ → γ}

theorem generatorLoop_recast {g : Guise} (hg : Fair γ g act) (dt : XReal) (w : World XReal) (h : Handle) {copy : Entity XReal} (hc : w.getEntity h = some copy) :
    ∀ (l : List Handle) (gens : Arena γ) (a t : Vec3 XReal), g.unit = 1 ∨ Blank t →
    generatorLoop dt (w.recast g) h (copy.recast g) l (gens.map act) (a.turn g.axes) (t.turn g.axes) =
      (generatorLoop dt w h copy l gens a t).map (fun x => (x.1.map act, x.2.1.turn g.axes, x.2.2.turn g.axes)) ∧
    ∀ x, generatorLoop dt w h copy l gens a t = .ok x → g.unit = 1 ∨ Blank x.2.2
  | [], _, _, _, ht => ⟨rfl, by rintro x hx; unfold generatorLoop at hx; cases hx; exact ht⟩
  | gh :: l, gens, a, t, ht => by
    unfold generatorLoop
    rw [get_map]
    cases gens.get gh with
    | none => exact ⟨rfl, fun x hx => by cases hx⟩
    | some x =>
      simp only [Option.map_some, unwrap_some, Res.ok_bind]
      rw [hg.recast x dt w h]
      cases hf : ForceGenerator.makeForce x dt w h with
      | error y => exact ⟨rfl, fun x hx => by cases hx⟩
      | ok r =>
        obtain ⟨f, x'⟩ := r
        simp only [Except.map, Prod.map, Res.ok_bind]
        have hb : g.unit = 1 ∨ Blank ((f.position - copy.position).cross f.force) := by
          rcases hg.central with h1 | h1
          · exact .inl h1
          · right
            rw [h1 x x' dt w h f copy hf hc]
            exact Blank.cross ⟨blank_self _, blank_self _, blank_self _⟩ _
        have ht' : g.unit = 1 ∨ Blank (t + copy.lastMomentOfInertia.mulVec ((f.position - copy.position).cross f.force)) := by
          rcases ht with h1 | h1
          · exact .inl h1
          · rcases hb with h2 | h2
            · exact .inl h2
            · exact .inr (h1.add (h2.mulVec _))
        have e1 : a.turn g.axes + (Force.recast g f).force.scale (one / (copy.recast g).lastTotalMass) = (a + f.force.scale (one / copy.lastTotalMass)).turn g.axes := by
          show a.turn g.axes + ((f.force.turn g.axes).scale (fin g.unit)).scale (one / (copy.lastTotalMass * fin g.unit)) = _
          rw [one_div_times, scale_quotient]
          turns
        have e2 : t.turn g.axes + (copy.recast g).lastMomentOfInertia.mulVec (((Force.recast g f).position - (copy.recast g).position).cross (Force.recast g f).force) =
            (t + copy.lastMomentOfInertia.mulVec ((f.position - copy.position).cross f.force)).turn g.axes := by
          rw [lastMoment_recast]
          show t.turn g.axes + ((copy.lastMomentOfInertia.turn g.axes).scale (fin g.unit)).mulVec ((f.position.turn g.axes - copy.position.turn g.axes).cross ((f.force.turn g.axes).scale (fin g.unit))) = _
          rw [Vec3.cross_times g.pos, Mat3.times_mulVec g.pos]
          turns
          rcases hb with h1 | h1
          · rw [scale_unit_one h1, scale_unit_one h1, Mat3.turn_mulVec]
            turns
          · rw [h1.times, Mat3.turn_mulVec, ((h1.mulVec _).turn g.axes).times]
            turns
        rw [e1, e2, set_map]
        exact generatorLoop_recast hg dt w h hc l _ _ _ ht'

theorem integrateVelocity_recast {g : Guise} {e : InternalEntity XReal} (he : Fit g e) (dt : XReal) (a t : Vec3 XReal) (ht : g.unit = 1 ∨ Blank t) :
    integrateVelocity dt (a.turn g.axes) (t.turn g.axes) (e.recast g) = (integrateVelocity dt a t e).recast g := by
  unfold integrateVelocity
  rw [inverseMoment_recast he]
  have h1 : (e.recast g).velocity + (a.turn g.axes).scale dt = (e.velocity + a.scale dt).turn g.axes := by
    show e.velocity.turn g.axes + _ = _
    turns
  have h2 : (e.recast g).angularVelocity + ((e.inverseMomentOfInertia.turn g.axes).scale (fin g.unit⁻¹)).mulVec ((t.turn g.axes).scale dt) =
      (e.angularVelocity + e.inverseMomentOfInertia.mulVec (t.scale dt)).turn g.axes := by
    show e.angularVelocity.turn g.axes + _ = _
    rw [← Vec3.turn_scale, Mat3.times_mulVec (inv_pos.mpr g.pos), Mat3.turn_mulVec]
    rcases ht with h | h
    · rw [h, inv_one, scale_fin_one]
      turns
    · rw [(((h.scale dt).mulVec _).turn g.axes).times]
      turns
  rw [h1, h2]
  rfl

theorem Fit.integrated {g : Guise} {e : InternalEntity XReal} (he : Fit g e) (dt : XReal) (a t : Vec3 XReal) : Fit g (integrateVelocity dt a t e) := ⟨he.turns, he.pushed⟩

theorem integrateOne_recast {g : Guise} (hg : Fair γ g act) (dt : XReal) (gens : List Handle) {s : System XReal γ} (hs : AllFit g s.entities) (h : Handle) :
    integrateOne dt gens (s.recast g act) h = (integrateOne dt gens s h).map (Prod.map (System.recast g act) (StepInfo.recast g)) := by
  unfold integrateOne
  rw [show (s.recast g act).getEntity h = (s.toWorld.recast g).getEntity h from rfl, getEntity_recast]
  cases hc : s.toWorld.getEntity h with
  | none => rfl
  | some copy =>
    simp only [Option.map_some, unwrap_some, Res.ok_bind]
    obtain ⟨e, gE, hce⟩ : ∃ e, s.entities.get h = some e ∧ copy = e.makePub := by
      unfold World.getEntity at hc
      cases hh : s.entities.get h with
      | none => rw [hh] at hc; cases hc
      | some e => rw [hh] at hc; cases hc; exact ⟨e, rfl, rfl⟩
    have key : ∀ R : Res (Arena γ × Vec3 XReal × Vec3 XReal), (∀ x, R = .ok x → g.unit = 1 ∨ Blank x.2.2) →
        (R.map (fun x => (x.1.map act, x.2.1.turn g.axes, x.2.2.turn g.axes)) >>= fun x => do
          let e ← unwrap ((s.recast g act).entities.get h)
          (Except.ok (({ s.recast g act with generators := x.1, entities := (s.recast g act).entities.set h (integrateVelocity dt x.2.1 x.2.2 e) } : System XReal γ),
            (⟨h, (integrateVelocity dt x.2.1 x.2.2 e).velocity.scale dt, (integrateVelocity dt x.2.1 x.2.2 e).angularVelocity.scale dt, []⟩ : StepInfo XReal)) : Res _)) =
        (R >>= fun x => do
          let e ← unwrap (s.entities.get h)
          (Except.ok (({ s with generators := x.1, entities := s.entities.set h (integrateVelocity dt x.2.1 x.2.2 e) } : System XReal γ),
            (⟨h, (integrateVelocity dt x.2.1 x.2.2 e).velocity.scale dt, (integrateVelocity dt x.2.1 x.2.2 e).angularVelocity.scale dt, []⟩ : StepInfo XReal)) : Res _)).map
          (Prod.map (System.recast g act) (StepInfo.recast g)) := by
      intro R hR
      cases R with
      | error x => rfl
      | ok x =>
        simp only [Except.map, Res.ok_bind]
        rw [show (s.recast g act).entities = s.entities.map (InternalEntity.recast g) from rfl, get_map, gE]
        simp only [Option.map_some, unwrap_some, Res.ok_bind]
        rw [integrateVelocity_recast (hs h e gE) dt _ _ (hR x rfl), set_map]
        refine congrArg Except.ok (Prod.ext rfl ?_)
        show StepInfo.mk h (((integrateVelocity dt x.2.1 x.2.2 e).velocity.turn g.axes).scale dt) (((integrateVelocity dt x.2.1 x.2.2 e).angularVelocity.turn g.axes).scale dt) [] = _
        turns
        rfl
    rw [show (s.recast g act).generators = s.generators.map act from rfl, show (s.recast g act).toWorld = s.toWorld.recast g from rfl,
      show (Entity.recast g copy).lastTotalMass = copy.lastTotalMass * fin g.unit from rfl, isFinite_times g.pos,
      show Scalar.lt EPSILON (copy.lastTotalMass * fin g.unit) = Scalar.lt EPSILON copy.lastTotalMass by subst hce; exact (hs h e gE).pushed]
    have hz := Vec3.turn_zeros g.axes
    by_cases hC : (Scalar.isFinite copy.lastTotalMass && Scalar.lt EPSILON copy.lastTotalMass) = true
    · rw [if_pos hC, if_pos hC]
      obtain ⟨h1, h2⟩ := generatorLoop_recast hg dt s.toWorld h hc gens s.generators Vec3.zeros Vec3.zeros (.inr blank_zeros)
      rw [hz] at h1
      rw [h1]
      exact key _ h2
    · rw [if_neg hC, if_neg hC]
      have := key (.ok (s.generators, Vec3.zeros, Vec3.zeros)) (by intro x hx; cases hx; exact .inr blank_zeros)
      simp only [Except.map, hz] at this
      exact this

theorem integrateOne_fit {g : Guise} {dt : XReal} {gens : List Handle} {s s' : System XReal γ} {h : Handle} {i : StepInfo XReal}
    (h1 : integrateOne dt gens s h = .ok (s', i)) (hs : AllFit g s.entities) : AllFit g s'.entities ∧ s'.colliders = s.colliders := by
  obtain ⟨e, gs, a, t, he, -, hs', -⟩ := integrateOne_spec h1
  subst hs'
  exact ⟨hs.set h ⟨(hs h e he).turns, (hs h e he).pushed⟩, rfl⟩

theorem integrateAll_recast {g : Guise} (hg : Fair γ g act) (dt : XReal) (gens : List Handle) : ∀ (l : List Handle) (s : System XReal γ), AllFit g s.entities →
    integrateAll dt gens l (s.recast g act) = (integrateAll dt gens l s).map (Prod.map (System.recast g act) (List.map (StepInfo.recast g)))
  | [], _, _ => rfl
  | h :: l, s, hs => by
    unfold integrateAll
    rw [integrateOne_recast hg dt gens hs]
    cases h1 : integrateOne dt gens s h with
    | error x => rfl
    | ok r =>
      obtain ⟨s1, i⟩ := r
      show (integrateAll dt gens l (s1.recast g act) >>= _) = Except.map _ (integrateAll dt gens l s1 >>= _)
      rw [integrateAll_recast hg dt gens l s1 (integrateOne_fit h1 hs).1]
      cases integrateAll dt gens l s1 <;> rfl

theorem integrateAll_fit {g : Guise} {dt : XReal} {gens : List Handle} : ∀ {l : List Handle} {s s' : System XReal γ} {is : List (StepInfo XReal)},
    integrateAll dt gens l s = .ok (s', is) → AllFit g s.entities → AllFit g s'.entities ∧ s'.colliders = s.colliders
  | [], s, s', is, h, hp => by unfold integrateAll at h; cases h; exact ⟨hp, rfl⟩
  | k :: l, s, s', is, h, hp => by
    unfold integrateAll at h
    obtain ⟨⟨s1, i⟩, h1, h⟩ := Res.bind_eq_ok.mp h
    obtain ⟨⟨s2, is'⟩, h2, h⟩ := Res.bind_eq_ok.mp h
    cases h
    obtain ⟨a, b⟩ := integrateOne_fit h1 hp
    have := integrateAll_fit h2 a
    exact ⟨this.1, this.2.trans b⟩
end
end Props
end Fluffy
