import Verif.Props.GuiseLoop
/-
C85 and C86, continued: every call in another guise.
-/
set_option linter.unusedSectionVars false
set_option linter.unusedSimpArgs false
namespace Fluffy
open XReal

/-- The same call in another guise. -/
noncomputable def Op.recast {γ : Type} (g : Guise) (act : γ → γ) : Op XReal γ → Op XReal γ
  | .addEntity e => .addEntity (e.recast g)
  | .updateEntity h e => .updateEntity h (e.recast g)
  | .addCollider c => .addCollider (c.recast g)
  | .updateCollider h c => .updateCollider h (c.recast g)
  | .addGenerator x => .addGenerator (act x)
  | .configure n e t rs m => .configure n (e * fin g.unit) t (rs.map (CollisionRecord.recast g)) m
  | .removeEntity h => .removeEntity h
  | .removeCollider h => .removeCollider h
  | .linkCollider c e => .linkCollider c e
  | .removeGenerator h => .removeGenerator h
  | .step dt => .step dt
/-- The same answer; a generator handed back is one of the other guise. -/
def Out.recast {γ : Type} (act : γ → γ) : Out γ → Out γ
  | .removed x => .removed (x.map act)
  | o => o

namespace Props
open Step InternalEntity
variable (g : Guise)

/-! ### Masses -/

theorem add_times_mat (a b : Mat3 XReal) : (a + b).scale (fin g.unit) = a.scale (fin g.unit) + b.scale (fin g.unit) := by
  show Mat3.mk _ _ _ = Mat3.mk _ _ _
  rw [Mat3.mk.injEq]
  exact ⟨Vec3.add_times g.pos _ _, Vec3.add_times g.pos _ _, Vec3.add_times g.pos _ _⟩
theorem scale_times_mat (a : Mat3 XReal) (k : XReal) : a.scale (k * fin g.unit) = (a.scale k).scale (fin g.unit) := by
  show Mat3.mk _ _ _ = Mat3.mk _ _ _
  rw [Mat3.mk.injEq]
  exact ⟨Vec3.scale_times g.pos _ _, Vec3.scale_times g.pos _ _, Vec3.scale_times g.pos _ _⟩
theorem prep_recast (o : Orientation XReal) (p : Vec3 XReal) (k : XReal) (m : Mat3 XReal) :
    (o.turn g.axes).prepMomentOfInertia (p.turn g.axes) (k * fin g.unit) ((m.turn g.axes).scale (fin g.unit)) = ((o.prepMomentOfInertia p k m).turn g.axes).scale (fin g.unit) := by
  rw [← Orientation.turn_prep]
  unfold Orientation.prepMomentOfInertia translateMomentOfInertia
  rw [scale_times_mat, add_times_mat]

theorem zero_times : (zero : XReal) * fin g.unit = zero := by simp [zero_eq]

theorem mass_recast (c : Collider XReal) : (c.recast g).mass = c.mass * fin g.unit := by
  cases c <;> first | rfl | exact (zero_times g).symm
theorem center_recast (c : Collider XReal) : (c.recast g).localCenterOfMass = c.localCenterOfMass.turn g.axes := by
  cases c <;> first | rfl | skip
  simp only [Collider.localCenterOfMass, Collider.recast]
  turns
theorem shape_moment_recast {g : Guise} {c : Collider XReal} (hc : Turnable g.axes c) : (c.recast g).momentOfInertia = (c.momentOfInertia.turn g.axes).scale (fin g.unit) := by
  have hd : ∀ k : XReal, Mat3.diagonal ⟨k * fin g.unit, k * fin g.unit, k * fin g.unit⟩ = ((Mat3.diagonal ⟨k, k, k⟩).turn g.axes).scale (fin g.unit) := by
    intro k
    show _ = ((Mat3.diagonalElement k).turn g.axes).scale (fin g.unit)
    rw [Mat3.turn_diagonalElement]
    simp [Mat3.diagonalElement, Mat3.diagonal, Mat3.scale, Vec3.scale, zero_eq]
  cases c with
  | null s => rfl
  | sphere s =>
    refine Eq.trans ?_ (hd _)
    show Mat3.diagonal ⟨lit 2 1 / lit 5 1 * (s.mass * fin g.unit) * s.radius, lit 2 1 / lit 5 1 * (s.mass * fin g.unit) * s.radius, lit 2 1 / lit 5 1 * (s.mass * fin g.unit) * s.radius⟩ = _
    rw [mul_times g.pos, times_mul g.pos]
  | plane s => show Mat3.zeros = (Mat3.zeros.turn g.axes).scale _; rw [Mat3.turn_zeros, zeros_times]
  | mesh s => show Mat3.zeros = (Mat3.zeros.turn g.axes).scale _; rw [Mat3.turn_zeros, zeros_times]
  | box s =>
    obtain ⟨t, u, hu⟩ := g
    simp only [Turnable] at hc
    subst hc
    simp only [Collider.momentOfInertia, Collider.recast, Vec3.turn, Mat3.turn, times_div hu, times_mul hu, Mat3.diagonal, Mat3.scale, Vec3.scale, zero_eq]
    simp

/-- The locals of the mass loop in another guise. -/
noncomputable def _root_.Fluffy.InternalEntity.MassSum.recast (g : Guise) (x : MassSum XReal) : MassSum XReal :=
  ⟨(x.centerOfMass.turn g.axes).scale (fin g.unit), x.totalOtherMass * fin g.unit, x.foundInfinite⟩

theorem massLoop_recast (o : Orientation XReal) (cs : Arena (Collider XReal)) : ∀ (l : List Handle) (x : MassSum XReal),
    massLoop (o.turn g.axes) (cs.map (Collider.recast g)) l (x.recast g) = (massLoop o cs l x).map (MassSum.recast g)
  | [], _ => rfl
  | k :: l, x => by
    unfold massLoop
    rw [get_map]
    cases cs.get k with
    | none => rfl
    | some c =>
      simp only [Option.map_some, unwrap_some, Res.ok_bind]
      rw [mass_recast, isInfinite_times g.pos, center_recast]
      split
      · rfl
      · rw [← massLoop_recast o cs l]
        congr 1
        show MassSum.mk _ _ _ = MassSum.mk _ _ _
        rw [Orientation.turn_positionIntoWorld, Vec3.scale_times g.pos, MassSum.mk.injEq]
        refine ⟨?_, (XReal.add_times g.pos _ _).symm, rfl⟩
        show (x.centerOfMass.turn g.axes).scale (fin g.unit) + _ = _
        rw [← Vec3.add_times g.pos]
        turns

theorem momentLoop_recast {g : Guise} (o : Orientation XReal) {cs : Arena (Collider XReal)} (hc : ∀ h c, cs.get h = some c → Turnable g.axes c) : ∀ (l : List Handle) (m : Mat3 XReal),
    momentLoop (o.turn g.axes) (cs.map (Collider.recast g)) l ((m.turn g.axes).scale (fin g.unit)) = (momentLoop o cs l m).map (fun m => (m.turn g.axes).scale (fin g.unit))
  | [], _ => rfl
  | k :: l, m => by
    unfold momentLoop
    rw [get_map]
    cases hk : cs.get k with
    | none => rfl
    | some c =>
      simp only [Option.map_some, unwrap_some, Res.ok_bind]
      rw [mass_recast, center_recast, shape_moment_recast (hc k c hk), prep_recast, ← add_times_mat, ← Mat3.turn_add]
      exact momentLoop_recast o hc l _

theorem lt_zero_times (a : XReal) : Scalar.lt (a * fin g.unit) zero = Scalar.lt a zero := by
  have := lt_times g.pos a zero
  rwa [zero_times] at this
theorem zero_lt_times (a : XReal) : Scalar.lt zero (a * fin g.unit) = Scalar.lt zero a := by
  have := lt_times g.pos zero a
  rwa [zero_times] at this
theorem zero_le_times (a : XReal) : Scalar.le zero (a * fin g.unit) = Scalar.le zero a := by
  cases a <;> simp [posInf_times g.pos, negInf_times g.pos, zero_eq, g.pos, mul_nonneg_iff_of_pos_right]
theorem eq_times (a b : XReal) : Scalar.eq (a * fin g.unit) (b * fin g.unit) = Scalar.eq a b := by
  cases a <;> cases b <;> first | rfl | (simp [posInf_times g.pos, negInf_times g.pos, g.pos.ne']; done) | (simp only [posInf_times g.pos, negInf_times g.pos, fin_mul]; rfl)

theorem recenter_recast (e : InternalEntity XReal) (x : MassSum XReal) : (e.recast g).recenter (x.recast g) = (e.recenter x).recast g := by
  unfold recenter
  have hm : (if (x.recast g).foundInfinite then (Scalar.inf : XReal) else (e.recast g).ownMass) = (if x.foundInfinite then Scalar.inf else e.ownMass) * fin g.unit := by
    show (if x.foundInfinite = true then (Scalar.inf : XReal) else e.ownMass * fin g.unit) = _
    split
    · exact (posInf_times g.pos).symm
    · rfl
  dsimp only
  rw [hm]
  show (if (Scalar.lt zero (x.totalOtherMass * fin g.unit) && !x.foundInfinite) = true then _ else _) = _
  rw [zero_lt_times]
  split
  · have hc : (x.recast g).centerOfMass.unscale (x.recast g).totalOtherMass = (x.centerOfMass.unscale x.totalOtherMass).turn g.axes := by
      show ((x.centerOfMass.turn g.axes).scale (fin g.unit)).unscale (x.totalOtherMass * fin g.unit) = _
      rw [Vec3.turn_unscale]
      ext <;> exact (by
        show _ * fin _ / (_ * fin _) = _ / _
        rw [times_div g.pos, div_times g.pos, XReal.times_inv g.pos])
    rw [hc]
    show InternalEntity.mk _ _ _ _ _ _ _ _ _ _ _ = InternalEntity.mk _ _ _ _ _ _ _ _ _ _ _
    rw [InternalEntity.mk.injEq]
    refine ⟨?_, rfl, ?_, rfl, rfl, rfl, rfl, rfl, rfl, rfl, rfl⟩
    · show Orientation.mk (e.orientation.position.turn g.axes + ((x.centerOfMass.unscale x.totalOtherMass).turn g.axes - e.orientation.position.turn g.axes)) _
        (e.orientation.internalOriginOffset.turn g.axes - (e.orientation.turn g.axes).directionIntoLocal ((x.centerOfMass.unscale x.totalOtherMass).turn g.axes - e.orientation.position.turn g.axes)) = _
      turns
      rw [Orientation.turn_directionIntoLocal]
      turns
      rfl
    · exact (XReal.add_times g.pos _ _).symm
  · show InternalEntity.mk _ _ _ _ _ _ _ _ _ _ _ = InternalEntity.mk _ _ _ _ _ _ _ _ _ _ _
    rw [InternalEntity.mk.injEq]
    refine ⟨?_, rfl, rfl, rfl, rfl, rfl, rfl, rfl, rfl, rfl, rfl⟩
    have hd := Orientation.turn_directionIntoWorld g.axes { e.orientation with internalOriginOffset := e.orientation.internalOriginOffset - e.orientation.internalOriginOffset } e.orientation.internalOriginOffset
    rw [show Orientation.turn g.axes { e.orientation with internalOriginOffset := e.orientation.internalOriginOffset - e.orientation.internalOriginOffset } =
      ⟨e.orientation.position.turn g.axes, e.orientation.rotation.turned g.axes, e.orientation.internalOriginOffset.turn g.axes - e.orientation.internalOriginOffset.turn g.axes⟩ by
        unfold Orientation.turn; turns] at hd
    show Orientation.mk (e.orientation.position.turn g.axes + Orientation.directionIntoWorld ⟨e.orientation.position.turn g.axes, e.orientation.rotation.turned g.axes, e.orientation.internalOriginOffset.turn g.axes - e.orientation.internalOriginOffset.turn g.axes⟩
      (e.orientation.internalOriginOffset.turn g.axes)) _ (e.orientation.internalOriginOffset.turn g.axes - e.orientation.internalOriginOffset.turn g.axes) = _
    rw [hd]
    turns
    rfl

theorem recalculateMass_recast {g : Guise} {cs : Arena (Collider XReal)} (hc : ∀ h c, cs.get h = some c → Turnable g.axes c) (order : List Handle) (e : InternalEntity XReal) :
    recalculateMass order (cs.map (Collider.recast g)) (e.recast g) = (recalculateMass order cs e).map (InternalEntity.recast g) := by
  unfold recalculateMass
  have h0 : (⟨Vec3.zeros, zero, false⟩ : MassSum XReal) = MassSum.recast g ⟨Vec3.zeros, zero, false⟩ := by
    unfold MassSum.recast
    simp only [Vec3.turn_zeros, zero_times]
    simp [Vec3.zeros, Vec3.scale, zero_eq]
  rw [h0, show (e.recast g).orientation = e.orientation.turn g.axes from rfl, massLoop_recast, ← h0]
  cases massLoop e.orientation cs order ⟨Vec3.zeros, zero, false⟩ with
  | error x => rfl
  | ok x =>
    simp only [Except.map, Res.ok_bind]
    rw [recenter_recast, show (x.recast g).foundInfinite = x.foundInfinite from rfl]
    split
    · refine congrArg Except.ok ?_
      show InternalEntity.mk _ _ _ _ _ _ _ _ _ _ _ = InternalEntity.mk _ _ _ _ _ _ _ _ _ _ _
      rw [Mat3.turn_zeros, zeros_times]
      rfl
    · have hm := momentLoop_recast (e.recenter x).orientation hc order Mat3.zeros
      rw [Mat3.turn_zeros, zeros_times] at hm
      rw [show ((e.recenter x).recast g).orientation = (e.recenter x).orientation.turn g.axes from rfl, hm]
      cases momentLoop (e.recenter x).orientation cs order Mat3.zeros <;> rfl

/-! ### Entities -/

theorem newFrom_recast (e : Entity XReal) : InternalEntity.newFrom (e.recast g) = (InternalEntity.newFrom e).map (InternalEntity.recast g) := by
  unfold InternalEntity.newFrom
  have ho : (e.recast g).makeOrientation = e.makeOrientation.turn g.axes := Orientation.turn_new g.axes _ _ _
  rw [show (e.recast g).ownMass = e.ownMass * fin g.unit from rfl, lt_zero_times, ho]
  split
  · rfl
  · refine congrArg some ?_
    show InternalEntity.mk _ _ _ _ _ _ _ _ _ _ _ = InternalEntity.mk _ _ _ _ _ _ _ _ _ _ _
    rw [Mat3.turn_zeros, zeros_times]
    rfl

theorem rotationDelta_turned (t : Turn) (p q : Quat XReal) : rotationDelta (p.turned t) (q.turned t) = rotationDelta p q := by
  have hv : ∀ p q : Quat XReal, rotationDelta p q = Scalar.sqrt ((p.w - q.w) * (p.w - q.w) + (p.vec - q.vec).dot (p.vec - q.vec)) := by
    intro p q
    unfold rotationDelta
    show _ = Scalar.sqrt (_ + ((p.i - q.i) * (p.i - q.i) + (p.j - q.j) * (p.j - q.j) + (p.k - q.k) * (p.k - q.k)))
    congr 1
    ac_rfl
  rw [hv, hv]
  simp only [Quat.turned_vec, Quat.turned_w]
  turns

theorem updateFrom_recast (e : InternalEntity XReal) (s : Entity XReal) :
    (e.recast g).updateFrom (s.recast g) = (e.updateFrom s).map (Prod.map (InternalEntity.recast g) id) := by
  unfold InternalEntity.updateFrom
  have hc : (e.recast g).changed (s.recast g) = e.changed s := by
    unfold InternalEntity.changed
    show (!Scalar.eq (e.ownMass * fin g.unit) (s.ownMass * fin g.unit) || Scalar.lt EPSILON (e.orientation.position.turn g.axes - s.position.turn g.axes).magnitude ||
      Scalar.lt EPSILON (rotationDelta (Quat.fromScaledAxis (s.rotation.turn g.axes)) (e.orientation.rotation.turned g.axes)) ||
      Scalar.lt EPSILON (e.velocity.turn g.axes - s.velocity.turn g.axes).magnitude || Scalar.lt EPSILON (e.angularVelocity.turn g.axes - s.angularVelocity.turn g.axes).magnitude) = _
    rw [eq_times, Quat.turned_fromScaledAxis, rotationDelta_turned]
    turns
  rw [hc, show (s.recast g).ownMass = s.ownMass * fin g.unit from rfl, lt_zero_times]
  split
  · rfl
  · refine congrArg some (Prod.ext ?_ rfl)
    show InternalEntity.mk (Orientation.mk _ (Quat.fromScaledAxis (s.rotation.turn g.axes)) _) _ _ _ _ _ _ _ _ _ _ = _
    rw [Quat.turned_fromScaledAxis]
    rfl

/-! ### Colliders -/

theorem collider_newFrom_recast {g : Guise} {c : Collider XReal} (hc : Turnable g.axes c) : (c.recast g).newFrom = c.newFrom.map (Collider.recast g) := by
  cases c with
  | null s =>
    show (if (!Scalar.le zero (s.mass * fin g.unit)) = true then _ else _) = Option.map _ (if (!Scalar.le zero s.mass) = true then _ else _)
    rw [zero_le_times]; split <;> rfl
  | sphere s =>
    show (if (!(Scalar.lt MINIMUM_RADIUS s.radius && Scalar.le zero (s.mass * fin g.unit))) = true then _ else _) =
      Option.map _ (if (!(Scalar.lt MINIMUM_RADIUS s.radius && Scalar.le zero s.mass)) = true then _ else _)
    rw [zero_le_times]; split <;> rfl
  | plane s =>
    show (if (!(Scalar.le zero (s.mass * fin g.unit) && Scalar.lt EPSILON (s.normal.turn g.axes).magnitude)) = true then _ else some (Collider.plane ⟨none, s.position.turn g.axes, (s.normal.turn g.axes).normalize, _, _⟩)) =
      Option.map _ (if (!(Scalar.le zero s.mass && Scalar.lt EPSILON s.normal.magnitude)) = true then _ else _)
    rw [zero_le_times]; turns; split <;> rfl
  | mesh s =>
    show (if (!(decide (3 ≤ (s.vertices.map (Vec3.turn g.axes)).length) && decide (1 ≤ s.faces.length) && decide (1 ≤ s.edges.length))) = true then _ else _) =
      Option.map _ (if (!(decide (3 ≤ s.vertices.length) && decide (1 ≤ s.faces.length) && decide (1 ≤ s.edges.length))) = true then _ else _)
    rw [List.length_map]; split <;> rfl
  | box s =>
    obtain ⟨t, u, hu⟩ := g
    simp only [Turnable] at hc
    subst hc
    have hv : ({ s with mass := s.mass * fin u } : BoxCollider XReal).isValid = s.isValid := by
      unfold BoxCollider.isValid
      simp only [zero_le_times ⟨.stay, u, hu⟩]
    show (if (!({ s with mass := s.mass * fin u } : BoxCollider XReal).isValid) = true then _ else _) = Option.map _ (if (!s.isValid) = true then _ else _)
    rw [hv]; split <;> rfl

/-- The outcome of an update in another guise. -/
noncomputable def _root_.Fluffy.Collider.UpdateResult.recast (g : Guise) : Collider.UpdateResult XReal → Collider.UpdateResult XReal
  | .wrongType => .wrongType
  | .invalid => .invalid
  | .updated c => .updated (c.recast g)

theorem collider_updateFrom_recast {g : Guise} (d : Collider XReal) {c : Collider XReal} (hc : Turnable g.axes c) :
    (d.recast g).updateFrom (c.recast g) = (d.updateFrom c).recast g := by
  cases d <;> cases c <;> first | rfl | skip
  · rename_i d s
    show (if (!Scalar.le zero (s.mass * fin g.unit)) = true then _ else _) = Collider.UpdateResult.recast g (if (!Scalar.le zero s.mass) = true then _ else _)
    rw [zero_le_times]; split <;> rfl
  · rename_i d s
    show (if (!(Scalar.lt MINIMUM_RADIUS s.radius && Scalar.le zero (s.mass * fin g.unit))) = true then _ else _) =
      Collider.UpdateResult.recast g (if (!(Scalar.lt MINIMUM_RADIUS s.radius && Scalar.le zero s.mass)) = true then _ else _)
    rw [zero_le_times]; split <;> rfl
  · rename_i d s
    show (if (!(Scalar.le zero (s.mass * fin g.unit) && Scalar.lt EPSILON (s.normal.turn g.axes).magnitude)) = true then _ else _) =
      Collider.UpdateResult.recast g (if (!(Scalar.le zero s.mass && Scalar.lt EPSILON s.normal.magnitude)) = true then _ else _)
    rw [zero_le_times]; turns; split <;> rfl
  · rename_i d s
    show (if (!(decide (3 ≤ (s.vertices.map (Vec3.turn g.axes)).length) && decide (1 ≤ s.faces.length) && decide (1 ≤ s.edges.length))) = true then _ else _) =
      Collider.UpdateResult.recast g (if (!(decide (3 ≤ s.vertices.length) && decide (1 ≤ s.faces.length) && decide (1 ≤ s.edges.length))) = true then _ else _)
    rw [List.length_map]; split <;> rfl
  · rename_i d s
    obtain ⟨t, u, hu⟩ := g
    simp only [Turnable] at hc
    subst hc
    have hv : ({ s with mass := s.mass * fin u } : BoxCollider XReal).isValid = s.isValid := by
      unfold BoxCollider.isValid
      simp only [zero_le_times ⟨.stay, u, hu⟩]
    show (if (!({ s with mass := s.mass * fin u } : BoxCollider XReal).isValid) = true then _ else _) = Collider.UpdateResult.recast _ (if (!s.isValid) = true then _ else _)
    rw [hv]; split <;> rfl

theorem entity_recast (c : Collider XReal) : (c.recast g).entity = c.entity := by cases c <;> rfl
theorem setEntity_recast (c : Collider XReal) (o : Option Handle) : (c.recast g).setEntity o = (c.setEntity o).recast g := by cases c <;> rfl
theorem makePub_collider_recast (c : Collider XReal) : (c.recast g).makePub = c.makePub.recast g := by cases c <;> rfl

/-- What a call must satisfy: it hands over no box if the axes are turned, and no friction if the unit of mass changes. -/
def SuitsCall {γ : Type} (g : Guise) : Op XReal γ → Prop
  | .addCollider c => Turnable g.axes c ∧ (g.unit = 1 ∨ c.material.staticFriction = fin 0 ∧ c.material.dynamicFriction = fin 0)
  | .updateCollider _ c => Turnable g.axes c ∧ (g.unit = 1 ∨ c.material.staticFriction = fin 0 ∧ c.material.dynamicFriction = fin 0)
  | _ => True

/-! ### Calls -/

section
variable {g} {γ : Type} {act : γ → γ}

theorem setEntities_recast (s : System XReal γ) (h : Handle) (e : InternalEntity XReal) :
    ({ s.recast g act with entities := (castAll g s.entities).set h (e.recast g) } : System XReal γ) = System.recast g act { s with entities := s.entities.set h e } := by
  rw [set_map]; rfl
theorem setColliders_recast (s : System XReal γ) (h : Handle) (c : Collider XReal) :
    ({ s.recast g act with colliders := (s.colliders.map (Collider.recast g)).set h (c.recast g) } : System XReal γ) = System.recast g act { s with colliders := s.colliders.set h c } := by
  rw [set_map]; rfl

theorem removeCollider_recast (s : System XReal γ) (h : Handle) : (s.recast g act).removeCollider h = (s.removeCollider h).map (System.recast g act) := by
  unfold System.removeCollider
  rw [show (s.recast g act).colliders = s.colliders.map (Collider.recast g) from rfl, remove_map]
  simp only [Prod.map]
  cases (s.colliders.remove h).2 with
  | none => rfl
  | some c =>
    simp only [Option.map_some]
    rw [entity_recast]
    cases hc : c.entity with
    | none => simp only [hc]; rfl
    | some eh =>
      simp only [hc]
      rw [show (s.recast g act).entities = castAll g s.entities from rfl, get_map]
      cases s.entities.get eh <;> rfl

theorem removeColliders_recast : ∀ (l : List Handle) (s : System XReal γ), System.removeColliders l (s.recast g act) = (System.removeColliders l s).map (System.recast g act)
  | [], _ => rfl
  | h :: l, s => by
    unfold System.removeColliders
    rw [removeCollider_recast]
    cases s.removeCollider h with
    | error x => rfl
    | ok t => exact removeColliders_recast l t

theorem removeEntity_recast (ord : IterOrder) (s : System XReal γ) (h : Handle) :
    (s.recast g act).removeEntity ord h = (s.removeEntity ord h).map (Prod.map (System.recast g act) id) := by
  unfold System.removeEntity
  rw [show (s.recast g act).entities = castAll g s.entities from rfl, remove_map]
  cases hr : s.entities.remove h with
  | mk a o =>
    cases o with
    | none => rfl
    | some e =>
      have := removeColliders_recast (g := g) (act := act) (ord.colliders h e.colliders) { s with entities := a }
      refine Eq.trans (congrArg (fun R => R >>= _) this) ?_
      dsimp only
      cases System.removeColliders (ord.colliders h e.colliders) { s with entities := a } <;> rfl

theorem updateEntity_recast (ord : IterOrder) {s : System XReal γ} (hs : ∀ h c, s.colliders.get h = some c → Turnable g.axes c) (h : Handle) (x : Entity XReal) :
    (s.recast g act).updateEntity ord h (x.recast g) = (s.updateEntity ord h x).map (Prod.map (System.recast g act) id) := by
  unfold System.updateEntity
  rw [show (s.recast g act).entities = castAll g s.entities from rfl, get_map]
  cases hg : s.entities.get h with
  | none => rfl
  | some e =>
    simp only [Option.map_some]
    rw [updateFrom_recast]
    cases hu : e.updateFrom x with
    | none => rfl
    | some r =>
      obtain ⟨e1, woke⟩ := r
      simp only [Option.map_some, Prod.map, id]
      rw [show (s.recast g act).colliders = s.colliders.map (Collider.recast g) from rfl, recalculateMass_recast hs, show (e1.recast g).colliders = e1.colliders from rfl]
      cases recalculateMass (ord.colliders h e1.colliders) s.colliders e1 with
      | error y => rfl
      | ok e2 =>
        simp only [Except.map, Res.ok_bind]
        rw [set_map]
        cases woke with
        | false => rfl
        | true =>
          simp only [if_true]
          rw [wakeUp_recast g, show (s.recast g act).debug = s.debug from rfl]
          cases wakeUp ord h (s.entities.set h e2) s.debug <;> rfl

theorem refreshEntity_recast (ord : IterOrder) {s : System XReal γ} (hs : ∀ h c, s.colliders.get h = some c → Turnable g.axes c) (o : Option Handle) :
    System.refreshEntity ord (s.recast g act) o = (System.refreshEntity ord s o).map (System.recast g act) := by
  cases o with
  | none => rfl
  | some h =>
    unfold System.refreshEntity
    simp only
    rw [show (s.recast g act).entities = castAll g s.entities from rfl, get_map]
    cases hg : s.entities.get h with
    | none => rfl
    | some e =>
      simp only [Option.map_some]
      rw [show (s.recast g act).colliders = s.colliders.map (Collider.recast g) from rfl, recalculateMass_recast hs, show (e.recast g).colliders = e.colliders from rfl]
      cases recalculateMass (ord.colliders h e.colliders) s.colliders e with
      | error y => rfl
      | ok e2 => exact congrArg Except.ok (setEntities_recast s h e2)

theorem turnable_updated {d c c' : Collider XReal} (hc : Turnable g.axes c) (h : d.updateFrom c = .updated c') : Turnable g.axes c' := by
  cases d <;> cases c <;> simp only [Collider.updateFrom] at h <;> (try (cases h; done)) <;> split at h <;> cases h <;> first | trivial | exact hc
theorem turnable_new {c c' : Collider XReal} (hc : Turnable g.axes c) (h : c.newFrom = some c') : Turnable g.axes c' := by
  cases c <;> simp only [Collider.newFrom] at h <;> split at h <;> cases h <;> first | trivial | exact hc
theorem turnable_set {a : Arena (Collider XReal)} (hs : ∀ h c, a.get h = some c → Turnable g.axes c) (h : Handle) {c : Collider XReal} (hc : Turnable g.axes c) :
    ∀ k x, (a.set h c).get k = some x → Turnable g.axes x := by
  intro k x hx
  rw [Arena.get_set] at hx
  split at hx
  · cases hg : a.get h with
    | none => rw [hg] at hx; cases hx
    | some y => rw [hg] at hx; cases hx; exact hc
  · exact hs k x hx
theorem turnable_link {c : Collider XReal} (hc : Turnable g.axes c) (o : Option Handle) : Turnable g.axes (c.setEntity o) := by cases c <;> exact hc

theorem updateCollider_recast (ord : IterOrder) {s : System XReal γ} (hs : ∀ h c, s.colliders.get h = some c → Turnable g.axes c) (h : Handle) {x : Collider XReal} (hx : Turnable g.axes x) :
    (s.recast g act).updateCollider ord h (x.recast g) = (s.updateCollider ord h x).map (Prod.map (System.recast g act) id) := by
  unfold System.updateCollider
  rw [show (s.recast g act).colliders = s.colliders.map (Collider.recast g) from rfl, get_map]
  cases hc : s.colliders.get h with
  | none => rfl
  | some c =>
    simp only [Option.map_some]
    rw [collider_updateFrom_recast c hx, entity_recast]
    cases hu : c.updateFrom x with
    | wrongType => rfl
    | invalid =>
      simp only [Collider.UpdateResult.recast]
      rw [refreshEntity_recast ord hs]
      cases System.refreshEntity ord s c.entity <;> rfl
    | updated c' =>
      simp only [Collider.UpdateResult.recast]
      have := refreshEntity_recast (act := act) ord (s := { s with colliders := s.colliders.set h c' }) (turnable_set hs h (turnable_updated hx hu)) c.entity
      rw [← setColliders_recast] at this
      refine Eq.trans (congrArg (fun R => R >>= _) this) ?_
      cases System.refreshEntity ord { s with colliders := s.colliders.set h c' } c.entity <;> rfl

theorem unlinkPrior_recast (ord : IterOrder) {s : System XReal γ} (hs : ∀ h c, s.colliders.get h = some c → Turnable g.axes c) (ch : Handle) (o : Option Handle) :
    System.unlinkPrior ord (s.recast g act) ch o = (System.unlinkPrior ord s ch o).map (System.recast g act) := by
  cases o with
  | none => rfl
  | some h =>
    unfold System.unlinkPrior
    simp only
    rw [show (s.recast g act).entities = castAll g s.entities from rfl, get_map]
    cases hg : s.entities.get h with
    | none => rfl
    | some e =>
      simp only [Option.map_some]
      have := recalculateMass_recast hs (ord.colliders h (hsRemove e.colliders ch)) { e with colliders := hsRemove e.colliders ch }
      refine Eq.trans (congrArg (fun R => R >>= _) this) ?_
      cases recalculateMass (ord.colliders h (hsRemove e.colliders ch)) s.colliders { e with colliders := hsRemove e.colliders ch } with
      | error y => rfl
      | ok e2 => exact congrArg Except.ok (setEntities_recast s h e2)

theorem switchLink_recast (ord : IterOrder) {s : System XReal γ} (hs : ∀ h c, s.colliders.get h = some c → Turnable g.axes c) (ch : Handle) (o : Option Handle) :
    System.switchLink ord (s.recast g act) ch o = (System.switchLink ord s ch o).map (Prod.map (System.recast g act) id) := by
  unfold System.switchLink
  rw [show (s.recast g act).colliders = s.colliders.map (Collider.recast g) from rfl, get_map]
  cases hc : s.colliders.get ch with
  | none => rfl
  | some c =>
    simp only [Option.map_some]
    rw [entity_recast, setEntity_recast]
    by_cases hp : c.entity ≠ o
    · rw [if_pos hp, if_pos hp]
      have := unlinkPrior_recast (act := act) ord (s := { s with colliders := s.colliders.set ch (c.setEntity o) }) (turnable_set hs ch (turnable_link (hs ch c hc) o)) ch c.entity
      rw [← setColliders_recast] at this
      refine Eq.trans (congrArg (fun R => R >>= _) this) ?_
      cases System.unlinkPrior ord { s with colliders := s.colliders.set ch (c.setEntity o) } ch c.entity <;> rfl
    · rw [if_neg hp, if_neg hp]
      exact congrArg (fun t => Except.ok (t, true)) (setColliders_recast s ch (c.setEntity o))

theorem linkCollider_recast (ord : IterOrder) {s : System XReal γ} (hs : ∀ h c, s.colliders.get h = some c → Turnable g.axes c) (ch : Handle) (o : Option Handle) :
    (s.recast g act).linkCollider ord ch o = (s.linkCollider ord ch o).map (Prod.map (System.recast g act) id) := by
  unfold System.linkCollider
  have hcon : (s.colliders.map (Collider.recast g)).contains ch = s.colliders.contains ch := by
    unfold Arena.contains
    rw [get_map]
    cases s.colliders.get ch <;> rfl
  rw [show (s.recast g act).colliders = s.colliders.map (Collider.recast g) from rfl, hcon]
  by_cases hc : (!s.colliders.contains ch) = true
  · rw [if_pos hc, if_pos hc]; rfl
  · rw [if_neg hc, if_neg hc]
    cases o with
    | none => exact switchLink_recast ord hs ch none
    | some h =>
      simp only
      rw [show (s.recast g act).entities = castAll g s.entities from rfl, get_map]
      cases hg : s.entities.get h with
      | none => rfl
      | some e =>
        simp only [Option.map_some]
        have := recalculateMass_recast hs (ord.colliders h (hsInsert e.colliders ch)) { e with colliders := hsInsert e.colliders ch }
        refine Eq.trans (congrArg (fun R => R >>= _) this) ?_
        cases hr : recalculateMass (ord.colliders h (hsInsert e.colliders ch)) s.colliders { e with colliders := hsInsert e.colliders ch } with
        | error y => rfl
        | ok e2 =>
          have h2 := switchLink_recast (act := act) ord (s := { s with entities := s.entities.set h e2 }) hs ch (some h)
          rw [← setEntities_recast] at h2
          exact h2

variable [ForceGenerator XReal γ]

/-- Every call in another guise is the call in that guise, with the same answer. -/
theorem exec_recast (hg : Fair γ g act) (ord : IterOrder) {s : System XReal γ} (hc : Suits g s.colliders) {op : Op XReal γ} (ho : SuitsCall g op)
    (he : ∀ dt, op = .step dt → AllFit g s.entities) :
    (s.recast g act).exec ord (op.recast g act) = (s.exec ord op).map (Prod.map (System.recast g act) (Out.recast act)) := by
  have ht : ∀ h c, s.colliders.get h = some c → Turnable g.axes c := fun h c hh => (hc h c hh).1
  cases op with
  | addEntity e =>
    unfold System.exec Op.recast System.addEntity
    simp only
    rw [newFrom_recast]
    cases InternalEntity.newFrom e with
    | none => rfl
    | some i =>
      simp only [Option.map_some]
      rw [show (s.recast g act).entities = castAll g s.entities from rfl, insert_map]
      rfl
  | removeEntity h =>
    unfold System.exec Op.recast
    simp only
    rw [removeEntity_recast]
    cases s.removeEntity ord h <;> rfl
  | updateEntity h e =>
    unfold System.exec Op.recast
    simp only
    rw [updateEntity_recast ord ht]
    cases s.updateEntity ord h e <;> rfl
  | addCollider c =>
    unfold System.exec Op.recast System.addCollider
    simp only
    rw [collider_newFrom_recast ho.1]
    cases c.newFrom with
    | none => rfl
    | some d =>
      simp only [Option.map_some]
      rw [show (s.recast g act).colliders = s.colliders.map (Collider.recast g) from rfl, insert_map]
      rfl
  | removeCollider h =>
    unfold System.exec Op.recast
    simp only
    rw [removeCollider_recast]
    cases s.removeCollider h <;> rfl
  | updateCollider h c =>
    unfold System.exec Op.recast
    simp only
    rw [updateCollider_recast ord ht h ho.1]
    cases s.updateCollider ord h c <;> rfl
  | linkCollider c h =>
    unfold System.exec Op.recast
    simp only
    rw [linkCollider_recast ord ht]
    cases s.linkCollider ord c h <;> rfl
  | addGenerator x =>
    unfold System.exec Op.recast System.addGenerator
    simp only
    rw [show (s.recast g act).generators = s.generators.map act from rfl, insert_map]
    rfl
  | removeGenerator h =>
    unfold System.exec Op.recast System.removeGenerator
    simp only
    rw [show (s.recast g act).generators = s.generators.map act from rfl, remove_map]
    rfl
  | step dt =>
    unfold System.exec Op.recast
    simp only
    rw [step_recast hg ord (he dt rfl) hc]
    cases s.step ord dt <;> rfl
  | configure n e t rs m => rfl

/-! ### Histories -/

theorem Suits.update {a : Arena (Collider XReal)} (hs : Suits g a) (h : Handle) {c : Collider XReal}
    (hc : Turnable g.axes c ∧ (g.unit = 1 ∨ c.material.staticFriction = fin 0 ∧ c.material.dynamicFriction = fin 0)) : Suits g (a.set h c) := by
  intro k x hx
  rw [Arena.get_set] at hx
  split at hx
  · cases hg : a.get h with
    | none => rw [hg] at hx; cases hx
    | some y => rw [hg] at hx; cases hx; exact hc
  · exact hs k x hx

theorem exec_suits {ord : IterOrder} {s s' : System XReal γ} {op : Op XReal γ} {out : Out γ} (hi : System.Inv s) (hc : Suits g s.colliders) (ho : SuitsCall g op)
    (h : s.exec ord op = .ok (s', out)) : Suits g s'.colliders := by
  intro k c hk
  rcases System.exec_colliders hi h hk with h1 | ⟨d, t, h1, rfl⟩ | ⟨src, rfl, h1⟩ | ⟨src, d, rfl, h1, h2⟩
  · exact hc k c h1
  · refine ⟨turnable_link (hc _ d h1).1 t, ?_⟩
    have := (hc _ d h1).2
    cases d <;> exact this
  · refine ⟨turnable_new ho.1 h1, ?_⟩
    have := ho.2
    cases src <;> simp only [Collider.newFrom] at h1 <;> split at h1 <;> cases h1 <;> exact this
  · refine ⟨turnable_updated ho.1 h2, ?_⟩
    have := ho.2
    cases d <;> cases src <;> simp only [Collider.updateFrom] at h2 <;> (try (cases h2; done)) <;> split at h2 <;> cases h2 <;> exact this

/-- Whenever the program steps, every entity is fit. -/
def FitAlong (g : Guise) : List (IterOrder × Op XReal γ) → System XReal γ → Prop
  | [], _ => True
  | (o, op) :: l, s => (∀ dt, op = .step dt → AllFit g s.entities) ∧ ∀ r, s.exec o op = .ok r → FitAlong g l r.1

theorem play_recast (hg : Fair γ g act) : ∀ {l : List (IterOrder × Op XReal γ)} {s : System XReal γ}, System.Inv s → Suits g s.colliders → (∀ x ∈ l, SuitsCall g x.2) →
    FitAlong g l s →
    play (l.map (Prod.map id (Op.recast g act))) (s.recast g act) = (play l s).map (Prod.map (System.recast g act) (List.map (Out.recast act)))
  | [], _, _, _, _, _ => rfl
  | (o, op) :: l, s, hi, hc, hl, hf => by
    rw [List.map_cons, Prod.map]
    unfold play
    dsimp only [id]
    rw [exec_recast hg o hc (hl (o, op) (by simp)) hf.1]
    cases hx : s.exec o op with
    | error x => rfl
    | ok r =>
      obtain ⟨s1, out⟩ := r
      simp only [Except.map, Prod.map, id, Res.ok_bind]
      have := play_recast hg (System.exec_inv hi hx) (exec_suits hi hc (hl (o, op) (by simp)) hx) (fun x h => hl x (List.mem_cons_of_mem _ h)) (hf.2 _ hx)
      refine Eq.trans (congrArg (fun R => R >>= _) this) ?_
      cases play l s1 <;> rfl
end
end Props
end Fluffy
