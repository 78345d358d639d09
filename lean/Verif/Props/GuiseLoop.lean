import Verif.Props.GuiseStep
/-
C85 and C86, continued: the search, the response, the loop and the sleep decision in another guise.
-/
set_option linter.unusedSectionVars false
set_option linter.unusedSimpArgs false
namespace Fluffy.Props
open Fluffy XReal Step InternalEntity
variable (g : Guise)

/-- Every entity of an arena in another guise. -/
noncomputable abbrev castAll (a : Arena (InternalEntity XReal)) : Arena (InternalEntity XReal) := a.map (InternalEntity.recast g)

theorem material_recast (c : Collider XReal) : (c.recast g).material = c.material := by cases c <;> rfl

/-! ### Search -/

/-- The earliest contact so far in the turned axes. -/
noncomputable def _root_.Fluffy.Step.Candidate.recast (g : Guise) (c : Candidate XReal) : Candidate XReal := { c with collision := c.collision.turn g.axes }

theorem percentOf_recast (b : Option (Candidate XReal)) : percentOf (b.map (Candidate.recast g)) = percentOf b := by cases b <;> rfl

section
variable {g} {cs : Arena (Collider XReal)} (hcs : Suits g cs)
include hcs

theorem considerPair_recast (e1 e2 : InternalEntity XReal) (i1 i2 : StepInfo XReal) (n1 n2 : Nat) (k1 k2 : Handle) (best : Option (Candidate XReal)) :
    considerPair (cs.map (Collider.recast g)) (e1.recast g) (e2.recast g) (i1.recast g) (i2.recast g) n1 n2 k1 k2 (best.map (Candidate.recast g)) =
      (considerPair cs e1 e2 i1 i2 n1 n2 k1 k2 best).map (Option.map (Candidate.recast g)) := by
  unfold considerPair
  rw [get_map, get_map]
  cases hk1 : cs.get k1 with
  | none => rfl
  | some c1 =>
    cases hk2 : cs.get k2 with
    | none => rfl
    | some c2 =>
      simp only [Option.map_some, unwrap_some, Res.ok_bind]
      have ho : ∀ (e : InternalEntity XReal) (i : StepInfo XReal), (e.recast g).orientation.afterAffected (i.recast g).linearMovement (i.recast g).angularMovement =
          (e.orientation.afterAffected i.linearMovement i.angularMovement).turn g.axes := fun e i => Orientation.turn_afterAffected g.axes _ _ _
      rw [ho, ho, show (e1.recast g).orientation = e1.orientation.turn g.axes from rfl, show (e2.recast g).orientation = e2.orientation.turn g.axes from rfl,
        collide_recast g _ _ _ _ (hcs k1 c1 hk1).1 (hcs k2 c2 hk2).1]
      cases collide c1 e1.orientation (e1.orientation.afterAffected i1.linearMovement i1.angularMovement) c2 e2.orientation
          (e2.orientation.afterAffected i2.linearMovement i2.angularMovement) with
      | error x => rfl
      | ok r =>
        cases r with
        | none => rfl
        | some c =>
          simp only [Except.map, Option.map_some, Res.ok_bind]
          rw [show (c.turn g.axes).position = c.position.turn g.axes from rfl, velocityAt_recast, velocityAt_recast, percentOf_recast]
          rw [show (c.turn g.axes).normal = c.normal.turn g.axes from rfl, show (c.turn g.axes).times = c.times from rfl, material_recast, material_recast]
          turns
          by_cases ha : Scalar.lt ((e1.velocityAt c.position - e2.velocityAt c.position).dot c.normal) EPSILON = true
          · simp only [ha, if_true]
          · simp only [ha, if_false, Bool.false_eq_true]
            by_cases hb : Scalar.lt c.times.min (percentOf best) = true
            · simp only [hb, if_true]; rfl
            · simp only [hb, if_false, Bool.false_eq_true]

theorem secondColliderLoop_recast (e1 e2 : InternalEntity XReal) (i1 i2 : StepInfo XReal) (n1 n2 : Nat) (k1 : Handle) : ∀ (l : List Handle) (best : Option (Candidate XReal)),
    secondColliderLoop (cs.map (Collider.recast g)) (e1.recast g) (e2.recast g) (i1.recast g) (i2.recast g) n1 n2 k1 l (best.map (Candidate.recast g)) =
      (secondColliderLoop cs e1 e2 i1 i2 n1 n2 k1 l best).map (Option.map (Candidate.recast g))
  | [], _ => rfl
  | k2 :: l, best => by
    unfold secondColliderLoop
    rw [considerPair_recast hcs]
    cases considerPair cs e1 e2 i1 i2 n1 n2 k1 k2 best with
    | error x => rfl
    | ok b => exact secondColliderLoop_recast e1 e2 i1 i2 n1 n2 k1 l b

theorem firstColliderLoop_recast (e1 e2 : InternalEntity XReal) (i1 i2 : StepInfo XReal) (n1 n2 : Nat) (l2 : List Handle) : ∀ (l : List Handle) (best : Option (Candidate XReal)),
    firstColliderLoop (cs.map (Collider.recast g)) (e1.recast g) (e2.recast g) (i1.recast g) (i2.recast g) n1 n2 l2 l (best.map (Candidate.recast g)) =
      (firstColliderLoop cs e1 e2 i1 i2 n1 n2 l2 l best).map (Option.map (Candidate.recast g))
  | [], _ => rfl
  | k1 :: l, best => by
    unfold firstColliderLoop
    rw [secondColliderLoop_recast hcs]
    cases secondColliderLoop cs e1 e2 i1 i2 n1 n2 k1 l2 best with
    | error x => rfl
    | ok b => exact firstColliderLoop_recast e1 e2 i1 i2 n1 n2 l2 l b
end

theorem get2_recast (a : Arena (InternalEntity XReal)) (h1 h2 : Handle) : get2 (castAll g a) h1 h2 = (get2 a h1 h2).map (Prod.map (InternalEntity.recast g) (InternalEntity.recast g)) := by
  unfold get2
  split
  · rfl
  · rw [get_map, get_map]
    cases a.get h1 with
    | none => rfl
    | some x => cases a.get h2 <;> rfl

variable (ord : IterOrder)
section
variable {g} {w : World XReal} (hw : Suits g w.colliders)
include hw

theorem searchPair_recast (i1 i2 : StepInfo XReal) (n1 n2 : Nat) (best : Option (Candidate XReal)) :
    searchPair ord (w.recast g) (i1.recast g) (i2.recast g) n1 n2 (best.map (Candidate.recast g)) = (searchPair ord w i1 i2 n1 n2 best).map (Option.map (Candidate.recast g)) := by
  unfold searchPair
  rw [show (w.recast g).entities = castAll g w.entities from rfl, show (i1.recast g).handle = i1.handle from rfl, show (i2.recast g).handle = i2.handle from rfl, get2_recast]
  cases get2 w.entities i1.handle i2.handle with
  | error x => rfl
  | ok r =>
    obtain ⟨e1, e2⟩ := r
    show (if i2.handle ∈ e1.neighbors then _ else if i1.handle ∈ e2.neighbors then _ else firstColliderLoop (w.colliders.map (Collider.recast g)) (e1.recast g) (e2.recast g) (i1.recast g) (i2.recast g) n1 n2
      (ord.colliders i2.handle e2.colliders) (ord.colliders i1.handle e1.colliders) _) = Except.map _ (if i2.handle ∈ e1.neighbors then _ else if i1.handle ∈ e2.neighbors then _ else _)
    split
    · rfl
    · split
      · rfl
      · exact firstColliderLoop_recast hw _ _ _ _ _ _ _ _ _

theorem searchSecond_recast (i1 : StepInfo XReal) (n1 : Nat) : ∀ (l : List (StepInfo XReal)) (n2 : Nat) (best : Option (Candidate XReal)),
    searchSecond ord (w.recast g) (i1.recast g) n1 n2 (l.map (StepInfo.recast g)) (best.map (Candidate.recast g)) = (searchSecond ord w i1 n1 n2 l best).map (Option.map (Candidate.recast g))
  | [], _, _ => rfl
  | i2 :: l, n2, best => by
    simp only [List.map_cons]
    unfold searchSecond
    rw [searchPair_recast ord hw]
    cases searchPair ord w i1 i2 n1 n2 best with
    | error x => rfl
    | ok b => exact searchSecond_recast i1 n1 l _ b

theorem searchFirst_recast : ∀ (l : List (StepInfo XReal)) (n1 : Nat) (best : Option (Candidate XReal)),
    searchFirst ord (w.recast g) n1 (l.map (StepInfo.recast g)) (best.map (Candidate.recast g)) = (searchFirst ord w n1 l best).map (Option.map (Candidate.recast g))
  | [], _, _ => rfl
  | i1 :: l, n1, best => by
    simp only [List.map_cons]
    unfold searchFirst
    rw [searchSecond_recast ord hw]
    cases searchSecond ord w i1 n1 (n1 + 1) l best with
    | error x => rfl
    | ok b => exact searchFirst_recast l _ b
end

/-! ### Waking -/

/-- The state of the waking loop in another guise. -/
noncomputable def _root_.Fluffy.InternalEntity.WakeState.recast (g : Guise) (st : WakeState XReal) : WakeState XReal := { st with entities := castAll g st.entities }

theorem wakeNeighbors_recast (target : Handle) : ∀ (l : List Handle) (st : WakeState XReal),
    wakeNeighbors target l (st.recast g) = (wakeNeighbors target l st).map (WakeState.recast g)
  | [], _ => rfl
  | n :: l, st => by
    unfold wakeNeighbors
    show (if n ∈ st.completed then _ else _) = _
    split
    · exact wakeNeighbors_recast target l st
    · rw [show (st.recast g).entities = castAll g st.entities from rfl, get_map]
      cases st.entities.get n with
      | none => rfl
      | some e =>
        simp only [Option.map_some, unwrap_some, Res.ok_bind]
        rw [show (e.recast g).totalMass = e.totalMass * fin g.unit from rfl, isInfinite_times g.pos]
        split
        · rw [← wakeNeighbors_recast target l]
          congr 1
          show WakeState.mk _ _ _ _ = WakeState.mk _ _ _ _
          rw [WakeState.mk.injEq]
          exact ⟨set_map _ _ n { e with neighbors := hsRemove e.neighbors target }, rfl, rfl, rfl⟩
        · exact wakeNeighbors_recast target l { st with queue := st.queue ++ [n] }

theorem wakeLoop_recast : ∀ (fuel : Nat) (st : WakeState XReal), wakeLoop ord fuel (st.recast g) = (wakeLoop ord fuel st).map (WakeState.recast g)
  | fuel, st => by
    unfold wakeLoop
    show (match st.queue with | [] => _ | target :: rest => _) = _
    cases st.queue with
    | nil => rfl
    | cons t rest =>
      cases fuel with
      | zero => rfl
      | succ fuel =>
        simp only
        rw [show (st.recast g).entities = castAll g st.entities from rfl, get_map]
        cases st.entities.get t with
        | none => rfl
        | some e =>
          simp only [Option.map_some, unwrap_some, Res.ok_bind]
          have h1 := wakeNeighbors_recast g t (ord.neighbors t e.neighbors) { st with queue := rest, completed := hsInsert st.completed t }
          refine Eq.trans (congrArg (fun R => R >>= _) h1) ?_
          cases wakeNeighbors t (ord.neighbors t e.neighbors) { st with queue := rest, completed := hsInsert st.completed t } with
          | error x => rfl
          | ok s1 =>
            simp only [Except.map, Res.ok_bind]
            rw [show (s1.recast g).entities = castAll g s1.entities from rfl, get_map]
            cases s1.entities.get t with
            | none => rfl
            | some e1 =>
              simp only [Option.map_some, unwrap_some, Res.ok_bind]
              have h2 := wakeLoop_recast fuel { s1 with
                entities := s1.entities.set t { e1 with asleep := false, neighbors := [] }
                debug := if e1.asleep then s1.debug ++ [.wakingUp t] else s1.debug }
              refine Eq.trans ?_ h2
              congr 1
              show WakeState.mk _ _ _ _ = WakeState.mk _ _ _ _
              rw [WakeState.mk.injEq]
              exact ⟨set_map _ _ t { e1 with asleep := false, neighbors := [] }, rfl, rfl, rfl⟩

theorem linkCount_recast (a : Arena (InternalEntity XReal)) : linkCount (castAll g a) = linkCount a := by
  unfold linkCount
  show ((a.items.map _).map _).sum = _
  rw [List.map_map]
  congr 1
  apply List.map_congr_left
  intro o _
  cases o <;> rfl

theorem wakeUp_recast (h : Handle) (a : Arena (InternalEntity XReal)) (m : List DebugMsg) :
    wakeUp ord h (castAll g a) m = (wakeUp ord h a m).map (Prod.map (castAll g) id) := by
  unfold wakeUp
  rw [linkCount_recast]
  have := wakeLoop_recast g ord (1 + linkCount a) ⟨a, [], [h], m⟩
  rw [show wakeLoop ord (1 + linkCount a) ⟨castAll g a, [], [h], m⟩ = _ from this]
  cases wakeLoop ord (1 + linkCount a) ⟨a, [], [h], m⟩ <;> rfl

theorem wakeIfFinite_recast (h : Handle) (w : World XReal) : wakeIfFinite ord h (w.recast g) = (wakeIfFinite ord h w).map (World.recast g) := by
  unfold wakeIfFinite
  rw [show (w.recast g).entities = castAll g w.entities from rfl, get_map]
  cases w.entities.get h with
  | none => rfl
  | some e =>
    simp only [Option.map_some, unwrap_some, Res.ok_bind]
    rw [show (e.recast g).totalMass = e.totalMass * fin g.unit from rfl, isFinite_times g.pos]
    split
    · rw [wakeUp_recast, show (w.recast g).debug = w.debug from rfl]
      cases wakeUp ord h w.entities w.debug <;> rfl
    · rfl

theorem wakeColliding_recast (best : Option (Candidate XReal)) (w : World XReal) :
    wakeColliding ord (best.map (Candidate.recast g)) (w.recast g) = (wakeColliding ord best w).map (World.recast g) := by
  cases best with
  | none => rfl
  | some c =>
    show (wakeIfFinite ord c.firstHandle (w.recast g) >>= _) = Except.map _ (wakeIfFinite ord c.firstHandle w >>= _)
    rw [wakeIfFinite_recast]
    cases wakeIfFinite ord c.firstHandle w with
    | error x => rfl
    | ok v => exact wakeIfFinite_recast g ord _ v

/-! ### Advancing -/

theorem advanceLoop_recast (p : XReal) : ∀ (l : List (StepInfo XReal)) (a : Arena (InternalEntity XReal)),
    advanceLoop p (l.map (StepInfo.recast g)) (castAll g a) = (advanceLoop p l a).map (Prod.map (castAll g) (List.map (StepInfo.recast g)))
  | [], _ => rfl
  | i :: l, a => by
    simp only [List.map_cons]
    unfold advanceLoop
    rw [show (i.recast g).handle = i.handle from rfl, get_map]
    cases a.get i.handle with
    | none => rfl
    | some e =>
      simp only [Option.map_some, unwrap_some, Res.ok_bind]
      have key : (if (!(e.recast g).asleep) = true then (castAll g a).set i.handle { e.recast g with
            orientation := (e.recast g).orientation.afterAffected ((i.recast g).linearMovement.scale p) ((i.recast g).angularMovement.scale p) } else castAll g a) =
          castAll g (if (!e.asleep) = true then a.set i.handle { e with
            orientation := e.orientation.afterAffected (i.linearMovement.scale p) (i.angularMovement.scale p) } else a) := by
        rw [show (e.recast g).orientation = e.orientation.turn g.axes from rfl, show (i.recast g).linearMovement = i.linearMovement.turn g.axes from rfl,
          show (i.recast g).angularMovement = i.angularMovement.turn g.axes from rfl]
        turns
        rw [Orientation.turn_afterAffected]
        show (if (!e.asleep) = true then _ else _) = _
        split
        · exact set_map _ _ i.handle { e with orientation := e.orientation.afterAffected (i.linearMovement.scale p) (i.angularMovement.scale p) }
        · rfl
      have hi : (⟨i.handle, (i.recast g).linearMovement.scale (one - p), (i.recast g).angularMovement.scale (one - p), (i.recast g).neighbors⟩ : StepInfo XReal) =
          StepInfo.recast g { i with linearMovement := i.linearMovement.scale (one - p), angularMovement := i.angularMovement.scale (one - p) } := by
        unfold StepInfo.recast
        turns
      rw [key, advanceLoop_recast p l, hi]
      cases advanceLoop p l _ <;> rfl

theorem Fit.advanced {g : Guise} {e : InternalEntity XReal} (he : Fit g e) (a b : Vec3 XReal) : Fit g { e with orientation := e.orientation.afterAffected a b } :=
  ⟨he.turns.imp id (fun h => ⟨ok_afterAffected h.1 a b, h.2⟩), he.pushed⟩

theorem advanceLoop_fit {g : Guise} {p : XReal} : ∀ {l : List (StepInfo XReal)} {a b : Arena (InternalEntity XReal)} {is : List (StepInfo XReal)},
    advanceLoop p l a = .ok (b, is) → AllFit g a → AllFit g b
  | [], a, b, is, h, hp => by unfold advanceLoop at h; cases h; exact hp
  | i :: l, a, b, is, h, hp => by
    unfold advanceLoop at h
    obtain ⟨e, he, h⟩ := Res.bind_eq_ok.mp h
    rw [unwrap_eq_ok] at he
    obtain ⟨⟨b', is'⟩, h1, h⟩ := Res.bind_eq_ok.mp h
    cases h
    refine advanceLoop_fit h1 ?_
    split
    · exact hp.set _ ((hp _ _ he).advanced _ _)
    · exact hp

/-- The state of the iteration loop in another guise. -/
noncomputable def _root_.Fluffy.Step.LoopState.recast (g : Guise) (st : LoopState XReal) : LoopState XReal :=
  { st with world := st.world.recast g, infos := st.infos.map (StepInfo.recast g) }

theorem advance_recast (best : Option (Candidate XReal)) (st : LoopState XReal) :
    advance (best.map (Candidate.recast g)) (st.recast g) = (advance best st).map (LoopState.recast g) := by
  unfold advance
  simp only [percentOf_recast]
  rw [show (st.recast g).world.entities = castAll g st.world.entities from rfl, show (st.recast g).infos = st.infos.map (StepInfo.recast g) from rfl, advanceLoop_recast]
  cases advanceLoop (percentOf best) st.infos st.world.entities <;> rfl

/-! ### Responding -/

section
variable {g} {e1 e2 : InternalEntity XReal} (h1 : Fit g e1) (h2 : Fit g e2)
include h1 h2

theorem impulseDenominator_recast (c : Collision XReal) :
    impulseDenominator (e1.recast g) (e2.recast g) (c.turn g.axes) = impulseDenominator e1 e2 c * fin g.unit⁻¹ := by
  unfold impulseDenominator
  rw [inverseMoment_recast h1, inverseMoment_recast h2]
  show (one : XReal) / (e1.totalMass * fin g.unit) + one / (e2.totalMass * fin g.unit) +
    ((((e1.inverseMomentOfInertia.turn g.axes).scale (fin g.unit⁻¹)).mulVec ((c.position.turn g.axes - e1.orientation.position.turn g.axes).cross (c.normal.turn g.axes))).cross
      (c.position.turn g.axes - e1.orientation.position.turn g.axes)).dot (c.normal.turn g.axes) +
    ((((e2.inverseMomentOfInertia.turn g.axes).scale (fin g.unit⁻¹)).mulVec ((c.position.turn g.axes - e2.orientation.position.turn g.axes).cross (c.normal.turn g.axes))).cross
      (c.position.turn g.axes - e2.orientation.position.turn g.axes)).dot (c.normal.turn g.axes) = _
  have hi : 0 < g.unit⁻¹ := inv_pos.mpr g.pos
  have hx : ∀ a b : Vec3 XReal, (a.scale (fin g.unit⁻¹)).cross b = (a.cross b).scale (fin g.unit⁻¹) := by
    intro a b
    ext <;> exact (by
      show _ * fin _ * _ - _ * fin _ * _ = (_ * _ - _ * _) * fin _
      rw [times_mul hi, times_mul hi, XReal.sub_times hi])
  rw [one_div_times, one_div_times, Mat3.times_mulVec hi, Mat3.times_mulVec hi, hx, hx, Vec3.times_dot hi, Vec3.times_dot hi]
  turns
  rw [Mat3.turn_mulVec, Mat3.turn_mulVec]
  turns
  rw [XReal.add_times hi, XReal.add_times hi, XReal.add_times hi]

theorem over_denominator (a d : XReal) : a / (d * fin g.unit⁻¹) = a / d * fin g.unit := by
  rw [div_times (inv_pos.mpr g.pos), inv_inv]

theorem collisionImpulse_recast (r : XReal) (c : Collision XReal) :
    collisionImpulse (e1.recast g) (e2.recast g) r (c.turn g.axes) = ((collisionImpulse e1 e2 r c).turn g.axes).scale (fin g.unit) := by
  unfold collisionImpulse
  dsimp only
  rw [impulseDenominator_recast h1 h2, over_denominator h1 h2, Vec3.scale_times g.pos, show (c.turn g.axes).position = c.position.turn g.axes from rfl,
    velocityAt_recast, velocityAt_recast, show (c.turn g.axes).normal = c.normal.turn g.axes from rfl]
  turns

/-- The share of the sliding that friction takes does not depend on the unit of mass; the code takes that share of the *velocity* as an impulse, so the impulse does not change with the unit as it should. -/
theorem frictionImpulse_recast (j : Vec3 XReal) (k : Candidate XReal) :
    frictionImpulse (e1.recast g) (e2.recast g) ((j.turn g.axes).scale (fin g.unit)) (k.recast g) = Prod.map (Vec3.turn g.axes) id (frictionImpulse e1 e2 j k) := by
  unfold frictionImpulse
  dsimp only
  rw [show (k.recast g).collision = k.collision.turn g.axes from rfl, impulseDenominator_recast h1 h2, over_denominator h1 h2,
    show (k.collision.turn g.axes).position = k.collision.position.turn g.axes from rfl,
    velocityAt_recast, velocityAt_recast, show (k.collision.turn g.axes).normal = k.collision.normal.turn g.axes from rfl, Vec3.magnitude_times g.pos,
    times_mul g.pos]
  turns
  rw [times_div g.pos, div_times g.pos, XReal.times_inv g.pos]
  rfl
end

theorem frictionImpulse_blank {e1 e2 : InternalEntity XReal} {j : Vec3 XReal} {k : Candidate XReal} (hs : k.staticFriction = fin 0) (hd : k.dynamicFriction = fin 0) :
    Blank (frictionImpulse e1 e2 j k).1 := by
  unfold frictionImpulse
  dsimp only
  rw [hs, hd, ite_self]
  generalize (e1.velocityAt k.collision.position - e2.velocityAt k.collision.position) - _ = v
  have hx : ∀ a b : XReal, a * fin 0 / b = nan ∨ a * fin 0 / b = fin 0 := by
    intro a b
    rcases mul_blank a (.inr rfl : (fin 0 : XReal) = nan ∨ fin 0 = fin 0) with h | h <;> rw [h]
    · left; simp
    · cases b with
      | nan => left; simp
      | posInf => right; rfl
      | negInf => right; rfl
      | fin r =>
        by_cases hr : r = 0
        · left; subst hr; rw [fin_div', if_pos rfl]; simp [infSign]
        · right; rw [fin_div hr]; simp
  generalize hp : j.magnitude * fin 0 / _ = p
  have hp' := hp ▸ hx j.magnitude _
  have : (if (!Scalar.isFinite (if Scalar.lt one p = true then one else p)) = true then (zero : XReal) else if Scalar.lt one p = true then one else p) = fin 0 := by
    rcases hp' with rfl | rfl <;> simp
  rw [this]
  exact ⟨mul_blank _ (.inr (by simp)), mul_blank _ (.inr (by simp)), mul_blank _ (.inr (by simp))⟩

theorem applyCollisionImpulse_recast {g : Guise} {e : InternalEntity XReal} (he : Fit g e) (i : StepInfo XReal) (p j : Vec3 XReal) (t : XReal) :
    applyCollisionImpulse (e.recast g) (i.recast g) (p.turn g.axes) ((j.turn g.axes).scale (fin g.unit)) t =
      Prod.map (InternalEntity.recast g) (StepInfo.recast g) (applyCollisionImpulse e i p j t) := by
  unfold applyCollisionImpulse
  dsimp only
  rw [applyImpulse_recast he]
  refine Prod.ext rfl ?_
  show StepInfo.mk _ (((e.applyImpulse p j).velocity.turn g.axes).scale t) (((e.applyImpulse p j).angularVelocity.turn g.axes).scale t) _ = _
  turns
  rfl

theorem Fit.pushedBy {g : Guise} {e : InternalEntity XReal} (he : Fit g e) (i : StepInfo XReal) (p j : Vec3 XReal) (t : XReal) : Fit g (applyCollisionImpulse e i p j t).1 :=
  ⟨he.turns, he.pushed⟩

/-- The outcome of a response in another guise. -/
noncomputable def _root_.Fluffy.Step.Response.recast (g : Guise) (r : Response XReal) : Response XReal :=
  ⟨r.first.recast g, r.second.recast g, r.firstInfo.recast g, r.secondInfo.recast g, r.record.recast g⟩

/-- No friction if the unit of mass changes. -/
def Smooth (g : Guise) (k : Candidate XReal) : Prop := g.unit = 1 ∨ k.staticFriction = fin 0 ∧ k.dynamicFriction = fin 0

theorem respondPair_recast {g : Guise} {k : Candidate XReal} (hk : Smooth g k) (t t' : XReal) {e1 e2 : InternalEntity XReal} (h1 : Fit g e1) (h2 : Fit g e2) (i1 i2 : StepInfo XReal) :
    respondPair (k.recast g) t t' (e1.recast g) (e2.recast g) (i1.recast g) (i2.recast g) = (respondPair k t t' e1 e2 i1 i2).recast g := by
  have hn : ∀ v : Vec3 XReal, -((v.turn g.axes).scale (fin g.unit)) = ((-v).turn g.axes).scale (fin g.unit) := by
    intro v
    rw [Vec3.turn_neg]
    ext <;> exact (neg_mul' _ _).symm
  have hf : ∀ (x y : InternalEntity XReal) (j : Vec3 XReal), (frictionImpulse x y j k).1.turn g.axes = ((frictionImpulse x y j k).1.turn g.axes).scale (fin g.unit) := by
    intro x y j
    rcases hk with h | ⟨hs, hd⟩
    · rw [scale_unit_one h]
    · rw [((frictionImpulse_blank hs hd).turn g.axes).times]
  unfold respondPair
  dsimp only
  rw [show (k.recast g).collision = k.collision.turn g.axes from rfl, show (k.recast g).restitution = k.restitution from rfl, collisionImpulse_recast h1 h2,
    show (k.collision.turn g.axes).position = k.collision.position.turn g.axes from rfl, hn, applyCollisionImpulse_recast h1, applyCollisionImpulse_recast h2]
  simp only [Prod.map]
  generalize collisionImpulse e1 e2 k.restitution k.collision = j
  have f1 := h1.pushedBy i1 k.collision.position j t'
  have f2 := h2.pushedBy i2 k.collision.position (-j) t'
  rw [frictionImpulse_recast f1 f2]
  simp only [Prod.map, id]
  rw [hf, hn, applyCollisionImpulse_recast f1, applyCollisionImpulse_recast f2]
  simp only [Prod.map]
  have hr : ((j.turn g.axes).scale (fin g.unit)).magnitude = j.magnitude * fin g.unit := by rw [Vec3.magnitude_times g.pos, Vec3.turn_magnitude]
  rw [hr]
  unfold Response.recast
  rw [Response.mk.injEq]
  refine ⟨rfl, rfl, ?_, ?_, rfl⟩
  · show (if _ = true then _ else _) = StepInfo.recast g (if _ = true then _ else _)
    split <;> rfl
  · show (if _ = true then _ else _) = StepInfo.recast g (if _ = true then _ else _)
    split <;> rfl

theorem respond_recast {g : Guise} (dt : XReal) {k : Candidate XReal} (hk : Smooth g k) {st : LoopState XReal} (hs : AllFit g st.world.entities) :
    respond dt (k.recast g) (st.recast g) = (respond dt k st).map (LoopState.recast g) := by
  unfold respond
  rw [show (st.recast g).world.entities = castAll g st.world.entities from rfl, show (k.recast g).firstHandle = k.firstHandle from rfl,
    show (k.recast g).secondHandle = k.secondHandle from rfl, get2_recast]
  cases hg2 : get2 st.world.entities k.firstHandle k.secondHandle with
  | error x => rfl
  | ok r =>
    obtain ⟨e1, e2⟩ := r
    obtain ⟨-, gx, gy⟩ := get2_eq_ok.mp hg2
    rw [show (st.recast g).infos = st.infos.map (StepInfo.recast g) from rfl, show (k.recast g).firstIndex = k.firstIndex from rfl, show (k.recast g).secondIndex = k.secondIndex from rfl]
    simp only [Except.map, Prod.map, Res.ok_bind, index_map]
    cases index st.infos k.firstIndex with
    | error x => rfl
    | ok i1 =>
      cases index st.infos k.secondIndex with
      | error x => rfl
      | ok i2 =>
        simp only [Except.map, Res.ok_bind]
        rw [show (st.recast g).currentPercent = st.currentPercent from rfl, show (st.recast g).timeLeft = st.timeLeft from rfl, respondPair_recast hk _ _ (hs _ _ gx) (hs _ _ gy)]
        generalize respondPair k (st.currentPercent * dt) st.timeLeft e1 e2 i1 i2 = r
        show Except.ok (LoopState.mk (World.mk (((castAll g st.world.entities).set k.firstHandle (r.first.recast g)).set k.secondHandle (r.second.recast g)) _ _
          (st.world.collisionRecords.map (CollisionRecord.recast g) ++ [r.record.recast g]) _ _ _)
          (((st.infos.map (StepInfo.recast g)).set k.firstIndex (r.firstInfo.recast g)).set k.secondIndex (r.secondInfo.recast g)) _ _) = _
        rw [set_map, set_map, ← List.map_set, ← List.map_set]
        show _ = Except.ok (LoopState.mk (World.mk _ _ _ ((st.world.collisionRecords ++ [r.record]).map (CollisionRecord.recast g)) _ _ _) _ _ _)
        rw [List.map_append]
        rfl

theorem respond_fit {g : Guise} {dt : XReal} {k : Candidate XReal} {st st' : LoopState XReal} (h : respond dt k st = .ok st') (hp : AllFit g st.world.entities) :
    AllFit g st'.world.entities ∧ st'.world.colliders = st.world.colliders := by
  obtain ⟨e1, e2, i1, i2, -, h1, h2, -, -, h⟩ := respond_spec h
  subst h
  refine ⟨?_, rfl⟩
  refine AllFit.set (AllFit.set hp _ ?_) _ ?_
  · exact ⟨(hp _ _ h1).turns, (hp _ _ h1).pushed⟩
  · exact ⟨(hp _ _ h2).turns, (hp _ _ h2).pushed⟩

/-! ### The loop -/

theorem contact_smooth {g : Guise} {ord : IterOrder} {w : World XReal} (hw : Suits g w.colliders) {infos : List (StepInfo XReal)} {k : Candidate XReal}
    (h : searchFirst ord w 0 infos none = .ok (some k)) : Smooth g k := by
  obtain ⟨n, m, i1, i2, -, -, -, first, second, -, -, -, -, -, ch1, -, ch2, -, c1, c2, c, g1, g2, -, -, rfl⟩ := searchFirst_contact h
  rcases (hw _ _ g1).2 with h1 | h1
  · exact .inl h1
  · rcases (hw _ _ g2).2 with h2 | h2
    · exact .inl h2
    · right; simp [h1.1, h1.2, h2.1, h2.2]

theorem Fit.wake {g : Guise} (x y : InternalEntity XReal) (h : WakeRel x y) (hx : Fit g x) : Fit g y := by
  rw [h]; exact ⟨hx.turns, hx.pushed⟩

theorem iterate_recast {g : Guise} (dt : XReal) : ∀ (n : Nat) (st : LoopState XReal), Suits g st.world.colliders → AllFit g st.world.entities →
    iterate ord dt n (st.recast g) = (iterate ord dt n st).map (Prod.map (LoopState.recast g) id)
  | 0, _, _, _ => rfl
  | n + 1, st, hw, hp => by
    unfold iterate
    have hs := searchFirst_recast ord hw st.infos 0 none
    rw [show searchFirst ord (st.recast g).world 0 (st.recast g).infos none = _ from hs]
    cases hk : searchFirst ord st.world 0 st.infos none with
    | error x => rfl
    | ok best =>
      simp only [Except.map, Res.ok_bind]
      rw [show (st.recast g).world = st.world.recast g from rfl, wakeColliding_recast]
      cases h1 : wakeColliding ord best st.world with
      | error x => rfl
      | ok w1 =>
        obtain ⟨ew, hev⟩ := wakeColliding_evolves h1
        have hp1 : AllFit g w1.entities := hp.evolves Fit.wake hev
        have hw1 : w1.colliders = st.world.colliders := by rw [ew]
        simp only [Except.map, Res.ok_bind]
        have ha := advance_recast g best { st with world := w1 }
        rw [show advance (best.map (Candidate.recast g)) { st.recast g with world := w1.recast g } = _ from ha]
        cases h2 : advance best { st with world := w1 } with
        | error x => rfl
        | ok s1 =>
          have h3 : AllFit g s1.world.entities ∧ s1.world.colliders = st.world.colliders := by
            unfold advance at h2
            obtain ⟨⟨b, is⟩, h3, h2⟩ := Res.bind_eq_ok.mp h2
            cases h2
            exact ⟨advanceLoop_fit h3 hp1, hw1⟩
          simp only [Except.map, Res.ok_bind]
          cases best with
          | none => rfl
          | some k =>
            simp only [Option.map_some]
            rw [respond_recast dt (contact_smooth hw hk) h3.1]
            cases h4 : respond dt k s1 with
            | error x => rfl
            | ok s2 =>
              obtain ⟨h5, h6⟩ := respond_fit h4 h3.1
              exact iterate_recast dt n s2 (by rw [h6, h3.2]; exact hw) h5

theorem iterate_fit {g : Guise} {dt : XReal} : ∀ {n : Nat} {st st' : LoopState XReal} {b : Bool}, iterate ord dt n st = .ok (st', b) → AllFit g st.world.entities →
    AllFit g st'.world.entities ∧ st'.world.colliders = st.world.colliders
  | 0, st, st', b, h, hp => by unfold iterate at h; cases h; exact ⟨hp, rfl⟩
  | n + 1, st, st', b, h, hp => by
    unfold iterate at h
    obtain ⟨best, -, h⟩ := Res.bind_eq_ok.mp h
    obtain ⟨w1, h1, h⟩ := Res.bind_eq_ok.mp h
    obtain ⟨s1, h2, h⟩ := Res.bind_eq_ok.mp h
    obtain ⟨ew, hev⟩ := wakeColliding_evolves h1
    have hp1 : AllFit g w1.entities := hp.evolves Fit.wake hev
    have hw1 : w1.colliders = st.world.colliders := by rw [ew]
    have h3 : AllFit g s1.world.entities ∧ s1.world.colliders = st.world.colliders := by
      unfold advance at h2
      obtain ⟨⟨b, is⟩, h3, h2⟩ := Res.bind_eq_ok.mp h2
      cases h2
      exact ⟨advanceLoop_fit h3 hp1, hw1⟩
    cases best with
    | none => cases h; exact h3
    | some k =>
      obtain ⟨s2, h4, h⟩ := Res.bind_eq_ok.mp h
      obtain ⟨h5, h6⟩ := respond_fit h4 h3.1
      obtain ⟨h7, h8⟩ := iterate_fit h h5
      exact ⟨h7, by rw [h8, h6, h3.2]⟩

/-! ### Falling asleep -/

theorem linkNeighbors_recast (h : Handle) : ∀ (l : List Handle) (a : Arena (InternalEntity XReal)),
    linkNeighbors h l (castAll g a) = (linkNeighbors h l a).map (castAll g)
  | [], _ => rfl
  | n :: l, a => by
    unfold linkNeighbors
    rw [get_map]
    cases a.get n with
    | none => rfl
    | some e =>
      simp only [Option.map_some, unwrap_some, Res.ok_bind]
      rw [← linkNeighbors_recast h l]
      congr 1
      exact set_map _ _ n { e with neighbors := hsInsert e.neighbors h }

theorem worldSet_recast (w : World XReal) (h : Handle) (e : InternalEntity XReal) :
    ({ w.recast g with entities := (castAll g w.entities).set h (e.recast g) } : World XReal) = World.recast g { w with entities := w.entities.set h e } := by
  rw [set_map]; rfl

theorem sleepOne_recast (dt : XReal) (i : StepInfo XReal) (w : World XReal) : sleepOne ord dt (i.recast g) (w.recast g) = (sleepOne ord dt i w).map (World.recast g) := by
  unfold sleepOne
  rw [show (w.recast g).entities = castAll g w.entities from rfl, show (i.recast g).handle = i.handle from rfl, get_map]
  cases w.entities.get i.handle with
  | none => rfl
  | some e =>
    simp only [Option.map_some, unwrap_some, Res.ok_bind]
    rw [totalEnergy_recast, show (w.recast g).energySleepThreshold = w.energySleepThreshold * fin g.unit from rfl, lt_times g.pos]
    show (if e.asleep = true then _ else if Scalar.lt w.energySleepThreshold e.totalEnergy = true then _ else
      if Scalar.lt (if e.fallingAsleep = true then e.fallingAsleepTime + dt else e.fallingAsleepTime) w.sleepTimeThreshold = true then _ else _) = _
    by_cases h1 : e.asleep = true
    · rw [if_pos h1, if_pos h1]
      have := worldSet_recast g w i.handle { e with velocity := Vec3.zeros, angularVelocity := Vec3.zeros}
      refine Eq.trans ?_ (congrArg Except.ok this)
      show _ = Except.ok (World.mk ((castAll g w.entities).set i.handle { e.recast g with velocity := Vec3.zeros.turn g.axes, angularVelocity := Vec3.zeros.turn g.axes }) _ _ _ _ _ _)
      rw [Vec3.turn_zeros]
      rfl
    · rw [if_neg h1, if_neg h1]
      by_cases h2 : Scalar.lt w.energySleepThreshold e.totalEnergy = true
      · rw [if_pos h2, if_pos h2]
        exact congrArg Except.ok (worldSet_recast g w i.handle { e with fallingAsleep := false, fallingAsleepTime := zero })
      · rw [if_neg h2, if_neg h2]
        generalize ht : (if e.fallingAsleep = true then e.fallingAsleepTime + dt else e.fallingAsleepTime) = t
        have ht' : (if (e.recast g).fallingAsleep = true then (e.recast g).fallingAsleepTime + dt else (e.recast g).fallingAsleepTime) = t := ht
        simp only [ht']
        by_cases h3 : Scalar.lt t w.sleepTimeThreshold = true
        · rw [if_pos h3, if_pos h3]
          exact congrArg Except.ok (worldSet_recast g w i.handle { e with fallingAsleep := true, fallingAsleepTime := t })
        · rw [if_neg h3, if_neg h3]
          have hl := linkNeighbors_recast g i.handle (ord.stepNeighbors i.handle i.neighbors)
            (w.entities.set i.handle { e with asleep := true, fallingAsleep := true, fallingAsleepTime := t, neighbors := i.neighbors })
          unfold castAll at hl; rw [← set_map] at hl
          refine Eq.trans (congrArg (fun R => R >>= _) hl) ?_
          cases linkNeighbors i.handle (ord.stepNeighbors i.handle i.neighbors)
            (w.entities.set i.handle { e with asleep := true, fallingAsleep := true, fallingAsleepTime := t, neighbors := i.neighbors }) <;> rfl

theorem sleepLoop_recast (dt : XReal) : ∀ (l : List (StepInfo XReal)) (w : World XReal), sleepLoop ord dt (l.map (StepInfo.recast g)) (w.recast g) = (sleepLoop ord dt l w).map (World.recast g)
  | [], _ => rfl
  | i :: l, w => by
    simp only [List.map_cons]
    unfold sleepLoop
    rw [sleepOne_recast]
    cases sleepOne ord dt i w with
    | error x => rfl
    | ok v => exact sleepLoop_recast dt l v

theorem sleepOne_fit {g : Guise} {dt : XReal} {i : StepInfo XReal} {w w' : World XReal} (h : sleepOne ord dt i w = .ok w') (hp : AllFit g w.entities) :
    AllFit g w'.entities ∧ w'.colliders = w.colliders := by
  unfold sleepOne at h
  obtain ⟨e, he, h⟩ := Res.bind_eq_ok.mp h
  rw [unwrap_eq_ok] at he
  have ho := hp _ _ he
  dsimp only at h
  generalize (if e.fallingAsleep = true then e.fallingAsleepTime + dt else e.fallingAsleepTime) = t at h
  split at h
  · cases h; exact ⟨hp.set _ ⟨ho.turns, ho.pushed⟩, rfl⟩
  · split at h
    · cases h; exact ⟨hp.set _ ⟨ho.turns, ho.pushed⟩, rfl⟩
    · split at h
      · cases h; exact ⟨hp.set _ ⟨ho.turns, ho.pushed⟩, rfl⟩
      · obtain ⟨b, hb, h⟩ := Res.bind_eq_ok.mp h
        cases h
        refine ⟨AllFit.evolves (R := NeighborRel) (fun x y hr hx => by rw [hr]; exact ⟨hx.turns, hx.pushed⟩) ?_ (linkNeighbors_spec hb).1, rfl⟩
        exact hp.set _ ⟨ho.turns, ho.pushed⟩

theorem sleepLoop_fit {g : Guise} {dt : XReal} : ∀ {l : List (StepInfo XReal)} {w w' : World XReal}, sleepLoop ord dt l w = .ok w' → AllFit g w.entities →
    AllFit g w'.entities ∧ w'.colliders = w.colliders
  | [], w, w', h, hp => by unfold sleepLoop at h; cases h; exact ⟨hp, rfl⟩
  | i :: l, w, w', h, hp => by
    unfold sleepLoop at h
    obtain ⟨v, h1, h⟩ := Res.bind_eq_ok.mp h
    obtain ⟨h2, h3⟩ := sleepOne_fit ord h1 hp
    obtain ⟨h4, h5⟩ := sleepLoop_fit h h2
    exact ⟨h4, by rw [h5, h3]⟩

/-! ### A step -/

section
variable {γ : Type} [ForceGenerator XReal γ] {act : γ → γ}

/-- A step of a scene in another guise is the step in that guise: the same panics, the same contacts, the same sleepers. -/
theorem step_recast {g : Guise} (hg : Fair γ g act) (ord : IterOrder) {s : System XReal γ} (he : AllFit g s.entities) (hc : Suits g s.colliders) (dt : XReal) :
    (s.recast g act).step ord dt = (s.step ord dt).map (System.recast g act) := by
  unfold System.step
  by_cases hd : Scalar.lt (Scalar.abs dt) EPSILON = true
  · rw [if_pos hd, if_pos hd]; rfl
  · rw [if_neg hd, if_neg hd]
    have h1 := integrateAll_recast hg dt s.generators.handles s.entities.handles { s with collisionRecords := [], debug := [] } he
    dsimp only
    rw [show (s.recast g act).entities = castAll g s.entities from rfl, show (s.recast g act).generators = s.generators.map act from rfl, handles_map, handles_map]
    refine Eq.trans (congrArg (fun R => R >>= _) h1) ?_
    cases hi : integrateAll dt s.generators.handles s.entities.handles { s with collisionRecords := [], debug := [] } with
    | error x => rfl
    | ok r =>
      obtain ⟨s1, infos⟩ := r
      obtain ⟨hp1, hc1⟩ := integrateAll_fit hi he
      simp only [Except.map, Prod.map, id, Res.ok_bind]
      have h2 := iterate_recast (g := g) ord dt s1.iterationMax ⟨s1.toWorld, infos, dt, zero⟩ (by rw [hc1]; exact hc) hp1
      refine Eq.trans (congrArg (fun R => R >>= _) h2) ?_
      cases iterate ord dt s1.iterationMax ⟨s1.toWorld, infos, dt, zero⟩ with
      | error x => rfl
      | ok q =>
        obtain ⟨st, b⟩ := q
        simp only [Except.map, Prod.map, id, Res.ok_bind]
        cases b with
        | true =>
          simp only [if_true]
          rw [show (st.recast g).world = st.world.recast g from rfl, show (st.recast g).infos = st.infos.map (StepInfo.recast g) from rfl, sleepLoop_recast]
          cases sleepLoop ord dt st.infos st.world <;> rfl
        | false =>
          simp only [Bool.false_eq_true, if_false]
          have h3 := sleepLoop_recast g ord dt st.infos { st.world with debug := st.world.debug ++ [.ranOut] }
          refine Eq.trans (congrArg (fun R => R >>= _) h3) ?_
          cases sleepLoop ord dt st.infos { st.world with debug := st.world.debug ++ [.ranOut] } <;> rfl

/-- A step leaves every entity fit and every collider alone. -/
theorem step_fit {g : Guise} {ord : IterOrder} {s s' : System XReal γ} {dt : XReal} (h : s.step ord dt = .ok s') (he : AllFit g s.entities) :
    AllFit g s'.entities ∧ s'.colliders = s.colliders := by
  unfold System.step at h
  split at h
  · cases h; exact ⟨he, rfl⟩
  · obtain ⟨⟨s1, infos⟩, h1, h⟩ := Res.bind_eq_ok.mp h
    obtain ⟨⟨st, b⟩, h2, h⟩ := Res.bind_eq_ok.mp h
    obtain ⟨w, h3, h⟩ := Res.bind_eq_ok.mp h
    cases h
    obtain ⟨a1, b1⟩ := integrateAll_fit h1 he
    obtain ⟨a2, b2⟩ := iterate_fit ord h2 a1
    have := sleepLoop_fit (g := g) ord h3 (by cases b <;> exact a2)
    refine ⟨this.1, this.2.trans ?_⟩
    cases b
    · exact b2.trans b1
    · exact b2.trans b1
end
end Fluffy.Props
