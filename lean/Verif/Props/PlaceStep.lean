import Verif.Props.Place
/-
C71, continued: a step in a moved scene is the moved step.
-/
set_option linter.unusedSectionVars false
set_option linter.unusedSimpArgs false
namespace Fluffy.Props
open Fluffy XReal Step InternalEntity
variable (d : Vec3 ℝ)

/-- Every entity of an arena moved along. -/
noncomputable abbrev moveAll (a : Arena (InternalEntity XReal)) : Arena (InternalEntity XReal) := a.map (InternalEntity.shift d)

theorem getEntity_shift (w : World XReal) (h : Handle) : (w.shift d).getEntity h = (w.getEntity h).map (Entity.shift d) := by
  unfold World.getEntity
  rw [show (w.shift d).entities = moveAll d w.entities from rfl, get_map]
  cases w.entities.get h <;> rfl

/-! ### Integration -/

section
variable {γ : Type} [ForceGenerator XReal γ]

theorem generatorLoop_shift (hg : Homeless γ) (dt : XReal) (w : World XReal) (h : Handle) (copy : Entity XReal) : ∀ (l : List Handle) (gens : Arena γ) (a t : Vec3 XReal),
    generatorLoop dt (w.shift d) h (copy.shift d) l gens a t = generatorLoop dt w h copy l gens a t
  | [], _, _, _ => rfl
  | gh :: l, gens, a, t => by
    unfold generatorLoop
    cases gens.get gh with
    | none => rfl
    | some g =>
      simp only [unwrap_some, Res.ok_bind]
      rw [hg d g dt w h]
      cases ForceGenerator.makeForce g dt w h with
      | error x => rfl
      | ok r =>
        obtain ⟨f, g'⟩ := r
        show generatorLoop dt (w.shift d) h (copy.shift d) l _ _ (t + copy.lastMomentOfInertia.mulVec (((f.position + d.f) - (copy.position + d.f)).cross f.force)) = _
        rw [Vec3.shift_sub_shift, generatorLoop_shift hg dt w h copy l]
        rfl

theorem integrateOne_shift (hg : Homeless γ) (dt : XReal) (gens : List Handle) (s : System XReal γ) (h : Handle) :
    integrateOne dt gens (s.shift d) h = (integrateOne dt gens s h).map (Prod.map (System.shift d) id) := by
  unfold integrateOne
  rw [show (s.shift d).getEntity h = (s.toWorld.shift d).getEntity h from rfl, getEntity_shift]
  cases hc : s.toWorld.getEntity h with
  | none => rfl
  | some copy =>
    simp only [Option.map_some, unwrap_some, Res.ok_bind]
    rw [show (s.shift d).toWorld = s.toWorld.shift d from rfl, generatorLoop_shift d hg]
    have key : ∀ R : Res (Arena γ × Vec3 XReal × Vec3 XReal),
        (R >>= fun x => do
          let e ← unwrap ((s.toWorld.shift d).entities.get h)
          (Except.ok (({ s.shift d with generators := x.1, entities := (s.toWorld.shift d).entities.set h (integrateVelocity dt x.2.1 x.2.2 e) } : System XReal γ),
            (⟨h, (integrateVelocity dt x.2.1 x.2.2 e).velocity.scale dt, (integrateVelocity dt x.2.1 x.2.2 e).angularVelocity.scale dt, []⟩ : StepInfo XReal)) : Res _)) =
        (R >>= fun x => do
          let e ← unwrap (s.entities.get h)
          (Except.ok (({ s with generators := x.1, entities := s.entities.set h (integrateVelocity dt x.2.1 x.2.2 e) } : System XReal γ),
            (⟨h, (integrateVelocity dt x.2.1 x.2.2 e).velocity.scale dt, (integrateVelocity dt x.2.1 x.2.2 e).angularVelocity.scale dt, []⟩ : StepInfo XReal)) : Res _)).map
          (Prod.map (System.shift d) id) := by
      intro R
      cases R with
      | error x => rfl
      | ok x =>
        simp only [Res.ok_bind]
        rw [show (s.toWorld.shift d).entities = moveAll d s.entities from rfl, get_map]
        cases s.entities.get h with
        | none => rfl
        | some e =>
          simp only [Option.map_some, unwrap_some, Res.ok_bind]
          rw [show integrateVelocity dt x.2.1 x.2.2 (e.shift d) = (integrateVelocity dt x.2.1 x.2.2 e).shift d from rfl, set_map]
          rfl
    rw [show (Entity.shift d copy).lastTotalMass = copy.lastTotalMass from rfl]
    by_cases hC : (Scalar.isFinite copy.lastTotalMass && Scalar.lt EPSILON copy.lastTotalMass) = true
    · rw [if_pos hC, if_pos hC]
      exact key (generatorLoop dt s.toWorld h copy gens s.generators Vec3.zeros Vec3.zeros)
    · rw [if_neg hC, if_neg hC]
      exact key (.ok (s.generators, Vec3.zeros, Vec3.zeros))

theorem integrateAll_shift (hg : Homeless γ) (dt : XReal) (gens : List Handle) : ∀ (l : List Handle) (s : System XReal γ),
    integrateAll dt gens l (s.shift d) = (integrateAll dt gens l s).map (Prod.map (System.shift d) id)
  | [], _ => rfl
  | h :: l, s => by
    unfold integrateAll
    rw [integrateOne_shift d hg]
    cases integrateOne dt gens s h with
    | error x => rfl
    | ok r =>
      obtain ⟨s1, i⟩ := r
      show (integrateAll dt gens l (s1.shift d) >>= _) = Except.map _ (integrateAll dt gens l s1 >>= _)
      rw [integrateAll_shift hg dt gens l s1]
      cases integrateAll dt gens l s1 <;> rfl

theorem integrateAll_posed {dt : XReal} {gens : List Handle} : ∀ {l : List Handle} {s s' : System XReal γ} {is : List (StepInfo XReal)},
    integrateAll dt gens l s = .ok (s', is) → Posed s.entities → Posed s'.entities ∧ s'.colliders = s.colliders
  | [], s, s', is, h, hp => by unfold integrateAll at h; cases h; exact ⟨hp, rfl⟩
  | k :: l, s, s', is, h, hp => by
    unfold integrateAll at h
    obtain ⟨⟨s1, i⟩, h1, h⟩ := Res.bind_eq_ok.mp h
    obtain ⟨⟨s2, is'⟩, h2, h⟩ := Res.bind_eq_ok.mp h
    cases h
    obtain ⟨e, g, a, t, he, -, hs, -⟩ := integrateOne_spec h1
    have := integrateAll_posed h2 (by subst hs; exact hp.set k (hp k e he))
    refine ⟨this.1, ?_⟩
    rw [this.2, hs]
end

/-! ### Search -/

/-- The earliest contact so far, moved along. -/
noncomputable def _root_.Fluffy.Step.Candidate.shift (d : Vec3 ℝ) (c : Candidate XReal) : Candidate XReal := { c with collision := c.collision.shift d }

theorem percentOf_shift (b : Option (Candidate XReal)) : percentOf (b.map (Candidate.shift d)) = percentOf b := by cases b <;> rfl

theorem ok_afterAffected {o : Orientation XReal} (h : o.rotation.Ok) (a b : Vec3 XReal) : (o.afterAffected a b).rotation.Ok :=
  (Quat.ok_fromScaledAxis b).mul h

variable {cs : Arena (Collider XReal)} (hcs : Tamed cs)
include hcs

theorem considerPair_shift {e1 e2 : InternalEntity XReal} (h1 : e1.orientation.rotation.Ok) (h2 : e2.orientation.rotation.Ok) (i1 i2 : StepInfo XReal) (n1 n2 : Nat)
    (k1 k2 : Handle) (best : Option (Candidate XReal)) :
    considerPair cs (e1.shift d) (e2.shift d) i1 i2 n1 n2 k1 k2 (best.map (Candidate.shift d)) =
      (considerPair cs e1 e2 i1 i2 n1 n2 k1 k2 best).map (Option.map (Candidate.shift d)) := by
  unfold considerPair
  cases hk1 : cs.get k1 with
  | none => rfl
  | some c1 =>
    cases hk2 : cs.get k2 with
    | none => rfl
    | some c2 =>
      simp only [unwrap_some, Res.ok_bind]
      rw [show (e1.shift d).orientation = e1.orientation.shift d from rfl, show (e2.shift d).orientation = e2.orientation.shift d from rfl,
        Orientation.afterAffected_shift, Orientation.afterAffected_shift,
        collide_shift d h1 (ok_afterAffected h1 _ _) h2 (ok_afterAffected h2 _ _) (hcs k1 c1 hk1) (hcs k2 c2 hk2)]
      cases collide c1 e1.orientation (e1.orientation.afterAffected i1.linearMovement i1.angularMovement) c2 e2.orientation
          (e2.orientation.afterAffected i2.linearMovement i2.angularMovement) with
      | error x => rfl
      | ok r =>
        cases r with
        | none => rfl
        | some c =>
          simp only [Except.map, Option.map_some, Res.ok_bind]
          rw [show (c.shift d).position = c.position + d.f from rfl, velocityAt_shift, velocityAt_shift, percentOf_shift]
          rw [show (c.shift d).normal = c.normal from rfl, show (c.shift d).times = c.times from rfl]
          by_cases ha : Scalar.lt ((e1.velocityAt c.position - e2.velocityAt c.position).dot c.normal) EPSILON = true
          · simp only [ha, if_true]
          · simp only [ha, if_false, Bool.false_eq_true]
            by_cases hb : Scalar.lt c.times.min (percentOf best) = true
            · simp only [hb, if_true]; rfl
            · simp only [hb, if_false, Bool.false_eq_true]

theorem secondColliderLoop_shift {e1 e2 : InternalEntity XReal} (h1 : e1.orientation.rotation.Ok) (h2 : e2.orientation.rotation.Ok) (i1 i2 : StepInfo XReal) (n1 n2 : Nat)
    (k1 : Handle) : ∀ (l : List Handle) (best : Option (Candidate XReal)),
    secondColliderLoop cs (e1.shift d) (e2.shift d) i1 i2 n1 n2 k1 l (best.map (Candidate.shift d)) =
      (secondColliderLoop cs e1 e2 i1 i2 n1 n2 k1 l best).map (Option.map (Candidate.shift d))
  | [], _ => rfl
  | k2 :: l, best => by
    unfold secondColliderLoop
    rw [considerPair_shift d hcs h1 h2]
    cases considerPair cs e1 e2 i1 i2 n1 n2 k1 k2 best with
    | error x => rfl
    | ok b => exact secondColliderLoop_shift h1 h2 i1 i2 n1 n2 k1 l b

theorem firstColliderLoop_shift {e1 e2 : InternalEntity XReal} (h1 : e1.orientation.rotation.Ok) (h2 : e2.orientation.rotation.Ok) (i1 i2 : StepInfo XReal) (n1 n2 : Nat)
    (l2 : List Handle) : ∀ (l : List Handle) (best : Option (Candidate XReal)),
    firstColliderLoop cs (e1.shift d) (e2.shift d) i1 i2 n1 n2 l2 l (best.map (Candidate.shift d)) =
      (firstColliderLoop cs e1 e2 i1 i2 n1 n2 l2 l best).map (Option.map (Candidate.shift d))
  | [], _ => rfl
  | k1 :: l, best => by
    unfold firstColliderLoop
    rw [secondColliderLoop_shift d hcs h1 h2]
    cases secondColliderLoop cs e1 e2 i1 i2 n1 n2 k1 l2 best with
    | error x => rfl
    | ok b => exact firstColliderLoop_shift h1 h2 i1 i2 n1 n2 l2 l b
omit hcs

theorem get2_shift (a : Arena (InternalEntity XReal)) (h1 h2 : Handle) : get2 (moveAll d a) h1 h2 = (get2 a h1 h2).map (Prod.map (InternalEntity.shift d) (InternalEntity.shift d)) := by
  unfold get2
  split
  · rfl
  · rw [get_map, get_map]
    cases a.get h1 with
    | none => rfl
    | some x => cases a.get h2 <;> rfl

variable {w : World XReal} (hw : Tamed w.colliders) (hp : Posed w.entities) (ord : IterOrder)
include hw hp

theorem searchPair_shift (i1 i2 : StepInfo XReal) (n1 n2 : Nat) (best : Option (Candidate XReal)) :
    searchPair ord (w.shift d) i1 i2 n1 n2 (best.map (Candidate.shift d)) = (searchPair ord w i1 i2 n1 n2 best).map (Option.map (Candidate.shift d)) := by
  unfold searchPair
  rw [show (w.shift d).entities = moveAll d w.entities from rfl, get2_shift]
  cases hg : get2 w.entities i1.handle i2.handle with
  | error x => rfl
  | ok r =>
    obtain ⟨e1, e2⟩ := r
    have hx : w.entities.get i1.handle = some e1 ∧ w.entities.get i2.handle = some e2 := by
      unfold get2 at hg
      split at hg
      · cases hg
      · obtain ⟨x, hx, hg⟩ := Res.bind_eq_ok.mp hg
        obtain ⟨y, hy, hg⟩ := Res.bind_eq_ok.mp hg
        cases hg
        rw [unwrap_eq_ok] at hx hy
        exact ⟨hx, hy⟩
    show (if i2.handle ∈ e1.neighbors then _ else if i1.handle ∈ e2.neighbors then _ else firstColliderLoop w.colliders (e1.shift d) (e2.shift d) i1 i2 n1 n2
      (ord.colliders i2.handle e2.colliders) (ord.colliders i1.handle e1.colliders) _) = Except.map _ (if i2.handle ∈ e1.neighbors then _ else if i1.handle ∈ e2.neighbors then _ else _)
    split
    · rfl
    · split
      · rfl
      · exact firstColliderLoop_shift d hw (hp _ _ hx.1) (hp _ _ hx.2) _ _ _ _ _ _ _

theorem searchSecond_shift (i1 : StepInfo XReal) (n1 : Nat) : ∀ (l : List (StepInfo XReal)) (n2 : Nat) (best : Option (Candidate XReal)),
    searchSecond ord (w.shift d) i1 n1 n2 l (best.map (Candidate.shift d)) = (searchSecond ord w i1 n1 n2 l best).map (Option.map (Candidate.shift d))
  | [], _, _ => rfl
  | i2 :: l, n2, best => by
    unfold searchSecond
    rw [searchPair_shift d hw hp]
    cases searchPair ord w i1 i2 n1 n2 best with
    | error x => rfl
    | ok b => exact searchSecond_shift i1 n1 l _ b

theorem searchFirst_shift : ∀ (l : List (StepInfo XReal)) (n1 : Nat) (best : Option (Candidate XReal)),
    searchFirst ord (w.shift d) n1 l (best.map (Candidate.shift d)) = (searchFirst ord w n1 l best).map (Option.map (Candidate.shift d))
  | [], _, _ => rfl
  | i1 :: l, n1, best => by
    unfold searchFirst
    rw [searchSecond_shift d hw hp]
    cases searchSecond ord w i1 n1 (n1 + 1) l best with
    | error x => rfl
    | ok b => exact searchFirst_shift l _ b
omit hw hp

/-! ### Waking -/

/-- The state of the waking loop, moved along. -/
noncomputable def _root_.Fluffy.InternalEntity.WakeState.shift (d : Vec3 ℝ) (st : WakeState XReal) : WakeState XReal := { st with entities := moveAll d st.entities }

theorem wakeNeighbors_shift (target : Handle) : ∀ (l : List Handle) (st : WakeState XReal),
    wakeNeighbors target l (st.shift d) = (wakeNeighbors target l st).map (WakeState.shift d)
  | [], _ => rfl
  | n :: l, st => by
    unfold wakeNeighbors
    show (if n ∈ st.completed then _ else _) = _
    split
    · exact wakeNeighbors_shift target l st
    · rw [show (st.shift d).entities = moveAll d st.entities from rfl, get_map]
      cases st.entities.get n with
      | none => rfl
      | some e =>
        simp only [Option.map_some, unwrap_some, Res.ok_bind]
        show (if Scalar.isInfinite e.totalMass = true then _ else _) = _
        split
        · rw [← wakeNeighbors_shift target l]
          congr 1
          show WakeState.mk _ _ _ _ = WakeState.mk _ _ _ _
          rw [WakeState.mk.injEq]
          exact ⟨set_map _ _ n { e with neighbors := hsRemove e.neighbors target }, rfl, rfl, rfl⟩
        · exact wakeNeighbors_shift target l { st with queue := st.queue ++ [n] }

theorem wakeLoop_shift : ∀ (fuel : Nat) (st : WakeState XReal), wakeLoop ord fuel (st.shift d) = (wakeLoop ord fuel st).map (WakeState.shift d)
  | fuel, st => by
    unfold wakeLoop
    show (match st.queue with | [] => _ | target :: rest => _) = _
    cases st.queue with
    | nil => rfl
    | cons t rest =>
      cases fuel with
      | zero => rfl
      | succ fuel =>
        simp only
        rw [show (st.shift d).entities = moveAll d st.entities from rfl, get_map]
        cases st.entities.get t with
        | none => rfl
        | some e =>
          simp only [Option.map_some, unwrap_some, Res.ok_bind]
          have h1 := wakeNeighbors_shift d t (ord.neighbors t e.neighbors) { st with queue := rest, completed := hsInsert st.completed t }
          refine Eq.trans (congrArg (fun R => R >>= _) h1) ?_
          cases wakeNeighbors t (ord.neighbors t e.neighbors) { st with queue := rest, completed := hsInsert st.completed t } with
          | error x => rfl
          | ok s1 =>
            simp only [Except.map, Res.ok_bind]
            rw [show (s1.shift d).entities = moveAll d s1.entities from rfl, get_map]
            cases s1.entities.get t with
            | none => rfl
            | some e1 =>
              simp only [Option.map_some, unwrap_some, Res.ok_bind]
              have h2 := wakeLoop_shift fuel { s1 with
                entities := s1.entities.set t { e1 with asleep := false, neighbors := [] }
                debug := if e1.asleep then s1.debug ++ [.wakingUp t] else s1.debug }
              refine Eq.trans ?_ h2
              congr 1
              show WakeState.mk _ _ _ _ = WakeState.mk _ _ _ _
              rw [WakeState.mk.injEq]
              exact ⟨set_map _ _ t { e1 with asleep := false, neighbors := [] }, rfl, rfl, rfl⟩

theorem linkCount_shift (a : Arena (InternalEntity XReal)) : linkCount (moveAll d a) = linkCount a := by
  unfold linkCount
  show ((a.items.map _).map _).sum = _
  rw [List.map_map]
  congr 1
  apply List.map_congr_left
  intro o _
  cases o <;> rfl

theorem wakeUp_shift (h : Handle) (a : Arena (InternalEntity XReal)) (m : List DebugMsg) :
    wakeUp ord h (moveAll d a) m = (wakeUp ord h a m).map (Prod.map (moveAll d) id) := by
  unfold wakeUp
  rw [linkCount_shift]
  have := wakeLoop_shift d ord (1 + linkCount a) ⟨a, [], [h], m⟩
  rw [show wakeLoop ord (1 + linkCount a) ⟨moveAll d a, [], [h], m⟩ = _ from this]
  cases wakeLoop ord (1 + linkCount a) ⟨a, [], [h], m⟩ <;> rfl

theorem wakeIfFinite_shift (h : Handle) (w : World XReal) : wakeIfFinite ord h (w.shift d) = (wakeIfFinite ord h w).map (World.shift d) := by
  unfold wakeIfFinite
  rw [show (w.shift d).entities = moveAll d w.entities from rfl, get_map]
  cases w.entities.get h with
  | none => rfl
  | some e =>
    simp only [Option.map_some, unwrap_some, Res.ok_bind]
    show (if Scalar.isFinite e.totalMass = true then _ else _) = _
    split
    · rw [wakeUp_shift, show (w.shift d).debug = w.debug from rfl]
      cases wakeUp ord h w.entities w.debug <;> rfl
    · rfl

theorem wakeColliding_shift (best : Option (Candidate XReal)) (w : World XReal) :
    wakeColliding ord (best.map (Candidate.shift d)) (w.shift d) = (wakeColliding ord best w).map (World.shift d) := by
  cases best with
  | none => rfl
  | some c =>
    show (wakeIfFinite ord c.firstHandle (w.shift d) >>= _) = Except.map _ (wakeIfFinite ord c.firstHandle w >>= _)
    rw [wakeIfFinite_shift]
    cases wakeIfFinite ord c.firstHandle w with
    | error x => rfl
    | ok v => exact wakeIfFinite_shift d ord _ v

theorem WakeRel.orientation {x y : InternalEntity XReal} (h : WakeRel x y) : y.orientation = x.orientation := by rw [h]

/-! ### Advancing -/

theorem advanceLoop_shift (p : XReal) : ∀ (l : List (StepInfo XReal)) (a : Arena (InternalEntity XReal)),
    advanceLoop p l (moveAll d a) = (advanceLoop p l a).map (Prod.map (moveAll d) id)
  | [], _ => rfl
  | i :: l, a => by
    unfold advanceLoop
    rw [get_map]
    cases a.get i.handle with
    | none => rfl
    | some e =>
      simp only [Option.map_some, unwrap_some, Res.ok_bind]
      have key : (if (!(e.shift d).asleep) = true then (moveAll d a).set i.handle { e.shift d with
            orientation := (e.shift d).orientation.afterAffected (i.linearMovement.scale p) (i.angularMovement.scale p) } else moveAll d a) =
          moveAll d (if (!e.asleep) = true then a.set i.handle { e with
            orientation := e.orientation.afterAffected (i.linearMovement.scale p) (i.angularMovement.scale p) } else a) := by
        rw [show (e.shift d).orientation = e.orientation.shift d from rfl, Orientation.afterAffected_shift]
        show (if (!e.asleep) = true then _ else _) = _
        split
        · exact set_map _ _ i.handle { e with orientation := e.orientation.afterAffected (i.linearMovement.scale p) (i.angularMovement.scale p) }
        · rfl
      rw [key, advanceLoop_shift p l]
      cases advanceLoop p l _ <;> rfl

theorem advanceLoop_posed {p : XReal} : ∀ {l : List (StepInfo XReal)} {a b : Arena (InternalEntity XReal)} {is : List (StepInfo XReal)},
    advanceLoop p l a = .ok (b, is) → Posed a → Posed b
  | [], a, b, is, h, hp => by unfold advanceLoop at h; cases h; exact hp
  | i :: l, a, b, is, h, hp => by
    unfold advanceLoop at h
    obtain ⟨e, he, h⟩ := Res.bind_eq_ok.mp h
    rw [unwrap_eq_ok] at he
    obtain ⟨⟨b', is'⟩, h1, h⟩ := Res.bind_eq_ok.mp h
    cases h
    refine advanceLoop_posed h1 ?_
    split
    · exact hp.set _ (ok_afterAffected (hp _ _ he) _ _)
    · exact hp

/-- The state of the iteration loop, moved along. -/
noncomputable def _root_.Fluffy.Step.LoopState.shift (d : Vec3 ℝ) (st : LoopState XReal) : LoopState XReal := { st with world := st.world.shift d }

theorem advance_shift (best : Option (Candidate XReal)) (st : LoopState XReal) :
    advance (best.map (Candidate.shift d)) (st.shift d) = (advance best st).map (LoopState.shift d) := by
  unfold advance
  simp only [percentOf_shift]
  rw [show (st.shift d).world.entities = moveAll d st.world.entities from rfl, show (st.shift d).infos = st.infos from rfl, advanceLoop_shift]
  cases advanceLoop (percentOf best) st.infos st.world.entities <;> rfl

/-! ### Responding -/

theorem impulseDenominator_shift (e1 e2 : InternalEntity XReal) (c : Collision XReal) :
    impulseDenominator (e1.shift d) (e2.shift d) (c.shift d) = impulseDenominator e1 e2 c := by
  unfold impulseDenominator
  rw [show (e1.shift d).orientation.position = e1.orientation.position + d.f from rfl, show (e2.shift d).orientation.position = e2.orientation.position + d.f from rfl,
    show (c.shift d).position = c.position + d.f from rfl, Vec3.shift_sub_shift, Vec3.shift_sub_shift]
  rfl

theorem collisionImpulse_shift (e1 e2 : InternalEntity XReal) (r : XReal) (c : Collision XReal) :
    collisionImpulse (e1.shift d) (e2.shift d) r (c.shift d) = collisionImpulse e1 e2 r c := by
  unfold collisionImpulse
  rw [impulseDenominator_shift, show (c.shift d).position = c.position + d.f from rfl, velocityAt_shift, velocityAt_shift]
  rfl

theorem frictionImpulse_shift (e1 e2 : InternalEntity XReal) (j : Vec3 XReal) (k : Candidate XReal) :
    frictionImpulse (e1.shift d) (e2.shift d) j (k.shift d) = frictionImpulse e1 e2 j k := by
  unfold frictionImpulse
  dsimp only
  rw [show (k.shift d).collision = k.collision.shift d from rfl, impulseDenominator_shift, show (k.collision.shift d).position = k.collision.position + d.f from rfl,
    velocityAt_shift, velocityAt_shift]
  rfl

theorem applyCollisionImpulse_shift (e : InternalEntity XReal) (i : StepInfo XReal) (p j : Vec3 XReal) (t : XReal) :
    applyCollisionImpulse (e.shift d) i (p + d.f) j t = Prod.map (InternalEntity.shift d) id (applyCollisionImpulse e i p j t) := by
  unfold applyCollisionImpulse
  dsimp only
  rw [applyImpulse_shift]
  rfl

/-- The outcome of a response, moved along. -/
noncomputable def _root_.Fluffy.Step.Response.shift (d : Vec3 ℝ) (r : Response XReal) : Response XReal :=
  { r with first := r.first.shift d, second := r.second.shift d, record := r.record.shift d }

theorem respondPair_shift (k : Candidate XReal) (t t' : XReal) (e1 e2 : InternalEntity XReal) (i1 i2 : StepInfo XReal) :
    respondPair (k.shift d) t t' (e1.shift d) (e2.shift d) i1 i2 = (respondPair k t t' e1 e2 i1 i2).shift d := by
  unfold respondPair
  dsimp only
  rw [show (k.shift d).collision = k.collision.shift d from rfl, show (k.shift d).restitution = k.restitution from rfl, collisionImpulse_shift,
    show (k.collision.shift d).position = k.collision.position + d.f from rfl]
  simp only [applyCollisionImpulse_shift, Prod.map, frictionImpulse_shift]
  rfl

theorem respond_shift (dt : XReal) (k : Candidate XReal) (st : LoopState XReal) :
    respond dt (k.shift d) (st.shift d) = (respond dt k st).map (LoopState.shift d) := by
  unfold respond
  rw [show (st.shift d).world.entities = moveAll d st.world.entities from rfl, show (k.shift d).firstHandle = k.firstHandle from rfl,
    show (k.shift d).secondHandle = k.secondHandle from rfl, get2_shift]
  cases get2 st.world.entities k.firstHandle k.secondHandle with
  | error x => rfl
  | ok r =>
    obtain ⟨e1, e2⟩ := r
    rw [show (st.shift d).infos = st.infos from rfl, show (k.shift d).firstIndex = k.firstIndex from rfl, show (k.shift d).secondIndex = k.secondIndex from rfl]
    simp only [Except.map, Prod.map, Res.ok_bind]
    cases index st.infos k.firstIndex with
    | error x => rfl
    | ok i1 =>
      cases index st.infos k.secondIndex with
      | error x => rfl
      | ok i2 =>
        simp only [Res.ok_bind]
        rw [show (st.shift d).currentPercent = st.currentPercent from rfl, show (st.shift d).timeLeft = st.timeLeft from rfl, respondPair_shift]
        generalize respondPair k (st.currentPercent * dt) st.timeLeft e1 e2 i1 i2 = r
        show Except.ok (LoopState.mk (World.mk (((moveAll d st.world.entities).set k.firstHandle (r.first.shift d)).set k.secondHandle (r.second.shift d)) _ _
          (st.world.collisionRecords.map (CollisionRecord.shift d) ++ [r.record.shift d]) _ _ _) _ _ _) = _
        rw [set_map, set_map]
        show _ = Except.ok (LoopState.mk (World.mk _ _ _ ((st.world.collisionRecords ++ [r.record]).map (CollisionRecord.shift d)) _ _ _) _ _ _)
        rw [List.map_append]
        rfl

theorem respond_posed {dt : XReal} {k : Candidate XReal} {st st' : LoopState XReal} (h : respond dt k st = .ok st') (hp : Posed st.world.entities) :
    Posed st'.world.entities ∧ st'.world.colliders = st.world.colliders := by
  obtain ⟨e1, e2, i1, i2, -, h1, h2, -, -, h⟩ := respond_spec h
  subst h
  refine ⟨?_, rfl⟩
  refine Posed.set (Posed.set hp _ ?_) _ ?_
  · exact show e1.orientation.rotation.Ok from hp _ _ h1
  · exact show e2.orientation.rotation.Ok from hp _ _ h2

/-! ### The loop -/

theorem iterate_shift (dt : XReal) : ∀ (n : Nat) (st : LoopState XReal), Tamed st.world.colliders → Posed st.world.entities →
    iterate ord dt n (st.shift d) = (iterate ord dt n st).map (Prod.map (LoopState.shift d) id)
  | 0, _, _, _ => rfl
  | n + 1, st, hw, hp => by
    unfold iterate
    have hs := searchFirst_shift d hw hp ord st.infos 0 none
    rw [show searchFirst ord (st.shift d).world 0 (st.shift d).infos none = _ from hs]
    cases searchFirst ord st.world 0 st.infos none with
    | error x => rfl
    | ok best =>
      simp only [Except.map, Res.ok_bind]
      rw [show (st.shift d).world = st.world.shift d from rfl, wakeColliding_shift]
      cases h1 : wakeColliding ord best st.world with
      | error x => rfl
      | ok w1 =>
        obtain ⟨ew, hev⟩ := wakeColliding_evolves h1
        have hp1 : Posed w1.entities := hp.evolves (fun _ _ => WakeRel.orientation) hev
        have hw1 : w1.colliders = st.world.colliders := by rw [ew]
        simp only [Except.map, Res.ok_bind]
        have ha := advance_shift d best { st with world := w1 }
        rw [show advance (best.map (Candidate.shift d)) { st.shift d with world := w1.shift d } = _ from ha]
        cases h2 : advance best { st with world := w1 } with
        | error x => rfl
        | ok s1 =>
          have h3 : Posed s1.world.entities ∧ s1.world.colliders = st.world.colliders := by
            unfold advance at h2
            obtain ⟨⟨b, is⟩, h3, h2⟩ := Res.bind_eq_ok.mp h2
            cases h2
            exact ⟨advanceLoop_posed h3 hp1, hw1⟩
          simp only [Except.map, Res.ok_bind]
          cases best with
          | none => rfl
          | some k =>
            simp only [Option.map_some]
            rw [respond_shift]
            cases h4 : respond dt k s1 with
            | error x => rfl
            | ok s2 =>
              obtain ⟨h5, h6⟩ := respond_posed h4 h3.1
              exact iterate_shift dt n s2 (by rw [h6, h3.2]; exact hw) h5

theorem iterate_posed {dt : XReal} : ∀ {n : Nat} {st st' : LoopState XReal} {b : Bool}, iterate ord dt n st = .ok (st', b) → Posed st.world.entities →
    Posed st'.world.entities ∧ st'.world.colliders = st.world.colliders
  | 0, st, st', b, h, hp => by unfold iterate at h; cases h; exact ⟨hp, rfl⟩
  | n + 1, st, st', b, h, hp => by
    unfold iterate at h
    obtain ⟨best, -, h⟩ := Res.bind_eq_ok.mp h
    obtain ⟨w1, h1, h⟩ := Res.bind_eq_ok.mp h
    obtain ⟨s1, h2, h⟩ := Res.bind_eq_ok.mp h
    obtain ⟨ew, hev⟩ := wakeColliding_evolves h1
    have hp1 : Posed w1.entities := hp.evolves (fun _ _ => WakeRel.orientation) hev
    have hw1 : w1.colliders = st.world.colliders := by rw [ew]
    have h3 : Posed s1.world.entities ∧ s1.world.colliders = st.world.colliders := by
      unfold advance at h2
      obtain ⟨⟨b, is⟩, h3, h2⟩ := Res.bind_eq_ok.mp h2
      cases h2
      exact ⟨advanceLoop_posed h3 hp1, hw1⟩
    cases best with
    | none => cases h; exact h3
    | some k =>
      obtain ⟨s2, h4, h⟩ := Res.bind_eq_ok.mp h
      obtain ⟨h5, h6⟩ := respond_posed h4 h3.1
      obtain ⟨h7, h8⟩ := iterate_posed h h5
      exact ⟨h7, by rw [h8, h6, h3.2]⟩

/-! ### Falling asleep -/

theorem linkNeighbors_shift (h : Handle) : ∀ (l : List Handle) (a : Arena (InternalEntity XReal)),
    linkNeighbors h l (moveAll d a) = (linkNeighbors h l a).map (moveAll d)
  | [], _ => rfl
  | n :: l, a => by
    unfold linkNeighbors
    rw [get_map]
    cases a.get n with
    | none => rfl
    | some e =>
      simp only [Option.map_some, unwrap_some, Res.ok_bind]
      rw [← linkNeighbors_shift h l]
      congr 1
      exact set_map _ _ n { e with neighbors := hsInsert e.neighbors h }

theorem worldSet_shift (w : World XReal) (h : Handle) (e : InternalEntity XReal) :
    ({ w.shift d with entities := (moveAll d w.entities).set h (e.shift d) } : World XReal) = World.shift d { w with entities := w.entities.set h e } := by
  rw [set_map]; rfl

theorem sleepOne_shift (dt : XReal) (i : StepInfo XReal) (w : World XReal) : sleepOne ord dt i (w.shift d) = (sleepOne ord dt i w).map (World.shift d) := by
  unfold sleepOne
  rw [show (w.shift d).entities = moveAll d w.entities from rfl, get_map]
  cases w.entities.get i.handle with
  | none => rfl
  | some e =>
    simp only [Option.map_some, unwrap_some, Res.ok_bind]
    rw [totalEnergy_shift]
    show (if e.asleep = true then _ else if Scalar.lt w.energySleepThreshold e.totalEnergy = true then _ else
      if Scalar.lt (if e.fallingAsleep = true then e.fallingAsleepTime + dt else e.fallingAsleepTime) w.sleepTimeThreshold = true then _ else _) = _
    by_cases h1 : e.asleep = true
    · rw [if_pos h1, if_pos h1]
      exact congrArg Except.ok (worldSet_shift d w i.handle { e with velocity := Vec3.zeros, angularVelocity := Vec3.zeros})
    · rw [if_neg h1, if_neg h1]
      by_cases h2 : Scalar.lt w.energySleepThreshold e.totalEnergy = true
      · rw [if_pos h2, if_pos h2]
        exact congrArg Except.ok (worldSet_shift d w i.handle { e with fallingAsleep := false, fallingAsleepTime := zero })
      · rw [if_neg h2, if_neg h2]
        generalize ht : (if e.fallingAsleep = true then e.fallingAsleepTime + dt else e.fallingAsleepTime) = t
        have ht' : (if (e.shift d).fallingAsleep = true then (e.shift d).fallingAsleepTime + dt else (e.shift d).fallingAsleepTime) = t := ht
        simp only [ht']
        by_cases h3 : Scalar.lt t w.sleepTimeThreshold = true
        · rw [if_pos h3, if_pos h3]
          exact congrArg Except.ok (worldSet_shift d w i.handle { e with fallingAsleep := true, fallingAsleepTime := t })
        · rw [if_neg h3, if_neg h3]
          have hl := linkNeighbors_shift d i.handle (ord.stepNeighbors i.handle i.neighbors)
            (w.entities.set i.handle { e with asleep := true, fallingAsleep := true, fallingAsleepTime := t, neighbors := i.neighbors })
          unfold moveAll at hl; rw [← set_map] at hl
          refine Eq.trans (congrArg (fun R => R >>= _) hl) ?_
          cases linkNeighbors i.handle (ord.stepNeighbors i.handle i.neighbors)
            (w.entities.set i.handle { e with asleep := true, fallingAsleep := true, fallingAsleepTime := t, neighbors := i.neighbors }) <;> rfl

theorem sleepLoop_shift (dt : XReal) : ∀ (l : List (StepInfo XReal)) (w : World XReal), sleepLoop ord dt l (w.shift d) = (sleepLoop ord dt l w).map (World.shift d)
  | [], _ => rfl
  | i :: l, w => by
    unfold sleepLoop
    rw [sleepOne_shift]
    cases sleepOne ord dt i w with
    | error x => rfl
    | ok v => exact sleepLoop_shift dt l v

theorem sleepOne_posed {dt : XReal} {i : StepInfo XReal} {w w' : World XReal} (h : sleepOne ord dt i w = .ok w') (hp : Posed w.entities) :
    Posed w'.entities ∧ w'.colliders = w.colliders := by
  unfold sleepOne at h
  obtain ⟨e, he, h⟩ := Res.bind_eq_ok.mp h
  rw [unwrap_eq_ok] at he
  have ho := hp _ _ he
  dsimp only at h
  generalize (if e.fallingAsleep = true then e.fallingAsleepTime + dt else e.fallingAsleepTime) = t at h
  split at h
  · cases h; exact ⟨hp.set _ ho, rfl⟩
  · split at h
    · cases h; exact ⟨hp.set _ ho, rfl⟩
    · split at h
      · cases h; exact ⟨hp.set _ ho, rfl⟩
      · obtain ⟨b, hb, h⟩ := Res.bind_eq_ok.mp h
        cases h
        refine ⟨Posed.evolves (R := NeighborRel) (fun x y hr => by rw [hr]) ?_ (linkNeighbors_spec hb).1, rfl⟩
        exact hp.set _ ho

theorem sleepLoop_posed {dt : XReal} : ∀ {l : List (StepInfo XReal)} {w w' : World XReal}, sleepLoop ord dt l w = .ok w' → Posed w.entities →
    Posed w'.entities ∧ w'.colliders = w.colliders
  | [], w, w', h, hp => by unfold sleepLoop at h; cases h; exact ⟨hp, rfl⟩
  | i :: l, w, w', h, hp => by
    unfold sleepLoop at h
    obtain ⟨v, h1, h⟩ := Res.bind_eq_ok.mp h
    obtain ⟨h2, h3⟩ := sleepOne_posed ord h1 hp
    obtain ⟨h4, h5⟩ := sleepLoop_posed h h2
    exact ⟨h4, by rw [h5, h3]⟩

end Fluffy.Props
