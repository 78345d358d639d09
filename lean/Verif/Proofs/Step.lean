import Verif.Proofs.Search
/- Generic description of `step`: what it can change, phase by phase. -/
set_option linter.unusedSectionVars false
set_option linter.unusedSimpArgs false
namespace Fluffy.Step
open InternalEntity
variable {α : Type} [Scalar α] {γ : Type}

/-- Only pose, velocities and sleep state differ. -/
def StaticRel (e e' : InternalEntity α) : Prop :=
  e' = { e with
    orientation := { e.orientation with position := e'.orientation.position, rotation := e'.orientation.rotation }
    velocity := e'.velocity, angularVelocity := e'.angularVelocity, fallingAsleep := e'.fallingAsleep
    fallingAsleepTime := e'.fallingAsleepTime, asleep := e'.asleep, neighbors := e'.neighbors }

theorem staticRel_iff {e e' : InternalEntity α} : StaticRel e e' ↔
    e'.orientation.internalOriginOffset = e.orientation.internalOriginOffset ∧ e'.ownMass = e.ownMass ∧
    e'.totalMass = e.totalMass ∧ e'.preppedMoment = e.preppedMoment ∧ e'.colliders = e.colliders := by
  constructor
  · intro h; rw [h]; simp
  · rintro ⟨h1, h2, h3, h4, h5⟩
    obtain ⟨⟨p, r, o⟩, om, tm, pm, v, w, cs, fa, ft, as, ns⟩ := e
    obtain ⟨⟨p', r', o'⟩, om', tm', pm', v', w', cs', fa', ft', as', ns'⟩ := e'
    simp only at h1 h2 h3 h4 h5
    subst h1 h2 h3 h4 h5
    rfl

theorem StaticRel.refl (e : InternalEntity α) : StaticRel e e := rfl
theorem StaticRel.trans {a b c : InternalEntity α} (h : StaticRel a b) (h' : StaticRel b c) : StaticRel a c := by
  rw [staticRel_iff] at *
  obtain ⟨h1, h2, h3, h4, h5⟩ := h
  obtain ⟨k1, k2, k3, k4, k5⟩ := h'
  exact ⟨k1.trans h1, k2.trans h2, k3.trans h3, k4.trans h4, k5.trans h5⟩
theorem WakeRel.static {e e' : InternalEntity α} (h : WakeRel e e') : StaticRel e e' := by
  rw [staticRel_iff, h]; simp

theorem afterAffected_offset (o : Orientation α) (l r : Vec3 α) :
    (o.afterAffected l r).internalOriginOffset = o.internalOriginOffset := rfl

/-- The parts of the world a step leaves alone. -/
structure Frame (w w' : World α) : Prop where
  entities : Arena.Evolves StaticRel w.entities w'.entities
  colliders : w'.colliders = w.colliders
  iterationMax : w'.iterationMax = w.iterationMax
  energy : w'.energySleepThreshold = w.energySleepThreshold
  time : w'.sleepTimeThreshold = w.sleepTimeThreshold

theorem Frame.refl (w : World α) : Frame w w := ⟨.refl StaticRel.refl _, rfl, rfl, rfl, rfl⟩
theorem Frame.trans {a b c : World α} (h : Frame a b) (h' : Frame b c) : Frame a c :=
  ⟨Arena.Evolves.trans (fun x y z => StaticRel.trans (a := x) (b := y) (c := z)) h.entities h'.entities,
   h'.colliders.trans h.colliders, h'.iterationMax.trans h.iterationMax, h'.energy.trans h.energy,
   h'.time.trans h.time⟩
theorem Frame.handles {a b : World α} (h : Frame a b) : b.entities.handles = a.entities.handles :=
  h.entities.shape.handles

/-! ### Integration -/

/-- Only the velocities differ. -/
def VelRel (e e' : InternalEntity α) : Prop := e' = { e with velocity := e'.velocity, angularVelocity := e'.angularVelocity }
theorem VelRel.refl (e : InternalEntity α) : VelRel e e := rfl
theorem VelRel.static {e e' : InternalEntity α} (h : VelRel e e') : StaticRel e e' := by
  rw [staticRel_iff, h]; simp

section
variable [ForceGenerator α γ]

theorem generatorLoop_shape {dt : α} {w : World α} {h : Handle} {copy : Entity α} :
    ∀ {l : List Handle} {g g' : Arena γ} {a t a' t' : Vec3 α},
    generatorLoop dt w h copy l g a t = .ok (g', a', t') → Arena.SameShape g' g
  | [], g, g', a, t, a', t', hh => by unfold generatorLoop at hh; cases hh; exact .refl _
  | x :: l, g, g', a, t, a', t', hh => by
    unfold generatorLoop at hh
    obtain ⟨v, -, hh⟩ := Res.bind_eq_ok.mp hh
    obtain ⟨⟨f, v'⟩, -, hh⟩ := Res.bind_eq_ok.mp hh
    exact (generatorLoop_shape hh).trans (Arena.sameShape_set _ _ _)

/-- The accelerations the integration uses for one entity. -/
def Accelerates (dt : α) (gens : List Handle) (s : System α γ) (h : Handle) (e : InternalEntity α)
    (g : Arena γ) (a t : Vec3 α) : Prop :=
  (if Scalar.isFinite e.totalMass && Scalar.lt EPSILON e.totalMass then
      generatorLoop dt s.toWorld h e.makePub gens s.generators Vec3.zeros Vec3.zeros
    else .ok (s.generators, Vec3.zeros, Vec3.zeros)) = .ok (g, a, t)

theorem integrateOne_spec {dt : α} {gens : List Handle} {s s' : System α γ} {h : Handle} {i : StepInfo α}
    (hh : integrateOne dt gens s h = .ok (s', i)) :
    ∃ e g a t, s.entities.get h = some e ∧ Accelerates dt gens s h e g a t ∧
      s' = { s with generators := g, entities := s.entities.set h (integrateVelocity dt a t e) } ∧
      i = ⟨h, (integrateVelocity dt a t e).velocity.scale dt, (integrateVelocity dt a t e).angularVelocity.scale dt, []⟩ := by
  unfold integrateOne at hh
  obtain ⟨copy, hc, hh⟩ := Res.bind_eq_ok.mp hh
  replace hh : ((if Scalar.isFinite copy.lastTotalMass && Scalar.lt EPSILON copy.lastTotalMass then
      generatorLoop dt s.toWorld h copy gens s.generators Vec3.zeros Vec3.zeros
      else (.ok (s.generators, Vec3.zeros, Vec3.zeros) : Res (Arena γ × Vec3 α × Vec3 α))) >>= fun x => do
        let e ← unwrap (s.entities.get h)
        .ok ({ s with generators := x.1, entities := s.entities.set h (integrateVelocity dt x.2.1 x.2.2 e) },
          ⟨h, (integrateVelocity dt x.2.1 x.2.2 e).velocity.scale dt,
           (integrateVelocity dt x.2.1 x.2.2 e).angularVelocity.scale dt, []⟩)) = .ok (s', i) := by
    rw [← hh]
    simp only
    split <;> rfl
  obtain ⟨⟨g, a, t⟩, hg, hh⟩ := Res.bind_eq_ok.mp hh
  obtain ⟨e, he, hh⟩ := Res.bind_eq_ok.mp hh
  rw [unwrap_eq_ok] at hc he
  have hce : copy = e.makePub := by
    unfold World.getEntity at hc; rw [he] at hc; cases hc; rfl
  simp only [Except.ok.injEq, Prod.mk.injEq] at hh
  obtain ⟨rfl, rfl⟩ := hh
  subst hce
  exact ⟨e, g, a, t, he, hg, rfl, rfl⟩

theorem accelerates_shape {dt : α} {gens : List Handle} {s : System α γ} {h : Handle} {e : InternalEntity α}
    {g : Arena γ} {a t : Vec3 α} (hh : Accelerates dt gens s h e g a t) : Arena.SameShape g s.generators := by
  unfold Accelerates at hh
  split at hh
  · exact generatorLoop_shape hh
  · cases hh; exact .refl _

/-- What the integration phase as a whole does. -/
theorem integrateAll_spec {dt : α} {gens : List Handle} :
    ∀ {l : List Handle} {s s' : System α γ} {infos : List (StepInfo α)}, l.Nodup →
    integrateAll dt gens l s = .ok (s', infos) →
      s'.toWorld = { s.toWorld with entities := s'.entities } ∧
      Arena.SameShape s'.generators s.generators ∧
      Arena.Evolves VelRel s.entities s'.entities ∧
      (∀ h, h ∉ l → s'.entities.get h = s.entities.get h) ∧
      infos.map StepInfo.handle = l ∧
      (∀ i ∈ infos, ∃ e, s'.entities.get i.handle = some e ∧
        i = ⟨i.handle, e.velocity.scale dt, e.angularVelocity.scale dt, []⟩)
  | [], s, s', infos, _, hh => by
    unfold integrateAll at hh; cases hh
    exact ⟨rfl, .refl _, .refl VelRel.refl _, fun _ _ => rfl, rfl, by simp⟩
  | h :: l, s, s', infos, hnd, hh => by
    unfold integrateAll at hh
    obtain ⟨⟨m, i⟩, h1, hh⟩ := Res.bind_eq_ok.mp hh
    obtain ⟨⟨s2, is⟩, h2, hh⟩ := Res.bind_eq_ok.mp hh
    cases hh
    obtain ⟨e, g, a, t, he, hg, rfl, rfl⟩ := integrateOne_spec h1
    rw [List.nodup_cons] at hnd
    obtain ⟨k1, k2, k3, k4, k5, k6⟩ := integrateAll_spec hnd.2 h2
    refine ⟨by rw [k1], k2.trans (accelerates_shape hg), ?_, ?_, by simp [k5], ?_⟩
    · refine Arena.Evolves.trans (R := VelRel) (S := VelRel) ?_
        (Arena.Evolves.set VelRel.refl he (y := integrateVelocity dt a t e) rfl) k3
      intro x y z hxy hyz
      rw [VelRel] at *; rw [hyz, hxy]
    · intro k hk
      rw [List.mem_cons, not_or] at hk
      rw [k4 k hk.2]
      exact Arena.get_set_ne hk.1 _
    · intro i hi
      rcases List.mem_cons.mp hi with rfl | hi
      · refine ⟨integrateVelocity dt a t e, ?_, rfl⟩
        rw [k4 _ hnd.1]
        exact Arena.get_set_self he _
      · exact k6 i hi

end

/-! ### Waking, advancing, responding -/

theorem wakeIfFinite_spec {ord : IterOrder} {h : Handle} {w w' : World α} (hh : wakeIfFinite ord h w = .ok w') :
    ∃ e, w.entities.get h = some e ∧
      ((Scalar.isFinite e.totalMass = false ∧ w' = w) ∨
       (Scalar.isFinite e.totalMass = true ∧ ∃ b d, wakeUp ord h w.entities w.debug = .ok (b, d) ∧
          w' = { w with entities := b, debug := d })) := by
  unfold wakeIfFinite at hh
  obtain ⟨e, he, hh⟩ := Res.bind_eq_ok.mp hh
  rw [unwrap_eq_ok] at he
  refine ⟨e, he, ?_⟩
  split at hh
  · rename_i hf
    obtain ⟨⟨b, d⟩, hr, hh⟩ := Res.bind_eq_ok.mp hh
    cases hh
    exact Or.inr ⟨hf, b, d, hr, rfl⟩
  · rename_i hf
    cases hh
    exact Or.inl ⟨by simpa using hf, rfl⟩

theorem wakeIfFinite_evolves {ord : IterOrder} {h : Handle} {w w' : World α} (hh : wakeIfFinite ord h w = .ok w') :
    w' = { w with entities := w'.entities, debug := w'.debug } ∧ Arena.Evolves WakeRel w.entities w'.entities := by
  obtain ⟨e, -, (⟨-, rfl⟩ | ⟨-, b, d, hr, rfl⟩)⟩ := wakeIfFinite_spec hh
  · exact ⟨rfl, .refl WakeRel.refl _⟩
  · exact ⟨rfl, (wakeUp_spec hr).1⟩

theorem wakeColliding_evolves {ord : IterOrder} {best : Option (Candidate α)} {w w' : World α}
    (hh : wakeColliding ord best w = .ok w') :
    w' = { w with entities := w'.entities, debug := w'.debug } ∧ Arena.Evolves WakeRel w.entities w'.entities := by
  unfold wakeColliding at hh
  split at hh
  · cases hh; exact ⟨rfl, .refl WakeRel.refl _⟩
  · obtain ⟨m, h1, h2⟩ := Res.bind_eq_ok.mp hh
    obtain ⟨a1, b1⟩ := wakeIfFinite_evolves h1
    obtain ⟨a2, b2⟩ := wakeIfFinite_evolves h2
    exact ⟨by rw [a2, a1], Arena.Evolves.trans (fun x y z => WakeRel.trans (a := x) (b := y) (c := z)) b1 b2⟩

/-- Shrink what is left of a movement. -/
def shrink (percent : α) (i : StepInfo α) : StepInfo α :=
  { i with linearMovement := i.linearMovement.scale (one - percent)
           angularMovement := i.angularMovement.scale (one - percent) }

/-- An entity advanced along part of its remaining movement, unless it is asleep. -/
def moved (percent : α) (i : StepInfo α) (e : InternalEntity α) : InternalEntity α :=
  if e.asleep then e
  else { e with orientation := e.orientation.afterAffected (i.linearMovement.scale percent) (i.angularMovement.scale percent) }

theorem moved_static (percent : α) (i : StepInfo α) (e : InternalEntity α) : StaticRel e (moved percent i e) := by
  unfold moved; split
  · exact .refl e
  · rw [staticRel_iff]; simp [afterAffected_offset]

/-- What advancing does to each entity. -/
theorem advanceLoop_spec {percent : α} : ∀ {infos infos' : List (StepInfo α)} {a a' : Arena (InternalEntity α)},
    (infos.map StepInfo.handle).Nodup → advanceLoop percent infos a = .ok (a', infos') →
    infos' = infos.map (shrink percent) ∧ Arena.SameShape a' a ∧
    (∀ h, h ∉ infos.map StepInfo.handle → a'.get h = a.get h) ∧
    (∀ i ∈ infos, ∃ e, a.get i.handle = some e ∧ a'.get i.handle = some (moved percent i e))
  | [], infos', a, a', _, hh => by
    unfold advanceLoop at hh; cases hh
    exact ⟨rfl, .refl _, fun _ _ => rfl, by simp⟩
  | i :: infos, infos', a, a', hnd, hh => by
    unfold advanceLoop at hh
    obtain ⟨e, he, hh⟩ := Res.bind_eq_ok.mp hh
    rw [unwrap_eq_ok] at he
    obtain ⟨⟨a2, is⟩, h2, hh⟩ := Res.bind_eq_ok.mp hh
    cases hh
    rw [List.map_cons, List.nodup_cons] at hnd
    have hset : (if (!e.asleep) = true then a.set i.handle
          { e with orientation := e.orientation.afterAffected (i.linearMovement.scale percent) (i.angularMovement.scale percent) }
        else a) =
        if e.asleep then a else a.set i.handle (moved percent i e) := by
      unfold moved; cases e.asleep <;> simp
    rw [hset] at h2
    obtain ⟨k1, k2, k3, k4⟩ := advanceLoop_spec hnd.2 h2
    have hself : (if e.asleep then a else a.set i.handle (moved percent i e)).get i.handle = some (moved percent i e) := by
      split
      · rename_i hs; rw [he, moved, if_pos hs]
      · exact Arena.get_set_self he _
    have hother : ∀ k, k ≠ i.handle → (if e.asleep then a else a.set i.handle (moved percent i e)).get k = a.get k := by
      intro k hk; split
      · rfl
      · exact Arena.get_set_ne hk _
    refine ⟨by simp [k1, shrink], k2.trans ?_, ?_, ?_⟩
    · split
      · exact .refl _
      · exact Arena.sameShape_set _ _ _
    · intro k hk
      rw [List.map_cons, List.mem_cons, not_or] at hk
      rw [k3 k hk.2, hother k hk.1]
    · intro j hj
      rcases List.mem_cons.mp hj with rfl | hj
      · exact ⟨e, he, by rw [k3 _ hnd.1, hself]⟩
      · obtain ⟨x, hx, hx'⟩ := k4 j hj
        refine ⟨x, ?_, hx'⟩
        rw [← hx, hother]
        intro hc
        exact hnd.1 (hc ▸ List.mem_map_of_mem hj)

theorem advance_spec {best : Option (Candidate α)} {st st' : LoopState α}
    (hnd : (st.infos.map StepInfo.handle).Nodup) (hh : advance best st = .ok st') :
    st' = { world := { st.world with entities := st'.world.entities }
            infos := st.infos.map (shrink (percentOf best))
            timeLeft := st.timeLeft * (one - percentOf best)
            currentPercent := st.currentPercent + (one - st.currentPercent) * percentOf best } ∧
    Arena.Evolves StaticRel st.world.entities st'.world.entities ∧
    (∀ h, h ∉ st.infos.map StepInfo.handle → st'.world.entities.get h = st.world.entities.get h) ∧
    (∀ i ∈ st.infos, ∃ e, st.world.entities.get i.handle = some e ∧
      st'.world.entities.get i.handle = some (moved (percentOf best) i e)) := by
  unfold advance at hh
  obtain ⟨⟨a, is⟩, h1, hh⟩ := Res.bind_eq_ok.mp hh
  cases hh
  obtain ⟨k1, k2, k3, k4⟩ := advanceLoop_spec hnd h1
  refine ⟨by rw [k1], ⟨k2, ?_⟩, k3, k4⟩
  intro h x y hx hy
  by_cases hm : h ∈ st.infos.map StepInfo.handle
  · obtain ⟨i, hi, rfl⟩ := List.mem_map.mp hm
    obtain ⟨e, he, he'⟩ := k4 i hi
    rw [he] at hx; cases hx
    simp only at hy
    rw [he'] at hy; cases hy
    exact moved_static _ _ _
  · simp only at hy
    rw [k3 h hm, hx] at hy; cases hy; exact .refl _

theorem applyImpulse_vel (e : InternalEntity α) (p j : Vec3 α) : VelRel e (e.applyImpulse p j) := rfl

theorem respondPair_first (k : Candidate α) (rt ta : α) (first second : InternalEntity α) (i1 i2 : StepInfo α) :
    VelRel first (respondPair k rt ta first second i1 i2).first := rfl
theorem respondPair_second (k : Candidate α) (rt ta : α) (first second : InternalEntity α) (i1 i2 : StepInfo α) :
    VelRel second (respondPair k rt ta first second i1 i2).second := rfl

theorem respondPair_firstInfo (k : Candidate α) (rt ta : α) (first second : InternalEntity α) (i1 i2 : StepInfo α) :
    let r := respondPair k rt ta first second i1 i2
    ∃ b : Bool,
      r.firstInfo = ⟨i1.handle, r.first.velocity.scale ta, r.first.angularVelocity.scale ta,
        if b then hsInsert i1.neighbors k.secondHandle else i1.neighbors⟩ ∧
      r.secondInfo = ⟨i2.handle, r.second.velocity.scale ta, r.second.angularVelocity.scale ta,
        if b then hsInsert i2.neighbors k.firstHandle else i2.neighbors⟩ := by
  unfold respondPair applyCollisionImpulse
  simp only
  refine ⟨(frictionImpulse
      (first.applyImpulse k.collision.position (collisionImpulse first second k.restitution k.collision))
      (second.applyImpulse k.collision.position (-collisionImpulse first second k.restitution k.collision))
      (collisionImpulse first second k.restitution k.collision) k).2, ?_⟩
  constructor <;> split <;> rfl

theorem respond_spec {dt : α} {k : Candidate α} {st st' : LoopState α} (hh : respond dt k st = .ok st') :
    ∃ first second i1 i2, k.firstHandle ≠ k.secondHandle ∧
      st.world.entities.get k.firstHandle = some first ∧ st.world.entities.get k.secondHandle = some second ∧
      st.infos[k.firstIndex]? = some i1 ∧ st.infos[k.secondIndex]? = some i2 ∧
      st' =
        (let r := respondPair k (st.currentPercent * dt) st.timeLeft first second i1 i2
         { st with
            world := { st.world with
              entities := (st.world.entities.set k.firstHandle r.first).set k.secondHandle r.second
              collisionRecords := st.world.collisionRecords ++ [r.record] }
            infos := (st.infos.set k.firstIndex r.firstInfo).set k.secondIndex r.secondInfo }) := by
  unfold respond at hh
  obtain ⟨⟨first, second⟩, hp, hh⟩ := Res.bind_eq_ok.mp hh
  obtain ⟨i1, h1, hh⟩ := Res.bind_eq_ok.mp hh
  obtain ⟨i2, h2, hh⟩ := Res.bind_eq_ok.mp hh
  obtain ⟨hne, hf, hs⟩ := get2_eq_ok.mp hp
  rw [index_eq_ok] at h1 h2
  cases hh
  exact ⟨first, second, i1, i2, hne, hf, hs, h1, h2, rfl⟩

theorem respond_get {a : Arena (InternalEntity α)} {h1 h2 : Handle} {x1 x2 y1 y2 : InternalEntity α}
    (hne : h1 ≠ h2) (hx1 : a.get h1 = some x1) (hx2 : a.get h2 = some x2) (h : Handle) :
    ((a.set h1 y1).set h2 y2).get h = if h = h2 then some y2 else if h = h1 then some y1 else a.get h := by
  have hx2' : (a.set h1 y1).get h2 = some x2 := by rw [Arena.get_set_ne (Ne.symm hne), hx2]
  rw [Arena.get_set]
  split
  · rw [hx2']; rfl
  · rw [Arena.get_set, hx1]; rfl

theorem respond_evolves {a : Arena (InternalEntity α)} {h1 h2 : Handle} {x1 x2 y1 y2 : InternalEntity α}
    (hne : h1 ≠ h2) (hx1 : a.get h1 = some x1) (hx2 : a.get h2 = some x2) (v1 : VelRel x1 y1) (v2 : VelRel x2 y2) :
    Arena.Evolves VelRel a ((a.set h1 y1).set h2 y2) := by
  refine ⟨(Arena.sameShape_set _ _ _).trans (Arena.sameShape_set _ _ _), ?_⟩
  intro h x y hx hy
  rw [respond_get hne hx1 hx2] at hy
  split at hy
  · rename_i hh; subst hh; rw [hx2] at hx; cases hx; cases hy; exact v2
  · split at hy
    · rename_i hh; subst hh; rw [hx1] at hx; cases hx; cases hy; exact v1
    · rw [hx] at hy; cases hy; exact .refl _

/-! ### The iteration loop -/

/-- Induction over the iterations: a property kept by the search-wake-advance part and by the response holds at
the end. -/
theorem iterate_induct {ord : IterOrder} {dt : α} {P : LoopState α → Prop}
    (body : ∀ st best w st1, P st → searchFirst ord st.world 0 st.infos none = .ok best →
      wakeColliding ord best st.world = .ok w → advance best { st with world := w } = .ok st1 →
      (best = none → P st1) ∧ (∀ k st2, best = some k → respond dt k st1 = .ok st2 → P st2)) :
    ∀ {n : Nat} {st st' : LoopState α} {c : Bool}, P st → iterate ord dt n st = .ok (st', c) → P st'
  | 0, st, st', c, hp, hh => by unfold iterate at hh; cases hh; exact hp
  | n + 1, st, st', c, hp, hh => by
    unfold iterate at hh
    obtain ⟨best, h1, hh⟩ := Res.bind_eq_ok.mp hh
    obtain ⟨w, h2, hh⟩ := Res.bind_eq_ok.mp hh
    obtain ⟨st1, h3, hh⟩ := Res.bind_eq_ok.mp hh
    obtain ⟨b1, b2⟩ := body st best w st1 hp h1 h2 h3
    split at hh
    · cases hh; exact b1 rfl
    · obtain ⟨st2, h4, hh⟩ := Res.bind_eq_ok.mp hh
      exact iterate_induct body (b2 _ _ rfl h4) hh

/-- What holds between iterations, relative to the world and the handles at the start. -/
structure LoopInv (w0 : World α) (hs : List Handle) (st : LoopState α) : Prop where
  frame : Frame w0 st.world
  handles : st.infos.map StepInfo.handle = hs
  live : ∀ h ∈ hs, ∃ e, st.world.entities.get h = some e
  neighbors : ∀ i ∈ st.infos, i.neighbors.Nodup ∧ ∀ n ∈ i.neighbors, n ∈ hs ∧ n ≠ i.handle

theorem map_handle_set {infos : List (StepInfo α)} {n : Nat} {i j : StepInfo α} (h : infos[n]? = some i)
    (hh : j.handle = i.handle) : (infos.set n j).map StepInfo.handle = infos.map StepInfo.handle := by
  rw [List.map_set]
  apply List.ext_getElem?
  intro m
  rw [List.getElem?_set]
  split
  · rename_i hm
    subst hm
    simp only [List.length_map, List.getElem?_map, h, Option.map_some]
    have : n < infos.length := by
      rcases Nat.lt_or_ge n infos.length with h' | h'
      · exact h'
      · rw [List.getElem?_eq_none h'] at h; cases h
    simp [this, hh]
  · rfl

theorem mem_set2 {infos : List (StepInfo α)} {n m : Nat} {a b x : StepInfo α} (h : x ∈ (infos.set n a).set m b) :
    x = a ∨ x = b ∨ x ∈ infos := by
  rcases List.mem_or_eq_of_mem_set h with h | h
  · rcases List.mem_or_eq_of_mem_set h with h | h
    · exact Or.inr (Or.inr h)
    · exact Or.inl h
  · exact Or.inr (Or.inl h)

theorem frame_wake {ord : IterOrder} {best : Option (Candidate α)} {w w' : World α}
    (hh : wakeColliding ord best w = .ok w') : Frame w w' := by
  obtain ⟨a, b⟩ := wakeColliding_evolves hh
  refine ⟨b.mono (fun _ _ => WakeRel.static), ?_, ?_, ?_, ?_⟩ <;> rw [a]

theorem frame_advance {best : Option (Candidate α)} {st st' : LoopState α}
    (hnd : (st.infos.map StepInfo.handle).Nodup) (hh : advance best st = .ok st') : Frame st.world st'.world := by
  obtain ⟨a, b, -, -⟩ := advance_spec hnd hh
  refine ⟨b, ?_, ?_, ?_, ?_⟩ <;> rw [a]

theorem frame_respond {dt : α} {k : Candidate α} {st st' : LoopState α} (hh : respond dt k st = .ok st') :
    Frame st.world st'.world := by
  obtain ⟨first, second, i1, i2, hne, hf, hs, -, -, rfl⟩ := respond_spec hh
  exact ⟨(respond_evolves hne hf hs (respondPair_first ..) (respondPair_second ..)).mono (fun _ _ => VelRel.static), rfl, rfl, rfl, rfl⟩

theorem Frame.live {w w' : World α} (f : Frame w w') {hs : List Handle}
    (h : ∀ x ∈ hs, ∃ e, w.entities.get x = some e) : ∀ x ∈ hs, ∃ e, w'.entities.get x = some e := by
  intro x hx
  obtain ⟨e, he⟩ := h x hx
  obtain ⟨e', he', -⟩ := f.entities.get he
  exact ⟨e', he'⟩

theorem loopInv_advance {w0 : World α} {hs : List Handle} {st st1 : LoopState α} {w : World α} {ord : IterOrder}
    {best : Option (Candidate α)} (hnd : hs.Nodup) (inv : LoopInv w0 hs st)
    (h2 : wakeColliding ord best st.world = .ok w) (h3 : advance best { st with world := w } = .ok st1) :
    LoopInv w0 hs st1 := by
  have hnd' : (st.infos.map StepInfo.handle).Nodup := by rw [inv.handles]; exact hnd
  have f1 := frame_wake h2
  have f2 := frame_advance (st := { st with world := w }) hnd' h3
  obtain ⟨a, -, -, -⟩ := advance_spec (st := { st with world := w }) hnd' h3
  have hi : st1.infos = st.infos.map (shrink (percentOf best)) := by rw [a]
  refine ⟨(inv.frame.trans f1).trans f2, ?_, f2.live (f1.live inv.live), ?_⟩
  · rw [hi, List.map_map, ← inv.handles]; rfl
  · intro i hm
    rw [hi] at hm
    obtain ⟨j, hj, rfl⟩ := List.mem_map.mp hm
    exact inv.neighbors j hj

theorem loopInv_respond {w0 : World α} {hs : List Handle} {st st' : LoopState α} {dt : α} {k : Candidate α}
    (inv : LoopInv w0 hs st) (hk : ∃ i1 i2, st.infos[k.firstIndex]? = some i1 ∧ st.infos[k.secondIndex]? = some i2 ∧
      i1.handle = k.firstHandle ∧ i2.handle = k.secondHandle) (hix : k.firstIndex ≠ k.secondIndex)
    (hh : respond dt k st = .ok st') : LoopInv w0 hs st' := by
  have f := frame_respond hh
  obtain ⟨first, second, i1, i2, hne, hf, hs', h1, h2, rfl⟩ := respond_spec hh
  obtain ⟨j1, j2, e1, e2, e3, e4⟩ := hk
  rw [h1] at e1; cases e1; rw [h2] at e2; cases e2
  obtain ⟨b, r1, r2⟩ := respondPair_firstInfo k (st.currentPercent * dt) st.timeLeft first second i1 i2
  have m1 := List.mem_of_getElem? h1
  have m2 := List.mem_of_getElem? h2
  have mh1 : i1.handle ∈ hs := by rw [← inv.handles]; exact List.mem_map_of_mem m1
  have mh2 : i2.handle ∈ hs := by rw [← inv.handles]; exact List.mem_map_of_mem m2
  refine ⟨inv.frame.trans f, ?_, f.live inv.live, ?_⟩
  · simp only
    rw [map_handle_set (i := i2), map_handle_set h1, inv.handles]
    · rw [r1]
    · rw [List.getElem?_set, if_neg hix, h2]
    · rw [r2]
  · intro i hi
    rcases mem_set2 hi with rfl | rfl | hi
    · rw [r1]
      have := inv.neighbors i1 m1
      simp only
      split
      · refine ⟨nodup_hsInsert this.1 _, fun n hn => ?_⟩
        rcases mem_hsInsert.mp hn with hn | rfl
        · exact this.2 n hn
        · exact ⟨e4 ▸ mh2, by rw [e3]; exact Ne.symm hne⟩
      · exact this
    · rw [r2]
      have := inv.neighbors i2 m2
      simp only
      split
      · refine ⟨nodup_hsInsert this.1 _, fun n hn => ?_⟩
        rcases mem_hsInsert.mp hn with hn | rfl
        · exact this.2 n hn
        · exact ⟨e3 ▸ mh1, by rw [e4]; exact hne⟩
      · exact this
    · exact inv.neighbors i hi

/-- The contact found by the search still names the right infos after advancing. -/
theorem contact_infos {ord : IterOrder} {st st1 : LoopState α} {w : World α} {k : Candidate α}
    (hnd : (st.infos.map StepInfo.handle).Nodup)
    (h1 : searchFirst ord st.world 0 st.infos none = .ok (some k))
    (h3 : advance (some k) { st with world := w } = .ok st1) :
    (∃ i1 i2, st1.infos[k.firstIndex]? = some i1 ∧ st1.infos[k.secondIndex]? = some i2 ∧
      i1.handle = k.firstHandle ∧ i2.handle = k.secondHandle) ∧ k.firstIndex ≠ k.secondIndex := by
  obtain ⟨hlt, -, i1, i2, g1, g2, g3, g4, -⟩ := (searchFirst_contact h1).indices
  obtain ⟨a, -, -, -⟩ := advance_spec (st := { st with world := w }) hnd h3
  have hi : st1.infos = st.infos.map (shrink (percentOf (some k))) := by rw [a]
  refine ⟨⟨shrink (percentOf (some k)) i1, shrink (percentOf (some k)) i2, ?_, ?_, g3, g4⟩, by omega⟩ <;> rw [hi, List.getElem?_map]
  · rw [g1]; rfl
  · rw [g2]; rfl

theorem loopInv_body {w0 : World α} {hs : List Handle} {ord : IterOrder} {dt : α} (hnd : hs.Nodup)
    {st st1 : LoopState α} {best : Option (Candidate α)} {w : World α} (inv : LoopInv w0 hs st)
    (h1 : searchFirst ord st.world 0 st.infos none = .ok best)
    (h2 : wakeColliding ord best st.world = .ok w) (h3 : advance best { st with world := w } = .ok st1) :
    LoopInv w0 hs st1 ∧ (∀ k st2, best = some k → respond dt k st1 = .ok st2 → LoopInv w0 hs st2) := by
  have i1 := loopInv_advance hnd inv h2 h3
  refine ⟨i1, ?_⟩
  rintro k st2 rfl h4
  obtain ⟨c1, c2⟩ := contact_infos (by rw [inv.handles]; exact hnd) h1 h3
  exact loopInv_respond i1 c1 c2 h4

theorem iterate_inv {w0 : World α} {hs : List Handle} {ord : IterOrder} {dt : α} (hnd : hs.Nodup)
    {n : Nat} {st st' : LoopState α} {c : Bool} (inv : LoopInv w0 hs st)
    (hh : iterate ord dt n st = .ok (st', c)) : LoopInv w0 hs st' :=
  iterate_induct (P := LoopInv w0 hs)
    (fun st best w st1 hp h1 h2 h3 =>
      have b := loopInv_body (dt := dt) hnd hp h1 h2 h3
      ⟨fun _ => b.1, b.2⟩) inv hh

/-! ### The sleep loop -/

/-- Only the neighbour set differs. -/
def NeighborRel (e e' : InternalEntity α) : Prop := e' = { e with neighbors := e'.neighbors }
theorem NeighborRel.refl (e : InternalEntity α) : NeighborRel e e := rfl
theorem NeighborRel.trans {a b c : InternalEntity α} (h : NeighborRel a b) (h' : NeighborRel b c) :
    NeighborRel a c := by rw [NeighborRel] at *; rw [h', h]
theorem NeighborRel.static {e e' : InternalEntity α} (h : NeighborRel e e') : StaticRel e e' := by
  rw [staticRel_iff, h]; simp

theorem linkNeighbors_spec {h : Handle} : ∀ {l : List Handle} {a b : Arena (InternalEntity α)},
    linkNeighbors h l a = .ok b → Arena.Evolves NeighborRel a b ∧
      (∀ k e e', a.get k = some e → b.get k = some e' →
        e'.neighbors = if k ∈ l then hsInsert e.neighbors h else e.neighbors)
  | [], a, b, hh => by
    unfold linkNeighbors at hh; cases hh
    refine ⟨.refl NeighborRel.refl _, ?_⟩
    intro k e e' he he'; rw [he] at he'; cases he'; simp
  | n :: l, a, b, hh => by
    unfold linkNeighbors at hh
    obtain ⟨e, he, hh⟩ := Res.bind_eq_ok.mp hh
    rw [unwrap_eq_ok] at he
    obtain ⟨k1, k2⟩ := linkNeighbors_spec hh
    have hs : Arena.Evolves NeighborRel a (a.set n { e with neighbors := hsInsert e.neighbors h }) :=
      Arena.Evolves.set NeighborRel.refl he rfl
    refine ⟨Arena.Evolves.trans (fun x y z => NeighborRel.trans (a := x) (b := y) (c := z)) hs k1, ?_⟩
    intro k x z hx hz
    obtain ⟨y, hy, -⟩ := hs.get hx
    rw [k2 k y z hy hz]
    rw [Arena.get_set] at hy
    by_cases hkn : k = n
    · subst hkn
      rw [if_pos rfl, he] at hy
      rw [he] at hx
      cases hx; cases hy
      simp only [List.mem_cons, true_or, if_true]
      split
      · have : h ∈ hsInsert e.neighbors h := mem_hsInsert.mpr (Or.inr rfl)
        rw [hsInsert, if_pos this]
      · rfl
    · rw [if_neg hkn, hx] at hy
      cases hy
      simp [hkn]

theorem linkNeighbors_ok {h : Handle} : ∀ {l : List Handle} (a : Arena (InternalEntity α)),
    (∀ n ∈ l, ∃ e, a.get n = some e) → ∃ b, linkNeighbors h l a = .ok b
  | [], a, _ => ⟨a, rfl⟩
  | n :: l, a, hl => by
    obtain ⟨e, he⟩ := hl n (by simp)
    unfold linkNeighbors
    rw [he]
    simp only [unwrap_some, Res.ok_bind]
    apply linkNeighbors_ok
    intro m hm
    obtain ⟨x, hx⟩ := hl m (by simp [hm])
    have := (Arena.sameShape_set a n { e with neighbors := hsInsert e.neighbors h }).isSome m
    rw [hx] at this
    exact Option.isSome_iff_exists.mp this

/-- The sleep decision for the entity itself (without the neighbour bookkeeping). -/
def settle (w : World α) (dt : α) (e : InternalEntity α) : InternalEntity α :=
  if e.asleep then { e with velocity := Vec3.zeros, angularVelocity := Vec3.zeros }
  else if Scalar.lt w.energySleepThreshold e.totalEnergy then
    { e with fallingAsleep := false, fallingAsleepTime := zero }
  else
    let time := if e.fallingAsleep then e.fallingAsleepTime + dt else e.fallingAsleepTime
    { e with fallingAsleep := true, fallingAsleepTime := time, asleep := !Scalar.lt time w.sleepTimeThreshold }

theorem settle_static (w : World α) (dt : α) (e : InternalEntity α) : StaticRel e (settle w dt e) := by
  rw [staticRel_iff]; unfold settle; split
  · simp
  · split <;> simp

theorem NeighborRel.settle {w : World α} {dt : α} {x y : InternalEntity α} (h : NeighborRel x y) :
    NeighborRel (settle w dt x) (settle w dt y) := by
  have h1 : y.asleep = x.asleep := by rw [h]
  have h2 : y.totalEnergy = x.totalEnergy := by rw [h]; rfl
  have h3 : y.fallingAsleep = x.fallingAsleep := by rw [h]
  have h4 : y.fallingAsleepTime = x.fallingAsleepTime := by rw [h]
  unfold Step.settle NeighborRel
  rw [h1, h2, h3, h4]
  split
  · rw [h]
  · split
    · rw [h]
    · rw [h]

/-- What one sleep decision does. -/
theorem sleepOne_spec {ord : IterOrder} {dt : α} {i : StepInfo α} {w w' : World α}
    (hself : i.handle ∉ i.neighbors) (hh : sleepOne ord dt i w = .ok w') :
    w' = { w with entities := w'.entities, debug := w'.debug } ∧
    Arena.SameShape w'.entities w.entities ∧
    (∃ e e', w.entities.get i.handle = some e ∧ w'.entities.get i.handle = some e' ∧
      NeighborRel (settle w dt e) e' ∧
      (e.asleep = false → e'.asleep = true → e'.neighbors = i.neighbors) ∧
      ((e.asleep = true ∨ e'.asleep = false) → e'.neighbors = e.neighbors) ∧
      (∀ k x y, k ≠ i.handle → w.entities.get k = some x → w'.entities.get k = some y →
        NeighborRel x y ∧ y.neighbors =
          if (e.asleep = false ∧ e'.asleep = true) ∧ k ∈ i.neighbors then hsInsert x.neighbors i.handle
          else x.neighbors)) ∧
    w'.debug = w.debug ++
      (match w.entities.get i.handle, w'.entities.get i.handle with
       | some e, some e' => if e.asleep = false ∧ e'.asleep = true then [.puttingToSleep i.handle] else []
       | _, _ => []) := by
  unfold sleepOne at hh
  obtain ⟨e, he, hh⟩ := Res.bind_eq_ok.mp hh
  rw [unwrap_eq_ok] at he
  have other : ∀ (y : InternalEntity α) k x z, k ≠ i.handle → w.entities.get k = some x →
      (w.entities.set i.handle y).get k = some z → z = x := by
    intro y k x z hk hx hz
    rw [Arena.get_set_ne hk, hx] at hz; cases hz; rfl
  split at hh
  · rename_i ha
    cases hh
    refine ⟨rfl, Arena.sameShape_set _ _ _, ⟨e, _, he, Arena.get_set_self he _, ?_, by simp [ha], by simp, ?_⟩, ?_⟩
    · unfold settle; rw [if_pos ha]; rfl
    · intro k x y hk hx hy
      cases other _ k x y hk hx hy
      exact ⟨.refl _, by simp [ha]⟩
    · simp [he, Arena.get_set_self he, ha]
  · rename_i ha
    rw [Bool.not_eq_true] at ha
    split at hh
    · rename_i hE
      cases hh
      refine ⟨rfl, Arena.sameShape_set _ _ _, ⟨e, _, he, Arena.get_set_self he _, ?_, by simp [ha], by simp, ?_⟩, ?_⟩
      · unfold settle; rw [if_neg (by simp [ha]), if_pos hE]; rfl
      · intro k x y hk hx hy
        cases other _ k x y hk hx hy
        exact ⟨.refl _, by simp [ha]⟩
      · simp [he, Arena.get_set_self he, ha]
    · rename_i hE
      simp only at hh
      generalize htime : (if e.fallingAsleep = true then e.fallingAsleepTime + dt else e.fallingAsleepTime) = time at hh
      split at hh
      · rename_i hT
        cases hh
        refine ⟨rfl, Arena.sameShape_set _ _ _, ⟨e, _, he, Arena.get_set_self he _, ?_, by simp [ha], by simp, ?_⟩, ?_⟩
        · unfold settle; rw [if_neg (by simp [ha]), if_neg hE]
          simp only [htime, hT, ha, NeighborRel, Bool.not_true]
        · intro k x y hk hx hy
          cases other _ k x y hk hx hy
          exact ⟨.refl _, by simp [ha]⟩
        · simp [he, Arena.get_set_self he, ha]
      · rename_i hT
        rw [Bool.not_eq_true] at hT
        obtain ⟨b, hb, hh⟩ := Res.bind_eq_ok.mp hh
        cases hh
        obtain ⟨l1, l2⟩ := linkNeighbors_spec hb
        obtain ⟨e', he', hr⟩ := l1.get (Arena.get_set_self he _)
        have hn := l2 _ _ _ (Arena.get_set_self he _) he'
        rw [if_neg (by rw [(ord.stepNeighbors_perm _ _).mem_iff]; exact hself)] at hn
        simp only at hn
        have has : e'.asleep = true := by rw [hr]
        refine ⟨rfl, l1.shape.trans (Arena.sameShape_set _ _ _), ⟨e, e', he, he', ?_, fun _ _ => hn, ?_, ?_⟩, ?_⟩
        · unfold settle; rw [if_neg (by simp [ha]), if_neg hE]
          rw [NeighborRel] at hr ⊢
          rw [hr]; simp [htime, hT]
        · rintro (h | h)
          · rw [ha] at h; cases h
          · rw [has] at h; cases h
        · intro k x z hk hx hz
          simp only at hz
          obtain ⟨y, hy, hyz⟩ := l1.get' hz
          have hzn := l2 k y z hy hz
          cases other _ k x y hk hx hy
          refine ⟨hyz, ?_⟩
          rw [hzn]
          simp [ha, has, (ord.stepNeighbors_perm _ _).mem_iff]
        · simp [he, he', ha, has]

theorem sleepOne_frame {ord : IterOrder} {dt : α} {i : StepInfo α} {w w' : World α}
    (hself : i.handle ∉ i.neighbors) (hh : sleepOne ord dt i w = .ok w') : Frame w w' := by
  obtain ⟨h1, h2, ⟨e, e', he, he', hr, -, -, ho⟩, -⟩ := sleepOne_spec hself hh
  refine ⟨⟨h2, ?_⟩, ?_, ?_, ?_, ?_⟩
  · intro k x y hx hy
    by_cases hk : k = i.handle
    · subst hk
      rw [he] at hx; rw [he'] at hy; cases hx; cases hy
      exact (settle_static w dt e).trans hr.static
    · exact (ho k x y hk hx hy).1.static
  all_goals rw [h1]

theorem sleepLoop_frame {ord : IterOrder} {dt : α} : ∀ {l : List (StepInfo α)} {w w' : World α},
    (∀ i ∈ l, i.handle ∉ i.neighbors) → sleepLoop ord dt l w = .ok w' →
    Frame w w' ∧ w'.collisionRecords = w.collisionRecords
  | [], w, w', _, hh => by unfold sleepLoop at hh; cases hh; exact ⟨.refl _, rfl⟩
  | i :: l, w, w', hl, hh => by
    unfold sleepLoop at hh
    obtain ⟨m, h1, hh⟩ := Res.bind_eq_ok.mp hh
    have h1' := sleepOne_frame (hl i (by simp)) h1
    obtain ⟨h2, h3⟩ := sleepLoop_frame (fun j hj => hl j (by simp [hj])) hh
    refine ⟨h1'.trans h2, ?_⟩
    rw [h3, (sleepOne_spec (hl i (by simp)) h1).1]

/-- What the sleep loop does to each entity: its own sleep decision, plus neighbour bookkeeping. -/
theorem sleepLoop_spec {ord : IterOrder} {dt : α} : ∀ {l : List (StepInfo α)} {w w' : World α},
    (l.map StepInfo.handle).Nodup → (∀ i ∈ l, i.handle ∉ i.neighbors) → sleepLoop ord dt l w = .ok w' →
    ∀ k x y, w.entities.get k = some x → w'.entities.get k = some y →
      NeighborRel (if k ∈ l.map StepInfo.handle then settle w dt x else x) y
  | [], w, w', _, _, hh => by
    unfold sleepLoop at hh; cases hh
    intro k x y hx hy; rw [hx] at hy; cases hy; exact .refl _
  | i :: l, w, w', hnd, hl, hh => by
    unfold sleepLoop at hh
    obtain ⟨m, h1, hh⟩ := Res.bind_eq_ok.mp hh
    rw [List.map_cons, List.nodup_cons] at hnd
    have hi := hl i (by simp)
    have ih := sleepLoop_spec hnd.2 (fun j hj => hl j (by simp [hj])) hh
    have fr := sleepOne_frame hi h1
    obtain ⟨h2, -, ⟨e, e', he, he', hr, -, -, ho⟩, -⟩ := sleepOne_spec hi h1
    have hset : ∀ x, settle m dt x = settle w dt x := by intro x; unfold settle; rw [fr.energy, fr.time]
    intro k x z hx hz
    obtain ⟨y, hy, -⟩ := fr.entities.get hx
    have := ih k y z hy hz
    by_cases hk : k = i.handle
    · subst hk
      rw [he] at hx; rw [he'] at hy; cases hx; cases hy
      rw [if_neg hnd.1] at this
      rw [if_pos (by simp)]
      exact hr.trans this
    · have hxy := (ho k x y hk hx hy).1
      simp only [List.map_cons, List.mem_cons, hk, false_or]
      split
      · rename_i hm
        rw [if_pos hm, hset] at this
        exact (hxy.settle).trans this
      · rename_i hm
        rw [if_neg hm] at this
        exact hxy.trans this

/-! ### The whole step -/

/-- The phases of a step that is not negligible. -/
structure Phases [ForceGenerator α γ] (ord : IterOrder) (s s' : System α γ) (dt : α) where
  /-- after integration -/
  mid : System α γ
  infos : List (StepInfo α)
  /-- after the iterations -/
  final : LoopState α
  concluded : Bool
  integrate : integrateAll dt s.generators.handles s.entities.handles { s with collisionRecords := [], debug := [] }
    = .ok (mid, infos)
  iterate : Step.iterate ord dt s.iterationMax ⟨mid.toWorld, infos, dt, zero⟩ = .ok (final, concluded)
  sleep : sleepLoop ord dt final.infos
    (if concluded then final.world else { final.world with debug := final.world.debug ++ [.ranOut] }) = .ok s'.toWorld
  generators : s'.generators = mid.generators

variable [ForceGenerator α γ]

theorem step_phases {ord : IterOrder} {s s' : System α γ} {dt : α} (hdt : Scalar.lt (Scalar.abs dt) EPSILON = false)
    (hh : s.step ord dt = .ok s') : Nonempty (Phases ord s s' dt) := by
  unfold System.step at hh
  rw [if_neg (by simp [hdt])] at hh
  obtain ⟨⟨mid, infos⟩, h1, hh⟩ := Res.bind_eq_ok.mp hh
  obtain ⟨⟨st, c⟩, h2, hh⟩ := Res.bind_eq_ok.mp hh
  obtain ⟨w, h3, hh⟩ := Res.bind_eq_ok.mp hh
  cases hh
  have hit : mid.iterationMax = s.iterationMax := by
    have := (integrateAll_spec (Arena.handles_nodup _) h1).1
    have := congrArg World.iterationMax this
    exact this
  refine ⟨⟨mid, infos, st, c, h1, ?_, h3, rfl⟩⟩
  rw [← hit]; exact h2

theorem Phases.inv0 {ord : IterOrder} {s s' : System α γ} {dt : α} (p : Phases ord s s' dt) :
    LoopInv s.toWorld s.entities.handles ⟨p.mid.toWorld, p.infos, dt, zero⟩ := by
  obtain ⟨k1, k2, k3, k4, k5, k6⟩ := integrateAll_spec (Arena.handles_nodup _) p.integrate
  have f : Frame s.toWorld p.mid.toWorld := by
    refine ⟨k3.mono (fun _ _ => VelRel.static), ?_, ?_, ?_, ?_⟩ <;> rw [k1]
  refine ⟨f, k5, f.live (fun x hx => Arena.mem_handles.mp hx), ?_⟩
  intro i hi
  obtain ⟨e, -, he⟩ := k6 i hi
  have : i.neighbors = [] := by rw [he]
  rw [this]; simp

theorem Phases.inv {ord : IterOrder} {s s' : System α γ} {dt : α} (p : Phases ord s s' dt) :
    LoopInv s.toWorld s.entities.handles p.final :=
  iterate_inv (Arena.handles_nodup _) p.inv0 p.iterate

theorem Phases.selfless {ord : IterOrder} {s s' : System α γ} {dt : α} (p : Phases ord s s' dt) :
    ∀ i ∈ p.final.infos, i.handle ∉ i.neighbors :=
  fun i hi hn => ((p.inv.neighbors i hi).2 _ hn).2 rfl

/-- What a step never changes. -/
theorem step_frame {ord : IterOrder} {s s' : System α γ} {dt : α} (hh : s.step ord dt = .ok s') :
    Frame s.toWorld s'.toWorld ∧ Arena.SameShape s'.generators s.generators := by
  cases hdt : Scalar.lt (Scalar.abs dt) EPSILON with
  | true =>
    unfold System.step at hh
    rw [if_pos hdt] at hh; cases hh
    exact ⟨.refl _, .refl _⟩
  | false =>
    obtain ⟨p⟩ := step_phases hdt hh
    obtain ⟨-, k2, -, -, -, -⟩ := integrateAll_spec (Arena.handles_nodup _) p.integrate
    refine ⟨?_, by rw [p.generators]; exact k2⟩
    have f := (sleepLoop_frame p.selfless p.sleep).1
    refine p.inv.frame.trans (.trans ?_ f)
    split
    · exact .refl _
    · exact ⟨.refl StaticRel.refl _, rfl, rfl, rfl, rfl⟩

end Fluffy.Step
