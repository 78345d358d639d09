import Verif.Props.Parabola
/-
C96: how a body turns that nothing touches, over any number of steps of any lengths.
-/
set_option linter.unusedSectionVars false
set_option linter.unusedSimpArgs false
namespace Fluffy.Props
open InternalEntity Step XReal Demo

/-! ### Turns about one axis -/

/-- Rodrigues' formula for a unit axis and any angle, also a negative one. -/
theorem rodrigues_signed {k : Vec3 ℝ} (hk : k.dot k = 1) (θ : ℝ) (v : Vec3 ℝ) :
    rodrigues (k.scale θ) v = v.scale (Real.cos θ) + (k.cross v).scale (Real.sin θ) + k.scale (k.dot v * (1 - Real.cos θ)) := by
  rcases lt_trichotomy 0 θ with h | h | h
  · exact Quat.rodrigues_axis h hk rfl v
  · subst h; simp
  · have hk' : (-k).dot (-k) = 1 := by rw [Vec3.neg_dot, Vec3.dot_neg, neg_neg, hk]
    rw [Quat.rodrigues_axis (k := -k) (θ := -θ) (by linarith) hk' (by ext <;> simp) v, Real.cos_neg, Real.sin_neg]
    ext <;> simp only [Vec3.add_x, Vec3.add_y, Vec3.add_z, Vec3.scale_x, Vec3.scale_y, Vec3.scale_z, Vec3.cross_x, Vec3.cross_y, Vec3.cross_z, Vec3.neg_x, Vec3.neg_y,
      Vec3.neg_z, Vec3.neg_dot] <;> ring

/-- Two turns about the same axis make one turn by the sum of the angles. -/
theorem rodrigues_add (w : Vec3 ℝ) (a b : ℝ) (v : Vec3 ℝ) : rodrigues (w.scale a) (rodrigues (w.scale b) v) = rodrigues (w.scale (a + b)) v := by
  by_cases hw : w = .o
  · subst hw; simp
  have hl := Vec3.len_pos hw
  have hk := Vec3.unit_normalize hw
  have e : ∀ t, w.scale t = (w.scale w.len⁻¹).scale (w.len * t) := by
    intro t; rw [Vec3.scale_scale]; congr 1; field_simp
  rw [e a, e b, e (a + b), mul_add]
  generalize w.scale w.len⁻¹ = k at *
  rw [rodrigues_signed hk, rodrigues_signed hk, rodrigues_signed hk, Real.cos_add, Real.sin_add]
  generalize Real.cos (w.len * a) = ca
  generalize Real.sin (w.len * a) = sa
  generalize Real.cos (w.len * b) = cb
  generalize Real.sin (w.len * b) = sb
  rw [Vec3.dot_def] at hk
  ext
  · simp only [Vec3.add_x, Vec3.add_y, Vec3.add_z, Vec3.scale_x, Vec3.scale_y, Vec3.scale_z, Vec3.cross_x, Vec3.cross_y, Vec3.cross_z, Vec3.dot_def]
    linear_combination (k.x * (k.x * v.x + k.y * v.y + k.z * v.z) * (1 - ca) * (1 - cb) - sa * sb * v.x) * hk
  · simp only [Vec3.add_x, Vec3.add_y, Vec3.add_z, Vec3.scale_x, Vec3.scale_y, Vec3.scale_z, Vec3.cross_x, Vec3.cross_y, Vec3.cross_z, Vec3.dot_def]
    linear_combination (k.y * (k.x * v.x + k.y * v.y + k.z * v.z) * (1 - ca) * (1 - cb) - sa * sb * v.y) * hk
  · simp only [Vec3.add_x, Vec3.add_y, Vec3.add_z, Vec3.scale_x, Vec3.scale_y, Vec3.scale_z, Vec3.cross_x, Vec3.cross_y, Vec3.cross_z, Vec3.dot_def]
    linear_combination (k.z * (k.x * v.x + k.y * v.y + k.z * v.z) * (1 - ca) * (1 - cb) - sa * sb * v.z) * hk

/-! ### One step -/

/-- All gravity generators have finite accelerations. -/
def Earthly (s : System XReal (GravityGenerator XReal)) : Prop := ∀ h g, s.generators.get h = some g → Finite3 g.acceleration

/-- A step turns an awake body that nothing touches by its angular velocity times `dt`, as the code computes rotations, and keeps the angular velocity. -/
theorem whirl_step {s s' : System XReal (GravityGenerator XReal)} {ord : IterOrder} {d : ℝ} (hd : Proper (fin d)) (hh : s.step ord (fin d) = .ok s')
    (hr : s'.collisionRecords = []) (hn : s.iterationMax ≠ 0) (hg : Earthly s) {h : Handle} {E : InternalEntity XReal} (hE : s.entities.get h = some E)
    (ha : E.asleep = false) (hf : FiniteInertia E.makePub) {o : Orientation ℝ} (ho : E.orientation = o.f) {v w : Vec3 ℝ} (hv : E.velocity = v.f)
    (hw : E.angularVelocity = w.f) :
    ∃ E' u, s'.entities.get h = some E' ∧ E'.velocity = Vec3.f u ∧ E'.angularVelocity = w.f ∧ E'.preppedMoment = E.preppedMoment ∧
      E'.orientation = (o.after (u.scale d) (w.scale d)).f := by
  obtain ⟨ph⟩ := step_phases hd hh
  have hp : s.getEntity h = some E.makePub := getEntity_eq_some.mpr ⟨E, hE, rfl⟩
  obtain ⟨q, hq, u, hv', hw'⟩ : ∃ q, ph.mid.getEntity h = some q ∧ ∃ u, q.velocity = Vec3.f u ∧ q.angularVelocity = E.angularVelocity := by
    cases hm : Pushable E.makePub with
    | true =>
      obtain ⟨q, hq, h1, h2⟩ := C22_gravity (s := { s with collisionRecords := [], debug := [] }) ph.integrate (k := h) hp hm
      have hfin : ∃ g : Vec3 ℝ, gravity s.generators = g.f := by
        unfold gravity
        suffices ∀ (l : List (GravityGenerator XReal)) (a : Vec3 ℝ), (∀ x ∈ l, Finite3 x.acceleration) →
            ∃ g : Vec3 ℝ, (l.map (·.acceleration)).foldl (· + ·) a.f = g.f by
          rw [Vec3.f_zeros]
          apply this
          intro x hx
          obtain ⟨k, -, hk⟩ := List.mem_filterMap.mp hx
          exact hg k x hk
        intro l
        induction l with
        | nil => intro a _; exact ⟨a, rfl⟩
        | cons x l ih =>
          intro a hl
          obtain ⟨b, hb⟩ := (hl x (by simp)).f
          simp only [List.map_cons, List.foldl_cons, hb, Vec3.f_add]
          exact ih _ (fun y hy => hl y (by simp [hy]))
      obtain ⟨g, hg'⟩ := hfin
      refine ⟨q, hq, v + g.scale d, ?_, h2 hf rfl hg⟩
      rw [h1, show E.makePub.velocity = v.f from hv]
      show v.f + (gravity s.generators).scale (fin d) = _
      rw [hg', Vec3.f_scale, Vec3.f_add]
    | false =>
      have := integrated_unforced (s := { s with collisionRecords := [], debug := [] }) ph.integrate (k := h) hp hf (.inl hm)
      exact ⟨_, this, v, hv, rfl⟩
  obtain ⟨x, hx, rfl⟩ := getEntity_eq_some.mp hq
  obtain ⟨y, hy, y1, y2, y3⟩ := ph.free hr hn hE ha hx
  have hst := (step_frame hh).1.entities.get hE
  obtain ⟨z, hz, hst⟩ := hst
  have hy : s'.entities.get h = some y := hy
  have hz : s'.entities.get h = some z := hz
  rw [hy] at hz; cases hz
  have hxv : x.velocity = u.f := hv'
  have hxw : x.angularVelocity = w.f := by rw [← hw]; exact hw'
  refine ⟨y, u, hy, y1.trans hxv, y2.trans hxw, ?_, ?_⟩
  · exact (staticRel_iff.mp hst).2.2.2.1
  · rw [y3, hxv, hxw, ho]
    show o.f.afterAffected ((u.f.scale (fin d)).scale one) ((w.f.scale (fin d)).scale one) = _
    rw [scale_oneX, scale_oneX, Vec3.f_scale, Vec3.f_scale, Orientation.f_afterAffected]

/-! ### Any number of steps -/

/-- Steps one after the other in which no collision is recorded, and before each of which the entity is awake. `T` is the sum of their lengths, `S` that of the lengths of
those in which a body with angular velocity `w` turns by more than `2^-22`. -/
inductive Whirls (w : Vec3 ℝ) (h : Handle) (s : System XReal (GravityGenerator XReal)) : ℕ → ℝ → ℝ → System XReal (GravityGenerator XReal) → Prop where
  | nil : Whirls w h s 0 0 0 s
  | snoc {n : ℕ} {m s' : System XReal (GravityGenerator XReal)} {ord : IterOrder} {d T S : ℝ} : Whirls w h s n T S m → Proper (fin d) → m.step ord (fin d) = .ok s' →
      s'.collisionRecords = [] → (∀ p, m.getEntity h = some p → p.asleep = false) →
      Whirls w h s (n + 1) (T + d) (if 1 / 4194304 < w.len * |d| then S + d else S) s'

/-- The body after the steps. -/
theorem Whirls.run {w : Vec3 ℝ} {h : Handle} {s s' : System XReal (GravityGenerator XReal)} {n : ℕ} {T S : ℝ} (hf : Whirls w h s n T S s') (hn : s.iterationMax ≠ 0)
    (hg : Earthly s) {p : Entity XReal} (hp : s.getEntity h = some p) (hi : FiniteInertia p) (hu : UnitPose p.lastOrientation) (hv : Finite3 p.velocity)
    (hw : p.angularVelocity = w.f) : ∃ (p' : Entity XReal) (o o' : Orientation ℝ), s'.getEntity h = some p' ∧ p'.angularVelocity = w.f ∧ p.lastOrientation = o.f ∧
      p'.lastOrientation = o'.f ∧ o.Unit ∧ o'.Unit ∧ (∀ v, o'.rotation.rot v = rodrigues (w.scale S) (o.rotation.rot v)) := by
  obtain ⟨E, gE, rfl⟩ := getEntity_eq_some.mp hp
  obtain ⟨o, ho, uo⟩ := hu.rigid
  obtain ⟨v, hv⟩ := hv.f
  suffices hs : s'.iterationMax ≠ 0 ∧ Earthly s' ∧ ∃ E' u o', s'.entities.get h = some E' ∧ E'.velocity = Vec3.f u ∧ E'.angularVelocity = w.f ∧
      E'.preppedMoment = E.preppedMoment ∧ E'.orientation = Orientation.f o' ∧ o'.Unit ∧ ∀ v, o'.rotation.rot v = rodrigues (w.scale S) (o.rotation.rot v) by
    obtain ⟨-, -, E', u, o', h1, -, h3, -, h5, h6, h7⟩ := hs
    exact ⟨E'.makePub, o, o', getEntity_eq_some.mpr ⟨E', h1, rfl⟩, h3, ho, h5, uo, h6, h7⟩
  induction hf with
  | nil => exact ⟨hn, hg, E, v, o, gE, hv, hw, rfl, ho, uo, fun x => by simp⟩
  | @snoc n m s' ord d T S hf hd hh hr ha ih =>
    obtain ⟨i1, i2, E1, v1, o1, h1, h2, h3, h4, h5, h6, h7⟩ := ih
    have hfi : FiniteInertia E1.makePub := by
      have hx := hi.r1
      refine ⟨?_, ?_, ?_, ?_⟩
      · show FinitePose E1.orientation
        have := unitPose_f h6
        rw [h5]; exact ⟨this.position, this.offset, this.w, this.v⟩
      · show Finite3 E1.preppedMoment.r1; rw [h4]; exact hi.r1
      · show Finite3 E1.preppedMoment.r2; rw [h4]; exact hi.r2
      · show Finite3 E1.preppedMoment.r3; rw [h4]; exact hi.r3
    have ha : E1.asleep = false := ha E1.makePub (getEntity_eq_some.mpr ⟨E1, h1, rfl⟩)
    obtain ⟨E2, v2, g1, g2, g3, g4, g5⟩ := whirl_step hd hh hr i1 i2 h1 ha hfi h5 h2 h3
    refine ⟨by rw [(step_frame hh).1.iterationMax]; exact i1, ?_, E2, v2, _, g1, g2, g3, g4.trans h4, g5, Orientation.after_unit _ h6 _ _, ?_⟩
    · intro k g hk
      exact i2 k g (by rw [← step_gravity hd hh k]; exact hk)
    · intro x
      show ((Quat.exp (w.scale d)).mul o1.rotation).rot x = _
      rw [Quat.rot_mul _ (Quat.exp_normSq _) h6, h7]
      have hm : 2 * Quat.meps = 1 / 4194304 := by unfold Quat.meps; norm_num
      have hl : (w.scale d).len = w.len * |d| := Vec3.len_scale _ _
      split
      · rename_i hc
        rw [Quat.exp_rot (by rw [hl, hm]; exact hc), rodrigues_add, add_comm]
      · rename_i hc
        rw [Quat.exp_small (by rw [hl, hm]; exact not_lt.mp hc), Quat.rot_e]

/-- What the public rotation vector of an entity does to vectors is what its quaternion does. -/
theorem rotation_rot {s : World XReal} {h : Handle} {p : Entity XReal} (hp : s.getEntity h = some p) {o : Orientation ℝ} (ho : p.lastOrientation = o.f) (hu : o.Unit) :
    ∃ R : Vec3 ℝ, p.rotation = R.f ∧ ∀ v, rodrigues R v = o.rotation.rot v := by
  obtain ⟨E, -, rfl⟩ := getEntity_eq_some.mp hp
  refine ⟨Quat.log o.rotation, ?_, fun v => Quat.log_rot hu v⟩
  show E.orientation.rotationVec = _
  rw [show E.orientation = o.f from ho, Orientation.f_rotationVec]

/-- **C96.** A body that nothing touches keeps its angular velocity `w`, and turns by `w` times the total length of those steps in which it turns by more than `2^-22`: every
vector `v` fixed to it ends up at the place where a turn about the axis `w` by the angle `|w| S` takes it.
Missing from the full statement: that it turns by `w` times the total length of all steps, which is false for slow turns (`C96_false`). -/
theorem C96_turns_partial {w : Vec3 ℝ} {h : Handle} {s s' : System XReal (GravityGenerator XReal)} {n : ℕ} {T S : ℝ} (hf : Whirls w h s n T S s') (hn : s.iterationMax ≠ 0)
    (hg : Earthly s) {p : Entity XReal} (hp : s.getEntity h = some p) (hi : FiniteInertia p) (hu : UnitPose p.lastOrientation) (hv : Finite3 p.velocity)
    (hw : p.angularVelocity = w.f) :
    ∃ (p' : Entity XReal) (R R' : Vec3 ℝ), s'.getEntity h = some p' ∧ p'.angularVelocity = p.angularVelocity ∧ p.rotation = R.f ∧ p'.rotation = R'.f ∧
      ∀ v, rodrigues R' v = rodrigues (w.scale S) (rodrigues R v) := by
  obtain ⟨p', o, o', h1, h2, h3, h4, h5, h6, h7⟩ := hf.run hn hg hp hi hu hv hw
  obtain ⟨R, hR, e⟩ := rotation_rot hp h3 h5
  obtain ⟨R', hR', e'⟩ := rotation_rot h1 h4 h6
  exact ⟨p', R, R', h1, h2.trans hw.symm, hR, hR', fun v => by rw [e', h7, e]⟩

/-- **C96**, what the rotation does to the points fixed to the body: a point of its local space that was at `r` from the centre of mass ends up at `r` turned by `w S`. -/
theorem C96_points {w : Vec3 ℝ} {h : Handle} {s s' : System XReal (GravityGenerator XReal)} {n : ℕ} {T S : ℝ} (hf : Whirls w h s n T S s') (hn : s.iterationMax ≠ 0)
    (hg : Earthly s) {p p' : Entity XReal} (hp : s.getEntity h = some p) (hi : FiniteInertia p) (hu : UnitPose p.lastOrientation) (hv : Finite3 p.velocity)
    (hw : p.angularVelocity = w.f) (hp' : s'.getEntity h = some p') {q r : Vec3 ℝ} (hq : p.lastOrientation.positionIntoWorld q.f = p.position + r.f) :
    p'.lastOrientation.positionIntoWorld q.f = p'.position + (rodrigues (w.scale S) r).f := by
  obtain ⟨p1, o, o', h1, -, h3, h4, h5, h6, h7⟩ := hf.run hn hg hp hi hu hv hw
  rw [hp'] at h1; cases h1
  have hx : p.position = o.position.f := by
    obtain ⟨E, -, rfl⟩ := getEntity_eq_some.mp hp
    show E.orientation.position = _
    rw [show E.orientation = o.f from h3]; rfl
  have hx' : p'.position = o'.position.f := by
    obtain ⟨E, -, rfl⟩ := getEntity_eq_some.mp hp'
    show E.orientation.position = _
    rw [show E.orientation = o'.f from h4]; rfl
  have hoff : o'.internalOriginOffset = o.internalOriginOffset := by
    have : ∀ {n : ℕ} {T S : ℝ} {t : System XReal (GravityGenerator XReal)}, Whirls w h s n T S t → ∀ E E', s.entities.get h = some E → t.entities.get h = some E' →
        E'.orientation.internalOriginOffset = E.orientation.internalOriginOffset := by
      intro n T S t hf
      induction hf with
      | nil => intro E E' hE hE'; rw [hE] at hE'; cases hE'; rfl
      | snoc _ _ hh _ _ ih =>
        intro E E' hE hE'
        obtain ⟨X, gX, hst⟩ := (step_frame hh).1.entities.get' hE'
        rw [← ih E X hE gX]
        exact (staticRel_iff.mp hst).1
    obtain ⟨E, gE, rfl⟩ := getEntity_eq_some.mp hp
    obtain ⟨E', gE', rfl⟩ := getEntity_eq_some.mp hp'
    have := this hf E E' gE gE'
    rw [show E.orientation = o.f from h3, show E'.orientation = o'.f from h4, Orientation.f_offset, Orientation.f_offset, Vec3.f_inj] at this
    exact this
  rw [h3, Orientation.f_positionIntoWorld _ _ h5, hx, Vec3.f_add, Vec3.f_inj] at hq
  rw [h4, Orientation.f_positionIntoWorld _ _ h6, hx', Vec3.f_add, Vec3.f_inj]
  unfold Orientation.toWorld at hq ⊢
  rw [h7, hoff]
  have : o.rotation.rot (q + o.internalOriginOffset) = r := by
    have hh : ∀ a b c : Vec3 ℝ, a + b = a + c → b = c := by
      intro a b c hc
      have hx := congrArg Vec3.x hc; have hy := congrArg Vec3.y hc; have hz := congrArg Vec3.z hc
      simp only [Vec3.add_x, Vec3.add_y, Vec3.add_z, add_right_inj] at hx hy hz
      ext
      · exact hx
      · exact hy
      · exact hz
    exact hh _ _ _ hq
  rw [this]

/-! ### A body that turns for any number of steps -/

/-- A body of 1 kg that turns, with gravity as on earth, and never to fall asleep. -/
theorem whirl_system (w : Vec3 ℝ) : ∃ (s : System XReal (GravityGenerator XReal)) (p : Entity XReal), Reachable s ∧ Projectile s ∧ s.iterationMax ≠ 0 ∧ Earthly s ∧
    s.getEntity h0 = some p ∧ FiniteInertia p ∧ UnitPose p.lastOrientation ∧ p.velocity = Vec3.f ⟨3, 20, 0⟩ ∧ p.angularVelocity = w.f ∧ p.rotation = Vec3.o.f := by
  let E : InternalEntity XReal := { Scene.dot (fin 1) .o ⟨3, 20, 0⟩ [] Scene.up with angularVelocity := w.f }
  have hsrc : InternalEntity.newFrom { Scene.source (fin 1) .o ⟨3, 20, 0⟩ with angularVelocity := w.f } = some E := by
    have hm' : ¬ Scalar.lt (fin 1 : XReal) zero = true := by simp
    unfold InternalEntity.newFrom
    rw [if_neg (by exact hm')]
    simp only [E, Scene.source, Entity.new, Entity.makeOrientation, Vec3.f_zeros, Mat3.f_zeros, Orientation.f_new, Quat.exp_o, Scene.dot, Scene.up, Scene.pose, zero_eq,
      Orientation.f_offset]
  let s1 : System XReal (GravityGenerator XReal) := ((System.new : System XReal (GravityGenerator XReal)).addGenerator ⟨Vec3.f ⟨0, -10, 0⟩⟩).1
  let s : System XReal (GravityGenerator XReal) := { (s1.addEntity { Scene.source (fin 1) .o ⟨3, 20, 0⟩ with angularVelocity := w.f }).1 with
    iterationMax := 5, energySleepThreshold := fin 1, sleepTimeThreshold := posInf, collisionRecords := [], debug := [] }
  have hreach : Reachable s :=
    ⟨_, .snoc .id (.configure 5 (fin 1) posInf [] []) .unit (.snoc .id (.addEntity { Scene.source (fin 1) .o ⟨3, 20, 0⟩ with angularVelocity := w.f }) _
      (.snoc .id (.addGenerator ⟨Vec3.f ⟨0, -10, 0⟩⟩) _ .nil rfl) rfl) rfl⟩
  have hget : s.entities.get h0 = some E := by
    simp only [s, s1, System.addGenerator, System.addEntity, hsrc]; rfl
  have hall : ∀ k X, s.entities.get k = some X → k = h0 ∧ X = E := by
    intro k X hX
    have hX : ((Arena.new : Arena (InternalEntity XReal)).insert E).1.get k = some X := by
      simp only [s, s1, System.addGenerator, System.addEntity, hsrc] at hX; exact hX
    rw [Arena.get_insert Arena.wf_new] at hX
    split at hX
    · rename_i hk; cases hX; exact ⟨hk, rfl⟩
    · rw [Arena.get_new] at hX; cases hX
  have hproj : Projectile s := by
    refine ⟨⟨⟨_, hget⟩, fun k X hX => ?_, fun k X m hX hm => ?_⟩, ⟨_, 0, hget, rfl, rfl⟩, rfl⟩
    · obtain ⟨a, rfl⟩ := hall k X hX; exact ⟨a, rfl⟩
    · obtain ⟨-, rfl⟩ := hall k X hX; cases hm
  have hp : s.getEntity h0 = some E.makePub := getEntity_eq_some.mpr ⟨_, hget, rfl⟩
  have hg : Earthly s := by
    intro k g hk
    have hgs : s.generators = s1.generators := by simp only [s, System.addEntity, hsrc]
    rw [hgs] at hk
    have hk : ((Arena.new : Arena (GravityGenerator XReal)).insert ⟨Vec3.f ⟨0, -10, 0⟩⟩).1.get k = some g := hk
    rw [Arena.get_insert Arena.wf_new] at hk
    split at hk
    · cases hk; exact finite3_f _
    · rw [Arena.get_new] at hk; cases hk
  have hU : Orientation.Unit (Scene.pose .o) := by simp [Scene.pose, Orientation.Unit]
  have hup : UnitPose E.makePub.lastOrientation := unitPose_f hU
  refine ⟨s, _, hreach, hproj, Nat.succ_ne_zero 4, hg, hp, ?_, hup, rfl, rfl, ?_⟩
  · exact ⟨⟨hup.position, hup.offset, hup.w, hup.v⟩, finite3_f Vec3.o, finite3_f Vec3.o, finite3_f Vec3.o⟩
  · show (Scene.pose .o).f.rotationVec = _
    rw [Orientation.f_rotationVec]
    show (Quat.log Quat.e).f = _
    rw [Quat.log_e]

theorem Projectile.whirls {s : System XReal (GravityGenerator XReal)} (hs : Projectile s) {d : ℝ} (hd : 1 / 1000000 ≤ d) (w : Vec3 ℝ) (n : ℕ) :
    ∃ s', Projectile s' ∧ Whirls w h0 s n (n * d) (if 1 / 4194304 < w.len * |d| then n * d else 0) s' := by
  have hp : Proper (fin d) := proper_fin hd
  induction n with
  | zero => exact ⟨s, hs, by simpa using Whirls.nil⟩
  | succ n ih =>
    obtain ⟨m, hm, hf⟩ := ih
    obtain ⟨s', hh, hrec, hs', awake⟩ := hm.fly hp
    refine ⟨s', hs', ?_⟩
    have := Whirls.snoc hf hp hh hrec awake
    convert this using 1
    · push_cast; ring
    · split
      · push_cast; ring
      · rfl

/-- The hypotheses are met, for any number of steps and any angular velocity: after `n` steps of 1/100 s a body that turns by more than `2^-22` in each of them is turned
by `w n / 100`. -/
theorem C96_applies (w : Vec3 ℝ) (hw : 1 / 41943 ≤ w.len) (n : ℕ) : ∃ (s s' : System XReal (GravityGenerator XReal)) (p p' : Entity XReal) (R' : Vec3 ℝ), Reachable s ∧
    Whirls w h0 s n (n * (1 / 100)) (n * (1 / 100)) s' ∧ s.iterationMax ≠ 0 ∧ Earthly s ∧ s.getEntity h0 = some p ∧ FiniteInertia p ∧ UnitPose p.lastOrientation ∧
    Finite3 p.velocity ∧ p.angularVelocity = w.f ∧ p.rotation = Vec3.o.f ∧ s'.getEntity h0 = some p' ∧ p'.rotation = R'.f ∧
    ∀ v, rodrigues R' v = rodrigues (w.scale (n * (1 / 100))) v := by
  obtain ⟨s, p, hr, hproj, hn, hg, hp, hi, hu, hv, hw', hrot⟩ := whirl_system w
  obtain ⟨s', -, hf⟩ := hproj.whirls (d := 1 / 100) (by norm_num) w n
  rw [if_pos (by rw [abs_of_pos (by norm_num)]; linarith)] at hf
  have hv' : Finite3 p.velocity := by rw [hv]; exact finite3_f _
  obtain ⟨p', R, R', h1, -, h3, h4, h5⟩ := C96_turns_partial hf hn hg hp hi hu hv' hw'
  refine ⟨s, s', p, p', R', hr, hf, hn, hg, hp, hi, hu, hv', hw', hrot, h1, h4, fun v => ?_⟩
  rw [hrot, Vec3.f_inj] at h3
  rw [h5, ← h3, rodrigues_o]

/-- The hour hand of a clock: it turns once in twelve hours. -/
noncomputable def hourHand : Vec3 ℝ := ⟨0, 0, 2 * Real.pi / 43200⟩

theorem hourHand_len : hourHand.len = 2 * Real.pi / 43200 := by
  have h : hourHand = Vec3.scale ⟨0, 0, 1⟩ (2 * Real.pi / 43200) := by unfold hourHand; ext <;> simp
  rw [h, Vec3.len_scale, abs_of_pos (by have := Real.pi_pos; positivity)]
  have : (⟨0, 0, 1⟩ : Vec3 ℝ).len = 1 := by unfold Vec3.len; simp [Vec3.dot_def]
  rw [this, one_mul]

/-- **C96**, slow turns are lost: an hour hand moved in steps of a millisecond has its angular velocity, and stands still for as many steps as one likes. -/
theorem C96_hand_stands (n : ℕ) : ∃ (s s' : System XReal (GravityGenerator XReal)) (p p' : Entity XReal), Reachable s ∧ Whirls hourHand h0 s n (n * (1 / 1000)) 0 s' ∧
    s.iterationMax ≠ 0 ∧ Earthly s ∧ s.getEntity h0 = some p ∧ FiniteInertia p ∧ UnitPose p.lastOrientation ∧ Finite3 p.velocity ∧ p.angularVelocity = hourHand.f ∧
    p.rotation = Vec3.o.f ∧ s'.getEntity h0 = some p' ∧ p'.angularVelocity = hourHand.f ∧ ∃ R', p'.rotation = Vec3.f R' ∧ ∀ v, rodrigues R' v = v := by
  obtain ⟨s, p, hr, hproj, hn, hg, hp, hi, hu, hv, hw', hrot⟩ := whirl_system hourHand
  obtain ⟨s', -, hf⟩ := hproj.whirls (d := 1 / 1000) (by norm_num) hourHand n
  rw [if_neg (by
    rw [abs_of_pos (by norm_num), hourHand_len]
    have := Real.pi_le_four
    linarith)] at hf
  have hv' : Finite3 p.velocity := by rw [hv]; exact finite3_f _
  obtain ⟨p', R, R', h1, h2, h3, h4, h5⟩ := C96_turns_partial hf hn hg hp hi hu hv' hw'
  refine ⟨s, s', p, p', hr, hf, hn, hg, hp, hi, hu, hv', hw', hrot, h1, h2.trans hw', R', h4, fun v => ?_⟩
  rw [hrot, Vec3.f_inj] at h3
  rw [h5, ← h3, rodrigues_o, Vec3.scale_zero, rodrigues_o]

/-- **C96 is false**: after six hours the hour hand should point the other way, but has not moved. -/
theorem C96_false : ∃ (s s' : System XReal (GravityGenerator XReal)) (p p' : Entity XReal) (w R R' v : Vec3 ℝ) (n : ℕ) (T S : ℝ), Reachable s ∧ Whirls w h0 s n T S s' ∧
    s.iterationMax ≠ 0 ∧ Earthly s ∧ s.getEntity h0 = some p ∧ FiniteInertia p ∧ UnitPose p.lastOrientation ∧ Finite3 p.velocity ∧ p.angularVelocity = w.f ∧
    p.rotation = R.f ∧ s'.getEntity h0 = some p' ∧ p'.rotation = R'.f ∧ rodrigues (w.scale T) (rodrigues R v) = -v ∧ rodrigues R' v = v ∧ v.len = 1 := by
  obtain ⟨s, s', p, p', hr, hf, hn, hg, hp, hi, hu, hv, hw, hrot, hp', -, R', hR', hst⟩ := C96_hand_stands 21600000
  refine ⟨s, s', p, p', hourHand, .o, R', ⟨1, 0, 0⟩, _, _, _, hr, hf, hn, hg, hp, hi, hu, hv, hw, hrot, hp', hR', ?_, hst _, ?_⟩
  · rw [rodrigues_o]
    have h : hourHand.scale (((21600000 : ℕ) : ℝ) * (1 / 1000)) = Vec3.scale ⟨0, 0, 1⟩ Real.pi := by unfold hourHand; ext <;> simp <;> ring
    rw [h, rodrigues_signed (by simp [Vec3.dot_def])]
    ext <;> simp [Vec3.dot_def]
  · unfold Vec3.len; simp [Vec3.dot_def]

end Fluffy.Props
