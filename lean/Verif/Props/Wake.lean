import Verif.Num.LogExp
import Verif.Num.MassState
import Verif.Proofs.Paired
import Verif.Props.Scene
import Verif.Props.Witness
/- When `update_entity` wakes an entity. -/
set_option linter.unusedSectionVars false
set_option linter.unusedSimpArgs false
namespace Fluffy.Props
open XReal InternalEntity

variable {γ : Type} [ForceGenerator XReal γ]

/-- The numbers of an entity that a caller can change, with the rotation as a quaternion. -/
structure Situation where
  position : Vec3 ℝ
  rotation : Quat ℝ
  velocity : Vec3 ℝ
  angularVelocity : Vec3 ℝ

/-- The situation of a stored entity. -/
structure Situation.Of (a : Situation) (e : InternalEntity XReal) : Prop where
  position : e.orientation.position = a.position.f
  rotation : e.orientation.rotation = a.rotation.f
  velocity : e.velocity = a.velocity.f
  angularVelocity : e.angularVelocity = a.angularVelocity.f

/-- The situation a caller asks for. -/
structure Situation.Asked (a : Situation) (e : Entity XReal) : Prop where
  position : e.position = a.position.f
  rotation : ∃ r : Vec3 ℝ, e.rotation = r.f ∧ a.rotation = Quat.exp r
  velocity : e.velocity = a.velocity.f
  angularVelocity : e.angularVelocity = a.angularVelocity.f

/-- Two situations differ by more than `10⁻⁶` in one of their parts. -/
def Situation.Apart (a b : Situation) : Prop :=
  1 / 1000000 < (a.position - b.position).len ∨ 1 / 1000000 < Quat.gap a.rotation b.rotation ∨
  1 / 1000000 < (a.velocity - b.velocity).len ∨ 1 / 1000000 < (a.angularVelocity - b.angularVelocity).len

theorem rotationDelta_eq (a b : Quat ℝ) : rotationDelta a.f b.f = fin (Quat.gap a b) := by
  unfold rotationDelta
  simp only [Quat.f, fin_sub, fin_mul, fin_add]
  rw [fin_sqrt (by nlinarith [mul_self_nonneg (a.w - b.w), mul_self_nonneg (a.i - b.i), mul_self_nonneg (a.j - b.j),
    mul_self_nonneg (a.k - b.k)])]
  unfold Quat.gap
  congr 2; ring

theorem gap_comm (a b : Quat ℝ) : Quat.gap a b = Quat.gap b a := by unfold Quat.gap; congr 1; ring

theorem eq_iff {a b : XReal} (hb : b ≠ nan) : Scalar.eq a b = true ↔ a = b := by
  show XReal.eq a b = true ↔ _
  cases a <;> cases b <;> simp_all [XReal.eq]

theorem changed_iff {e : InternalEntity XReal} {src : Entity XReal} {a b : Situation} (ha : a.Of e) (hb : b.Asked src)
    (hm : src.ownMass ≠ nan) : e.changed src = true ↔ e.ownMass ≠ src.ownMass ∨ a.Apart b := by
  obtain ⟨r, hr, hr'⟩ := hb.rotation
  unfold changed
  rw [ha.position, ha.rotation, ha.velocity, ha.angularVelocity, hb.position, hr, hb.velocity, hb.angularVelocity,
    Quat.f_fromScaledAxis, rotationDelta_eq, Vec3.f_sub, Vec3.f_sub, Vec3.f_sub, Vec3.f_magnitude, Vec3.f_magnitude,
    Vec3.f_magnitude, EPSILON_eq, ← hr', gap_comm]
  have := eq_iff (a := e.ownMass) hm
  unfold Situation.Apart
  cases h : Scalar.eq e.ownMass src.ownMass <;> rw [h] at this <;> simp at this <;> simp [this, or_assoc]

/-- **C28, when an update wakes**: a successful `update_entity` wakes the entity, and it forgets its neighbours, exactly
when its own mass changes or one of position, rotation, velocity and angular velocity changes by more than `10⁻⁶`.
Otherwise no entity wakes, falls asleep or changes its neighbours. -/
theorem C28_update_wakes_iff {s s' : System XReal γ} {ord : IterOrder} {h : Handle} {e : InternalEntity XReal}
    {src : Entity XReal} {a b : Situation} (he : s.entities.get h = some e) (ha : a.Of e) (hb : b.Asked src)
    (hm : src.ownMass ≠ nan) (hh : s.updateEntity ord h src = .ok (s', true)) :
    (e.ownMass ≠ src.ownMass ∨ a.Apart b → ∃ e', s'.entities.get h = some e' ∧ e'.asleep = false ∧ e'.neighbors = []) ∧
    (¬(e.ownMass ≠ src.ownMass ∨ a.Apart b) → ∀ k x, s.entities.get k = some x →
      ∃ x', s'.entities.get k = some x' ∧ x'.asleep = x.asleep ∧ x'.neighbors = x.neighbors) := by
  rcases System.updateEntity_spec hh with ⟨hc, -⟩ | ⟨-, E, E1, E2, w, hE, hu, hr, hw⟩
  · cases hc
  · rw [he] at hE; cases hE
    obtain ⟨-, hw', hE1⟩ := System.updateFrom_fields hu
    have hr' := recalculateMass_massRel hr
    rw [← changed_iff ha hb hm, ← hw']
    rcases hw with ⟨rfl, rfl⟩ | ⟨rfl, es, d, hwk, rfl⟩
    · refine ⟨fun h => by simp at h, fun _ k x hx => ?_⟩
      by_cases hk : k = h
      · subst hk
        rw [he] at hx; cases hx
        exact ⟨E2, Arena.get_set_self he _, by rw [hr'.asleep, hE1], by rw [hr'.neighbors, hE1]⟩
      · exact ⟨x, by rw [Arena.get_set_ne hk]; exact hx, rfl, rfl⟩
    · refine ⟨fun _ => ?_, fun h => by simp at h⟩
      obtain ⟨w1, w2, -⟩ := wakeUp_spec hwk
      obtain ⟨e', he', -⟩ := w1.get (Arena.get_set_self he E2)
      exact ⟨e', he', ((w2 h E2 e' (Arena.get_set_self he E2) he').1 .start).1,
        ((w2 h E2 e' (Arena.get_set_self he E2) he').1 .start).2⟩

/-- **C28, what does hold**: writing back what `get_entity` returns succeeds and leaves every entity as asleep as it was,
if the numbers of the entity are finite, its own mass is not NaN, and the scalar part of its rotation quaternion is not
negative.  Missing from C28: the other rotations, see `C28_false`. -/
theorem C28_write_back_partial {s : System XReal γ} (hr : Reachable s) (ord : IterOrder) {h : Handle}
    {e : InternalEntity XReal} {a : Situation} (he : s.entities.get h = some e) (ha : a.Of e) (hm : e.ownMass ≠ nan)
    (hw : 0 ≤ a.rotation.w) :
    ∃ s', s.updateEntity ord h e.makePub = .ok (s', true) ∧ s.getEntity h = some e.makePub ∧
      ∀ k x, s.entities.get k = some x → ∃ x', s'.entities.get k = some x' ∧ x'.asleep = x.asleep ∧ x'.neighbors = x.neighbors := by
  have hunit : a.rotation.normSq = 1 := stored_rotation hr he ha.rotation
  have hlog : e.makePub.rotation = (Quat.log a.rotation).f := by
    show e.orientation.rotation.scaledAxis = _
    rw [ha.rotation, Quat.f_scaledAxis]
  let b : Situation := ⟨a.position, Quat.exp (Quat.log a.rotation), a.velocity, a.angularVelocity⟩
  have hb : b.Asked e.makePub := ⟨ha.position, ⟨_, hlog, rfl⟩, ha.velocity, ha.angularVelocity⟩
  have hsame : ¬(e.ownMass ≠ e.makePub.ownMass ∨ a.Apart b) := by
    have hz : ∀ v : Vec3 ℝ, (v - v).len = 0 := fun v => by rw [Vec3.sub_self']; simp [Vec3.len]
    have hg := (Quat.exp_log hunit hw).2
    have : Quat.meps < 1 / 1000000 := by unfold Quat.meps; norm_num
    rintro (h | h | h | h | h)
    · exact h rfl
    · rw [hz] at h; norm_num at h
    · rw [gap_comm] at h; exact absurd h (not_lt.mpr (hg.trans this.le))
    · rw [hz] at h; norm_num at h
    · rw [hz] at h; norm_num at h
  have hneg : Scalar.lt e.ownMass zero = false := by
    obtain ⟨tr, hs⟩ := hr
    refine System.steps_ownMass (P := fun m => Scalar.lt m zero = false) hs ?_ h e he
    intro x _
    unfold System.GivesEntities
    split <;> simp
  have hch : e.changed e.makePub = false := by
    rw [← Bool.not_eq_true, changed_iff ha hb hm]; exact hsame
  have hex : ∃ s', s.updateEntity ord h e.makePub = .ok (s', true) := by
    unfold System.updateEntity
    rw [he]
    have hneg' : Scalar.lt e.makePub.ownMass zero = false := hneg
    simp only [updateFrom, hneg', Bool.false_eq_true, if_false, hch]
    obtain ⟨e'', hre⟩ := recalculateMass_ok (order := ord.colliders h e.colliders) (cs := s.colliders)
      { e with
        ownMass := e.makePub.ownMass
        orientation := { e.orientation with position := e.makePub.position, rotation := Quat.fromScaledAxis e.makePub.rotation }
        velocity := e.makePub.velocity
        angularVelocity := e.makePub.angularVelocity } (live_of_inv hr.inv he (ord.colliders_perm h e.colliders))
    rw [hre]
    exact ⟨_, rfl⟩
  obtain ⟨s', hs'⟩ := hex
  refine ⟨s', hs', ?_, (C28_update_wakes_iff he ha hb hm hs').2 hsame⟩
  show (s.entities.get h).map makePub = _
  rw [he]; rfl

/-- An entity at rest that was turned once around. -/
noncomputable def turned : InternalEntity XReal :=
  { Scene.dot (fin 1) .o .o [] Scene.up with orientation := (⟨.o, ⟨-1, 0, 0, 0⟩, .o⟩ : Orientation ℝ).f }

/-- The source of `turned`. -/
noncomputable def turnedSource : Entity XReal :=
  { Scene.source (fin 1) .o .o with rotation := (⟨2 * Real.pi, 0, 0⟩ : Vec3 ℝ).f }

theorem exp_turned : Quat.exp ⟨2 * Real.pi, 0, 0⟩ = ⟨-1, 0, 0, 0⟩ := by
  have hs : (⟨2 * Real.pi, 0, 0⟩ : Vec3 ℝ).scale 2⁻¹ = ⟨Real.pi, 0, 0⟩ := by ext <;> simp <;> ring
  have hl : (⟨Real.pi, 0, 0⟩ : Vec3 ℝ).len = Real.pi := by
    show Real.sqrt _ = _
    simp [Vec3.dot_def, Real.sqrt_mul_self Real.pi_pos.le]
  unfold Quat.exp
  rw [hs, if_neg]
  · simp [hl]
  · rw [← Vec3.len_sq, hl]
    have := Real.two_le_pi
    unfold Quat.meps
    nlinarith

theorem turned_newFrom : InternalEntity.newFrom turnedSource = some turned := by
  unfold InternalEntity.newFrom
  rw [if_neg (by simp [turnedSource, Scene.source])]
  simp only [turnedSource, Scene.source, Entity.new, Entity.makeOrientation, Vec3.f_zeros, Mat3.f_zeros, Orientation.f_new,
    exp_turned, turned, Scene.dot, Scene.up, zero_eq, Orientation.f_offset]

/-- One entity, no colliders. -/
noncomputable def lone (e : InternalEntity XReal) (d : List DebugMsg) : System XReal γ :=
  { (System.new : System XReal γ) with
    entities := ⟨[some (0, e), none, none, none], [1, 2, 3], 0⟩, sleepTimeThreshold := fin 0, energySleepThreshold := fin 0, debug := d }

theorem lone_get {e x : InternalEntity XReal} {d : List DebugMsg} {k : Handle} (h : (lone (γ := γ) e d).entities.get k = some x) :
    x = e := by
  obtain ⟨i, g⟩ := k
  unfold lone Arena.get at h
  match i with
  | 0 => simp at h; exact h.2.symm
  | 1 => simp at h
  | 2 => simp at h
  | 3 => simp at h
  | i + 4 => simp at h

theorem lone_reachable : Reachable (lone (γ := γ) turned []) := by
  have r1 : (System.new : System XReal γ).exec .id (.addEntity turnedSource) =
      .ok ((System.new.addEntity turnedSource).1, .entity (some Demo.h0)) := by
    simp only [System.exec, System.addEntity, turned_newFrom]; rfl
  refine ⟨_, .snoc .id (.configure 5 (fin 0) (fin 0) [] []) .unit (.snoc .id _ _ .nil r1) ?_⟩
  simp only [System.exec, System.addEntity, turned_newFrom]
  rfl

/-- `turned`, asleep. -/
noncomputable def turnedAsleep : InternalEntity XReal := { turned with fallingAsleep := true, asleep := true }

theorem turned_moment (e : InternalEntity XReal) (h1 : e.orientation = turned.orientation) (h2 : e.preppedMoment = turned.preppedMoment) :
    e.momentOfInertia = (Mat3.o).f := by
  have h : ∀ a : Mat3 ℝ, a.mul .o = .o := fun a => by ext <;> simp [Mat3.mul, Mat3.o, Mat3.transpose, Vec3.dot_def]
  have h' : ∀ a : Mat3 ℝ, Mat3.mul .o a = .o := fun a => by ext <;> simp [Mat3.mul, Mat3.o, Mat3.transpose, Vec3.dot_def]
  unfold InternalEntity.momentOfInertia
  rw [h1, h2]
  unfold turned Scene.dot
  simp [Orientation.finalizeMomentOfInertia, rotateMomentOfInertia, h, h']

open Step in
theorem turned_sleeps (ord : IterOrder) : System.step ord (lone (γ := γ) turned []) (fin 1) =
    .ok (lone turnedAsleep [.puttingToSleep Demo.h0]) := by
  have o2 : ∀ h, ord.stepNeighbors h [] = [] := fun h => (ord.stepNeighbors_perm h []).eq_nil
  have hin : turned.inverseMomentOfInertia = (Mat3.o).f := by
    have hof : (⟨some 1, .o, .o, .o, .o⟩ : Body).Of turned := ⟨rfl, turned_moment _ rfl rfl, rfl, rfl, rfl⟩
    rw [hof.W]
    congr 1
    exact Mat3.inv_of_det (by simp [Mat3.det, Mat3.o])
  have hv : integrateVelocity (fin 1) (Vec3.o).f (Vec3.o).f turned = turned := by
    unfold integrateVelocity
    rw [hin]
    simp [turned, Scene.dot]
  have hen : turned.totalEnergy = fin 0 := by
    unfold InternalEntity.totalEnergy
    rw [turned_moment _ rfl rfl]
    have h2 : (2 : ℝ) ≠ 0 := by norm_num
    simp [turned, Scene.dot, fin_div h2]
  have hor : turned.orientation.afterAffected (Vec3.o).f (Vec3.o).f = turned.orientation := by
    show (⟨.o, ⟨-1, 0, 0, 0⟩, .o⟩ : Orientation ℝ).f.afterAffected _ _ = _
    rw [Orientation.f_afterAffected]
    have : Quat.e.mul (⟨-1, 0, 0, 0⟩ : Quat ℝ) = ⟨-1, 0, 0, 0⟩ := by ext <;> simp [Quat.e, Quat.mul]
    simp [Orientation.after, Quat.exp_o, this, turned]
  have hadv : ({ turned with orientation := turned.orientation.afterAffected (Vec3.o).f (Vec3.o).f } : InternalEntity XReal) = turned := by
    rw [hor]
  have hint : integrateAll (fin 1) [] [Demo.h0] { lone (γ := γ) turned [] with collisionRecords := [], debug := [] } =
      .ok (lone turned [], [⟨Demo.h0, (Vec3.o).f, (Vec3.o).f, []⟩]) := by
    have g : World.getEntity (lone (γ := γ) turned []).toWorld Demo.h0 = some turned.makePub := rfl
    have g' : (lone (γ := γ) turned []).entities.get Demo.h0 = some turned := rfl
    have g2 : (lone (γ := γ) turned []).entities.set Demo.h0 turned = (lone (γ := γ) turned []).entities := rfl
    have gz : turned.velocity.scale (fin 1) = (Vec3.o).f := by simp [turned, Scene.dot, Scene.o_scale]
    have gz' : turned.angularVelocity.scale (fin 1) = (Vec3.o).f := by simp [turned, Scene.dot, Scene.o_scale]
    rw [show ({ lone (γ := γ) turned [] with collisionRecords := [], debug := [] } : System XReal γ) = lone turned [] from rfl]
    simp only [integrateAll, integrateOne, g, g', unwrap, Res.ok_bind, generatorLoop, ite_self, Vec3.f_zeros, hv, gz, gz', g2]
  have hit : iterate ord (fin 1) (lone (γ := γ) turned []).iterationMax
      ⟨(lone (γ := γ) turned []).toWorld, [⟨Demo.h0, (Vec3.o).f, (Vec3.o).f, []⟩], fin 1, zero⟩ =
      .ok (⟨(lone (γ := γ) turned []).toWorld, [⟨Demo.h0, (Vec3.o).f, (Vec3.o).f, []⟩], fin 0, one⟩, true) := by
    have g' : (lone (γ := γ) turned []).entities.get Demo.h0 = some turned := rfl
    have g2 : (lone (γ := γ) turned []).entities.set Demo.h0 turned = (lone (γ := γ) turned []).entities := rfl
    have ga : turned.asleep = false := rfl
    rw [show (lone (γ := γ) turned []).iterationMax = 4 + 1 from rfl]
    simp only [iterate, searchFirst, searchSecond, Res.ok_bind, wakeColliding, advance, advanceLoop, g', unwrap, ga, percentOf,
      Bool.not_false, if_true, one_eq, zero_eq, fin_sub, fin_mul, fin_add, Vec3.f_scale, Scene.o_scale, hor]
    simp
    rfl
  unfold System.step
  rw [if_neg (by norm_num)]
  simp only
  rw [show (lone (γ := γ) turned []).entities.handles = [Demo.h0] from rfl,
    show (lone (γ := γ) turned []).generators.handles = [] from rfl, hint]
  simp only [Res.ok_bind]
  rw [hit]
  simp only [Res.ok_bind, if_true]
  have hsl : sleepLoop ord (fin 1) [⟨Demo.h0, (Vec3.o).f, (Vec3.o).f, []⟩] (lone (γ := γ) turned []).toWorld =
      .ok (lone (γ := γ) turnedAsleep [.puttingToSleep Demo.h0]).toWorld := by
    have g' : (lone (γ := γ) turned []).entities.get Demo.h0 = some turned := rfl
    have ga : turned.asleep = false := rfl
    have gf : turned.fallingAsleep = false := rfl
    have gt : turned.fallingAsleepTime = fin 0 := rfl
    have t1 : (lone (γ := γ) turned []).energySleepThreshold = fin 0 := rfl
    have t2 : (lone (γ := γ) turned []).sleepTimeThreshold = fin 0 := rfl
    simp only [sleepLoop, sleepOne, g', unwrap, Res.ok_bind, ga, gf, gt, hen, t1, t2, fin_lt, lt_self_iff_false, decide_false,
      Bool.false_eq_true, if_false, o2, linkNeighbors]
    rfl
  rw [hsl]
  rfl

/-- **C28 fails**: an entity added with the rotation vector `(2π, 0, 0)` falls asleep; writing back what `get_entity`
returns for it wakes it. -/
theorem C28_false (ord : IterOrder) : ∃ (s s' : System XReal γ) (h : Handle) (e e' : Entity XReal), Reachable s ∧
    s.getEntity h = some e ∧ e.asleep = true ∧ s.updateEntity ord h e = .ok (s', true) ∧
    s'.getEntity h = some e' ∧ e'.asleep = false := by
  obtain ⟨tr, ht⟩ := lone_reachable (γ := γ)
  have hr : Reachable (lone (γ := γ) turnedAsleep [.puttingToSleep Demo.h0]) :=
    ⟨_, .snoc .id (.step (fin 1)) .unit ht (by simp only [System.exec, turned_sleeps, Res.ok_bind])⟩
  have he : (lone (γ := γ) turnedAsleep [.puttingToSleep Demo.h0]).entities.get Demo.h0 = some turnedAsleep := rfl
  have ha : (⟨.o, ⟨-1, 0, 0, 0⟩, .o, .o⟩ : Situation).Of turnedAsleep := ⟨rfl, rfl, rfl, rfl⟩
  have hlog : Quat.log ⟨-1, 0, 0, 0⟩ = .o := by
    have h : ¬ (0 : ℝ) ≤ -1 := by norm_num
    unfold Quat.log
    simp [h, Quat.vec, Vec3.dot_def]
  have hb : (⟨.o, Quat.e, .o, .o⟩ : Situation).Asked turnedAsleep.makePub := by
    refine ⟨rfl, ⟨.o, ?_, by simp⟩, rfl, rfl⟩
    show turnedAsleep.orientation.rotation.scaledAxis = _
    rw [ha.rotation, Quat.f_scaledAxis, hlog]
  obtain ⟨⟨s', b⟩, hs'⟩ := System.updateEntity_total hr.inv ord Demo.h0 turnedAsleep.makePub (by
    intro k E n hE hn
    rw [lone_get hE] at hn
    cases hn)
  have hbt : b = true := by
    rcases System.updateEntity_spec hs' with ⟨-, -, hc⟩ | ⟨hc, -⟩
    · have := hc _ he
      unfold InternalEntity.updateFrom at this
      rw [if_neg (by simp [turnedAsleep, turned, Scene.dot, makePub])] at this
      cases this
    · exact hc
  subst hbt
  obtain ⟨e', he', h1, -⟩ := (C28_update_wakes_iff he ha hb (by simp [turnedAsleep, turned, Scene.dot, makePub]) hs').1
    (Or.inr (Or.inr (Or.inl (by
      unfold Quat.gap Quat.e
      rw [show ((-1 - 1 : ℝ)) ^ 2 + (0 - 0) ^ 2 + (0 - 0) ^ 2 + (0 - 0) ^ 2 = 2 ^ 2 by norm_num, Real.sqrt_sq (by norm_num)]
      norm_num))))
  refine ⟨_, s', Demo.h0, _, e'.makePub, hr, rfl, rfl, hs', ?_, h1⟩
  show (s'.entities.get Demo.h0).map makePub = _
  rw [he']; rfl

/-- A reachable sleeping entity to which the partial theorem applies: two balls resting against each other. -/
example (ord : IterOrder) : ∃ (s s' : System XReal γ) (h : Handle) (e e' : Entity XReal), Reachable s ∧
    s.getEntity h = some e ∧ e.asleep = true ∧ s.updateEntity ord h e = .ok (s', true) ∧
    s'.getEntity h = some e' ∧ e'.asleep = true := by
  obtain ⟨s, hs, hent, -, -⟩ := Scene.rest (γ := γ) .id (k := 1) (by norm_num) (u := ⟨1, 0, 0⟩) (by ext <;> norm_num) (E := 1)
    (by norm_num [Vec3.dot_def]) (by norm_num [Vec3.dot_def]) 3
  obtain ⟨tr, ht⟩ := Scene.start_reachable (γ := γ) (m := 1) (k := 1) (by norm_num) (by norm_num) .o ⟨2, 0, 0⟩ ⟨3, 0, 0⟩ .o 0 1 (3 + 2) (fin 1) (fin 0)
  have hr : Reachable s := ⟨_, .snoc .id (.step (fin 1)) .unit ht (by simp only [System.exec, hs, Res.ok_bind])⟩
  have he := Scene.two_get0 (Scene.dot (fin 1) (⟨1, 0, 0⟩ + (⟨1, 0, 0⟩ : Vec3 ℝ).scale (1 / 2)) ⟨1, 0, 0⟩ [Demo.h0] ⟨true, fin 0, true, [Demo.h1]⟩)
    (Scene.dot (fin 1) (⟨3, 0, 0⟩ + (⟨1, 0, 0⟩ : Vec3 ℝ).scale (1 / 2)) ⟨1, 0, 0⟩ [Demo.h1] ⟨true, fin 0, true, [Demo.h0]⟩)
  rw [← hent] at he
  obtain ⟨s', h1, h2, h3⟩ := C28_write_back_partial hr ord he (a := ⟨_, Quat.e, _, _⟩) ⟨rfl, rfl, rfl, rfl⟩ (by simp [Scene.dot])
    (by simp [Quat.e])
  obtain ⟨x, hx, ha, -⟩ := h3 _ _ he
  refine ⟨s, s', Demo.h0, _, x.makePub, hr, h2, rfl, h1, ?_, ?_⟩
  · show (s'.entities.get Demo.h0).map makePub = _
    rw [hx]; rfl
  · show x.asleep = true
    rw [ha]; rfl

end Fluffy.Props
