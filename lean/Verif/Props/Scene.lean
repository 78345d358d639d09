import Verif.Props.Detect
import Verif.Props.Inertia
import Verif.Num.Body
import Verif.Proofs.Step
/-
Scenes of two point-like entities, each with one collider that adds no mass, built by API calls.  They are the concrete
histories behind the counterexamples and behind the checks that hypotheses about collisions can be met.
-/
set_option linter.unusedSectionVars false
set_option linter.unusedSimpArgs false
namespace Fluffy.Scene
open XReal Demo Step Props

variable {γ : Type} [ForceGenerator XReal γ]

/-- Two occupied slots. -/
def two {τ : Type} (a b : τ) : Arena τ := ⟨[some (0, a), some (0, b), none, none], [2, 3], 0⟩
section
variable {τ : Type} (a b c : τ)
@[simp] theorem two_get0 : (two a b).get h0 = some a := rfl
@[simp] theorem two_get1 : (two a b).get h1 = some b := rfl
@[simp] theorem two_set0 : (two a b).set h0 c = two c b := rfl
@[simp] theorem two_set1 : (two a b).set h1 c = two a c := rfl
@[simp] theorem two_handles : (two a b).handles = [h0, h1] := rfl
@[simp] theorem two_contains0 : (two a b).contains h0 = true := rfl
@[simp] theorem two_contains1 : (two a b).contains h1 = true := rfl
@[simp] theorem h0_ne_h1 : h0 ≠ h1 := by decide
@[simp] theorem h1_ne_h0 : h1 ≠ h0 := by decide
end

/-- Not turned, mass in the middle. -/
noncomputable def pose (p : Vec3 ℝ) : Orientation ℝ := ⟨p, Quat.e, .o⟩
theorem pose_unit (p : Vec3 ℝ) : (pose p).Unit := by simp [Orientation.Unit, pose, Quat.e, Quat.normSq]

/-- An entity before it is added. -/
noncomputable def source (m : XReal) (p v : Vec3 ℝ) : Entity XReal :=
  { Entity.new with ownMass := m, position := p.f, velocity := v.f }

/-- The fields about sleep. -/
structure Nap where
  falling : Bool
  time : XReal
  asleep : Bool
  near : List Handle
/-- Awake. -/
noncomputable def up : Nap := ⟨false, fin 0, false, []⟩

/-- A point-like entity that does not turn. -/
noncomputable def dot (m : XReal) (p v : Vec3 ℝ) (cs : List Handle) (z : Nap) : InternalEntity XReal :=
  { orientation := (pose p).f, ownMass := m, totalMass := m
    preppedMoment := (Mat3.o).f, velocity := v.f, angularVelocity := (Vec3.o).f
    colliders := cs, fallingAsleep := z.falling, fallingAsleepTime := z.time, asleep := z.asleep, neighbors := z.near }

theorem source_newFrom {m : XReal} (hm : Scalar.lt m zero = false) (p v : Vec3 ℝ) :
    InternalEntity.newFrom (source m p v) = some (dot m p v [] up) := by
  have hm' : ¬ Scalar.lt (source m p v).ownMass zero = true := by
    show ¬ Scalar.lt m zero = true
    rw [hm]; simp
  unfold InternalEntity.newFrom
  rw [if_neg hm']
  simp only [source, Entity.new, Entity.makeOrientation, Vec3.f_zeros, Mat3.f_zeros, Orientation.f_new, Quat.exp_o, dot, up, pose, zero_eq,
    Orientation.f_offset]

/-- A collider that does not change the mass of an entity of mass `m`. -/
def Weightless (m : XReal) (c : Collider XReal) : Prop :=
  (c.mass = fin 0 ∧ c.momentOfInertia = (Mat3.o).f ∧ ∃ p : Vec3 ℝ, c.localCenterOfMass = p.f) ∨ (c.mass = posInf ∧ m = posInf)

theorem weightless {m : XReal} {c : Collider XReal} (h : Weightless m c) {cs : Arena (Collider XReal)} {ch : Handle}
    (hg : cs.get ch = some c) (p v : Vec3 ℝ) : InternalEntity.recalculateMass [ch] cs (dot m p v [ch] up) = .ok (dot m p v [ch] up) := by
  have hrec : ∀ x : InternalEntity.MassSum XReal, (x.totalOtherMass = fin 0 ∧ x.foundInfinite = false ∨ x.foundInfinite = true ∧ m = posInf) →
      (dot m p v [ch] up).recenter x = dot m p v [ch] up := by
    intro x hx
    have ho : ({ (pose p).f with internalOriginOffset := (pose p).f.internalOriginOffset - (pose p).f.internalOriginOffset } : Orientation XReal) =
        (pose p).f := by
      simp [pose, Orientation.f, Vec3.f_sub]
    have ho' : (⟨p.f, Quat.e.f, (Vec3.o).f⟩ : Orientation XReal) = (pose p).f := rfl
    unfold InternalEntity.recenter
    rcases hx with ⟨h1, h2⟩ | ⟨h1, h2⟩
    · simp [h1, h2, dot, up, ho, pose, Orientation.f_directionIntoWorld, ho']
    · simp [h1, h2, dot, up, ho, pose, Orientation.f_directionIntoWorld, ho']
  unfold InternalEntity.recalculateMass InternalEntity.massLoop
  rw [hg]
  rcases h with ⟨hm, hi, q, hq⟩ | ⟨hm, hm'⟩
  · simp only [unwrap, Res.ok_bind, hm, InternalEntity.massLoop, isInfinite_fin, Bool.false_eq_true, if_false]
    rw [hrec _ (Or.inl ⟨by simp, rfl⟩)]
    simp only [InternalEntity.momentLoop, hg, unwrap, Res.ok_bind, hm, hi, hq, Orientation.prepMomentOfInertia, translateMomentOfInertia, dot,
      Orientation.f_offset, Vec3.f_add, Vec3.f_dot, Mat3.f_diagonalElement, Mat3.f_outer, Mat3.f_sub, Mat3.f_scale,
      Mat3.f_add, Mat3.f_zeros]
    congr 3
    ext <;> simp [Mat3.o, Mat3.scale]
  · simp only [unwrap, Res.ok_bind, hm, hm', InternalEntity.massLoop, isInfinite_posInf, if_true, bind, Except.bind, pure, Except.pure]
    rw [← hm', hrec _ (Or.inr ⟨rfl, hm'⟩)]
    simp [dot]

/-- The scene: two entities, a collider on each. -/
noncomputable def scene (a b : InternalEntity XReal) (c d : Collider XReal) (n : Nat) (e t : XReal) : System XReal γ :=
  { entities := two a b, colliders := two (c.setEntity (some h0)) (d.setEntity (some h1)), generators := Arena.new, iterationMax := n
    collisionRecords := [], energySleepThreshold := e, sleepTimeThreshold := t, debug := [] }

theorem scene_steps {m k : XReal} (hm : Scalar.lt m zero = false) (hk : Scalar.lt k zero = false) (p v q w : Vec3 ℝ)
    {c d : Collider XReal} (hc : c.newFrom = some c) (hd : d.newFrom = some d) (wc : Weightless m c) (wd : Weightless k d) (n : Nat) (e t : XReal) :
    Steps System.new [(.configure n e t [] [], .unit), (.linkCollider h1 (some h1), .ok true), (.linkCollider h0 (some h0), .ok true),
      (.addCollider d, .collider (some h1)), (.addCollider c, .collider (some h0)), (.addEntity (source k q w), .entity (some h1)),
      (.addEntity (source m p v), .entity (some h0))] (scene (γ := γ) (dot m p v [h0] up) (dot k q w [h1] up) c d n e t) := by
  have hent : ∀ {c : Collider XReal}, c.newFrom = some c → c.entity = none := by
    intro c h
    cases c <;> simp only [Collider.newFrom] at h <;> split at h <;>
      first | contradiction | (rw [← Option.some.inj h]; rfl)
  let s2 : System XReal γ := { (System.new : System XReal γ) with entities := two (dot m p v [] up) (dot k q w [] up) }
  let s4 : System XReal γ := { s2 with colliders := two c d }
  let s5 : System XReal γ := { s2 with entities := two (dot m p v [h0] up) (dot k q w [] up), colliders := two (c.setEntity (some h0)) d }
  let s6 : System XReal γ := { s2 with
    entities := two (dot m p v [h0] up) (dot k q w [h1] up), colliders := two (c.setEntity (some h0)) (d.setEntity (some h1)) }
  have r1 : (System.new : System XReal γ).exec .id (.addEntity (source m p v)) =
      .ok ((System.new.addEntity (source m p v)).1, .entity (some h0)) := by
    simp only [System.exec, System.addEntity, source_newFrom hm]; rfl
  have r2 : (System.new.addEntity (source m p v)).1.exec .id (.addEntity (source k q w)) = .ok (s2, .entity (some h1)) := by
    simp only [System.exec, System.addEntity, source_newFrom hm, source_newFrom hk]; rfl
  have r3 : s2.exec .id (.addCollider c) = .ok ((s2.addCollider c).1, .collider (some h0)) := by
    simp only [System.exec, System.addCollider, hc]; rfl
  have r4 : (s2.addCollider c).1.exec .id (.addCollider d) = .ok (s4, .collider (some h1)) := by
    simp only [System.exec, System.addCollider, hc, hd]; rfl
  have r5 : s4.exec .id (.linkCollider h0 (some h0)) = .ok (s5, .ok true) := by
    simp only [System.exec, System.linkCollider, s4, two_contains0, s2, two_get0]
    have := weightless wc (cs := two c d) (ch := h0) rfl p v
    simp only [Bool.not_true, Bool.false_eq_true, if_false, dot, up, hsInsert, IterOrder.id] at this ⊢
    simp only [List.not_mem_nil, if_false, List.nil_append, this, Res.ok_bind, System.switchLink, two_get0, two_set0, hent hc, ne_eq, not_false_eq_true,
      if_true, System.unlinkPrior, reduceCtorEq, s5, s2, dot, up]
  have r6 : s5.exec .id (.linkCollider h1 (some h1)) = .ok (s6, .ok true) := by
    simp only [System.exec, System.linkCollider, s5, two_contains1, s2, two_get1]
    have := weightless wd (cs := two (c.setEntity (some h0)) d) (ch := h1) rfl q w
    simp only [Bool.not_true, Bool.false_eq_true, if_false, dot, up, hsInsert, IterOrder.id] at this ⊢
    simp only [List.not_mem_nil, if_false, List.nil_append, this, Res.ok_bind, System.switchLink, two_get1, two_set1, hent hd, ne_eq, not_false_eq_true,
      if_true, System.unlinkPrior, reduceCtorEq, s6, s2, dot, up]
  exact .snoc .id (.configure n e t [] []) .unit (.snoc .id _ _ (.snoc .id _ _ (.snoc .id _ _ (.snoc .id _ _ (.snoc .id _ _ (.snoc .id _ _ .nil
    r1) r2) r3) r4) r5) r6) rfl

theorem scene_reachable {m k : XReal} (hm : Scalar.lt m zero = false) (hk : Scalar.lt k zero = false) (p v q w : Vec3 ℝ)
    {c d : Collider XReal} (hc : c.newFrom = some c) (hd : d.newFrom = some d) (wc : Weightless m c) (wd : Weightless k d) (n : Nat) (e t : XReal) :
    Reachable (scene (γ := γ) (dot m p v [h0] up) (dot k q w [h1] up) c d n e t) :=
  ⟨_, scene_steps hm hk p v q w hc hd wc wd n e t⟩

/-! ### One step of the scene -/

/-- The mass of a body. -/
noncomputable def mx : Option ℝ → XReal | none => posInf | some m => fin m
/-- The body a `dot` is. -/
def body (m : Option ℝ) (p v : Vec3 ℝ) : Body := ⟨m, .o, p, v, .o⟩

theorem dot_moment (m : XReal) (p v : Vec3 ℝ) (cs : List Handle) (z : Nap) : (dot m p v cs z).momentOfInertia = (Mat3.o).f := by
  have h : ∀ a : Mat3 ℝ, a.mul .o = .o := fun a => by ext <;> simp [Mat3.mul, Mat3.o, Mat3.transpose, Vec3.dot_def]
  have h' : ∀ a : Mat3 ℝ, Mat3.mul .o a = .o := fun a => by ext <;> simp [Mat3.mul, Mat3.o, Mat3.transpose, Vec3.dot_def]
  unfold InternalEntity.momentOfInertia dot
  simp [Orientation.finalizeMomentOfInertia, rotateMomentOfInertia, h, h']

theorem dot_of (m : Option ℝ) (p v : Vec3 ℝ) (cs : List Handle) (z : Nap) : (body m p v).Of (dot (mx m) p v cs z) where
  mass := by cases m <;> rfl
  inertia := dot_moment _ _ _ _ _
  pos := rfl
  vel := rfl
  ang := rfl

theorem body_physical {m : Option ℝ} (hm : ∀ x, m = some x → 0 < x) (p v : Vec3 ℝ) : (body m p v).Physical :=
  ⟨hm, Mat3.symm_o, Mat3.psd_o⟩
theorem body_W (m : Option ℝ) (p v : Vec3 ℝ) : (body m p v).W = .o := by
  unfold Body.W body; exact Mat3.inv_of_det (by simp [Mat3.det, Mat3.o])

/-- Nothing pushes or turns. -/
theorem integrate (m : Option ℝ) (p v : Vec3 ℝ) (cs : List Handle) (z : Nap) (d : ℝ) (s : System XReal γ) {h : Handle}
    (hg : s.entities.get h = some (dot (mx m) p v cs z)) :
    integrateOne (fin d) [] s h =
      .ok ({ s with entities := s.entities.set h (dot (mx m) p v cs z) }, ⟨h, (v.scale d).f, (Vec3.o).f, []⟩) := by
  unfold integrateOne
  have hc : s.getEntity h = some (dot (mx m) p v cs z).makePub := by rw [World.getEntity, hg]; rfl
  have hk : integrateVelocity (fin d) (Vec3.o).f (Vec3.o).f (dot (mx m) p v cs z) = dot (mx m) p v cs z := by
    unfold integrateVelocity
    rw [(dot_of m p v cs z).W, body_W]
    simp [dot]
  simp only [hc, hg, unwrap, Res.ok_bind, generatorLoop, Vec3.f_zeros, ite_self, hk]
  simp [dot]

/-- The search looks at the one pair there is. -/
theorem search (ord : IterOrder) {w : World XReal} {a b : InternalEntity XReal} {C D : Collider XReal} (he : w.entities = two a b) (hc : w.colliders = two C D)
    (ha : a.colliders = [h0]) (hb : b.colliders = [h1]) (na : h1 ∉ a.neighbors) (nb : h0 ∉ b.neighbors) {i1 i2 : StepInfo XReal} (hi : i1.handle = h0)
    (hj : i2.handle = h1) : searchFirst ord w 0 [i1, i2] none = considerPair w.colliders a b i1 i2 0 1 h0 h1 none := by
  have o1 : ∀ h, ord.colliders h [h0] = [h0] := fun h => List.perm_singleton.mp (ord.colliders_perm h [h0])
  have o2 : ∀ h, ord.colliders h [h1] = [h1] := fun h => List.perm_singleton.mp (ord.colliders_perm h [h1])
  simp only [searchFirst, searchSecond, searchPair, hi, hj, get2, he, h0_ne_h1, if_false, two_get0, two_get1, unwrap, Res.ok_bind, na, nb, ha, hb, o1, o2,
    firstColliderLoop, secondColliderLoop]
  cases considerPair w.colliders a b i1 i2 0 1 h0 h1 none <;> rfl

/-- Waking an entity that is awake and has no neighbours changes nothing. -/
theorem wake_idle (ord : IterOrder) {es : Arena (InternalEntity XReal)} {h : Handle} {e : InternalEntity XReal} (hg : es.get h = some e)
    (ha : e.asleep = false) (hn : e.neighbors = []) (hs : es.set h e = es) (d : List DebugMsg) :
    InternalEntity.wakeUp ord h es d = .ok (es, d) := by
  have on : ∀ h, ord.neighbors h [] = [] := fun h => List.Perm.eq_nil (ord.neighbors_perm h [])
  have he : { e with asleep := false, neighbors := [] } = e := by
    cases e; simp only at ha hn; subst ha; subst hn; rfl
  unfold InternalEntity.wakeUp
  rw [Nat.add_comm]
  unfold InternalEntity.wakeLoop
  simp only [hg, unwrap, Res.ok_bind, hn, on, InternalEntity.wakeNeighbors, ha, Bool.false_eq_true, if_false]
  unfold InternalEntity.wakeLoop
  rw [← hn, ← ha]
  simp only [Res.ok_bind]
  rw [hn, ha, he, hs]
  rfl

theorem o_scale (k : ℝ) : (Vec3.o : Vec3 ℝ).scale k = .o := by ext <;> simp
theorem pose_after (p l : Vec3 ℝ) : (pose p).after l .o = pose (p + l) := by
  have : Quat.e.mul Quat.e = Quat.e := by ext <;> simp [Quat.e, Quat.mul]
  simp [Orientation.after, pose, Quat.exp_o, this]

/-- Both entities move for the part `t` of the movement left. -/
theorem advance_two {best : Option (Candidate XReal)} {t : ℝ} (ht : percentOf best = fin t) (m k : XReal) (p v q w : Vec3 ℝ) {cs ds : List Handle} {y z : Nap} (hy : y.asleep = false)
    (hz : z.asleep = false) {st : LoopState XReal} (he : st.world.entities = two (dot m p v cs y) (dot k q w ds z)) {l j : Vec3 ℝ} {n o : List Handle}
    (hi : st.infos = [⟨h0, l.f, (Vec3.o).f, n⟩, ⟨h1, j.f, (Vec3.o).f, o⟩]) {tl cp : ℝ} (h1' : st.timeLeft = fin tl) (h2' : st.currentPercent = fin cp) :
    advance best st = .ok
      { world := { st.world with entities := two (dot m (p + l.scale t) v cs y) (dot k (q + j.scale t) w ds z) }
        infos := [⟨h0, (l.scale (1 - t)).f, (Vec3.o).f, n⟩, ⟨h1, (j.scale (1 - t)).f, (Vec3.o).f, o⟩]
        timeLeft := fin (tl * (1 - t)), currentPercent := fin (cp + (1 - cp) * t) } := by
  have hd : ∀ (es : Arena (InternalEntity XReal)) (h : Handle) (m : XReal) (p v l : Vec3 ℝ) (as : List Handle) (z : Nap), z.asleep = false →
      (if (!(dot m p v as z).asleep) = true then es.set h
        { dot m p v as z with orientation := (dot m p v as z).orientation.afterAffected (l.f.scale (fin t)) ((Vec3.o).f.scale (fin t)) } else es) =
        es.set h (dot m (p + l.scale t) v as z) := by
    intro es h m p v l as z hz
    have e1 : (dot m p v as z).orientation = (pose p).f := rfl
    have e2 : (dot m p v as z).asleep = false := hz
    rw [e1, Vec3.f_scale, Vec3.f_scale, o_scale, Orientation.f_afterAffected, pose_after, if_pos (by rw [e2]; rfl)]
    rfl
  unfold advance
  rw [ht]
  simp only [hi, advanceLoop, he, two_get0, unwrap, Res.ok_bind]
  rw [hd _ _ m p v l cs y hy]
  simp only [two_set0, two_get1, Res.ok_bind]
  rw [hd _ _ k q w j ds z hz]
  simp only [two_set1, h1', h2', one_eq, fin_sub, fin_mul, fin_add, Vec3.f_scale, o_scale]

/-- One over the mass. -/
noncomputable def inverse : Option ℝ → ℝ | none => 0 | some m => m⁻¹

theorem respondPair_infos {α : Type} [Scalar α] (k : Candidate α) (rt ta : α) (first second : InternalEntity α) (i1 i2 : StepInfo α) :
    let r := respondPair k rt ta first second i1 i2
    let b := (frictionImpulse
      (first.applyImpulse k.collision.position (collisionImpulse first second k.restitution k.collision))
      (second.applyImpulse k.collision.position (-collisionImpulse first second k.restitution k.collision))
      (collisionImpulse first second k.restitution k.collision) k).2
    r.firstInfo = ⟨i1.handle, r.first.velocity.scale ta, r.first.angularVelocity.scale ta,
      if b then hsInsert i1.neighbors k.secondHandle else i1.neighbors⟩ ∧
    r.secondInfo = ⟨i2.handle, r.second.velocity.scale ta, r.second.angularVelocity.scale ta,
      if b then hsInsert i2.neighbors k.firstHandle else i2.neighbors⟩ := by
  unfold respondPair applyCollisionImpulse
  simp only
  constructor <;> split <;> rfl

/-- The response to a collision that is central or without friction: the relative velocity `s` along the normal `n` becomes `-r s`. -/
theorem respond_slick {m k : Option ℝ} (hm : ∀ x, m = some x → 0 < x) (hk : ∀ x, k = some x → 0 < x) (hmk : m ≠ none ∨ k ≠ none) (p v q w : Vec3 ℝ) {cs ds : List Handle} {y z : Nap}
    {c n : Vec3 ℝ} (hn : n.dot n = 1) {s : ℝ} (hs : (v - w).dot n = s) {K : Candidate XReal} (hc : K.collision.position = c.f) (hcn : K.collision.normal = n.f)
    {r fs fd : ℝ} (hr : K.restitution = fin r) (hfs : K.staticFriction = fin fs) (hfd : K.dynamicFriction = fin fd) (free : v - w = n.scale s ∨ fs = 0 ∧ fd = 0) (rt : XReal) (ta : ℝ) {l j : Vec3 XReal} {a b : Vec3 XReal}
    {N O : List Handle} {J : ℝ} (hJ : J = -(1 + r) * s / (inverse m + inverse k)) (k1 : K.firstHandle = h0) (k2 : K.secondHandle = h1) :
    ∃ R, respondPair K rt (fin ta) (dot (mx m) p v cs y) (dot (mx k) q w ds z) ⟨h0, l, a, N⟩ ⟨h1, j, b, O⟩ = R ∧
      R.first = dot (mx m) p (v + n.scale (J * inverse m)) cs y ∧ R.second = dot (mx k) q (w - n.scale (J * inverse k)) ds z ∧
      R.firstInfo = ⟨h0, ((v + n.scale (J * inverse m)).scale ta).f, (Vec3.o).f, if |r * s| < 1 / 1000000 then hsInsert N h1 else N⟩ ∧
      R.secondInfo = ⟨h1, ((w - n.scale (J * inverse k)).scale ta).f, (Vec3.o).f, if |r * s| < 1 / 1000000 then hsInsert O h0 else O⟩ ∧
      R.record = ⟨h0, h1, c.f, rt, n.f, fin r, fin |J|⟩ := by
  have d1 := dot_of m p v cs y
  have d2 := dot_of k q w ds z
  have p1 := body_physical hm p v
  have p2 := body_physical hk q w
  have i1 : (body m p v).im = inverse m := by unfold Body.im body inverse; cases m <;> rfl
  have i2 : (body k q w).im = inverse k := by unfold Body.im body inverse; cases k <;> rfl
  have hden : Body.denom (body m p v) (body k q w) c n = inverse m + inverse k := by
    unfold Body.denom Body.comply; rw [body_W, body_W, i1, i2]; simp
  have hpos := Body.denom_pos p1 p2 (by exact hmk) c n
  have hclose : Body.closing (body m p v) (body k q w) c n = s := by
    have : (body m p v).at' c - (body k q w).at' c = v - w := by unfold Body.at' body; ext <;> simp
    unfold Body.closing; rw [this, hs]
  have hJn : Body.normalImpulse (body m p v) (body k q w) r c n = n.scale J := by
    unfold Body.normalImpulse; rw [hclose, hden, ← hJ]
  have kick1 : (body m p v).kick c (n.scale J) = body m p (v + n.scale (J * inverse m)) := by
    unfold Body.kick; rw [body_W, i1]; simp [body]; ext <;> simp <;> ring
  have kick2 : (body k q w).kick c (-n.scale J) = body k q (w - n.scale (J * inverse k)) := by
    unfold Body.kick; rw [body_W, i2]; simp [body]; ext <;> simp <;> ring
  have hclose' := Body.restitution hn hpos.ne' r (p := c)
  rw [hJn, hclose, kick1, kick2] at hclose'
  have hslide : v - w = n.scale s → Body.sliding (body m p (v + n.scale (J * inverse m))) (body k q (w - n.scale (J * inverse k))) c n = .o := by
    intro hs
    unfold Body.sliding
    rw [hclose']
    have e : (body m p (v + n.scale (J * inverse m))).at' c - (body k q (w - n.scale (J * inverse k))).at' c =
        n.scale (s + J * (inverse m + inverse k)) := by
      have : v = w + n.scale s := by rw [← hs]; ext <;> simp
      unfold Body.at' body; rw [this]; ext <;> simp <;> ring
    rw [e]
    have : s + J * (inverse m + inverse k) = -r * s := by
      rw [hJ]; rw [hden] at hpos; field_simp; ring
    rw [this]; ext <;> simp
  obtain ⟨μ, F, hμ, hF, f1, f2⟩ := Body.respondPair d1 d2 p1 p2 hpos.ne' hc hcn hr hfs hfd rt (fin ta) ⟨h0, l, a, N⟩ ⟨h1, j, b, O⟩
  rw [hJn, kick1, kick2] at hF
  have hF' : F = .o := by
    rw [hF]; unfold Body.frictionImpulse
    rcases free with h | ⟨rfl, rfl⟩
    · rw [hslide h]; ext <;> simp
    · have : μ = 0 := by rcases hμ with h | h <;> exact h
      rw [this]; ext <;> simp
  rw [hF', hJn, kick1, Body.kick_o] at f1
  have hno : -(Vec3.o : Vec3 ℝ) = .o := by ext <;> simp
  rw [hF', hJn, kick2, hno, Body.kick_o] at f2
  have g1 : (respondPair K rt (fin ta) (dot (mx m) p v cs y) (dot (mx k) q w ds z) ⟨h0, l, a, N⟩ ⟨h1, j, b, O⟩).first =
      dot (mx m) p (v + n.scale (J * inverse m)) cs y := by
    rw [show dot (mx m) p (v + n.scale (J * inverse m)) cs y = { dot (mx m) p v cs y with
      velocity := (v + n.scale (J * inverse m)).f, angularVelocity := (Vec3.o).f } from rfl]
    have := respondPair_first K rt (fin ta) (dot (mx m) p v cs y) (dot (mx k) q w ds z) ⟨h0, l, a, N⟩ ⟨h1, j, b, O⟩
    unfold VelRel at this
    rw [this, f1.vel, f1.ang]; rfl
  have g2 : (respondPair K rt (fin ta) (dot (mx m) p v cs y) (dot (mx k) q w ds z) ⟨h0, l, a, N⟩ ⟨h1, j, b, O⟩).second =
      dot (mx k) q (w - n.scale (J * inverse k)) ds z := by
    rw [show dot (mx k) q (w - n.scale (J * inverse k)) ds z = { dot (mx k) q w ds z with
      velocity := (w - n.scale (J * inverse k)).f, angularVelocity := (Vec3.o).f } from rfl]
    have := respondPair_second K rt (fin ta) (dot (mx m) p v cs y) (dot (mx k) q w ds z) ⟨h0, l, a, N⟩ ⟨h1, j, b, O⟩
    unfold VelRel at this
    rw [this, f2.vel, f2.ang]; rfl
  have hcol : K.collision = ⟨K.collision.times, c.f, n.f⟩ := by rw [← hc, ← hcn]
  have himp := Body.collisionImpulse d1 d2 p1 p2 K.collision.times hpos.ne' r (n := n) (p := c)
  rw [← hcol, hJn, ← hr] at himp
  have hb : (Step.frictionImpulse ((dot (mx m) p v cs y).applyImpulse K.collision.position (Step.collisionImpulse (dot (mx m) p v cs y) (dot (mx k) q w ds z) K.restitution K.collision))
      ((dot (mx k) q w ds z).applyImpulse K.collision.position (-Step.collisionImpulse (dot (mx m) p v cs y) (dot (mx k) q w ds z) K.restitution K.collision))
      (Step.collisionImpulse (dot (mx m) p v cs y) (dot (mx k) q w ds z) K.restitution K.collision) K).2 = decide (|r * s| < 1 / 1000000) := by
    have k1 := d1.kick p1 c (n.scale J)
    have k2 := d2.kick p2 c (-n.scale J)
    rw [kick1] at k1
    rw [kick2] at k2
    simp only [Step.frictionImpulse]
    rw [himp, hc, hcn, Vec3.f_neg, k1.at, k2.at, Vec3.f_sub, Vec3.f_dot]
    unfold Body.closing at hclose'
    rw [hclose']
    simp [abs_mul]
  refine ⟨_, rfl, g1, g2, ?_, ?_, ?_⟩
  · have hi := respondPair_infos K rt (fin ta) (dot (mx m) p v cs y) (dot (mx k) q w ds z) ⟨h0, l, a, N⟩ ⟨h1, j, b, O⟩
    rw [hi.1, hb, g1]
    simp [dot, k1, k2, o_scale]
  · have hi := respondPair_infos K rt (fin ta) (dot (mx m) p v cs y) (dot (mx k) q w ds z) ⟨h0, l, a, N⟩ ⟨h1, j, b, O⟩
    rw [hi.2, hb, g2]
    simp [dot, k1, k2, o_scale]
  · have hl : (n.scale J).len = |J| := by
      show Real.sqrt _ = _
      rw [Vec3.scale_dot, Vec3.dot_scale, hn, one_mul, Real.sqrt_mul_self_eq_abs]
    rw [hr] at himp
    unfold Step.respondPair
    simp only [himp, Vec3.f_magnitude, hl, k1, k2, hc, hcn, hr]

/-- An iteration that finds a collision that is central or without friction, whatever the colliders. -/
theorem iterate_slick_of (ord : IterOrder) {cs ds : List Handle} {m k : Option ℝ} (hm : ∀ x, m = some x → 0 < x) (hk : ∀ x, k = some x → 0 < x)
    (hmk : m ≠ none ∨ k ≠ none) {p v q w : Vec3 ℝ} {y z : Nap} (hy : y.asleep = false ∧ y.near = []) (hz : z.asleep = false ∧ z.near = []) {c n : Vec3 ℝ}
    (hn : n.dot n = 1) {s : ℝ} (hs : (v - w).dot n = s) {W : World XReal} (he : W.entities = two (dot (mx m) p v cs y) (dot (mx k) q w ds z))
    {l j : Vec3 ℝ} {N O : List Handle} {tl cp d t : ℝ} {K : Candidate XReal}
    (hK : searchFirst ord W 0 [⟨h0, l.f, (Vec3.o).f, N⟩, ⟨h1, j.f, (Vec3.o).f, O⟩] none = .ok (some K))
    (ht : K.percent = fin t) (hc : K.collision.position = c.f) (hcn : K.collision.normal = n.f)
    {r fs fd : ℝ} (hr : K.restitution = fin r) (hfs : K.staticFriction = fin fs) (hfd : K.dynamicFriction = fin fd) (free : v - w = n.scale s ∨ fs = 0 ∧ fd = 0)
    (kh1 : K.firstHandle = h0) (kh2 : K.secondHandle = h1) (ki1 : K.firstIndex = 0) (ki2 : K.secondIndex = 1) {J : ℝ}
    (hJ : J = -(1 + r) * s / (inverse m + inverse k)) (i : Nat) :
    iterate ord (fin d) (i + 1) ⟨W, [⟨h0, l.f, (Vec3.o).f, N⟩, ⟨h1, j.f, (Vec3.o).f, O⟩], fin tl, fin cp⟩ = iterate ord (fin d) i
      ⟨{ W with
          entities := two (dot (mx m) (p + l.scale t) (v + n.scale (J * inverse m)) cs y) (dot (mx k) (q + j.scale t) (w - n.scale (J * inverse k)) ds z)
          collisionRecords := W.collisionRecords ++ [⟨h0, h1, c.f, fin ((cp + (1 - cp) * t) * d), n.f, fin r, fin |J|⟩] },
        [⟨h0, ((v + n.scale (J * inverse m)).scale (tl * (1 - t))).f, (Vec3.o).f, if |r * s| < 1 / 1000000 then hsInsert N h1 else N⟩,
          ⟨h1, ((w - n.scale (J * inverse k)).scale (tl * (1 - t))).f, (Vec3.o).f, if |r * s| < 1 / 1000000 then hsInsert O h0 else O⟩],
        fin (tl * (1 - t)), fin (cp + (1 - cp) * t)⟩ := by
  have hW : { W with entities := two (dot (mx m) p v cs y) (dot (mx k) q w ds z) } = W := by rw [← he]
  rw [iterate]
  rw [hK]
  simp only [Res.ok_bind, wakeColliding, kh1, kh2]
  have wk0 : wakeIfFinite ord h0 W = .ok W := by
    unfold wakeIfFinite
    rw [he]
    simp only [two_get0, unwrap, Res.ok_bind]
    split
    · rw [wake_idle ord (two_get0 _ _) hy.1 hy.2 (two_set0 _ _ _)]
      simp only [Res.ok_bind, hW]
    · rfl
  have wk1 : wakeIfFinite ord h1 W = .ok W := by
    unfold wakeIfFinite
    rw [he]
    simp only [two_get1, unwrap, Res.ok_bind]
    split
    · rw [wake_idle ord (two_get1 _ _) hz.1 hz.2 (two_set1 _ _ _)]
      simp only [Res.ok_bind, hW]
    · rfl
  rw [wk0]
  simp only [Res.ok_bind]
  rw [wk1]
  simp only [Res.ok_bind]
  rw [advance_two (best := some K) ht (mx m) (mx k) p v q w hy.1 hz.1 he rfl rfl rfl]
  simp only [Res.ok_bind, respond, kh1, kh2, ki1, ki2, get2, h0_ne_h1, if_false, two_get0, two_get1, unwrap, index, List.getElem?_cons_zero,
    List.getElem?_cons_succ, fin_mul]
  obtain ⟨R, hR, r1, r2, r3, r4, r5⟩ := respond_slick hm hk hmk (p + l.scale t) v (q + j.scale t) w (y := y) (z := z) (c := c) hn hs hc hcn hr hfs hfd free
    (fin ((cp + (1 - cp) * t) * d)) (tl * (1 - t)) (l := (l.scale (1 - t)).f) (j := (j.scale (1 - t)).f) (a := (Vec3.o).f) (b := (Vec3.o).f) (N := N) (O := O) hJ kh1 kh2
  rw [hR]
  simp only [r1, r2, r3, r4, r5, two_set0, two_set1, List.set_cons_zero, List.set_cons_succ]

/-- An iteration that finds a central collision, whatever the colliders. -/
theorem iterate_hit_of (ord : IterOrder) {cs ds : List Handle} {m k : Option ℝ} (hm : ∀ x, m = some x → 0 < x) (hk : ∀ x, k = some x → 0 < x)
    (hmk : m ≠ none ∨ k ≠ none) {p v q w : Vec3 ℝ} {y z : Nap} (hy : y.asleep = false ∧ y.near = []) (hz : z.asleep = false ∧ z.near = []) {c n : Vec3 ℝ}
    (hn : n.dot n = 1) {s : ℝ} (hs : v - w = n.scale s) {W : World XReal} (he : W.entities = two (dot (mx m) p v cs y) (dot (mx k) q w ds z))
    {l j : Vec3 ℝ} {N O : List Handle} {tl cp d t : ℝ} {K : Candidate XReal}
    (hK : searchFirst ord W 0 [⟨h0, l.f, (Vec3.o).f, N⟩, ⟨h1, j.f, (Vec3.o).f, O⟩] none = .ok (some K))
    (ht : K.percent = fin t) (hc : K.collision.position = c.f) (hcn : K.collision.normal = n.f)
    {r fs fd : ℝ} (hr : K.restitution = fin r) (hfs : K.staticFriction = fin fs) (hfd : K.dynamicFriction = fin fd)
    (kh1 : K.firstHandle = h0) (kh2 : K.secondHandle = h1) (ki1 : K.firstIndex = 0) (ki2 : K.secondIndex = 1) {J : ℝ}
    (hJ : J = -(1 + r) * s / (inverse m + inverse k)) (i : Nat) :
    iterate ord (fin d) (i + 1) ⟨W, [⟨h0, l.f, (Vec3.o).f, N⟩, ⟨h1, j.f, (Vec3.o).f, O⟩], fin tl, fin cp⟩ = iterate ord (fin d) i
      ⟨{ W with
          entities := two (dot (mx m) (p + l.scale t) (v + n.scale (J * inverse m)) cs y) (dot (mx k) (q + j.scale t) (w - n.scale (J * inverse k)) ds z)
          collisionRecords := W.collisionRecords ++ [⟨h0, h1, c.f, fin ((cp + (1 - cp) * t) * d), n.f, fin r, fin |J|⟩] },
        [⟨h0, ((v + n.scale (J * inverse m)).scale (tl * (1 - t))).f, (Vec3.o).f, if |r * s| < 1 / 1000000 then hsInsert N h1 else N⟩,
          ⟨h1, ((w - n.scale (J * inverse k)).scale (tl * (1 - t))).f, (Vec3.o).f, if |r * s| < 1 / 1000000 then hsInsert O h0 else O⟩],
        fin (tl * (1 - t)), fin (cp + (1 - cp) * t)⟩ :=
  iterate_slick_of ord hm hk hmk hy hz hn (by rw [hs, Vec3.scale_dot, hn, one_mul]) he hK ht hc hcn hr hfs hfd (.inl hs) kh1 kh2 ki1 ki2 hJ i

/-- An iteration that finds a central collision. -/
theorem iterate_hit (ord : IterOrder) {C D : Collider XReal} {m k : Option ℝ} (hm : ∀ x, m = some x → 0 < x) (hk : ∀ x, k = some x → 0 < x)
    (hmk : m ≠ none ∨ k ≠ none) {p v q w : Vec3 ℝ} {y z : Nap} (hy : y.asleep = false ∧ y.near = []) (hz : z.asleep = false ∧ z.near = []) {c n : Vec3 ℝ}
    (hn : n.dot n = 1) {s : ℝ} (hs : v - w = n.scale s) {W : World XReal} (he : W.entities = two (dot (mx m) p v [h0] y) (dot (mx k) q w [h1] z))
    (hC : W.colliders = two C D) {l j : Vec3 ℝ} {N O : List Handle} {tl cp d t : ℝ} {K : Candidate XReal}
    (hK : considerPair (two C D) (dot (mx m) p v [h0] y) (dot (mx k) q w [h1] z) ⟨h0, l.f, (Vec3.o).f, N⟩ ⟨h1, j.f, (Vec3.o).f, O⟩ 0 1 h0 h1 none = .ok (some K))
    (ht : K.percent = fin t) (hc : K.collision.position = c.f) (hcn : K.collision.normal = n.f)
    {r fs fd : ℝ} (hr : K.restitution = fin r) (hfs : K.staticFriction = fin fs) (hfd : K.dynamicFriction = fin fd)
    (kh1 : K.firstHandle = h0) (kh2 : K.secondHandle = h1) (ki1 : K.firstIndex = 0) (ki2 : K.secondIndex = 1) {J : ℝ}
    (hJ : J = -(1 + r) * s / (inverse m + inverse k)) (i : Nat) :
    iterate ord (fin d) (i + 1) ⟨W, [⟨h0, l.f, (Vec3.o).f, N⟩, ⟨h1, j.f, (Vec3.o).f, O⟩], fin tl, fin cp⟩ = iterate ord (fin d) i
      ⟨{ W with
          entities := two (dot (mx m) (p + l.scale t) (v + n.scale (J * inverse m)) [h0] y) (dot (mx k) (q + j.scale t) (w - n.scale (J * inverse k)) [h1] z)
          collisionRecords := W.collisionRecords ++ [⟨h0, h1, c.f, fin ((cp + (1 - cp) * t) * d), n.f, fin r, fin |J|⟩] },
        [⟨h0, ((v + n.scale (J * inverse m)).scale (tl * (1 - t))).f, (Vec3.o).f, if |r * s| < 1 / 1000000 then hsInsert N h1 else N⟩,
          ⟨h1, ((w - n.scale (J * inverse k)).scale (tl * (1 - t))).f, (Vec3.o).f, if |r * s| < 1 / 1000000 then hsInsert O h0 else O⟩],
        fin (tl * (1 - t)), fin (cp + (1 - cp) * t)⟩ :=
  iterate_hit_of ord hm hk hmk hy hz hn hs he (by rw [search ord he hC rfl rfl (by simp [dot, hy.2]) (by simp [dot, hz.2]) rfl rfl, hC, hK]) ht hc hcn hr hfs hfd
    kh1 kh2 ki1 ki2 hJ i

/-- An iteration that finds nothing. -/
theorem iterate_miss (ord : IterOrder) {C D : Collider XReal} {m k : XReal} {p v q w : Vec3 ℝ} {y z : Nap} (hy : y.asleep = false) (hz : z.asleep = false)
    (ny : h1 ∉ y.near) (nz : h0 ∉ z.near)
    {W : World XReal} (he : W.entities = two (dot m p v [h0] y) (dot k q w [h1] z))
    (hC : W.colliders = two C D) {l j : Vec3 ℝ} {N O : List Handle} {tl cp d : ℝ}
    (hK : considerPair (two C D) (dot m p v [h0] y) (dot k q w [h1] z) ⟨h0, l.f, (Vec3.o).f, N⟩ ⟨h1, j.f, (Vec3.o).f, O⟩ 0 1 h0 h1 none = .ok none)
    (i : Nat) :
    iterate ord (fin d) (i + 1) ⟨W, [⟨h0, l.f, (Vec3.o).f, N⟩, ⟨h1, j.f, (Vec3.o).f, O⟩], fin tl, fin cp⟩ = .ok
      (⟨{ W with entities := two (dot m (p + l) v [h0] y) (dot k (q + j) w [h1] z) },
        [⟨h0, (Vec3.o).f, (Vec3.o).f, N⟩, ⟨h1, (Vec3.o).f, (Vec3.o).f, O⟩], fin 0, fin 1⟩, true) := by
  rw [iterate]
  rw [search ord he hC rfl rfl (by exact ny) (by exact nz) rfl rfl, hC, hK]
  simp only [Res.ok_bind, wakeColliding]
  rw [advance_two (best := none) (t := 1) (by simp [percentOf]) m k p v q w hy hz he rfl rfl rfl]
  have e : ∀ u : Vec3 ℝ, u.scale 1 = u := fun u => by ext <;> simp
  have e0 : ∀ u : Vec3 ℝ, u.scale 0 = .o := fun u => by ext <;> simp
  simp [e, e0, hC]

/-- A smooth ball of radius 1 with bounciness `r`. -/
noncomputable def sphere (r : ℝ) : Collider XReal := .sphere ⟨none, (Vec3.o).f, fin 1, fin 0, ⟨fin r, fin (1 / 4), fin 0, fin 0⟩⟩

theorem sphere_newFrom (r : ℝ) : (sphere r).newFrom = some (sphere r) := by
  simp [sphere, Collider.newFrom, SphereCollider.isValid, MINIMUM_RADIUS]; norm_num
theorem sphere_weightless (m : XReal) (r : ℝ) : Weightless m (sphere r) := by
  refine Or.inl ⟨rfl, ?_, .o, rfl⟩
  simp only [sphere, Collider.momentOfInertia, lit, two_eq, fin_mul]
  have : (fin 2 / fin 5 : XReal) = fin (2 / 5) := fin_div (by norm_num)
  simp [this, Mat3.diagonal, Mat3.f, Mat3.o, Vec3.f, Vec3.o]

/-- What the search makes of two balls, whichever colliders they are. -/
theorem consider_spheres {cs : Arena (Collider XReal)} {x1 x2 : Handle} {o1 o2 : Option Handle} (a b : ℝ) (h1' : cs.get x1 = some ((sphere a).setEntity o1))
    (h2' : cs.get x2 = some ((sphere b).setEntity o2)) {e1 e2 : List Handle} (best : Option (Candidate XReal)) (m k : XReal) (p v q w : Vec3 ℝ) (y z : Nap) (l j : Vec3 ℝ) (N O : List Handle) {X : Option (Collision XReal)}
    (hX : collideSphereSphere (fin 1) p.f l.f (fin 1) q.f j.f = X) (hpos : ∀ C, X = some C → ∃ x : Vec3 ℝ, C.position = x.f) :
    considerPair cs (dot m p v e1 y) (dot k q w e2 z) ⟨h0, l.f, (Vec3.o).f, N⟩
      ⟨h1, j.f, (Vec3.o).f, O⟩ 0 1 x1 x2 best =
    match X with
    | none => .ok best
    | some C => if Scalar.lt ((v.f - w.f).dot C.normal) EPSILON then .ok best
      else if Scalar.lt C.times.min (percentOf best) then
        .ok (some ⟨C.times.min, C, fin (a * b), fin 0, fin 0, fin (1 / 4 * (1 / 4)), h0, h1, 0, 1⟩)
      else .ok best := by
  have hw : ∀ p : Vec3 ℝ, (pose p).f.positionIntoWorld (Vec3.o).f = p.f := by
    intro p
    rw [Orientation.f_positionIntoWorld _ _ (pose_unit p)]
    simp [Orientation.toWorld, pose]
  have hsub : ∀ p l : Vec3 ℝ, p + l - p = l := fun p l => by ext <;> simp
  have hcol : collide ((sphere a).setEntity o1) (pose p).f ((pose p).f.afterAffected l.f (Vec3.o).f) ((sphere b).setEntity o2)
      (pose q).f ((pose q).f.afterAffected j.f (Vec3.o).f) = .ok X := by
    rw [Orientation.f_afterAffected, Orientation.f_afterAffected, pose_after, pose_after]
    simp only [sphere, Collider.setEntity, collide, hw, Vec3.f_sub, hsub, hX]
  have hv : ∀ (m : XReal) (p v : Vec3 ℝ) (cs : List Handle) (z : Nap) (x : Vec3 XReal), (∃ x' : Vec3 ℝ, x = x'.f) → (dot m p v cs z).velocityAt x = v.f := by
    rintro m p v cs z _ ⟨x, rfl⟩
    unfold InternalEntity.velocityAt dot
    simp [pose]
  unfold considerPair
  simp only [h1', h2', unwrap, Res.ok_bind]
  have u1 : (dot m p v e1 y).orientation = (pose p).f := rfl
  have u2 : (dot k q w e2 z).orientation = (pose q).f := rfl
  rw [u1, u2, hcol]
  cases X with
  | none => rfl
  | some C =>
    simp only [Res.ok_bind, hv _ _ _ _ _ _ (hpos C rfl), sphere, Collider.setEntity, Collider.material, fin_mul, mul_zero]

/-- What the search makes of two balls. -/
theorem consider_balls (a b : ℝ) (m k : XReal) (p v q w : Vec3 ℝ) (y z : Nap) (l j : Vec3 ℝ) (N O : List Handle) {X : Option (Collision XReal)}
    (hX : collideSphereSphere (fin 1) p.f l.f (fin 1) q.f j.f = X) (hpos : ∀ C, X = some C → ∃ x : Vec3 ℝ, C.position = x.f) :
    considerPair (two ((sphere a).setEntity (some h0)) ((sphere b).setEntity (some h1))) (dot m p v [h0] y) (dot k q w [h1] z) ⟨h0, l.f, (Vec3.o).f, N⟩
      ⟨h1, j.f, (Vec3.o).f, O⟩ 0 1 h0 h1 none =
    match X with
    | none => .ok none
    | some C => if Scalar.lt ((v.f - w.f).dot C.normal) EPSILON then .ok none
      else if Scalar.lt C.times.min (fin 1) then
        .ok (some ⟨C.times.min, C, fin (a * b), fin 0, fin 0, fin (1 / 4 * (1 / 4)), h0, h1, 0, 1⟩)
      else .ok none := by
  rw [consider_spheres (o1 := some h0) (o2 := some h1) a b rfl rfl none m k p v q w y z l j N O hX hpos]
  cases X <;> simp only [percentOf, one_eq]

/-- Touching balls that do not approach: a contact is reported at once or not at all. -/
theorem touching {p q l j : Vec3 ℝ} (hd : (p - q).dot (p - q) = 4) (hs : 0 ≤ (l - j).dot (p - q)) :
    collideSphereSphere (fin 1) p.f l.f (fin 1) q.f j.f = none ∨
    ∃ C, collideSphereSphere (fin 1) p.f l.f (fin 1) q.f j.f = some C ∧ C.position = ((p + q).scale (1 / 2)).f ∧ C.normal = ((q - p).scale (1 / 2)).f := by
  have e3 : (p - q).dot (p - q) - (1 + 1) * (1 + 1) = 0 := by rw [hd]; norm_num
  have ha : 0 ≤ (l - j).dot (l - j) := by rw [Vec3.dot_def]; nlinarith [mul_self_nonneg (l - j).x, mul_self_nonneg (l - j).y, mul_self_nonneg (l - j).z]
  rcases sphereSphere_first (r1 := 1) (r2 := 1) (c1 := p) (m1 := l) (c2 := q) (m2 := j) (by norm_num)
      (P := fun t => Holds (Range.quadraticZeros (fin ((l - j).dot (l - j))) (fin (2 * (l - j).dot (p - q))) (fin 0)) (fin t)) (fun t _ _ => by
        rw [e3]) with h | ⟨C, t, x, hC, -, hf, hx, hp, hn⟩
  · exact Or.inl h.1
  · right
    have ht : t = 0 := by
      have hb : 0 ≤ 2 * (l - j).dot (p - q) := by linarith
      revert hf hb ha
      generalize (l - j).dot (l - j) = a
      generalize 2 * (l - j).dot (p - q) = b
      intro ha hf hb
      have h0 := hf.1.1
      have hP := hf.1.2.2
      simp only at hP
      by_cases h1 : |a| < eps
      · by_cases h2 : |b| < eps
        · have : t ≤ 0 := hf.2 0 (le_refl _) (by norm_num) (((C40_degenerate a b 0 h1).1 h2 0).mpr eps_pos)
          linarith
        · rw [(C40_degenerate a b 0 h1).2 (not_lt.mp h2)] at hP
          have : b ≠ 0 := fun h => h2 (by rw [h, abs_zero]; exact eps_pos)
          rw [add_zero] at hP
          exact (mul_eq_zero.mp hP).resolve_left this
      · rw [abs_of_nonneg ha] at h1
        have h1 := not_lt.mp h1
        have hapos : 0 < a := lt_of_lt_of_le eps_pos h1
        by_cases h2 : eps ≤ b * b - 4 * a * 0
        · have h2' := (C40_quadratic_partial a b 0 h1).1 (Or.inr h2)
          have : t ≤ 0 := hf.2 0 (le_refl _) (by norm_num) ((h2' 0).mpr (by norm_num))
          linarith
        · have : Range.quadraticZeros (fin a) (fin b) (fin 0) = Range.single (fin (-1 / 2 * b / a)) := by
            unfold eps at h1 h2
            have n1 : ¬ |a| < 1 / 1000000 := by rw [abs_of_nonneg ha]; exact not_lt.mpr h1
            have n2 : b * b < 1 / 1000000 := by simpa using h2
            have n3 : ¬ b * b < -(1 / 1000000) := by nlinarith [mul_self_nonneg b]
            rw [one_div] at n1 n2 n3
            unfold Range.quadraticZeros
            simp [n1, n2, n3, fin_div hapos.ne']
          rw [this, holds_single] at hP
          have : -1 / 2 * b / a ≤ 0 := by
            apply div_nonpos_of_nonpos_of_nonneg <;> linarith
          linarith
    subst ht
    have hx' : x = (p + q).scale (1 / 2) := by rw [hx]; ext <;> simp [along] <;> norm_num
    refine ⟨C, hC, by rw [hp, hx'], ?_⟩
    rw [hn, hx']
    have he : (p + q).scale (1 / 2) - p = (q - p).scale (1 / 2) := by ext <;> simp <;> ring
    have hu : ((q - p).scale (1 / 2)).dot ((q - p).scale (1 / 2)) = 1 := by
      have : q - p = -(p - q) := by ext <;> simp
      rw [Vec3.scale_dot, Vec3.dot_scale, this, Vec3.neg_dot, Vec3.dot_neg, hd]; norm_num
    have hl : ((q - p).scale (1 / 2)).len = 1 := by
      show Real.sqrt _ = 1
      rw [hu, Real.sqrt_one]
    have hne : (q - p).scale (1 / 2) ≠ .o := fun h => by rw [h] at hl; simp [Vec3.len] at hl
    rw [he, Vec3.f_normalize hne, hl]
    congr 1
    ext <;> simp

/-- One ball hits another. -/
theorem bounce (ord : IterOrder) {m k : Option ℝ} (hm : ∀ x, m = some x → 0 < x) (hk : ∀ x, k = some x → 0 < x) (hmk : m ≠ none ∨ k ≠ none)
    {r : ℝ} (hr : 0 ≤ r) (i : Nat) (e t : XReal) {J : ℝ} (hJ : J = -(1 + r) * 2 / (inverse m + inverse k)) {v w : Vec3 ℝ}
    (hv : v = ⟨2 + J * inverse m, 0, 0⟩) (hw : w = ⟨-(J * inverse k), 0, 0⟩) :
    System.step ord (scene (γ := γ) (dot (mx m) .o ⟨2, 0, 0⟩ [h0] up) (dot (mx k) ⟨3, 0, 0⟩ .o [h1] up) (sphere r) (sphere 1) (i + 2) e t) (fin 1) =
    (do
      let W ← sleepLoop ord (fin 1)
        [⟨h0, (Vec3.o).f, (Vec3.o).f, if |r * 2| < 1 / 1000000 then [h1] else []⟩, ⟨h1, (Vec3.o).f, (Vec3.o).f, if |r * 2| < 1 / 1000000 then [h0] else []⟩]
        { (scene (γ := γ) (dot (mx m) (⟨1, 0, 0⟩ + v.scale (1 / 2)) v [h0] up) (dot (mx k) (⟨3, 0, 0⟩ + w.scale (1 / 2)) w [h1] up) (sphere r) (sphere 1)
            (i + 2) e t).toWorld with
          collisionRecords := [⟨h0, h1, (⟨2, 0, 0⟩ : Vec3 ℝ).f, fin (1 / 2), (⟨1, 0, 0⟩ : Vec3 ℝ).f, fin r, fin |J|⟩] }
      .ok { toWorld := W, generators := Arena.new }) := by
  unfold System.step
  rw [if_neg (by simp [abs_one]; norm_num)]
  simp only [scene, two_handles]
  have hgen : (Arena.new : Arena γ).handles = [] := rfl
  rw [hgen]
  simp only [integrateAll]
  rw [integrate m .o ⟨2, 0, 0⟩ [h0] up 1 _ (two_get0 _ _)]
  simp only [Res.ok_bind, two_set0]
  rw [integrate k ⟨3, 0, 0⟩ .o [h1] up 1 _ (two_get1 _ _)]
  simp only [Res.ok_bind, two_set1]
  have e1 : (⟨2, 0, 0⟩ : Vec3 ℝ).scale 1 = ⟨2, 0, 0⟩ := by ext <;> simp
  rw [e1, o_scale]
  obtain ⟨C, hC, ct, cp, cn⟩ := head_on
  have hK := consider_balls r 1 (mx m) (mx k) .o ⟨2, 0, 0⟩ ⟨3, 0, 0⟩ .o up up ⟨2, 0, 0⟩ .o [] [] hC (fun C' h => by cases h; exact ⟨_, cp⟩)
  have d1 : ((⟨2, 0, 0⟩ : Vec3 ℝ).f - (Vec3.o).f).dot (⟨1, 0, 0⟩ : Vec3 ℝ).f = fin 2 := by
    rw [Vec3.f_sub, Vec3.f_dot]; congr 1; norm_num [Vec3.dot_def]
  simp only [cn, ct, d1, EPSILON_eq, fin_lt] at hK
  rw [if_neg (by norm_num), if_pos (by norm_num)] at hK
  have hn : (⟨1, 0, 0⟩ : Vec3 ℝ).dot ⟨1, 0, 0⟩ = 1 := by norm_num [Vec3.dot_def]
  rw [zero_eq, iterate_hit ord (d := 1) hm hk hmk (y := up) (z := up) ⟨rfl, rfl⟩ ⟨rfl, rfl⟩ hn (s := 2) (by ext <;> simp) rfl rfl hK rfl cp cn rfl rfl rfl rfl rfl rfl rfl
    (J := J) (by rw [hJ, mul_one])]
  have ev : (⟨2, 0, 0⟩ : Vec3 ℝ) + (⟨1, 0, 0⟩ : Vec3 ℝ).scale (J * inverse m) = v := by rw [hv]; ext <;> simp
  have ew : (Vec3.o : Vec3 ℝ) - (⟨1, 0, 0⟩ : Vec3 ℝ).scale (J * inverse k) = w := by rw [hw]; ext <;> simp
  have ep : (Vec3.o : Vec3 ℝ) + (⟨2, 0, 0⟩ : Vec3 ℝ).scale (1 / 2) = ⟨1, 0, 0⟩ := by ext <;> simp
  have eq : (⟨3, 0, 0⟩ : Vec3 ℝ) + (Vec3.o : Vec3 ℝ).scale (1 / 2) = ⟨3, 0, 0⟩ := by ext <;> simp
  rw [ev, ew, ep, eq]
  have hvw : v - w = (⟨1, 0, 0⟩ : Vec3 ℝ).scale (-(r * 2)) := by
    have hpos : 0 < inverse m + inverse k := by
      have h1 : 0 ≤ inverse m := by
        rcases m with _ | x
        · exact le_refl _
        · exact (inv_pos.mpr (hm x rfl)).le
      have h2 : 0 ≤ inverse k := by
        rcases k with _ | x
        · exact le_refl _
        · exact (inv_pos.mpr (hk x rfl)).le
      rcases hmk with h | h
      · obtain ⟨x, hx⟩ := Option.ne_none_iff_exists'.mp h
        have : 0 < inverse m := by rw [hx]; exact inv_pos.mpr (hm x hx)
        linarith
      · obtain ⟨x, hx⟩ := Option.ne_none_iff_exists'.mp h
        have : 0 < inverse k := by rw [hx]; exact inv_pos.mpr (hk x hx)
        linarith
    rw [hv, hw, hJ]; ext <;> simp
    field_simp; ring
  have hmiss : considerPair (two ((sphere r).setEntity (some h0)) ((sphere 1).setEntity (some h1))) (dot (mx m) ⟨1, 0, 0⟩ v [h0] up)
      (dot (mx k) ⟨3, 0, 0⟩ w [h1] up) ⟨h0, (v.scale (1 * (1 - 1 / 2))).f, (Vec3.o).f, if |r * 1 * 2| < 1 / 1000000 then hsInsert [] h1 else []⟩
      ⟨h1, (w.scale (1 * (1 - 1 / 2))).f, (Vec3.o).f, if |r * 1 * 2| < 1 / 1000000 then hsInsert [] h0 else []⟩ 0 1 h0 h1 none = .ok none := by
    have hsep : (v.scale (1 * (1 - 1 / 2)) - w.scale (1 * (1 - 1 / 2))) = (v - w).scale (1 / 2) := by ext <;> simp <;> ring
    rcases touching (p := ⟨1, 0, 0⟩) (q := ⟨3, 0, 0⟩) (l := v.scale (1 * (1 - 1 / 2))) (j := w.scale (1 * (1 - 1 / 2))) (by norm_num [Vec3.dot_def])
      (by rw [hsep, hvw]; simp [Vec3.dot_def]; linarith) with h | ⟨C', h, hp', hn'⟩
    · exact consider_balls r 1 _ _ _ _ _ _ _ _ _ _ _ _ h (fun _ h => by cases h)
    · rw [consider_balls r 1 _ _ _ _ _ _ _ _ _ _ _ _ h (fun C'' h => by cases h; exact ⟨_, hp'⟩)]
      simp only [hn', Vec3.f_sub, Vec3.f_dot, hvw, EPSILON_eq, fin_lt]
      rw [if_pos]
      simp [Vec3.dot_def]; linarith
  rw [iterate_miss ord (d := 1) (y := up) (z := up) rfl rfl (by simp [up]) (by simp [up]) rfl rfl hmiss]
  simp only [Res.ok_bind, if_true, hsInsert, List.not_mem_nil, if_false, List.nil_append, mul_one]
  norm_num

end Fluffy.Scene
