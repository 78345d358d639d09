import Verif.Props.Riding
import Verif.Props.Sinking
import Verif.Num.Guise
/-
C94: what a step does to a ball that slides, spins and rolls on an immovable plane, and what becomes of it in the long run.
-/
set_option linter.unusedSectionVars false
set_option linter.unusedSimpArgs false
namespace Fluffy.Props
open Fluffy XReal InternalEntity Step Demo

/-- Nothing but a ball that moves along an immovable floor and touches it, and gravity. -/
structure Rides (s : System XReal (GravityGenerator XReal)) (bh fh ch ch' : Handle) (B F : InternalEntity XReal) (sc : SphereCollider XReal)
    (pl : PlaneCollider XReal) (o q : Orientation ℝ) (r : ℝ) (c P n G : Vec3 ℝ) (m i t μs μd : ℝ) (g : Gait) : Prop where
  setting : Setting s False bh fh ch ch' B F sc pl q r c P n
  alone : ∀ h e, s.entities.get h = some e → h = bh ∨ h = fh
  pose : B.orientation = o.f
  unit : o.Unit
  floor : F.orientation = q.f
  mass : B.totalMass = fin m ∧ 1 / 1000000 < m
  moment : B.preppedMoment = (Mat3.diag ⟨i, i, i⟩).f ∧ 0 ≤ i
  moves : B.velocity = g.vel.f ∧ B.angularVelocity = g.spin.f
  flat : g.vel.dot n = 0
  rest : F.velocity = (Vec3.o).f ∧ F.angularVelocity = (Vec3.o).f
  tries : 2 ≤ s.iterationMax
  weight : gravity s.generators = G.f
  shapes : ∀ j c, s.colliders.get j = some c → FiniteNumbers c
  fine : FineWorld s.toWorld
  pulls : ∀ k x, s.generators.get k = some x → Finite3 x.acceleration
  coarse : Coarse sc.material pl.material t μs μd
  centered : c + o.internalOriginOffset = .o
  touch : clearance o.position P n r ≤ 0
  free1 : fh ∉ B.neighbors
  free2 : bh ∉ F.neighbors
  awake : B.asleep = false

section
variable {bh fh ch ch' : Handle} {B F B' F' : InternalEntity XReal} {sc : SphereCollider XReal}
    {pl : PlaneCollider XReal} {o q : Orientation ℝ} {r : ℝ} {c P n G : Vec3 ℝ} {m i t μs μd : ℝ} {g g' : Gait} {s s' : System XReal (GravityGenerator XReal)}
    {ord : IterOrder} {d : ℝ}

/-- What a step does not change. -/
theorem Rides.after {o' : Orientation ℝ} (hL : Rides s bh fh ch ch' B F sc pl o q r c P n G m i t μs μd g) (hh : s.step ord (fin d) = .ok s')
    (gB : s'.entities.get bh = some B')
    (gF : s'.entities.get fh = some F') (ho : o'.Unit) (k1 : B'.orientation = o'.f) (k2 : F'.orientation = q.f)
    (k3 : B'.velocity = g'.vel.f ∧ B'.angularVelocity = g'.spin.f) (k4 : F'.velocity = (Vec3.o).f ∧ F'.angularVelocity = (Vec3.o).f)
    (flat : g'.vel.dot n = 0) (centered : c + o'.internalOriginOffset = .o) (touch : clearance o'.position P n r ≤ 0)
    (free1 : fh ∉ B'.neighbors) (free2 : bh ∉ F'.neighbors) (awake : B'.asleep = false) :
    Rides s' bh fh ch ch' B' F' sc pl o' q r c P n G m i t μs μd g' := by
  have fr := (step_frame hh).1
  have hS := hL.setting
  have hfw := hL.fine
  have zB := fr.entities.rel _ _ _ hS.get1 gB
  have zF := fr.entities.rel _ _ _ hS.get2 gF
  obtain ⟨hm, hm1⟩ := hL.mass
  have cB := StaticRel.colliders zB
  have cF := StaticRel.colliders zF
  obtain ⟨-, -, tB, pB, -⟩ := staticRel_iff.mp zB
  obtain ⟨-, -, tF, pF, -⟩ := staticRel_iff.mp zF
  refine ⟨⟨hS.ne, gB, gF, by rw [cB]; exact hS.col1, by rw [cF]; exact hS.col2, by rw [fr.colliders]; exact hS.ball, by rw [fr.colliders]; exact hS.plane,
    hS.radius, hS.center, hS.normal, hS.place, hS.unit, hS.nonneg, hS.one, by rw [tF]; exact hS.heavy, by rw [pF]; exact hS.still,
    fun h => h.elim, fun h => by rw [cB, cF]; exact hS.only h⟩, ?_, k1, ho, k2, ⟨by rw [tB]; exact hm, hm1⟩, ⟨by rw [pB]; exact hL.moment.1, hL.moment.2⟩, k3, flat, k4,
    by rw [fr.iterationMax]; exact hL.tries, by rw [(generators_kept hh).2]; exact hL.weight, by rw [fr.colliders]; exact hL.shapes, ?_,
    fun k x hx => hL.pulls k x (by rw [← (generators_kept hh).1]; exact hx), hL.coarse, centered, touch, free1, free2, awake⟩
  · intro h E hE
    obtain ⟨X, hX, -⟩ := fr.entities.get' hE
    exact hL.alone h X hX
  · intro h E hE
    obtain ⟨X, hX, -⟩ := fr.entities.get' hE
    rcases hL.alone h X hX with rfl | rfl
    · have hE' : s'.entities.get h = some E := hE
      rw [gB] at hE'; cases hE'
      exact (hfw _ B hS.get1).of zB ⟨_, k1, ho⟩ ⟨_, k3.1⟩ ⟨_, k3.2⟩
    · have hE' : s'.entities.get h = some E := hE
      rw [gF] at hE'; cases hE'
      exact (hfw _ F hS.get2).of zF (by rw [k2, ← hL.floor]; exact (hfw _ F hS.get2).pose) ⟨_, k4.1⟩ ⟨_, k4.2⟩

/-- Gravity changes the velocity of the ball only. -/
theorem Rides.opening (hL : Rides s bh fh ch ch' B F sc pl o q r c P n G m i t μs μd g) (p : Phases ord s s' (fin d)) :
    FineLoop s.entities ⟨p.mid.toWorld, p.infos, fin d, zero⟩ ∧ p.mid.entities.get bh = some { B with velocity := (g.vel + G.scale d).f } ∧
      p.mid.entities.get fh = some F ∧ p.mid.toWorld.collisionRecords = [] := by
  have hS := hL.setting
  obtain ⟨hm, hm1⟩ := hL.mass
  obtain ⟨a1, a2, a3⟩ := fine_all tame_gravity p.integrate hL.fine hL.pulls
  obtain ⟨B1, gB1, rB, wB, -⟩ := spin_all tame_gravity p.integrate hL.fine hL.pulls (h := bh) (E := B) hS.get1 (Or.inr central_gravity)
  obtain ⟨F1, gF1, rF, wF, vF⟩ := spin_all tame_gravity p.integrate hL.fine hL.pulls (h := fh) (E := F) hS.get2
    (Or.inl (fun o' ho' => by rw [hS.still, finalize_o ho']))
  have vB : B1.velocity = (g.vel + G.scale d).f := by
    have hB : ({ s with collisionRecords := [], debug := [] } : System XReal (GravityGenerator XReal)).getEntity bh = some B.makePub :=
      getEntity_iff.mpr ⟨B, hS.get1, rfl⟩
    obtain ⟨p', hp', hv, -⟩ := C22_gravity p.integrate hB (by
      show (Scalar.isFinite B.totalMass && Scalar.lt EPSILON B.totalMass) = true
      rw [hm]; simpa using hm1)
    obtain ⟨Y, gY, rfl⟩ := getEntity_iff.mp hp'
    have : p.mid.entities.get bh = some Y := gY
    rw [gB1] at this; cases this
    have e : B1.velocity = B.velocity + (gravity s.generators).scale (fin d) := hv
    rw [e, hL.moves.1, hL.weight, Vec3.f_scale, Vec3.f_add]
  refine ⟨fun _ => ⟨a1, a3, d, rfl⟩, ?_, ?_, by rw [(integrateAll_spec (Arena.handles_nodup _) p.integrate).1]⟩
  · rw [gB1, rB, vB, wB]
  · rw [gF1, rF, vF hS.heavy, wF]

/-- The friction of one unit of speed towards the floor. -/
noncomputable def chosen (t μs μd : ℝ) : ℝ := if 0 < t then μs else μd

/-- One step of the movement of a ball under the gravity `G` on a floor with the normal `n`. -/
noncomputable def Gait.step (n : Vec3 ℝ) (r m i μ : ℝ) (G : Vec3 ℝ) (d : ℝ) (g : Gait) : Gait :=
  g.next n r m i (-(G.dot n) * d * μ) ((along' n G).scale d)

theorem Gait.step_perp (hn : n.dot n = 1) (hg : g.vel.dot n = 0) (μ : ℝ) : (g.step n r m i μ G d).vel.dot n = 0 :=
  Gait.next_perp hg (by rw [Vec3.scale_dot, along_perp hn]; ring)

/-- The energy of a moving and spinning ball. -/
noncomputable def Gait.energy (m i : ℝ) (g : Gait) : ℝ := m * g.vel.dot g.vel / 2 + i * g.spin.dot g.spin / 2

/-- A step. -/
theorem ride_step (hd : 1 / 1000000 ≤ d) (hh : s.step ord (fin d) = .ok s') (hL : Rides s bh fh ch ch' B F sc pl o q r c P n G m i t μs μd g)
    (hgd : eps ≤ -(G.dot n) * d) :
    ∃ B' F' o', s'.entities.get bh = some B' ∧ s'.entities.get fh = some F' ∧
      o' = o.after ((g.step n r m i (chosen t μs μd) G d).vel.scale d) ((g.step n r m i (chosen t μs μd) G d).spin.scale d) ∧ B'.orientation = o'.f ∧
      (F.asleep = true → F'.asleep = true) ∧ (Scalar.lt s.energySleepThreshold (fin ((g.step n r m i (chosen t μs μd) G d).energy m i)) = true → B'.asleep = false) ∧
      (B'.asleep = false → F'.asleep = F.asleep → Rides s' bh fh ch ch' B' F' sc pl o' q r c P n G m i t μs μd (g.step n r m i (chosen t μs μd) G d)) := by
  have hd0 : 0 ≤ d := le_trans (by norm_num) hd
  obtain ⟨p⟩ := step_phases (proper_fin hd) hh
  have fr := (step_frame hh).1
  have hS := hL.setting
  obtain ⟨hm, hm1⟩ := hL.mass
  have hm0 : 0 < m := lt_trans (by norm_num) hm1
  obtain ⟨start, gB1, gF1, hmid⟩ := hL.opening p
  obtain ⟨B', gB', -⟩ := fr.entities.get hS.get1
  obtain ⟨F', gF', -⟩ := fr.entities.get hS.get2
  have hgl : Glide bh fh o q (g.vel + G.scale d) g.spin F { B with velocity := (g.vel + G.scale d).f } F ⟨p.mid.toWorld, p.infos, fin d, zero⟩ :=
    ⟨gB1, gF1, hL.pose, hL.floor, rfl, hL.moves.2, hL.rest.1, hL.rest.2, hL.free1, hL.free2, hL.awake, rfl⟩
  have hg1 : (Gait.next n r m i (-(G.dot n) * d * (if 0 < t then μs else μd)) (n.scale (-(G.dot n) * d)) ⟨g.vel + G.scale d, g.spin⟩) =
      g.step n r m i (chosen t μs μd) G d := by
    unfold Gait.step chosen Gait.next
    have e : g.vel + G.scale d + n.scale (-(G.dot n) * d) = g.vel + (along' n G).scale d := by
      unfold along'; ext <;> simp <;> ring
    simp only [e]
  set g1 := g.step n r m i (chosen t μs μd) G d with hg1d
  have flat1 : g1.vel.dot n = 0 := Gait.step_perp hS.one hL.flat _
  obtain ⟨B2, F2, hst⟩ : ∃ B2 F2, Glide bh fh (o.after (g1.vel.scale d) (g1.spin.scale d)) q g1.vel g1.spin F B2 F2 p.final := by
    have hit := p.iterate
    obtain ⟨N, hN⟩ := Nat.exists_eq_succ_of_ne_zero (show s.iterationMax ≠ 0 by have := hL.tries; omega)
    have hN0 : N ≠ 0 := by have := hL.tries; omega
    rw [hN] at hit
    unfold Step.iterate at hit
    obtain ⟨best, h1, hit⟩ := Res.bind_eq_ok.mp hit
    obtain ⟨w, h2, hit⟩ := Res.bind_eq_ok.mp hit
    obtain ⟨st1, h3, hit⟩ := Res.bind_eq_ok.mp hit
    obtain ⟨K, rfl, hK⟩ := rub_body (st := ⟨p.mid.toWorld, p.infos, fin d, zero⟩) (k := -(G.dot n) * d) hS hL.alone hL.shapes hL.coarse hd0 p.running.1 start hmid
      hL.unit hL.centered hgl hgd (by rw [Vec3.add_dot, hL.flat, Vec3.scale_dot]; ring) hm0 hL.moment.2 hm hL.moment.1 hL.touch h1 h2 h3
    obtain ⟨st2, h4, hit⟩ := Res.bind_eq_ok.mp hit
    obtain ⟨hrun, B2, F2, hgl2⟩ := hK st2 h4
    rw [hg1] at hgl2
    exact hgl2.rest hS hL.alone hd0 hrun hN0 hL.unit hL.centered hit flat1
  obtain ⟨nB, -, l2, l3⟩ := closing p hst.get1 gB'
  obtain ⟨nF, -, m2, m3⟩ := closing p hst.get2 gF'
  have zB := p.inv.frame.entities.rel _ _ _ hS.get1 hst.get1
  have hmB : B2.totalMass = fin m := by rw [(staticRel_iff.mp zB).2.2.1]; exact hm
  have hou : (o.after (g1.vel.scale d) (g1.spin.scale d)).Unit := Orientation.after_unit _ hL.unit _ _
  have hE : B2.totalEnergy = fin (g1.energy m i) := by
    have h2 : (2 : ℝ) ≠ 0 := by norm_num
    have hI : B2.orientation.finalizeMomentOfInertia B2.preppedMoment = (Mat3.diag ⟨i, i, i⟩).f := by
      rw [hst.pose1, (staticRel_iff.mp zB).2.2.2.1, hL.moment.1, finalize_diag hou]
    unfold totalEnergy momentOfInertia
    rw [hI, hmB, hst.vel1, hst.ang1]
    simp [fin_div h2, Gait.energy, Vec3.scale_dot, Mat3.diag, Vec3.dot_def]
    ring
  have fs : F2.asleep = F.asleep := hst.floor
  refine ⟨B', F', _, gB', gF', rfl, (settled_pose nB).trans hst.pose1, fun h => settled_sleeps nF (fs.trans h), fun h => ?_, fun h h' => ?_⟩
  · rw [nB]; show (settle s.toWorld (fin d) B2).asleep = false
    unfold settle
    rw [if_neg (by rw [hst.awake]; simp), if_pos (by rw [hE]; exact h)]
    exact hst.awake
  refine hL.after hh gB' gF' hou ((settled_pose nB).trans hst.pose1) ((settled_pose nF).trans hst.pose2) ?_ (settled_still nF hst.vel2 hst.ang2) flat1 ?_ ?_ ?_ ?_ h
  · have e1 : B'.velocity = B2.velocity ∧ B'.angularVelocity = B2.angularVelocity := by
      rw [nB]; show (settle s.toWorld (fin d) B2).velocity = _ ∧ (settle s.toWorld (fin d) B2).angularVelocity = _
      unfold settle
      rw [if_neg (by rw [hst.awake]; simp)]
      split <;> exact ⟨rfl, rfl⟩
    rw [e1.1, e1.2]; exact ⟨hst.vel1, hst.ang1⟩
  · exact hL.centered
  · show clearance (o.position + g1.vel.scale d) P n r ≤ 0
    rw [clearance_add, Vec3.scale_dot, flat1, zero_mul, add_zero]
    exact hL.touch
  · intro hn
    rcases l3 fh hn with k | ⟨-, k⟩ | ⟨f, f', g1, g2, a, a'⟩
    · exact hst.free1 k
    · rw [h] at k; cases k
    · rw [hst.get2] at g1; cases g1
      rw [gF'] at g2; cases g2
      rw [h', ← fs, a] at a'; cases a'
  · intro hn
    rcases m3 bh hn with k | ⟨k, k'⟩ | ⟨f, f', g1, g2, a, a'⟩
    · exact hst.free2 k
    · rw [h', ← fs, k] at k'; cases k'
    · rw [gB'] at g2; cases g2
      rw [h] at a'; cases a'

/-! ### Runs -/

/-- `Wakeful bh fh s ds s'`: steps of lengths `ds`, with any iteration orders, lead from `s` to `s'`, and neither the ball nor the floor falls asleep on the way
(the floor may have been asleep before). -/
inductive Wakeful (bh fh : Handle) : System XReal (GravityGenerator XReal) → List ℝ → System XReal (GravityGenerator XReal) → Prop
  | nil (s : System XReal (GravityGenerator XReal)) : Wakeful bh fh s [] s
  | cons (ord : IterOrder) {s m s' : System XReal (GravityGenerator XReal)} {d : ℝ} {ds : List ℝ} (first : s.step ord (fin d) = .ok m)
      (ball : ∀ b, m.getEntity bh = some b → b.asleep = false)
      (floor : ∀ f f', s.getEntity fh = some f → m.getEntity fh = some f' → f'.asleep = f.asleep) (rest : Wakeful bh fh m ds s') : Wakeful bh fh s (d :: ds) s'

/-- A ball with its place. -/
structure Trip where
  gait : Gait
  place : Vec3 ℝ

/-- Step by step: the new velocity, then the way with it. -/
noncomputable def Trip.go (n : Vec3 ℝ) (r m i μ : ℝ) (G : Vec3 ℝ) (a : Trip) (d : ℝ) : Trip :=
  ⟨a.gait.step n r m i μ G d, a.place + (a.gait.step n r m i μ G d).vel.scale d⟩

theorem ride_run {ds : List ℝ} (hrun : Wakeful bh fh s ds s') : ∀ {B F : InternalEntity XReal} {o : Orientation ℝ} {g : Gait},
    (∀ d ∈ ds, 1 / 1000000 ≤ d ∧ eps ≤ -(G.dot n) * d) → Rides s bh fh ch ch' B F sc pl o q r c P n G m i t μs μd g →
    ∃ B' F' o', Rides s' bh fh ch ch' B' F' sc pl o' q r c P n G m i t μs μd (ds.foldl (Trip.go n r m i (chosen t μs μd) G) ⟨g, o.position⟩).gait ∧
      o'.position = (ds.foldl (Trip.go n r m i (chosen t μs μd) G) ⟨g, o.position⟩).place := by
  induction hrun with
  | nil s => intro B F o g _ hL; exact ⟨B, F, o, hL, rfl⟩
  | @cons ord s m' s' d ds first ball floor rest ih =>
    intro B F o g hds hL
    obtain ⟨h1, h2⟩ := hds d (by simp)
    obtain ⟨B1, F1, o1, gB, gF, ho, -, -, -, hR⟩ := ride_step h1 first hL h2
    have hR := hR (ball _ (getEntity_iff.mpr ⟨B1, gB, rfl⟩)) (floor _ _ (getEntity_iff.mpr ⟨F, hL.setting.get2, rfl⟩) (getEntity_iff.mpr ⟨F1, gF, rfl⟩))
    obtain ⟨B2, F2, o2, k1, k2⟩ := ih (fun d hd => hds d (by simp [hd])) hR
    have e : o1.position = o.position + (g.step n r m i (chosen t μs μd) G d).vel.scale d := by rw [ho]; rfl
    rw [e] at k1 k2
    exact ⟨B2, F2, o2, k1, k2⟩

/-- A ball moves along an immovable floor: there is nothing else but gravity, the ball touches the floor, and the materials do not bounce.
Everything in terms of what the public interface shows. -/
structure RidesOn (s : System XReal (GravityGenerator XReal)) (bh fh ch ch' : Handle) (ball floor : Entity XReal) (sc : SphereCollider XReal)
    (pl : PlaneCollider XReal) (r : ℝ) (x P n G : Vec3 ℝ) (m i t μs μd : ℝ) (g : Gait) : Prop where
  history : FiniteHistory (fun g : GravityGenerator XReal => Finite3 g.acceleration) s
  alone : ∀ h e, s.getEntity h = some e → h = bh ∨ h = fh
  over : BallOverFloor s bh fh ch ch' ball floor sc pl r x P n
  moves : ball.velocity = g.vel.f ∧ ball.angularVelocity = g.spin.f
  flat : g.vel.dot n = 0
  mass : ball.lastTotalMass = fin m ∧ 1 / 1000000 < m
  moment : ball.lastPreppedMoment = (Mat3.diag ⟨i, i, i⟩).f ∧ 0 ≤ i
  sphereOnly : ball.colliders = [ch]
  planeOnly : floor.colliders = [ch']
  dead : sc.material.restitution * pl.material.restitution = fin 0
  thr : sc.material.frictionThreshold * pl.material.frictionThreshold = fin t
  stat : sc.material.staticFriction * pl.material.staticFriction = fin μs
  dyn : sc.material.dynamicFriction * pl.material.dynamicFriction = fin μd
  touch : clearance x P n r ≤ 0
  tries : 2 ≤ s.iterationMax
  /-- The sum of the accelerations of all gravity generators. -/
  weight : gravity s.generators = G.f
  awake : ball.asleep = false

theorem RidesOn.rides {ball floor : Entity XReal} {x : Vec3 ℝ} (hR : RidesOn s bh fh ch ch' ball floor sc pl r x P n G m i t μs μd g) :
    ∃ B F o q c, ball = B.makePub ∧ floor = F.makePub ∧ o.position = x ∧ Rides s bh fh ch ch' B F sc pl o q r c P n G m i t μs μd g := by
  have hB := hR.over
  have hf := hR.history
  obtain ⟨B0, gB, rfl⟩ := getEntity_iff.mp hB.isBall
  obtain ⟨F0, gF, rfl⟩ := getEntity_iff.mp hB.isFloor
  have hr := hf.reachable
  obtain ⟨fw, hg⟩ := hf.fine tame_gravity
  obtain ⟨o, ho, hou⟩ := (fw _ _ gB).pose
  obtain ⟨q, hq, hqu⟩ := (fw _ _ gF).pose
  obtain ⟨hm', hI⟩ := stored_infinite hr gF hB.immovable
  have hcol := hf.colliders
  obtain ⟨nb1, nb2⟩ := hB.strangers B0 F0 gB gF
  have hs := hB.sphere; rw [getCollider_eq] at hs
  have hp := hB.plane; rw [getCollider_eq] at hp
  obtain ⟨c, hc⟩ : ∃ c : Vec3 ℝ, sc.center = c.f := (hcol _ _ hs).1.f
  have hx : o.position = x := by
    have := hB.position
    change B0.orientation.position = _ at this
    rw [ho] at this
    exact (Vec3.f_inj _ _).mp this
  have hcen : c + o.internalOriginOffset = .o := by
    have := hB.center
    change B0.orientation.positionIntoWorld sc.center = B0.orientation.position at this
    rw [ho, hc, Orientation.f_positionIntoWorld o c hou] at this
    have e : o.position + o.rotation.rot (c + o.internalOriginOffset) = o.position := (Vec3.f_inj _ _).mp this
    have e2 : o.rotation.rot (c + o.internalOriginOffset) = .o := by
      ext
      · have := congrArg Vec3.x e; simp at this; simpa using this
      · have := congrArg Vec3.y e; simp at this; simpa using this
      · have := congrArg Vec3.z e; simp at this; simpa using this
    have := Quat.rot_conj_rot (c + o.internalOriginOffset) hou
    rw [e2, Quat.rot_o] at this
    exact this.symm
  have hco : Coarse sc.material pl.material t μs μd :=
    ⟨⟨hR.thr, by rw [mul_cm]; exact hR.thr⟩, ⟨hR.stat, by rw [mul_cm]; exact hR.stat⟩, ⟨hR.dyn, by rw [mul_cm]; exact hR.dyn⟩, hR.dead, by rw [mul_cm]; exact hR.dead⟩
  refine ⟨B0, F0, o, q, c, rfl, rfl, hx, ⟨hB.different, gB, gF, hB.hasSphere, hB.hasPlane, hs, hp, hB.radius, hc, hB.normal, by rw [← hq]; exact hB.through,
      hqu, hB.nonneg, hB.unit, hm', hI, fun h => h.elim, fun _ => ⟨hR.sphereOnly, hR.planeOnly, 0, le_refl _, hco.dead.1, hco.dead.2⟩⟩, ?_, ho, hou, hq, hR.mass, hR.moment,
      hR.moves, hR.flat, hB.still, hR.tries, hR.weight, hcol, fw, hg, hco, hcen, by rw [hx]; exact hR.touch, nb1, nb2, hR.awake⟩
  intro h e he
  exact hR.alone h e.makePub (getEntity_iff.mpr ⟨e, he, rfl⟩)

variable {ball floor : Entity XReal} {x : Vec3 ℝ}

/-- **C94 (what the code does).** The exact run of a ball that moves along an immovable floor: velocity, spin and place after any number of steps of any lengths that are
not too short (gravity has to give it a speed of at least EPSILON towards the floor), as long as neither of the two falls asleep. -/
theorem C94_run (hR : RidesOn s bh fh ch ch' ball floor sc pl r x P n G m i t μs μd g) {ds : List ℝ}
    (hds : ∀ d ∈ ds, 1 / 1000000 ≤ d ∧ 1 / 1000000 ≤ -(G.dot n) * d) (hrun : Wakeful bh fh s ds s') :
    ∃ ball', s'.getEntity bh = some ball' ∧
      let z := ds.foldl (Trip.go n r m i (if 0 < t then μs else μd) G) ⟨g, x⟩
      ball'.position = z.place.f ∧ ball'.velocity = z.gait.vel.f ∧ ball'.angularVelocity = z.gait.spin.f := by
  have heps : (1 / 1000000 : ℝ) = eps := by unfold eps; norm_num
  obtain ⟨B, F, o, q, c, rfl, rfl, rfl, hL⟩ := hR.rides
  obtain ⟨B', F', o', k1, k2⟩ := ride_run hrun (fun d hd => ⟨(hds d hd).1, by rw [← heps]; exact (hds d hd).2⟩) hL
  refine ⟨B'.makePub, getEntity_iff.mpr ⟨B', k1.setting.get1, rfl⟩, ?_, k1.moves.1, k1.moves.2⟩
  show B'.orientation.position = _
  rw [k1.pose]
  exact congrArg Vec3.f k2

/-! ### On a slope -/

/-- The speed down the slope, in units of what gravity adds in a step, after another step; `κ` is the friction coefficient over the steepness of the slope. -/
noncomputable def creep (m κ y : ℝ) : ℝ := (y + 1) * (1 - min 1 (κ / |y + 1|) / m)

theorem creep_step {μ y : ℝ} (hd : 0 < d) (hT : along' n G ≠ .o) :
    Gait.step n r m 0 μ G d ⟨(along' n G).scale (d * y), .o⟩ = ⟨(along' n G).scale (d * creep m (μ * -(G.dot n) / (along' n G).len) y), .o⟩ := by
  set T := along' n G with hTd
  have hl : 0 < T.len := lt_of_le_of_ne (Vec3.len_nonneg _) (fun h => hT ((Vec3.len_eq_zero _).mp h.symm))
  have e1 : Gait.slip n r ⟨T.scale (d * y) + T.scale d, .o⟩ = T.scale (d * (y + 1)) := by
    unfold Gait.slip; ext <;> simp <;> ring
  have e2 : (T.scale (d * (y + 1))).len = d * |y + 1| * T.len := by
    rw [Vec3.len_scale, abs_mul, abs_of_pos hd]; ring
  have e3 : -(G.dot n) * d * μ / (d * |y + 1| * T.len) = μ * -(G.dot n) / T.len / |y + 1| := by
    by_cases hy : |y + 1| = 0
    · rw [hy]; simp
    · field_simp
  unfold Gait.step Gait.next
  simp only [← hTd, e1, e2, e3]
  unfold creep
  congr 1
  · ext <;> simp <;> ring
  · ext <;> simp

theorem creep_run {μ : ℝ} (hd : 0 < d) (hT : along' n G ≠ .o) (x : Vec3 ℝ) (k : Nat) :
    (List.replicate k d).foldl (Trip.go n r m 0 μ G) ⟨⟨.o, .o⟩, x⟩ =
      ⟨⟨(along' n G).scale (d * (creep m (μ * -(G.dot n) / (along' n G).len))^[k] 0), .o⟩,
        x + (along' n G).scale (d * d * ∑ j ∈ Finset.range k, (creep m (μ * -(G.dot n) / (along' n G).len))^[j + 1] 0)⟩ := by
  induction k with
  | zero =>
    simp only [List.replicate_zero, List.foldl_nil, Function.iterate_zero, id]
    congr 1
    · congr 1; ext <;> simp
    · ext <;> simp
  | succ k ih =>
    rw [List.replicate_succ', List.foldl_append, ih]
    simp only [List.foldl_cons, List.foldl_nil, Trip.go, creep_step hd hT, ← Function.iterate_succ_apply' (creep _ _)]
    congr 1
    rw [Finset.sum_range_succ]
    ext <;> simp <;> ring

/-- **C94 (what the code does on a slope).** A body that is not turned by contacts, let go at rest on a slope: after `k` steps of length `d` its velocity and its place. -/
theorem C94_slope (hR : RidesOn s bh fh ch ch' ball floor sc pl r x P n G m 0 t μs μd ⟨.o, .o⟩) (hd : 1 / 1000000 ≤ d) (hgd : 1 / 1000000 ≤ -(G.dot n) * d)
    (hT : along' n G ≠ .o) {k : Nat} (hrun : Wakeful bh fh s (List.replicate k d) s') :
    ∃ ball', s'.getEntity bh = some ball' ∧
      let y := fun j : Nat => (creep m ((if 0 < t then μs else μd) * -(G.dot n) / (along' n G).len))^[j] 0
      ball'.velocity = ((along' n G).scale (d * y k)).f ∧ ball'.angularVelocity = (Vec3.o).f ∧
        ball'.position = (x + (along' n G).scale (d * d * ∑ j ∈ Finset.range k, y (j + 1))).f := by
  obtain ⟨b, hb, h⟩ := C94_run hR (fun d' hd' => by rw [(List.mem_replicate.mp hd').2]; exact ⟨hd, hgd⟩) hrun
  simp only [creep_run (lt_of_lt_of_le (by norm_num) hd) hT] at h
  exact ⟨b, hb, h.2.1, h.2.2, h.1⟩

/-- **C94 (partial).** A body of mass 1 that contacts do not turn, let go at rest on a slope that is not steeper than the friction coefficient, stays where it is.
Missing: all other masses (`C94_false`, `C94_slides`), and what happens when one of the two falls asleep. -/
theorem C94_partial (hR : RidesOn s bh fh ch ch' ball floor sc pl r x P n G 1 0 t μs μd ⟨.o, .o⟩) {ds : List ℝ}
    (hds : ∀ d ∈ ds, 1 / 1000000 ≤ d ∧ 1 / 1000000 ≤ -(G.dot n) * d) (hrun : Wakeful bh fh s ds s')
    (gentle : (along' n G).len ≤ (if 0 < t then μs else μd) * -(G.dot n)) :
    ∃ ball', s'.getEntity bh = some ball' ∧ ball'.position = x.f ∧ ball'.velocity = (Vec3.o).f ∧ ball'.angularVelocity = (Vec3.o).f := by
  obtain ⟨b, hb, h⟩ := C94_run hR hds hrun
  set μ := if 0 < t then μs else μd
  have key : ∀ l : List ℝ, (∀ d ∈ l, 1 / 1000000 ≤ d ∧ 1 / 1000000 ≤ -(G.dot n) * d) → l.foldl (Trip.go n r 1 0 μ G) ⟨⟨.o, .o⟩, x⟩ = ⟨⟨.o, .o⟩, x⟩ := by
    intro l
    induction l with
    | nil => intro _; rfl
    | cons d l ih =>
      intro hl
      have hd0 : 0 < d := lt_of_lt_of_le (by norm_num) (hl d (by simp)).1
      have e : Gait.step n r 1 0 μ G d ⟨.o, .o⟩ = ⟨.o, .o⟩ := by
        by_cases hT : along' n G = .o
        · unfold Gait.step Gait.next Gait.slip
          rw [hT]
          have e0 : (Vec3.o : Vec3 ℝ).scale d = .o := by ext <;> simp
          simp only [e0, Gait.mk.injEq]
          constructor <;> ext <;> simp
        · have hlen : 0 < (along' n G).len := lt_of_le_of_ne (Vec3.len_nonneg _) (fun h => hT ((Vec3.len_eq_zero _).mp h.symm))
          have := creep_step (r := r) (m := 1) (μ := μ) (y := 0) hd0 hT
          have hc : creep 1 (μ * -(G.dot n) / (along' n G).len) 0 = 0 := by
            unfold creep
            rw [min_eq_left (by rw [zero_add, abs_one, div_one, le_div_iff₀ hlen, one_mul]; exact gentle)]
            norm_num
          rw [hc, mul_zero, show (along' n G).scale 0 = .o by ext <;> simp] at this
          exact this
      rw [List.foldl_cons]
      have : Trip.go n r 1 0 μ G ⟨⟨.o, .o⟩, x⟩ d = ⟨⟨.o, .o⟩, x⟩ := by
        unfold Trip.go
        rw [e]; congr 1; ext <;> simp
      rw [this]
      exact ih (fun d hd => hl d (by simp [hd]))
  simp only [key ds hds] at h
  exact ⟨b, hb, h⟩

/-- **C94 (exactly which bodies stay).** On a slope a body that is let go at rest is still in its place after the first step exactly if its mass is the smaller one of 1 and
the friction coefficient over the steepness. -/
theorem C94_stays_iff (hR : RidesOn s bh fh ch ch' ball floor sc pl r x P n G m 0 t μs μd ⟨.o, .o⟩) (hd : 1 / 1000000 ≤ d) (hgd : 1 / 1000000 ≤ -(G.dot n) * d)
    (hT : along' n G ≠ .o) (hrun : Wakeful bh fh s [d] s') {ball' : Entity XReal} (hb : s'.getEntity bh = some ball') :
    ball'.position = ball.position ↔ m = min 1 ((if 0 < t then μs else μd) * -(G.dot n) / (along' n G).len) := by
  obtain ⟨b, hb', -, -, hp⟩ := C94_slope (k := 1) hR hd hgd hT hrun
  rw [hb] at hb'; cases hb'
  have hm : 0 < m := lt_trans (by norm_num) hR.mass.2
  have hd0 : 0 < d := lt_of_lt_of_le (by norm_num) hd
  rw [hp, hR.over.position, Vec3.f_inj]
  simp only [Finset.range_one, Finset.sum_singleton, zero_add, Function.iterate_one]
  set κ := (if 0 < t then μs else μd) * -(G.dot n) / (along' n G).len
  have hc : creep m κ 0 = 1 - min 1 κ / m := by unfold creep; simp
  constructor
  · intro h
    have h0 : (along' n G).scale (d * d * creep m κ 0) = .o := by
      ext
      · have := congrArg Vec3.x h; simp at this; simpa using this
      · have := congrArg Vec3.y h; simp at this; simpa using this
      · have := congrArg Vec3.z h; simp at this; simpa using this
    have h1 : (along' n G).len * |d * d * creep m κ 0| = 0 := by
      rw [← Vec3.len_scale, h0]; exact (Vec3.len_eq_zero _).mpr rfl
    rcases mul_eq_zero.mp h1 with h2 | h2
    · exact absurd ((Vec3.len_eq_zero _).mp h2) hT
    · rw [abs_eq_zero, hc] at h2
      have : 1 - min 1 κ / m = 0 := by
        rcases mul_eq_zero.mp h2 with h | h
        · exact absurd h (mul_pos hd0 hd0).ne'
        · exact h
      have : min 1 κ / m = 1 := by linarith
      rw [div_eq_one_iff_eq hm.ne'] at this
      exact this.symm
  · intro h
    rw [hc, ← h, div_self hm.ne', sub_self, mul_zero]
    ext <;> simp

theorem creep_heavy (hm : 1 < m) (κ : ℝ) (k : Nat) : 1 - 1 / m ≤ (creep m κ)^[k + 1] 0 := by
  have hm0 : 0 < m := by linarith
  have h1 : 0 ≤ 1 - 1 / m := by rw [sub_nonneg, div_le_one hm0]; exact hm.le
  have step : ∀ y : ℝ, 0 ≤ y → 1 - 1 / m ≤ creep m κ y := by
    intro y hy
    unfold creep
    have h2 : min 1 (κ / |y + 1|) / m ≤ 1 / m := div_le_div_of_nonneg_right (min_le_left _ _) hm0.le
    nlinarith
  induction k with
  | zero => simpa using step 0 le_rfl
  | succ k ih => rw [Function.iterate_succ_apply']; exact step _ (le_trans h1 ih)

/-- **C94 (heavy bodies slide).** However gentle the slope and however large the friction, a body that is heavier than 1 slides down: after `k` steps it has gone at least
`k * d * d * |T| * (1 - 1 / m)`, where `T` is the part of gravity along the slope. -/
theorem C94_slides (hR : RidesOn s bh fh ch ch' ball floor sc pl r x P n G m 0 t μs μd ⟨.o, .o⟩) (hd : 1 / 1000000 ≤ d) (hgd : 1 / 1000000 ≤ -(G.dot n) * d)
    (hT : along' n G ≠ .o) (hm : 1 < m) {k : Nat} (hrun : Wakeful bh fh s (List.replicate k d) s') :
    ∃ ball' x', s'.getEntity bh = some ball' ∧ ball'.position = Vec3.f x' ∧ ∃ l, k * d * d * (1 - 1 / m) ≤ l ∧ x' = x + (along' n G).scale l := by
  obtain ⟨b, hb, -, -, hp⟩ := C94_slope hR hd hgd hT hrun
  refine ⟨b, _, hb, hp, _, ?_, rfl⟩
  set κ := (if 0 < t then μs else μd) * -(G.dot n) / (along' n G).len
  have : ∑ j ∈ Finset.range k, (1 - 1 / m) ≤ ∑ j ∈ Finset.range k, (creep m κ)^[j + 1] 0 := Finset.sum_le_sum (fun j _ => creep_heavy hm κ j)
  rw [Finset.sum_const, Finset.card_range, nsmul_eq_mul] at this
  have hdd : 0 ≤ d * d := mul_self_nonneg d
  nlinarith [mul_le_mul_of_nonneg_left this hdd]

/-- **C94 (creeping).** If friction is strong enough, the speed of a heavy body tends to `m - 1` times what gravity adds in a step. -/
theorem C94_creeps {κ : ℝ} (hm : 1 ≤ m) (hκ : m ≤ κ) (k : Nat) : (creep m κ)^[k] 0 = (m - 1) * (1 - (1 - 1 / m) ^ k) := by
  have hm0 : 0 < m := by linarith
  have h1 : 0 ≤ 1 - 1 / m := by rw [sub_nonneg, div_le_one hm0]; exact hm
  have h2 : 1 - 1 / m ≤ 1 := by have : 0 < 1 / m := by positivity
                                linarith
  induction k with
  | zero => simp
  | succ k ih =>
    rw [Function.iterate_succ_apply', ih]
    set p := (1 - 1 / m) ^ k with hp
    have p0 : 0 ≤ p := pow_nonneg h1 k
    have p1 : p ≤ 1 := pow_le_one₀ h1 h2
    have y0 : 0 < (m - 1) * (1 - p) + 1 := by nlinarith
    have y1 : (m - 1) * (1 - p) + 1 ≤ κ := by nlinarith
    unfold creep
    rw [abs_of_pos y0, min_eq_left (by rw [le_div_iff₀ y0, one_mul]; exact y1), pow_succ, ← hp]
    field_simp
    ring

/-! ### On level ground -/

theorem level_along (γ : ℝ) (hn : n.dot n = 1) : along' n (n.scale (-γ)) = .o := by
  unfold along'; rw [Vec3.scale_dot, hn]; ext <;> simp

/-- What of the velocity friction does not change. -/
theorem level_step {γ μ : ℝ} (hn : n.dot n = 1) (hg : g.vel.dot n = 0) (hm : 0 < m) (hi : 0 ≤ i) :
    (g.step n r m i μ (n.scale (-γ)) d).slip n r = rubbed (yielding r m i) (γ * d * μ) (g.slip n r) ∧
    (g.step n r m i μ (n.scale (-γ)) d).vel - ((g.step n r m i μ (n.scale (-γ)) d).slip n r).scale (1 / (m * yielding r m i)) =
      g.vel - (g.slip n r).scale (1 / (m * yielding r m i)) := by
  have h0 : (along' n (n.scale (-γ))).scale d = .o := by rw [level_along γ hn]; ext <;> simp
  have hc : -((n.scale (-γ)).dot n) * d * μ = γ * d * μ := by rw [Vec3.scale_dot, hn]; ring
  have hs : (g.step n r m i μ (n.scale (-γ)) d).slip n r = rubbed (yielding r m i) (γ * d * μ) (g.slip n r) := by
    unfold Gait.step
    rw [h0, hc, Gait.slip_next hn hg (by simp [Vec3.dot_def]), show g.slip n r + Vec3.o = g.slip n r by ext <;> simp]
  refine ⟨hs, ?_⟩
  rw [hs]
  unfold Gait.step Gait.next
  rw [h0, hc]
  have e : g.vel + Vec3.o = g.vel := by ext <;> simp
  simp only [e]
  have hK : yielding r m i ≠ 0 := (yielding_pos (l := r) hm hi).ne'
  unfold rubbed
  set S := g.slip n r
  set x := min 1 (γ * d * μ / S.len)
  set K := yielding r m i
  ext <;> simp <;> field_simp <;> ring

/-- **C93 (step by step).** A ball on level ground with friction, with a yielding of less than 2: step after step the velocity of its lowest point along the ground goes to
zero, at least as fast as a geometric sequence, and its velocity goes to `v - S / (m * K)`. -/
theorem C93_runs {γ : ℝ} (hR : RidesOn s bh fh ch ch' ball floor sc pl r x P n (n.scale (-γ)) m i t μs μd g) (hd : 1 / 1000000 ≤ d) (hgd : 1 / 1000000 ≤ γ * d)
    (hμ : 0 < if 0 < t then μs else μd) (hK : 1 / m + r * r / i < 2) :
    ∃ q : ℝ, 0 ≤ q ∧ q < 1 ∧ ∀ k s', Wakeful bh fh s (List.replicate k d) s' →
      ∃ ball' v a, s'.getEntity bh = some ball' ∧ ball'.velocity = Vec3.f v ∧ ball'.angularVelocity = Vec3.f a ∧ v.dot n = 0 ∧
        (v - (a.cross n).scale r).len ≤ q ^ k * (g.vel - (g.spin.cross n).scale r).len ∧
        (v - (g.vel - (g.vel - (g.spin.cross n).scale r).scale (1 / (m * (1 / m + r * r / i))))).len ≤
          q ^ k * ((g.vel - (g.spin.cross n).scale r).len / (m * (1 / m + r * r / i))) := by
  set μ := if 0 < t then μs else μd with hμd
  have hn := hR.over.unit
  have hm : 0 < m := lt_trans (by norm_num) hR.mass.2
  have hi := hR.moment.2
  have hKp : 0 < yielding r m i := yielding_pos hm hi
  set Z : Nat → Trip := fun k => (List.replicate k d).foldl (Trip.go n r m i μ (n.scale (-γ))) ⟨g, x⟩ with hZ
  have hsucc : ∀ k, Z (k + 1) = Trip.go n r m i μ (n.scale (-γ)) (Z k) d := by
    intro k
    simp only [hZ, List.replicate_succ', List.foldl_append, List.foldl_cons, List.foldl_nil]
  have hperp : ∀ k, (Z k).gait.vel.dot n = 0 := by
    intro k
    induction k with
    | zero => exact hR.flat
    | succ k ih => rw [hsucc]; exact Gait.step_perp hn ih _
  have law : ∀ k, (Z (k + 1)).gait.slip n r = rubbed (yielding r m i) (γ * d * μ) ((Z k).gait.slip n r) := by
    intro k; rw [hsucc]; exact (level_step hn (hperp k) hm hi).1
  have const : ∀ k, (Z k).gait.vel - ((Z k).gait.slip n r).scale (1 / (m * yielding r m i)) = g.vel - (g.slip n r).scale (1 / (m * yielding r m i)) := by
    intro k
    induction k with
    | zero => rfl
    | succ k ih => rw [← ih, hsucc]; exact (level_step hn (hperp k) hm hi).2
  have hc : 0 < γ * d * μ := mul_pos (lt_of_lt_of_le (by norm_num) hgd) hμ
  obtain ⟨q, q0, q1, hq⟩ := rubbed_run hc hKp hK (T := fun k => (Z k).gait.slip n r) (fun k => ⟨_, le_rfl, law k⟩)
  refine ⟨q, q0, q1, fun k s' hrun => ?_⟩
  have hdot : -((n.scale (-γ)).dot n) * d = γ * d := by rw [Vec3.scale_dot, hn]; ring
  obtain ⟨b, hb, -, hv, ha⟩ := C94_run hR (fun d' hd' => by rw [(List.mem_replicate.mp hd').2, hdot]; exact ⟨hd, hgd⟩) hrun
  have hle : ((Z k).gait.slip n r).len ≤ q ^ k * (g.slip n r).len := hq k
  refine ⟨b, (Z k).gait.vel, (Z k).gait.spin, hb, hv, ha, hperp k, hle, ?_⟩
  have e : (Z k).gait.vel - (g.vel - (g.slip n r).scale (1 / (m * yielding r m i))) = ((Z k).gait.slip n r).scale (1 / (m * yielding r m i)) := by
    rw [← const k]; ext <;> simp
  show ((Z k).gait.vel - (g.vel - (g.slip n r).scale (1 / (m * yielding r m i)))).len ≤ q ^ k * ((g.slip n r).len / (m * yielding r m i))
  have hpos : 0 < 1 / (m * yielding r m i) := by positivity
  rw [e, Vec3.len_scale, abs_of_pos hpos, mul_comm]
  calc 1 / (m * yielding r m i) * ((Z k).gait.slip n r).len ≤ 1 / (m * yielding r m i) * (q ^ k * (g.slip n r).len) := mul_le_mul_of_nonneg_left hle hpos.le
    _ = q ^ k * ((g.slip n r).len / (m * yielding r m i)) := by ring

end
end Fluffy.Props
