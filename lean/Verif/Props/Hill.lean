import Verif.Props.Slope
/-
C94, concrete scenes: a floor that sleeps, built and put to sleep by API calls, and a ball that is put on it.
-/
set_option linter.unusedSectionVars false
set_option linter.unusedSimpArgs false
namespace Fluffy.Scene
open XReal Demo Step Props InternalEntity

/-- A restitution of `ρ`, a friction coefficient of 1. -/
noncomputable def rough (ρ : ℝ) : Material XReal := ⟨fin ρ, fin 1, fin 1, fin 1⟩
noncomputable def roughPlane (ρ : ℝ) : PlaneCollider XReal := ⟨none, (Vec3.o).f, (⟨0, 1, 0⟩ : Vec3 ℝ).f, posInf, rough ρ⟩
/-- A ball of radius 1 and mass `k`. -/
noncomputable def roughBall (ρ k : ℝ) : SphereCollider XReal := ⟨none, (Vec3.o).f, fin 1, fin k, rough ρ⟩

variable {ρ : ℝ}

theorem roughPlane_newFrom : (Collider.plane (roughPlane ρ)).newFrom = some (.plane (roughPlane ρ)) := by
  have hl : (⟨0, 1, 0⟩ : Vec3 ℝ).len = 1 := by show Real.sqrt _ = 1; simp [Vec3.dot_def]
  have hv : (roughPlane ρ).isValid = true := by
    simp only [PlaneCollider.isValid, roughPlane, Vec3.f_magnitude, hl, XReal.EPSILON_eq]
    simp; norm_num
  simp only [Collider.newFrom, hv, Bool.not_true, Bool.false_eq_true, if_false]
  simp only [roughPlane]
  rw [Vec3.f_normalize (by intro hc; have := congrArg Vec3.y hc; simp at this), hl]
  rw [show (⟨0, 1, 0⟩ : Vec3 ℝ).scale 1⁻¹ = ⟨0, 1, 0⟩ by ext <;> simp]

theorem roughBall_newFrom {k : ℝ} (hk : 0 ≤ k) : (Collider.sphere (roughBall ρ k)).newFrom = some (.sphere (roughBall ρ k)) := by
  have : ¬ k < 0 := not_lt.mpr hk
  simp [roughBall, Collider.newFrom, SphereCollider.isValid, MINIMUM_RADIUS, hk, this]; norm_num

/-- The floor and gravity, with the settings of a new system. -/
noncomputable def hill (ρ : ℝ) (G : Vec3 ℝ) (z : Nap) (l : List DebugMsg) : System XReal (GravityGenerator XReal) :=
  { (System.new : System XReal (GravityGenerator XReal)) with
    entities := lone (dot posInf .o .o [h0] z), colliders := lone (.plane { roughPlane ρ with entity := some h0 }), generators := lone ⟨G.f⟩, debug := l }

/-- A ball on it. -/
noncomputable def mount (ρ : ℝ) (G : Vec3 ℝ) (z : Nap) (l : List DebugMsg) (E : InternalEntity XReal) (k : ℝ) (e : XReal) : System XReal (GravityGenerator XReal) :=
  { (System.new : System XReal (GravityGenerator XReal)) with
    energySleepThreshold := e
    entities := two (dot posInf .o .o [h0] z) E
    colliders := two (.plane { roughPlane ρ with entity := some h0 }) (.sphere { roughBall ρ k with entity := some h1 }), generators := lone ⟨G.f⟩, debug := l }

abbrev Tame' (s : System XReal (GravityGenerator XReal)) : Prop := FiniteHistory (fun g : GravityGenerator XReal => Finite3 g.acceleration) s

theorem hill_finite (G : Vec3 ℝ) : Tame' (hill ρ G up []) := by
  let s1 : System XReal (GravityGenerator XReal) := { System.new with entities := lone (dot posInf .o .o [] up) }
  let s2 : System XReal (GravityGenerator XReal) := { s1 with colliders := lone (.plane (roughPlane ρ)) }
  let s3 : System XReal (GravityGenerator XReal) := { s1 with entities := lone (dot posInf .o .o [h0] up), colliders := lone (.plane { roughPlane ρ with entity := some h0 }) }
  have r1 : (System.new : System XReal (GravityGenerator XReal)).exec .id (.addEntity (source posInf .o .o)) = .ok (s1, .entity (some h0)) := by
    simp only [System.exec, System.addEntity, source_newFrom (show Scalar.lt (posInf : XReal) zero = false by simp)]; rfl
  have r2 : s1.exec .id (.addCollider (.plane (roughPlane ρ))) = .ok (s2, .collider (some h0)) := by
    simp only [System.exec, System.addCollider, roughPlane_newFrom]; rfl
  have r3 : s2.exec .id (.linkCollider h0 (some h0)) = .ok (s3, .ok true) := by
    have hc : (lone (Collider.plane (roughPlane ρ))).contains h0 = true := rfl
    have hg : (lone (Collider.plane (roughPlane ρ))).get h0 = some (.plane (roughPlane ρ)) := rfl
    have he : (lone (dot posInf .o .o [] up)).get h0 = some (dot posInf .o .o [] up) := rfl
    have := weightless (c := .plane (roughPlane ρ)) (m := posInf) (Or.inr ⟨rfl, rfl⟩) (cs := lone (Collider.plane (roughPlane ρ))) (ch := h0) rfl .o .o
    simp only [System.exec, System.linkCollider, s2, s1, hc, he]
    simp only [Bool.not_true, Bool.false_eq_true, if_false, dot, up, hsInsert, IterOrder.id] at this ⊢
    simp only [List.not_mem_nil, if_false, List.nil_append, this, Res.ok_bind, System.switchLink, hg]
    rfl
  have hx : FiniteCall (γ := GravityGenerator XReal) (fun g : GravityGenerator XReal => Finite3 g.acceleration) (.addEntity (source posInf .o .o)) :=
    ⟨finite3_f _, ⟨rfl, rfl, rfl⟩, finite3_f _, ⟨rfl, rfl, rfl⟩, ⟨rfl, rfl, rfl⟩, fun h => by cases h⟩
  have hy : FiniteCall (γ := GravityGenerator XReal) (fun g : GravityGenerator XReal => Finite3 g.acceleration) (.addCollider (.plane (roughPlane ρ))) :=
    ⟨finite3_f _, finite3_f _, rfl, rfl, rfl⟩
  have hz : FiniteCall (γ := GravityGenerator XReal) (fun g : GravityGenerator XReal => Finite3 g.acceleration) (.linkCollider h0 (some h0)) := trivial
  exact .call .id (.addGenerator ⟨G.f⟩) (.generator h0) (.call .id _ _ (.call .id _ _ (.call .id _ _ .new hx r1 (fun dt h => by cases h))
    hy r2 (fun dt h => by cases h)) hz r3 (fun dt h => by cases h))
    (finite3_f _) rfl (fun dt h => by cases h)

/-- The floor grows tired, and falls asleep. -/
theorem hill_step (G : Vec3 ℝ) (f : Bool) (t : ℝ) :
    (hill ρ G ⟨f, fin t, false, []⟩ []).step .id (fin 1) = .ok (if (if f then t + 1 else t) < 1 / 10 then hill ρ G ⟨true, fin (if f then t + 1 else t), false, []⟩ []
      else hill ρ G ⟨true, fin (if f then t + 1 else t), true, []⟩ [.puttingToSleep h0]) := by
  set z : Nap := ⟨f, fin t, false, []⟩ with hz
  have hp := proper_fin (d := 1) (by norm_num)
  have hg : (lone (dot posInf .o .o [h0] z)).get h0 = some (dot posInf .o .o [h0] z) := rfl
  have hs : ∀ x : InternalEntity XReal, (lone (dot posInf .o .o [h0] z)).set h0 x = lone x := fun _ => rfl
  have hE : (dot posInf .o .o [h0] z).totalEnergy = fin 0 := quiet_floor rfl rfl rfl
  have hh : (lone (dot posInf .o .o [h0] z)).handles = [h0] := rfl
  have hk : integrateVelocity (fin 1) (Vec3.o).f (Vec3.o).f (dot posInf .o .o [h0] z) = dot posInf .o .o [h0] z := by
    unfold integrateVelocity
    rw [show (posInf : XReal) = mx none from rfl, (dot_of none .o .o [h0] z).W, body_W]
    simp [dot]
  have hint : integrateAll (fin 1) (hill ρ G z []).generators.handles (hill ρ G z []).entities.handles { hill ρ G z [] with collisionRecords := [], debug := [] } =
      .ok (hill ρ G z [], [⟨h0, (Vec3.o).f, (Vec3.o).f, []⟩]) := by
    have hc : ({ hill ρ G z [] with collisionRecords := [], debug := [] } : System XReal (GravityGenerator XReal)).getEntity h0 = some (dot posInf .o .o [h0] z).makePub := rfl
    have hc' : ({ hill ρ G z [] with collisionRecords := [], debug := [] } : System XReal (GravityGenerator XReal)).entities.get h0 = some (dot posInf .o .o [h0] z) := rfl
    have hm : (dot posInf .o .o [h0] z).makePub.lastTotalMass = posInf := rfl
    rw [show (hill ρ G z []).entities.handles = [h0] from rfl]
    unfold integrateAll integrateOne
    simp only [hc, hc', unwrap, Res.ok_bind, hm, isFinite_posInf, Bool.false_and, Bool.false_eq_true, if_false, Vec3.f_zeros, hk, integrateAll]
    have e1 : (dot posInf .o .o [h0] z).velocity.scale (fin 1) = (Vec3.o).f := by simp [dot]
    have e2 : (dot posInf .o .o [h0] z).angularVelocity.scale (fin 1) = (Vec3.o).f := by simp [dot]
    rw [e1, e2]
    rfl
  have hadv : advance none ⟨(hill ρ G z []).toWorld, [⟨h0, (Vec3.o).f, (Vec3.o).f, []⟩], fin 1, zero⟩ =
      .ok ⟨(hill ρ G z []).toWorld, [⟨h0, (Vec3.o).f, (Vec3.o).f, []⟩], fin 0, fin 1⟩ := by
    have hu : (dot posInf .o .o [h0] z).asleep = false := rfl
    have e1 : (dot posInf .o .o [h0] z).orientation = (pose .o).f := rfl
    have e2 : (hill ρ G z []).toWorld.entities = lone (dot posInf .o .o [h0] z) := rfl
    unfold advance
    simp only [advanceLoop, e2, hg, unwrap, Res.ok_bind, hu, Bool.not_false, if_true, percentOf, one_eq, zero_eq, Vec3.f_scale, o_scale, e1,
      Orientation.f_afterAffected, pose_after, fin_sub, fin_mul, fin_add, sub_self, mul_zero, zero_add, sub_zero, mul_one, hs, add_zero, show (Vec3.o : Vec3 ℝ) + Vec3.o = .o by ext <;> simp]
    rfl
  have hit : iterate .id (fin 1) (hill ρ G z []).iterationMax ⟨(hill ρ G z []).toWorld, [⟨h0, (Vec3.o).f, (Vec3.o).f, []⟩], fin 1, zero⟩ =
      .ok (⟨(hill ρ G z []).toWorld, [⟨h0, (Vec3.o).f, (Vec3.o).f, []⟩], fin 0, fin 1⟩, true) := by
    rw [show (hill ρ G z []).iterationMax = 4 + 1 from rfl]
    unfold iterate
    simp only [searchFirst, searchSecond, Res.ok_bind, wakeColliding, hadv]
  unfold System.step
  rw [if_neg (by rw [hp]; simp)]
  have e2 : (hill ρ G z []).toWorld.entities = lone (dot posInf .o .o [h0] z) := rfl
  have e3 : (dot posInf .o .o [h0] z).asleep = false := rfl
  have e4 : (dot posInf .o .o [h0] z).fallingAsleep = f := rfl
  have e5 : (dot posInf .o .o [h0] z).fallingAsleepTime = fin t := rfl
  have e6 : Scalar.lt (hill ρ G z []).toWorld.energySleepThreshold (fin 0) = false := by
    rw [show (hill ρ G z []).toWorld.energySleepThreshold = lit 1 1000 from rfl, lit_eq]; norm_num
  have e7 : ∀ x : ℝ, Scalar.lt (fin x) (hill ρ G z []).toWorld.sleepTimeThreshold = decide (x < 1 / 10) := by
    intro x
    rw [show (hill ρ G z []).toWorld.sleepTimeThreshold = lit 1 10 from rfl, lit_eq]; norm_num
  have e8 : (if f then fin t + fin 1 else fin t : XReal) = fin (if f then t + 1 else t) := by cases f <;> rfl
  simp only [hint, Res.ok_bind, hit, if_true]
  simp only [Res.ok_bind, sleepLoop, sleepOne, e2, hg, unwrap, e3, e4, e5, hE, e6, e8, e7, Bool.false_eq_true, if_false, hs, decide_eq_true_eq]
  generalize (if f = true then t + 1 else t) = u
  by_cases hu : u < 1 / 10
  · simp only [if_pos hu, Res.ok_bind]; rfl
  · simp only [if_neg hu, linkNeighbors, IterOrder.id, Res.ok_bind]; rfl

/-- The floor sleeps. -/
noncomputable def abed : Nap := ⟨true, fin 1, true, []⟩

theorem hill_sleeps (G : Vec3 ℝ) : Tame' (hill ρ G abed [.puttingToSleep h0]) := by
  have s1 := hill_step (ρ := ρ) G false 0
  have s2 := hill_step (ρ := ρ) G true 0
  norm_num at s1 s2
  have c1 : Tame' (hill ρ G ⟨true, fin 0, false, []⟩ []) :=
    (hill_finite G).call .id (.step (fin 1)) .unit rfl (by simp only [System.exec]; rw [show hill ρ G up [] = hill ρ G ⟨false, fin 0, false, []⟩ [] from rfl, s1]; rfl)
      (by intro dt _ _ r hr; simp [hill, System.new] at hr)
  exact c1.call .id (.step (fin 1)) .unit rfl (by simp only [System.exec]; rw [s2]; rfl) (by intro dt _ _ r hr; simp [hill, System.new] at hr)

/-- Putting a ball on it. -/
theorem mount_finite {G : Vec3 ℝ} {z : Nap} {l : List DebugMsg} (h : Tame' (hill ρ G z l)) {m k : ℝ} (hm : 0 ≤ m) (hk : 0 ≤ k) {v : Vec3 ℝ} {E : InternalEntity XReal}
    (hE : InternalEntity.recalculateMass [h1] (two (.plane { roughPlane ρ with entity := some h0 }) (.sphere (roughBall ρ k))) (dot (fin m) ⟨0, 1, 0⟩ v [h1] up) = .ok E) :
    Tame' (mount ρ G z l E k (lit 1 1000)) := by
  let s1 : System XReal (GravityGenerator XReal) := { hill ρ G z l with entities := two (dot posInf .o .o [h0] z) (dot (fin m) ⟨0, 1, 0⟩ v [] up) }
  let s2 : System XReal (GravityGenerator XReal) := { s1 with colliders := two (.plane { roughPlane ρ with entity := some h0 }) (.sphere (roughBall ρ k)) }
  have r1 : (hill ρ G z l).exec .id (.addEntity (source (fin m) ⟨0, 1, 0⟩ v)) = .ok (s1, .entity (some h1)) := by
    simp only [System.exec, System.addEntity, source_newFrom (show Scalar.lt (fin m) zero = false by simpa using hm)]; rfl
  have r2 : s1.exec .id (.addCollider (.sphere (roughBall ρ k))) = .ok (s2, .collider (some h1)) := by
    simp only [System.exec, System.addCollider, roughBall_newFrom hk]; rfl
  have r3 : s2.exec .id (.linkCollider h1 (some h1)) = .ok (mount ρ G z l E k (lit 1 1000), .ok true) := by
    simp only [System.exec, System.linkCollider, s2, s1, two_contains1, two_get1]
    simp only [Bool.not_true, Bool.false_eq_true, if_false, hsInsert, IterOrder.id] at hE ⊢
    have e : ({ dot (fin m) ⟨0, 1, 0⟩ v [] up with colliders := [h1] } : InternalEntity XReal) = dot (fin m) ⟨0, 1, 0⟩ v [h1] up := rfl
    have hc : (dot (fin m) ⟨0, 1, 0⟩ v [] up).colliders = [] := rfl
    simp only [hc, List.not_mem_nil, if_false, List.nil_append, e, hE, Res.ok_bind, System.switchLink, two_get1, two_set1]
    rfl
  have hx : FiniteCall (γ := GravityGenerator XReal) (fun g : GravityGenerator XReal => Finite3 g.acceleration) (.addEntity (source (fin m) ⟨0, 1, 0⟩ v)) :=
    ⟨finite3_f _, ⟨rfl, rfl, rfl⟩, finite3_f _, ⟨rfl, rfl, rfl⟩, ⟨rfl, rfl, rfl⟩, fun h => by cases h⟩
  have hy : FiniteCall (γ := GravityGenerator XReal) (fun g : GravityGenerator XReal => Finite3 g.acceleration) (.addCollider (.sphere (roughBall ρ k))) :=
    ⟨finite3_f _, rfl, rfl, rfl, rfl⟩
  have hz : FiniteCall (γ := GravityGenerator XReal) (fun g : GravityGenerator XReal => Finite3 g.acceleration) (.linkCollider h1 (some h1)) := trivial
  exact .call .id _ _ (.call .id _ _ (.call .id _ _ h hx r1 (fun dt h => by cases h))
    hy r2 (fun dt h => by cases h)) hz r3 (fun dt h => by cases h)

theorem ball_moment (k : ℝ) : (Collider.sphere (roughBall ρ k)).momentOfInertia = (Mat3.diag ⟨2 / 5 * k, 2 / 5 * k, 2 / 5 * k⟩).f := by
  have h5 : (fin 2 / fin 5 : XReal) = fin (2 / 5) := fin_div (by norm_num)
  simp only [Collider.momentOfInertia, roughBall, lit, two_eq, fin_mul]
  simp [h5, Mat3.diagonal, Mat3.f, Mat3.diag, Vec3.f]

/-- A ball whose collider has no mass. -/
theorem mount_dot (m : ℝ) (v : Vec3 ℝ) : InternalEntity.recalculateMass [h1] (two (.plane { roughPlane ρ with entity := some h0 }) (.sphere (roughBall ρ 0)))
    (dot (fin m) ⟨0, 1, 0⟩ v [h1] up) = .ok (dot (fin m) ⟨0, 1, 0⟩ v [h1] up) := by
  refine weightless (c := .sphere (roughBall ρ 0)) (Or.inl ⟨rfl, ?_, .o, rfl⟩) rfl _ _
  rw [ball_moment]
  simp [Mat3.f, Mat3.diag, Mat3.o, Vec3.f, Vec3.o]

/-- A ball whose collider has the mass `k`. -/
noncomputable def puck (k : ℝ) (v : Vec3 ℝ) : InternalEntity XReal :=
  { dot (fin k) ⟨0, 1, 0⟩ v [h1] up with ownMass := fin 0, preppedMoment := (Mat3.diag ⟨2 / 5 * k, 2 / 5 * k, 2 / 5 * k⟩).f }

theorem mount_puck {k : ℝ} (hk : 0 < k) (v : Vec3 ℝ) : InternalEntity.recalculateMass [h1] (two (.plane { roughPlane ρ with entity := some h0 }) (.sphere (roughBall ρ k)))
    (dot (fin 0) ⟨0, 1, 0⟩ v [h1] up) = .ok (puck k v) := by
  have hg : (two (.plane { roughPlane ρ with entity := some h0 }) (.sphere (roughBall ρ k)) : Arena (Collider XReal)).get h1 = some (.sphere (roughBall ρ k)) := rfl
  have hm : (Collider.sphere (roughBall ρ k)).mass = fin k := rfl
  have hq : (Collider.sphere (roughBall ρ k)).localCenterOfMass = (Vec3.o).f := rfl
  unfold InternalEntity.recalculateMass InternalEntity.massLoop
  simp only [hg, unwrap, Res.ok_bind, hm, InternalEntity.massLoop, isInfinite_fin, Bool.false_eq_true, if_false]
  have hpos : ((dot (fin 0) ⟨0, 1, 0⟩ v [h1] up).orientation).positionIntoWorld (Vec3.o).f = (⟨0, 1, 0⟩ : Vec3 ℝ).f := by
    show (pose _).f.positionIntoWorld _ = _
    rw [Orientation.f_positionIntoWorld _ _ (pose_unit _)]
    simp [Orientation.toWorld, pose]
  have hsum : (⟨Vec3.zeros + (((dot (fin 0) ⟨0, 1, 0⟩ v [h1] up).orientation).positionIntoWorld (Collider.sphere (roughBall ρ k)).localCenterOfMass).scale (fin k), zero + fin k,
      false⟩ : InternalEntity.MassSum XReal) = ⟨((⟨0, 1, 0⟩ : Vec3 ℝ).scale k).f, fin k, false⟩ := by
    rw [hq, hpos, Vec3.f_zeros, Vec3.f_scale, Vec3.f_add, zero_eq, fin_add, zero_add]
    congr 2; ext <;> simp
  rw [hsum]
  have hrec : (dot (fin 0) ⟨0, 1, 0⟩ v [h1] up).recenter ⟨((⟨0, 1, 0⟩ : Vec3 ℝ).scale k).f, fin k, false⟩ =
      { dot (fin k) ⟨0, 1, 0⟩ v [h1] up with ownMass := fin 0 } := by
    have hc : (((⟨0, 1, 0⟩ : Vec3 ℝ).scale k).scale k⁻¹) = ⟨0, 1, 0⟩ := by ext <;> simp [hk.ne']
    have hlt : Scalar.lt (zero : XReal) (fin k) = true := by simpa using hk
    unfold InternalEntity.recenter
    simp only [hlt, Bool.not_false, Bool.and_self, if_true, Bool.false_eq_true, if_false, Vec3.f_unscale _ hk.ne', hc]
    have e1 : (dot (fin 0) ⟨0, 1, 0⟩ v [h1] up).orientation = (pose ⟨0, 1, 0⟩).f := rfl
    have e2 : (⟨0, 1, 0⟩ : Vec3 ℝ) - ⟨0, 1, 0⟩ = .o := by ext <;> simp
    have e3 : ∀ a : Vec3 ℝ, a + Vec3.o = a := fun a => by ext <;> simp
    have e4 : (Vec3.o : Vec3 ℝ) - Vec3.o = .o := by ext <;> simp
    have e5 : (pose ⟨0, 1, 0⟩).f.position = (⟨0, 1, 0⟩ : Vec3 ℝ).f := rfl
    have e6 : (pose ⟨0, 1, 0⟩).f.internalOriginOffset = (Vec3.o).f := rfl
    rw [e1, e5, e6, Vec3.f_sub, e2, Orientation.f_directionIntoLocal, Quat.rot_o, Vec3.f_add, e3, Vec3.f_sub, e4]
    simp [dot]
    rfl
  rw [hrec]
  simp only [InternalEntity.momentLoop, hg, unwrap, Res.ok_bind, hm, ball_moment, hq, Orientation.prepMomentOfInertia, translateMomentOfInertia, dot,
      Orientation.f_offset, Vec3.f_add, Vec3.f_dot, Mat3.f_diagonalElement, Mat3.f_outer, Mat3.f_sub, Mat3.f_scale,
      Mat3.f_add, Mat3.f_zeros, Bool.false_eq_true, if_false, puck]
  congr 3
  ext <;> simp [Mat3.o, Mat3.scale, pose, Mat3.diag, Mat3.outer]

/-- Another threshold. -/
theorem mount_calm {G : Vec3 ℝ} {z : Nap} {l : List DebugMsg} {E : InternalEntity XReal} {k : ℝ} {e : XReal} (h : Tame' (mount ρ G z l E k e)) (e' : XReal) :
    Tame' (mount ρ G z l E k e') :=
  h.call .id (.configure 5 e' (lit 1 10) [] l) .unit trivial rfl (fun dt h => by cases h)

theorem mount_live {G : Vec3 ℝ} {z : Nap} {l : List DebugMsg} {E : InternalEntity XReal} {k : ℝ} {e : XReal} (hz : z.near = []) (hE : E.neighbors = []) :
    NeighborsLive (mount ρ G z l E k e).entities := by
  intro k E' n hk hn
  have := Arena.mem_handles.mpr ⟨E', hk⟩
  have : k = h0 ∨ k = h1 := by simpa [mount] using this
  rcases this with rfl | rfl <;> cases hk
  · simp [dot, hz] at hn
  · simp [hE] at hn

theorem mount_alone {e : XReal} {G : Vec3 ℝ} {z : Nap} {l : List DebugMsg} {k : ℝ} {E : InternalEntity XReal} (h : Handle) (b : Entity XReal)
    (he : (mount ρ G z l E k e).getEntity h = some b) : h = h1 ∨ h = h0 := by
  obtain ⟨E, hE, -⟩ := getEntity_iff.mp he
  have hk := Arena.mem_handles.mpr ⟨E, hE⟩
  have : h = h0 ∨ h = h1 := by simpa [mount] using hk
  exact this.symm

theorem mount_over {e : XReal} {G : Vec3 ℝ} {z : Nap} {l : List DebugMsg} {k : ℝ} {E : InternalEntity XReal} (hz : z.near = [])
    (ho : E.orientation = (pose ⟨0, 1, 0⟩).f) (hc : E.colliders = [h1]) (hn : E.neighbors = []) :
    BallOverFloor (mount ρ G z l E k e) h1 h0 h1 h0 E.makePub (dot posInf .o .o [h0] z).makePub { roughBall ρ k with entity := some h1 } { roughPlane ρ with entity := some h0 }
      1 ⟨0, 1, 0⟩ .o ⟨0, 1, 0⟩ where
  different := h0_ne_h1.symm
  isBall := rfl
  isFloor := rfl
  hasSphere := by show h1 ∈ E.colliders; rw [hc]; simp
  hasPlane := by simp [dot, makePub]
  sphere := rfl
  plane := rfl
  radius := rfl
  nonneg := zero_le_one
  position := by show E.orientation.position = _; rw [ho]; rfl
  center := by
    show E.orientation.positionIntoWorld (Vec3.o).f = E.orientation.position
    rw [ho, Orientation.f_positionIntoWorld _ _ (pose_unit _)]
    simp [Orientation.toWorld, pose]
  normal := rfl
  unit := by simp [Vec3.dot_def]
  through := (over_ground .o 1).place
  immovable := ⟨.plane { roughPlane ρ with entity := some h0 }, by
    simp only [linked, List.mem_filterMap]
    exact ⟨h0, by simp [dot, makePub], rfl⟩, rfl⟩
  still := ⟨rfl, rfl⟩
  strangers := by
    rintro B F hB hF
    cases hB; cases hF
    rw [hn]
    simp [dot, hz]

theorem mount_rides {e : XReal} {G : Vec3 ℝ} {z : Nap} {l : List DebugMsg} {m k : ℝ} {v : Vec3 ℝ} {E : InternalEntity XReal} (h : Tame' (mount 0 G z l E k e))
    (hz : z.near = []) (hE : E.orientation = (pose ⟨0, 1, 0⟩).f ∧ E.totalMass = fin m ∧ E.velocity = v.f ∧ E.angularVelocity = (Vec3.o).f ∧ E.colliders = [h1] ∧
      E.asleep = false ∧ E.neighbors = []) (hv : v.y = 0) {i : ℝ} (hi : E.preppedMoment = (Mat3.diag ⟨i, i, i⟩).f) (hi0 : 0 ≤ i) (hm : 1 / 1000000 < m) :
    RidesOn (mount 0 G z l E k e) h1 h0 h1 h0 E.makePub (dot posInf .o .o [h0] z).makePub { roughBall 0 k with entity := some h1 } { roughPlane 0 with entity := some h0 }
      1 ⟨0, 1, 0⟩ .o ⟨0, 1, 0⟩ G m i 1 1 1 ⟨v, .o⟩ where
  history := h
  alone := mount_alone
  over := mount_over hz hE.1 hE.2.2.2.2.1 hE.2.2.2.2.2.2
  moves := ⟨hE.2.2.1, hE.2.2.2.1⟩
  flat := by simp [Vec3.dot_def, hv]
  mass := ⟨hE.2.1, hm⟩
  moment := ⟨hi, hi0⟩
  sphereOnly := hE.2.2.2.2.1
  planeOnly := rfl
  dead := by simp [roughBall, roughPlane, rough]
  thr := by simp [roughBall, roughPlane, rough]
  stat := by simp [roughBall, roughPlane, rough]
  dyn := by simp [roughBall, roughPlane, rough]
  touch := by simp [clearance, Vec3.dot_def]
  tries := by simp [mount, System.new]
  weight := by
    show Vec3.zeros + G.f = _
    rw [Vec3.f_zeros, Vec3.f_add, Vec3.f_inj]
    ext <;> simp
  awake := hE.2.2.2.2.2.1

end Fluffy.Scene

namespace Fluffy.Props
open Fluffy XReal InternalEntity Step Demo Scene

section
variable {bh fh ch ch' : Handle} {sc : SphereCollider XReal} {pl : PlaneCollider XReal} {q : Orientation ℝ} {r : ℝ} {c P n G : Vec3 ℝ} {m i t μs μd : ℝ}

theorem Setting.safe {s : System XReal (GravityGenerator XReal)} {B F : InternalEntity XReal} (hS : Setting s False bh fh ch ch' B F sc pl q r c P n)
    (ha : ∀ h e, s.entities.get h = some e → h = bh ∨ h = fh) : PairsSafe s.toWorld := by
  obtain ⟨c1, c2, -⟩ := hS.only id
  refine ⟨?_, ?_⟩
  · intro k E c hk hc
    rcases ha k E hk with rfl | rfl
    · have := hS.get1.symm.trans hk; cases this
      rw [c1] at hc; simp at hc; subst hc; exact ⟨_, hS.ball⟩
    · have := hS.get2.symm.trans hk; cases this
      rw [c2] at hc; simp at hc; subst hc; exact ⟨_, hS.plane⟩
  · intro k1 k2 E1 E2 d1 d2 C1 C2 hne h1 h2 hc1 hc2 hC1 hC2 o1 o2 o3 o4
    rcases ha k1 E1 h1 with rfl | rfl <;> rcases ha k2 E2 h2 with rfl | rfl
    · exact absurd rfl hne
    · have := hS.get1.symm.trans h1; cases this
      have := hS.get2.symm.trans h2; cases this
      rw [c1] at hc1; rw [c2] at hc2; simp at hc1 hc2; subst hc1; subst hc2
      have := hS.ball.symm.trans hC1; cases this
      have := hS.plane.symm.trans hC2; cases this
      exact ⟨_, rfl⟩
    · have := hS.get2.symm.trans h1; cases this
      have := hS.get1.symm.trans h2; cases this
      rw [c2] at hc1; rw [c1] at hc2; simp at hc1 hc2; subst hc1; subst hc2
      have := hS.plane.symm.trans hC1; cases this
      have := hS.ball.symm.trans hC2; cases this
      exact ⟨_, rfl⟩
    · exact absurd rfl hne

/-- On a floor that sleeps, a ball with enough energy does not fall asleep. -/
theorem wakeful_run {J : Gait → Prop} {e : XReal} (ds : List ℝ) : ∀ {s : System XReal (GravityGenerator XReal)} {B F : InternalEntity XReal} {o : Orientation ℝ} {g : Gait},
    (∀ d ∈ ds, 1 / 1000000 ≤ d ∧ eps ≤ -(G.dot n) * d) →
    (∀ g, J g → ∀ d ∈ ds, J (g.step n r m i (chosen t μs μd) G d) ∧ Scalar.lt e (fin ((g.step n r m i (chosen t μs μd) G d).energy m i)) = true) →
    Rides s bh fh ch ch' B F sc pl o q r c P n G m i t μs μd g → F.asleep = true → NeighborsLive s.entities → s.energySleepThreshold = e → J g →
    ∃ s', Wakeful bh fh s ds s' := by
  induction ds with
  | nil => intro s B F o g _ _ _ _ _ _ _; exact ⟨s, .nil s⟩
  | cons d ds ih =>
    intro s B F o g hds hJ hL hF live he hg
    obtain ⟨m', hm, live'⟩ := step_total (ord := .id) (fin d) live (hL.setting.safe hL.alone)
    obtain ⟨h1, h2⟩ := hds d (by simp)
    obtain ⟨B1, F1, o1, gB, gF, -, -, k1, k2, k3⟩ := ride_step h1 hm hL h2
    obtain ⟨j1, j2⟩ := hJ g hg d (by simp)
    have a1 := k2 (by rw [he]; exact j2)
    have a2 := k1 hF
    obtain ⟨s', hs⟩ := ih (fun d hd => hds d (by simp [hd])) (fun g hg d hd => hJ g hg d (by simp [hd])) (k3 a1 (a2.trans hF.symm)) a2 live'
      (by rw [(step_frame hm).1.energy]; exact he) j1
    refine ⟨s', .cons .id hm ?_ ?_ hs⟩
    · intro b hb
      obtain ⟨Y, gY, rfl⟩ := getEntity_iff.mp hb
      rw [gB] at gY; cases gY; exact a1
    · intro f f' hf hf'
      obtain ⟨Y, gY, rfl⟩ := getEntity_iff.mp hf
      obtain ⟨Z, gZ, rfl⟩ := getEntity_iff.mp hf'
      rw [hL.setting.get2] at gY; cases gY
      rw [gF] at gZ; cases gZ
      show F1.asleep = F.asleep
      rw [a2, hF]
end

theorem incline : along' ⟨0, 1, 0⟩ ⟨3, -4, 0⟩ = ⟨3, 0, 0⟩ := by
  unfold along'; ext <;> simp [Vec3.dot_def]

theorem incline_len : (⟨3, 0, 0⟩ : Vec3 ℝ).len = 3 := by
  show Real.sqrt _ = 3
  rw [show (⟨3, 0, 0⟩ : Vec3 ℝ).dot ⟨3, 0, 0⟩ = 3 ^ 2 by simp [Vec3.dot_def]; norm_num]
  exact Real.sqrt_sq (by norm_num)

/-- **C94 is false:** however far `D` one goes, there is a body of mass 2 on a slope of steepness 3/4 with a friction coefficient of 1 that slides farther than `D` from rest,
with the settings of a new system. -/
theorem C94_false (D : ℝ) :
    ∃ (s s' : System XReal (GravityGenerator XReal)) (ball floor ball' : Entity XReal) (sc : SphereCollider XReal) (pl : PlaneCollider XReal) (x' : Vec3 ℝ) (k : Nat),
      RidesOn s h1 h0 h1 h0 ball floor sc pl 1 ⟨0, 1, 0⟩ .o ⟨0, 1, 0⟩ ⟨3, -4, 0⟩ 2 0 1 1 1 ⟨.o, .o⟩ ∧ Wakeful h1 h0 s (List.replicate k 1) s' ∧
      s'.getEntity h1 = some ball' ∧ ball'.position = Vec3.f x' ∧ D < x'.x := by
  have hf := mount_finite (hill_sleeps (ρ := 0) ⟨3, -4, 0⟩) (m := 2) (k := 0) (by norm_num) le_rfl (mount_dot 2 .o)
  have hR := mount_rides (m := 2) (v := .o) (i := 0) hf rfl ⟨rfl, rfl, rfl, rfl, rfl, rfl, rfl⟩ rfl
    (by simp [dot, Mat3.diag, Mat3.o]; rfl) le_rfl (by norm_num)
  obtain ⟨B, F, o, q, c, hB, hF, -, hL⟩ := hR.rides
  have hT : along' ⟨0, 1, 0⟩ ⟨3, -4, 0⟩ ≠ .o := by rw [incline]; intro h; have := congrArg Vec3.x h; norm_num at this
  have hdot : (⟨3, -4, 0⟩ : Vec3 ℝ).dot ⟨0, 1, 0⟩ = -4 := by simp [Vec3.dot_def]
  obtain ⟨k, hk⟩ := exists_nat_gt (D / (3 / 2))
  obtain ⟨s', hs⟩ := wakeful_run (e := fin (1 / 1000)) (J := fun g => ∃ y : ℝ, 0 ≤ y ∧ g = ⟨(along' ⟨0, 1, 0⟩ ⟨3, -4, 0⟩).scale (1 * y), .o⟩) (List.replicate k 1) (by
      intro d hd
      rw [(List.mem_replicate.mp hd).2, hdot]; unfold eps; norm_num) (by
      rintro g ⟨y, hy, rfl⟩ d hd
      rw [(List.mem_replicate.mp hd).2, creep_step zero_lt_one hT]
      set κ := chosen 1 1 1 * -((⟨3, -4, 0⟩ : Vec3 ℝ).dot ⟨0, 1, 0⟩) / (along' ⟨0, 1, 0⟩ ⟨3, -4, 0⟩).len
      have h1 : 1 / 2 ≤ creep 2 κ y := by
        unfold creep
        have := min_le_left 1 (κ / |y + 1|)
        nlinarith
      refine ⟨⟨_, by linarith, rfl⟩, ?_⟩
      rw [incline]
      simp [Gait.energy, Vec3.dot_def]
      nlinarith) hL (by
      have := congrArg Entity.asleep hF; exact this.symm) (mount_live rfl rfl) (by show lit 1 1000 = _; rw [lit_eq]; norm_num) ⟨0, le_rfl, by congr 1; ext <;> simp⟩
  obtain ⟨ball', x', hb, hp, l, hl, hx⟩ := C94_slides hR (d := 1) (by norm_num) (by rw [hdot]; norm_num) hT (by norm_num) hs
  refine ⟨_, s', _, _, ball', _, _, x', k, hR, hs, hb, hp, ?_⟩
  rw [hx, incline]
  simp
  rw [div_lt_iff₀ (by norm_num)] at hk
  nlinarith

/-- The slope of `C94_false` is less steep than the friction coefficient. -/
example : (along' ⟨0, 1, 0⟩ ⟨3, -4, 0⟩).len < (if (0 : ℝ) < 1 then 1 else 1) * -((⟨3, -4, 0⟩ : Vec3 ℝ).dot ⟨0, 1, 0⟩) := by
  rw [incline, incline_len]; simp [Vec3.dot_def]; norm_num

/-- The hypotheses of `C94_partial` can be met: a body of mass 1 stays on that slope. -/
example (k : Nat) : ∃ s s' ball', Tame' s ∧ Wakeful h1 h0 s (List.replicate k 1) s' ∧ s'.getEntity h1 = some ball' ∧ ball'.position = Vec3.f ⟨0, 1, 0⟩ := by
  have hf := mount_calm (mount_finite (hill_sleeps (ρ := 0) ⟨3, -4, 0⟩) (m := 1) (k := 0) (by norm_num) le_rfl (mount_dot 1 .o)) (fin (-1))
  have hR := mount_rides (m := 1) (v := .o) (i := 0) hf rfl ⟨rfl, rfl, rfl, rfl, rfl, rfl, rfl⟩ rfl
    (by simp [dot, Mat3.diag, Mat3.o]; rfl) le_rfl (by norm_num)
  obtain ⟨B, F, o, q, c, hB, hF, -, hL⟩ := hR.rides
  have hdot : (⟨3, -4, 0⟩ : Vec3 ℝ).dot ⟨0, 1, 0⟩ = -4 := by simp [Vec3.dot_def]
  obtain ⟨s', hs⟩ := wakeful_run (e := fin (-1)) (J := fun _ => True) (List.replicate k 1) (by
      intro d hd
      rw [(List.mem_replicate.mp hd).2, hdot]; unfold eps; norm_num) (by
      rintro g - d hd
      refine ⟨trivial, ?_⟩
      simp [Gait.energy, Vec3.dot_def]
      nlinarith [mul_self_nonneg (g.step ⟨0, 1, 0⟩ 1 1 0 (chosen 1 1 1) ⟨3, -4, 0⟩ d).vel.x, mul_self_nonneg (g.step ⟨0, 1, 0⟩ 1 1 0 (chosen 1 1 1) ⟨3, -4, 0⟩ d).vel.y,
        mul_self_nonneg (g.step ⟨0, 1, 0⟩ 1 1 0 (chosen 1 1 1) ⟨3, -4, 0⟩ d).vel.z]) hL (by
      have := congrArg Entity.asleep hF; exact this.symm) (mount_live rfl rfl) rfl trivial
  obtain ⟨b, hb, hp, -⟩ := C94_partial hR (by
    intro d hd
    rw [(List.mem_replicate.mp hd).2, hdot]; norm_num) hs (by rw [incline, incline_len, hdot]; norm_num)
  exact ⟨_, s', b, hf, hs, hb, hp⟩

/-- The hypotheses of `C93_runs` can be met: a ball of mass 2 and radius 1 that is pushed with speed 7 ends up rolling, with speed 5. -/
example : ∃ s q, Tame' s ∧ 0 ≤ q ∧ q < 1 ∧ ∀ k : Nat, ∃ s' ball' v a, Wakeful h1 h0 s (List.replicate k 1) s' ∧ s'.getEntity h1 = some ball' ∧ ball'.velocity = Vec3.f v ∧
    ball'.angularVelocity = Vec3.f a ∧ (v - (a.cross ⟨0, 1, 0⟩).scale 1).len ≤ q ^ k * 7 ∧ (v - ⟨5, 0, 0⟩).len ≤ q ^ k * 2 := by
  have hGn : (⟨0, 1, 0⟩ : Vec3 ℝ).scale (-1) = ⟨0, -1, 0⟩ := by ext <;> simp
  have hf := mount_calm (mount_finite (hill_sleeps (ρ := 0) ((⟨0, 1, 0⟩ : Vec3 ℝ).scale (-1))) (m := 0) (k := 2) le_rfl (by norm_num) (mount_puck (by norm_num) ⟨7, 0, 0⟩)) (fin (-1))
  have hR := mount_rides (m := 2) (v := ⟨7, 0, 0⟩) (i := 2 / 5 * 2) hf rfl ⟨rfl, rfl, rfl, rfl, rfl, rfl, rfl⟩ rfl rfl (by norm_num) (by norm_num)
  obtain ⟨B, F, o, q, c, hB, hF, -, hL⟩ := hR.rides
  have hdot : ((⟨0, 1, 0⟩ : Vec3 ℝ).scale (-1)).dot ⟨0, 1, 0⟩ = -1 := by simp [Vec3.dot_def]
  obtain ⟨p, p0, p1, hp⟩ := C93_runs hR (d := 1) (by norm_num) (by norm_num) (by norm_num) (by norm_num)
  have h7 : ((⟨7, 0, 0⟩ : Vec3 ℝ) - ((Vec3.o : Vec3 ℝ).cross ⟨0, 1, 0⟩).scale 1) = ⟨7, 0, 0⟩ := by ext <;> simp
  have hl : (⟨7, 0, 0⟩ : Vec3 ℝ).len = 7 := by
    show Real.sqrt _ = 7
    rw [show (⟨7, 0, 0⟩ : Vec3 ℝ).dot ⟨7, 0, 0⟩ = 7 ^ 2 by simp [Vec3.dot_def]; norm_num]
    exact Real.sqrt_sq (by norm_num)
  refine ⟨_, p, hf, p0, p1, fun k => ?_⟩
  obtain ⟨s', hs⟩ := wakeful_run (e := fin (-1)) (J := fun _ => True) (List.replicate k 1) (by
      intro d hd
      rw [(List.mem_replicate.mp hd).2, hdot]; unfold eps; norm_num) (by
      rintro g - d hd
      refine ⟨trivial, ?_⟩
      generalize g.step ⟨0, 1, 0⟩ 1 2 (2 / 5 * 2) (chosen 1 1 1) ((⟨0, 1, 0⟩ : Vec3 ℝ).scale (-1)) d = g'
      simp [Gait.energy, Vec3.dot_def]
      nlinarith [mul_self_nonneg g'.vel.x, mul_self_nonneg g'.vel.y, mul_self_nonneg g'.vel.z, mul_self_nonneg g'.spin.x, mul_self_nonneg g'.spin.y,
        mul_self_nonneg g'.spin.z]) hL (by
      have := congrArg Entity.asleep hF; exact this.symm) (mount_live rfl rfl) rfl trivial
  obtain ⟨b, v, a, hb, hv, ha, -, k1, k2⟩ := hp k s' hs
  simp only [h7, hl] at k1 k2
  refine ⟨s', b, v, a, hs, hb, hv, ha, k1, ?_⟩
  have e : (⟨7, 0, 0⟩ : Vec3 ℝ) - (⟨7, 0, 0⟩ : Vec3 ℝ).scale (1 / (2 * (1 / 2 + 1 * 1 / (2 / 5 * 2)))) = ⟨5, 0, 0⟩ := by ext <;> norm_num
  rw [e] at k2
  norm_num at k2
  exact k2

end Fluffy.Props
