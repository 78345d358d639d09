import Verif.Props.Place
import Verif.Props.Witness
/-
C72: do results depend on the velocity of the observer?  Moving observers see every body's velocity changed by one vector `u`.  The response to
a contact does not change, nor does the detection between a plane and anything or between a ball and a box; but two balls that are
detected by one observer pass through each other for another.
-/
set_option linter.unusedSectionVars false
set_option linter.unusedSimpArgs false
namespace Fluffy
open XReal Step

/-- The body as an observer with velocity `-u` sees it. -/
noncomputable def InternalEntity.boost (u : Vec3 ℝ) (e : InternalEntity XReal) : InternalEntity XReal := { e with velocity := e.velocity + u.f }
/-- A contact during a step in which everything moves by `d` in addition: by the time of the contact it has been carried along. -/
noncomputable def Collision.drift (d : Vec3 ℝ) (c : Collision XReal) : Collision XReal := { c with position := c.position + d.f.scale c.times.min }

namespace Props

theorem velocityAt_boost (u : Vec3 ℝ) (e : InternalEntity XReal) (p : Vec3 XReal) : (e.boost u).velocityAt p = e.velocityAt p + u.f := by
  unfold InternalEntity.velocityAt InternalEntity.boost
  exact Vec3.shift_add _ _ _
theorem applyImpulse_boost (u : Vec3 ℝ) (e : InternalEntity XReal) (p i : Vec3 XReal) : (e.boost u).applyImpulse p i = (e.applyImpulse p i).boost u := by
  unfold InternalEntity.applyImpulse InternalEntity.boost
  simp only [Vec3.shift_add]
  rfl
theorem denominator_boost (u w : Vec3 ℝ) (a b : InternalEntity XReal) (c : Collision XReal) :
    impulseDenominator (a.boost u) (b.boost w) c = impulseDenominator a b c := rfl

/-- The closing speed that decides whether a contact counts is the same for every observer. -/
theorem C72_closing_partial (u : Vec3 ℝ) (a b : InternalEntity XReal) (p n : Vec3 XReal) :
    ((a.boost u).velocityAt p - (b.boost u).velocityAt p).dot n = (a.velocityAt p - b.velocityAt p).dot n := by
  rw [velocityAt_boost, velocityAt_boost, Vec3.shift_sub_shift]

theorem impulse_boost (u : Vec3 ℝ) (a b : InternalEntity XReal) (r : XReal) (c : Collision XReal) :
    collisionImpulse (a.boost u) (b.boost u) r c = collisionImpulse a b r c := by
  unfold collisionImpulse
  simp only [velocityAt_boost, Vec3.shift_sub_shift, denominator_boost]
theorem friction_boost (u : Vec3 ℝ) (a b : InternalEntity XReal) (i : Vec3 XReal) (k : Candidate XReal) :
    frictionImpulse (a.boost u) (b.boost u) i k = frictionImpulse a b i k := by
  unfold frictionImpulse
  simp only [velocityAt_boost, Vec3.shift_sub_shift, denominator_boost]

/-- The rest of the movement of a body seen by an observer. -/
noncomputable def boostInfo (u : Vec3 ℝ) (τ : ℝ) (i : StepInfo XReal) : StepInfo XReal := { i with linearMovement := i.linearMovement + (u.scale τ).f }

theorem applyCollision_boost (u : Vec3 ℝ) (τ : ℝ) (e : InternalEntity XReal) (i : StepInfo XReal) (p j : Vec3 XReal) :
    applyCollisionImpulse (e.boost u) i p j (fin τ) =
      ((applyCollisionImpulse e i p j (fin τ)).1.boost u, boostInfo u τ (applyCollisionImpulse e i p j (fin τ)).2) := by
  unfold applyCollisionImpulse
  simp only [applyImpulse_boost]
  have h : ((e.applyImpulse p j).boost u).velocity.scale (fin τ) = (e.applyImpulse p j).velocity.scale (fin τ) + (u.scale τ).f :=
    Vec3.shift_scale _ _ _
  rw [h]
  rfl
theorem applyCollision_info (u : Vec3 ℝ) (τ : ℝ) (e : InternalEntity XReal) (i : StepInfo XReal) (p j : Vec3 XReal) (r : XReal) :
    applyCollisionImpulse e (boostInfo u τ i) p j r = applyCollisionImpulse e i p j r := rfl

/-- **C72, the response.** Two colliding bodies get the same impulses from every observer: the velocities afterwards differ by the observer's velocity, and
the record, the spins, and who rests on whom do not differ.  Nothing is assumed of the bodies or the contact. -/
theorem C72_response_partial (u : Vec3 ℝ) (k : Candidate XReal) (rt : XReal) (τ : ℝ) (a b : InternalEntity XReal) (i j : StepInfo XReal) :
    (respondPair k rt (fin τ) (a.boost u) (b.boost u) i j).first = (respondPair k rt (fin τ) a b i j).first.boost u ∧
    (respondPair k rt (fin τ) (a.boost u) (b.boost u) i j).second = (respondPair k rt (fin τ) a b i j).second.boost u ∧
    (respondPair k rt (fin τ) (a.boost u) (b.boost u) i j).firstInfo = boostInfo u τ (respondPair k rt (fin τ) a b i j).firstInfo ∧
    (respondPair k rt (fin τ) (a.boost u) (b.boost u) i j).secondInfo = boostInfo u τ (respondPair k rt (fin τ) a b i j).secondInfo ∧
    (respondPair k rt (fin τ) (a.boost u) (b.boost u) i j).record = (respondPair k rt (fin τ) a b i j).record := by
  unfold respondPair
  simp only [impulse_boost, applyCollision_boost, friction_boost, applyCollision_info, and_true, true_and]
  constructor <;> split <;> rfl

/-! ### Detection -/

theorem overlap_drift {n : Vec3 XReal} (hn : n.Tame) (d : Vec3 ℝ) (r : XReal) (c m p v : Vec3 XReal) (b : Bool) :
    spherePlaneOverlapTime r c (m + d.f) p n (v + d.f) b = spherePlaneOverlapTime r c m p n v b := by
  unfold spherePlaneOverlapTime
  rcases hn.cases with ⟨w, rfl⟩ | hnan
  · simp only [Vec3.dot_shift, XReal.shift_sub_shift]
  · simp only [hnan]

theorem shift_scaled (d : Vec3 ℝ) (m : Vec3 XReal) {t : XReal} (ht : ∃ r, t = fin r) : (m + d.f).scale t = m.scale t + d.f.scale t := by
  obtain ⟨r, rfl⟩ := ht
  rw [Vec3.shift_scale, Vec3.f_scale]

theorem unit_fin {R : Range XReal} (h : (!(R.intersect unitRange).isEmpty) = true) : ∃ r, (R.intersect unitRange).min = fin r :=
  inStep_fin (inStep_of_unit (p := Vec3.zeros) (n := Vec3.zeros) (by rw [h]; simp))

theorem spherePlane_drift {n : Vec3 XReal} (hn : n.Tame) (d : Vec3 ℝ) (r : XReal) (c m p v : Vec3 XReal) :
    collideSpherePlane r c (m + d.f) p n (v + d.f) = (collideSpherePlane r c m p n v).map (Collision.drift d) := by
  unfold collideSpherePlane
  simp only [overlap_drift hn]
  split
  · rename_i h
    rw [shift_scaled d m (unit_fin h)]
    simp only [Option.map_some, Collision.drift, Vec3.add_asc]
  · rfl

/-- Two balls: the times and the place are the same for every observer.  The normal is not, see `C72_false`. -/
theorem C72_spheres_partial (d : Vec3 ℝ) (r1 r2 : ℝ) (hr : r1 + r2 ≠ 0) (c m p v : Vec3 XReal) :
    (collideSphereSphere (fin r1) c (m + d.f) (fin r2) p (v + d.f)).map (fun C => (C.times, C.position)) =
    ((collideSphereSphere (fin r1) c m (fin r2) p v).map (Collision.drift d)).map (fun C => (C.times, C.position)) := by
  unfold collideSphereSphere
  simp only [Vec3.shift_sub_shift]
  split
  · rename_i h
    obtain ⟨t, ht⟩ := unit_fin h
    simp only [Option.map_some, Collision.drift, ht]
    rw [Vec3.shift_scale, Vec3.shift_scale, ← Vec3.add_asc, ← Vec3.add_asc, one_eq, two_radii _ (by simpa using hr), Vec3.f_scale]
  · rfl

theorem meshPlane_drift {o e : Orientation XReal} (he : e.rotation.Ok) (d : Vec3 ℝ) (vs : List (Vec3 XReal)) (m a b n : Vec3 XReal) :
    collideMeshPlane vs m o (e.shift d) a (b + d.f) n = (collideMeshPlane vs m o e a b n).map (Collision.drift d) := by
  have hi : ∀ v, meshInfo m o (e.shift d) a (b + d.f) n v =
      ⟨(meshInfo m o e a b n v).startPosition, (meshInfo m o e a b n v).endPosition + d.f, (meshInfo m o e a b n v).startDistance,
        (meshInfo m o e a b n v).endDistance⟩ := by
    intro v
    unfold meshInfo
    simp only [Orientation.positionIntoWorld_shift d e _ he, Vec3.shift_sub_shift]
  have h1 : (vs.map (meshInfo m o (e.shift d) a (b + d.f) n)).map (·.startDistance) = (vs.map (meshInfo m o e a b n)).map (·.startDistance) := by
    rw [List.map_map, List.map_map]; exact List.map_congr_left (fun v _ => by simp [hi])
  have h2 : (vs.map (meshInfo m o (e.shift d) a (b + d.f) n)).map (·.endDistance) = (vs.map (meshInfo m o e a b n)).map (·.endDistance) := by
    rw [List.map_map, List.map_map]; exact List.map_congr_left (fun v _ => by simp [hi])
  have h3 : (vs.map (meshInfo m o (e.shift d) a (b + d.f) n)).map (fun i => (i.startPosition, i.startDistance)) =
      (vs.map (meshInfo m o e a b n)).map (fun i => (i.startPosition, i.startDistance)) := by
    rw [List.map_map, List.map_map]; exact List.map_congr_left (fun v _ => by simp [hi])
  have h4 : (vs.map (meshInfo m o (e.shift d) a (b + d.f) n)).map (fun i => (i.endPosition, i.endDistance)) =
      ((vs.map (meshInfo m o e a b n)).map (fun i => (i.endPosition, i.endDistance))).map (fun x => (x.1 + d.f, x.2)) := by
    rw [List.map_map, List.map_map, List.map_map]; exact List.map_congr_left (fun v _ => by simp [hi])
  unfold collideMeshPlane
  simp only [h1, h2, h3, h4, closest_shift']
  split
  · rename_i hne
    rw [shift_scaled d _ (unit_fin hne)]
    simp only [Option.map_some, Collision.drift, Vec3.add_asc]
  · rfl

theorem lerp_drift (d : Vec3 ℝ) (t : ℝ) (o e : Orientation XReal) : Orientation.lerp (fin t) o (e.shift d) = (Orientation.lerp (fin t) o e).shift (d.scale t) := by
  unfold Orientation.lerp
  simp only [one_eq, fin_sub]
  show Orientation.mk _ _ _ = Orientation.mk _ _ _
  rw [Orientation.mk.injEq]
  refine ⟨?_, rfl, rfl⟩
  show _ + (e.position + d.f).scale (fin t) = _
  rw [Vec3.shift_scale, ← Vec3.add_asc]

theorem sphereBox_drift {o1 e1 o2 e2 : Orientation XReal} (h2 : e1.rotation.Ok) (h4 : e2.rotation.Ok) (d : Vec3 ℝ)
    (s : SphereCollider XReal) (b : BoxCollider XReal) :
    dispatchSphereBox s o1 (e1.shift d) b o2 (e2.shift d) = (dispatchSphereBox s o1 e1 b o2 e2).map (Option.map (Collision.drift d)) := by
  unfold dispatchSphereBox
  simp only [Orientation.positionIntoWorld_shift d _ _ h2, Orientation.positionIntoLocal_shift d _ _ h4]
  cases hr : collideSphereBox s.radius (o2.positionIntoLocal (o1.positionIntoWorld s.center))
      (e2.positionIntoLocal (e1.positionIntoWorld s.center) - o2.positionIntoLocal (o1.positionIntoWorld s.center)) b.minCorner b.maxCorner with
  | error e => rfl
  | ok r =>
    simp only [Res.ok_bind, Except.map]
    cases r with
    | none => rfl
    | some c =>
      have hin : InStep c := by
        have := in_sphereBox (s := s) (b := b) (o1 := o1) (o2 := e1) (o3 := o2) (o4 := e2) (o := some (c.transformOutOf o2 e2)) (by
          unfold dispatchSphereBox; simp only [hr]; rfl) _ rfl
        exact this.of_times rfl
      obtain ⟨t, ht⟩ := inStep_fin hin
      simp only [Option.map_some, Collision.transformOutOf, ht, lerp_drift]
      rw [Orientation.positionIntoWorld_shift _ _ _ (by unfold Orientation.lerp; exact Quat.ok_fromScaledAxis _)]
      simp only [Collision.drift, ht, Vec3.f_scale]
      rfl

/-- The pairs of shapes whose contacts are the same for every observer. -/
def Steady : Collider XReal → Collider XReal → Prop
  | .sphere _, .sphere _ => False
  | .sphere _, .mesh _ => False
  | .mesh _, .sphere _ => False
  | .mesh _, .mesh _ => False
  | .plane p, _ => p.normal.Tame
  | _, .plane p => p.normal.Tame
  | _, _ => True

/-- **C72, detection.** If everything moves by `d` more during the step, the contact of a plane with anything, or of a ball with a box, has the same times and the same
normal, and its place is where it was plus the part of `d` covered by then. -/
theorem C72_detection_partial {o1 e1 o2 e2 : Orientation XReal} (h2 : e1.rotation.Ok) (h4 : e2.rotation.Ok) (d : Vec3 ℝ)
    {c1 c2 : Collider XReal} (hs : Steady c1 c2) :
    collide c1 o1 (e1.shift d) c2 o2 (e2.shift d) = (collide c1 o1 e1 c2 o2 e2).map (Option.map (Collision.drift d)) := by
  have sp : ∀ {o1 e1 o2 e2 : Orientation XReal}, e1.rotation.Ok → e2.rotation.Ok → ∀ (s : SphereCollider XReal)
      (p : PlaneCollider XReal), p.normal.Tame →
      dispatchSpherePlane s o1 (e1.shift d) p o2 (e2.shift d) = (dispatchSpherePlane s o1 e1 p o2 e2).map (Collision.drift d) := by
    intro o1 e1 o2 e2 h2 h4 s p hp
    unfold dispatchSpherePlane
    simp only [Orientation.positionIntoWorld_shift d _ _ h2, Orientation.positionIntoWorld_shift d _ _ h4, Vec3.shift_sub, spherePlane_drift hp]
  have mp : ∀ {o1 e1 o2 e2 : Orientation XReal}, e1.rotation.Ok → e2.rotation.Ok → ∀ (m : MeshCollider XReal)
      (p : PlaneCollider XReal), dispatchMeshPlane m o1 (e1.shift d) p o2 (e2.shift d) = (dispatchMeshPlane m o1 e1 p o2 e2).map (Collision.drift d) := by
    intro o1 e1 o2 e2 h2 h4 m p
    unfold dispatchMeshPlane
    rw [Orientation.positionIntoWorld_shift d _ _ h4, meshPlane_drift h2]
  have fl : ∀ o : Option (Collision XReal), (o.map (Collision.drift d)).map Collision.flip = (o.map Collision.flip).map (Collision.drift d) := by
    intro o; cases o <;> rfl
  have flr : ∀ r : Res (Option (Collision XReal)), (r.map (Option.map (Collision.drift d)) >>= fun o => .ok (o.map Collision.flip)) =
      (r >>= fun o => .ok (o.map Collision.flip)).map (Option.map (Collision.drift d)) := by
    intro r
    cases r with
    | error e => rfl
    | ok o => cases o <;> rfl
  cases c1 with
  | null _ => rfl
  | sphere s =>
    cases c2 with
    | null _ => rfl
    | sphere s2 => exact hs.elim
    | plane p => unfold collide; dsimp only; rw [sp h2 h4 s p hs]; rfl
    | mesh m => exact hs.elim
    | box b => unfold collide; exact sphereBox_drift h2 h4 d s b
  | plane p =>
    cases c2 with
    | sphere s => unfold collide; dsimp only; rw [sp h4 h2 s p hs, fl]; rfl
    | mesh m => unfold collide; dsimp only; rw [mp h4 h2 m p, fl]; rfl
    | null _ => rfl
    | plane _ => rfl
    | box _ => rfl
  | mesh m =>
    cases c2 with
    | sphere s => exact hs.elim
    | mesh m => exact hs.elim
    | plane p => unfold collide; dsimp only; rw [mp h2 h4 m p]; rfl
    | null _ => rfl
    | box _ => rfl
  | box b =>
    cases c2 with
    | sphere s => unfold collide; dsimp only; rw [sphereBox_drift h4 h2 d s b, flr]
    | mesh m => rfl
    | plane p => rfl
    | null _ => rfl
    | box _ => rfl

/-- The end of a step for a body that moves by `d` more is what `C72_detection_partial` takes it to be. -/
theorem carried (d : Vec3 ℝ) (o : Orientation XReal) (l w : Vec3 XReal) : o.afterAffected (l + d.f) w = (o.afterAffected l w).shift d := by
  unfold Orientation.afterAffected Orientation.shift
  simp only [Vec3.add_shift]

/-- The hypotheses are met: a spinning, moving ball over a floor, and over a box. -/
example (p q l w : Vec3 ℝ) (d : Vec3 ℝ) (s : SphereCollider XReal) (b : BoxCollider XReal) (pl : PlaneCollider XReal) (hpl : pl.normal = (⟨0, 1, 0⟩ : Vec3 ℝ).f) :
    ((Scene.pose p).f.afterAffected l.f w.f).rotation.Ok ∧ ((Scene.pose q).f.afterAffected l.f w.f).rotation.Ok ∧ Steady (.sphere s) (.plane pl) ∧ Steady (.box b) (.sphere s) := by
  have h : ∀ p, ((Scene.pose p).f.afterAffected l.f w.f).rotation.Ok := fun p =>
    (Quat.ok_fromScaledAxis _).mul (Quat.ok_f (by simp [Scene.pose]))
  refine ⟨h p, h q, ?_, trivial⟩
  show pl.normal.Tame
  rw [hpl]
  exact Vec3.tame_f _

/-! ### Two balls -/
open Demo Scene

/-- The same approach as `head_on`, with both balls moving to the left: the normal is turned round. -/
theorem head_on_drift : ∃ C, collideSphereSphere (fin 1) (Vec3.o).f (⟨-8, 0, 0⟩ : Vec3 ℝ).f (fin 1) (⟨3, 0, 0⟩ : Vec3 ℝ).f (⟨-10, 0, 0⟩ : Vec3 ℝ).f = some C ∧
    C.times.min = fin (1 / 2) ∧ C.position = (⟨-3, 0, 0⟩ : Vec3 ℝ).f ∧ C.normal = (⟨-1, 0, 0⟩ : Vec3 ℝ).f := by
  have e1 : ((⟨-8, 0, 0⟩ : Vec3 ℝ) - ⟨-10, 0, 0⟩).dot (⟨-8, 0, 0⟩ - ⟨-10, 0, 0⟩) = 4 := by norm_num [Vec3.dot_def]
  have e2 : 2 * ((⟨-8, 0, 0⟩ : Vec3 ℝ) - ⟨-10, 0, 0⟩).dot (.o - ⟨3, 0, 0⟩) = -12 := by norm_num [Vec3.dot_def]
  have e3 : (.o - (⟨3, 0, 0⟩ : Vec3 ℝ)).dot (.o - ⟨3, 0, 0⟩) - (1 + 1) * (1 + 1) = 5 := by norm_num [Vec3.dot_def]
  rcases sphereSphere_first (r1 := 1) (r2 := 1) (c1 := .o) (m1 := ⟨-8, 0, 0⟩) (c2 := ⟨3, 0, 0⟩) (m2 := ⟨-10, 0, 0⟩) (by norm_num)
      (P := fun t => 4 * t ^ 2 + -12 * t + 5 ≤ 0) (fun t _ _ => by
        rw [e1, e2, e3]
        exact (C40_quadratic_partial _ _ _ (by unfold eps; norm_num)).1 (Or.inr (by unfold eps; norm_num)) t) with h | ⟨C, t, q, hC, ht, hf, hq, hp, hn⟩
  · exact absurd (by norm_num) (h.2 (1 / 2) (by norm_num) (by norm_num))
  · have hle := hf.2 (1 / 2) (by norm_num) (by norm_num) (by norm_num)
    have hP := hf.1.2.2
    have ht' : t = 1 / 2 := by
      apply le_antisymm hle
      by_contra hlt
      push Not at hlt
      simp only at hP
      nlinarith
    subst ht'
    have hq' : q = ⟨-3, 0, 0⟩ := by rw [hq]; ext <;> simp [along] <;> norm_num
    refine ⟨C, hC, ht, by rw [hp, hq'], ?_⟩
    rw [hn, hq']
    have hne : (⟨-3, 0, 0⟩ : Vec3 ℝ) - .o ≠ .o := fun h => by have := congrArg Vec3.x h; norm_num at this
    rw [Vec3.f_normalize hne, Vec3.f_inj]
    have hl : ((⟨-3, 0, 0⟩ : Vec3 ℝ) - .o).len = 3 := by
      unfold Vec3.len
      rw [show ((⟨-3, 0, 0⟩ : Vec3 ℝ) - .o).dot (⟨-3, 0, 0⟩ - .o) = 3 * 3 by norm_num [Vec3.dot_def]]
      exact Real.sqrt_mul_self (by norm_num)
    rw [hl]
    ext <;> simp

variable {γ : Type} [ForceGenerator XReal γ]

/-- Two elastic balls of mass 1, the first moving with velocity `v`, the second with `w`; nothing sleeps. -/
noncomputable def twoBalls (v w : Vec3 ℝ) : System XReal γ :=
  scene (dot (fin 1) .o v [h0] up) (dot (fin 1) ⟨3, 0, 0⟩ w [h1] up) (sphere 1) (sphere 1) 2 (fin (-1)) (fin 0)

theorem twoBalls_rest (ord : IterOrder) : ∃ t : System XReal γ, (twoBalls ⟨2, 0, 0⟩ .o).step ord (fin 1) = .ok t ∧
    t.entities = Scene.two (dot (fin 1) ⟨1, 0, 0⟩ .o [h0] up) (dot (fin 1) ⟨4, 0, 0⟩ ⟨2, 0, 0⟩ [h1] up) ∧ t.collisionRecords.length = 1 := by
  have hb := bounce (γ := γ) ord (m := some 1) (k := some 1) (by rintro x ⟨⟩; norm_num) (by rintro x ⟨⟩; norm_num) (Or.inl (by simp)) (zero_le_one' ℝ) 0 (fin (-1)) (fin 0)
    rfl (v := .o) (w := ⟨2, 0, 0⟩) (by simp only [inverse]; ext <;> norm_num) (by simp only [inverse]; ext <;> norm_num)
  rw [show mx (some 1) = fin 1 from rfl] at hb
  unfold twoBalls
  rw [hb, if_neg (by norm_num), if_neg (by norm_num)]
  have p1 : (⟨1, 0, 0⟩ : Vec3 ℝ) + (Vec3.o : Vec3 ℝ).scale (1 / 2) = ⟨1, 0, 0⟩ := by ext <;> simp
  have p2 : (⟨3, 0, 0⟩ : Vec3 ℝ) + (⟨2, 0, 0⟩ : Vec3 ℝ).scale (1 / 2) = ⟨4, 0, 0⟩ := by ext <;> norm_num
  rw [p1, p2]
  simp only [sleepLoop]
  rw [sleep_no (E := -1) ord _ (n := []) (by exact two_get0 _ _) (by rfl) (by norm_num [Vec3.dot_def])]
  simp only [scene, two_set0, Res.ok_bind]
  rw [sleep_no (E := -1) ord _ (n := []) (by exact two_get1 _ _) (by rfl) (by norm_num [Vec3.dot_def])]
  simp only [two_set1, Res.ok_bind]
  exact ⟨_, rfl, rfl, rfl⟩

theorem twoBalls_moving (ord : IterOrder) : ∃ t : System XReal γ, (twoBalls ⟨-8, 0, 0⟩ ⟨-10, 0, 0⟩).step ord (fin 1) = .ok t ∧
    t.entities = Scene.two (dot (fin 1) ⟨-8, 0, 0⟩ ⟨-8, 0, 0⟩ [h0] up) (dot (fin 1) ⟨-7, 0, 0⟩ ⟨-10, 0, 0⟩ [h1] up) ∧ t.collisionRecords = [] := by
  unfold System.step twoBalls
  rw [if_neg (by simp [abs_one]; norm_num)]
  simp only [scene, two_handles]
  have hgen : (Arena.new : Arena γ).handles = [] := rfl
  rw [hgen]
  simp only [integrateAll]
  rw [show ∀ p v cs z, dot (fin 1) p v cs z = dot (mx (some 1)) p v cs z from fun _ _ _ _ => rfl, show ∀ p v cs z, dot (fin 1) p v cs z = dot (mx (some 1)) p v cs z from fun _ _ _ _ => rfl]
  rw [integrate (some 1) .o ⟨-8, 0, 0⟩ [h0] up 1 _ (two_get0 _ _)]
  simp only [Res.ok_bind, two_set0]
  rw [integrate (some 1) ⟨3, 0, 0⟩ ⟨-10, 0, 0⟩ [h1] up 1 _ (two_get1 _ _)]
  simp only [Res.ok_bind, two_set1]
  have e1 : ∀ v : Vec3 ℝ, v.scale 1 = v := fun v => by ext <;> simp
  rw [e1, e1]
  obtain ⟨C, hC, ct, cp, cn⟩ := head_on_drift
  have hK := consider_balls 1 1 (mx (some 1)) (mx (some 1)) .o ⟨-8, 0, 0⟩ ⟨3, 0, 0⟩ ⟨-10, 0, 0⟩ up up ⟨-8, 0, 0⟩ ⟨-10, 0, 0⟩ [] [] hC (fun C' h => by cases h; exact ⟨_, cp⟩)
  have d1 : ((⟨-8, 0, 0⟩ : Vec3 ℝ).f - (⟨-10, 0, 0⟩ : Vec3 ℝ).f).dot (⟨-1, 0, 0⟩ : Vec3 ℝ).f = fin (-2) := by
    rw [Vec3.f_sub, Vec3.f_dot]; congr 1; norm_num [Vec3.dot_def]
  simp only [cn, ct, d1, EPSILON_eq, fin_lt] at hK
  rw [if_pos (by norm_num)] at hK
  rw [zero_eq, iterate_miss ord (d := 1) (y := up) (z := up) rfl rfl (by simp [up]) (by simp [up]) rfl rfl hK]
  have p1 : (Vec3.o : Vec3 ℝ) + ⟨-8, 0, 0⟩ = ⟨-8, 0, 0⟩ := by ext <;> simp
  have p2 : (⟨3, 0, 0⟩ : Vec3 ℝ) + ⟨-10, 0, 0⟩ = ⟨-7, 0, 0⟩ := by ext <;> norm_num
  simp only [Res.ok_bind, if_true, p1, p2, sleepLoop, show mx (some 1) = fin 1 from rfl]
  rw [sleep_no (E := -1) ord _ (n := []) (by exact two_get0 _ _) (by rfl) (by norm_num [Vec3.dot_def])]
  simp only [two_set0, Res.ok_bind]
  rw [sleep_no (E := -1) ord _ (n := []) (by exact two_get1 _ _) (by rfl) (by norm_num [Vec3.dot_def])]
  simp only [two_set1, Res.ok_bind]
  exact ⟨_, rfl, rfl, rfl⟩

/-- **C72 is false.** A ball runs into a resting ball, which takes over its velocity.  An observer moving past sees both balls with the same velocity added,
and for that observer the same step finds no contact: the balls end up inside one another with their old velocities. -/
theorem C72_false (ord : IterOrder) : ∃ (u : Vec3 ℝ) (s s' t t' : System XReal γ), Reachable s ∧ Reachable s' ∧
    s' = { s with entities := s.entities.map (InternalEntity.boost u) } ∧
    s.step ord (fin 1) = .ok t ∧ s'.step ord (fin 1) = .ok t' ∧ t.collisionRecords.length = 1 ∧ t'.collisionRecords = [] ∧
    ∃ a a' b' : InternalEntity XReal, t.entities.get h0 = some a ∧ t'.entities.get h0 = some a' ∧ t'.entities.get h1 = some b' ∧
      a'.velocity ≠ a.velocity + u.f ∧ (a'.orientation.position - b'.orientation.position).magnitude = fin 1 := by
  obtain ⟨t, ht, te, tr⟩ := twoBalls_rest (γ := γ) ord
  obtain ⟨t', ht', te', tr'⟩ := twoBalls_moving (γ := γ) ord
  refine ⟨⟨-10, 0, 0⟩, _, _, t, t', start_reachable (by norm_num) (by norm_num) _ _ _ _ _ _ _ _ _, start_reachable (by norm_num) (by norm_num) _ _ _ _ _ _ _ _ _, ?_,
    ht, ht', tr, tr', _, _, _, by rw [te]; exact two_get0 _ _, by rw [te']; exact two_get0 _ _, by rw [te']; exact two_get1 _ _, ?_, ?_⟩
  · have hd : ∀ (p v : Vec3 ℝ) (cs : List Handle), (dot (fin 1) p v cs up).boost ⟨-10, 0, 0⟩ = dot (fin 1) p (v + ⟨-10, 0, 0⟩) cs up := by
      intro p v cs
      unfold InternalEntity.boost dot
      simp only [Vec3.f_add]
    have hm : ∀ (a b : InternalEntity XReal) (f : InternalEntity XReal → InternalEntity XReal), (Scene.two a b).map f = Scene.two (f a) (f b) := fun _ _ _ => rfl
    have v1 : (⟨2, 0, 0⟩ : Vec3 ℝ) + ⟨-10, 0, 0⟩ = ⟨-8, 0, 0⟩ := by ext <;> norm_num
    have v2 : (Vec3.o : Vec3 ℝ) + ⟨-10, 0, 0⟩ = ⟨-10, 0, 0⟩ := by ext <;> simp
    unfold scene
    simp only [hm, hd, v1, v2]
  · intro h
    have := congrArg Vec3.x h
    simp [dot] at this
  · show ((⟨-8, 0, 0⟩ : Vec3 ℝ).f - (⟨-7, 0, 0⟩ : Vec3 ℝ).f).magnitude = fin 1
    rw [Vec3.f_sub, Vec3.f_magnitude]
    congr 1
    unfold Vec3.len
    rw [show ((⟨-8, 0, 0⟩ : Vec3 ℝ) - ⟨-7, 0, 0⟩).dot (⟨-8, 0, 0⟩ - ⟨-7, 0, 0⟩) = 1 by norm_num [Vec3.dot_def], Real.sqrt_one]

end Props
end Fluffy
