import Verif.Num.Rodrigues
import Verif.Props.Store
import Verif.Props.Demo
/- C51, C57 and the rotation part of C03: poses and rotation vectors, over exact numbers (`XReal`). -/
set_option linter.unusedSectionVars false
namespace Fluffy.Props
open Fluffy XReal Orientation

/-! ### Specification -/

/-- All three components are finite. -/
def Finite3 (v : Vec3 XReal) : Prop :=
  Scalar.isFinite v.x = true ∧ Scalar.isFinite v.y = true ∧ Scalar.isFinite v.z = true

theorem Finite3.f {v : Vec3 XReal} (h : Finite3 v) : ∃ r, v = Vec3.f r := Vec3.exists_f h.1 h.2.1 h.2.2
theorem finite3_f (v : Vec3 ℝ) : Finite3 v.f := ⟨rfl, rfl, rfl⟩

/-- A finite pose with a unit quaternion. -/
structure UnitPose (o : Orientation XReal) : Prop where
  position : Finite3 o.position
  offset : Finite3 o.internalOriginOffset
  w : Scalar.isFinite o.rotation.w = true
  v : Finite3 o.rotation.vec
  unit : o.rotation.w * o.rotation.w + o.rotation.i * o.rotation.i + o.rotation.j * o.rotation.j +
    o.rotation.k * o.rotation.k = fin 1

theorem UnitPose.rigid {o : Orientation XReal} (h : UnitPose o) : Rigid o := by
  obtain ⟨p, hp⟩ := h.position.f
  obtain ⟨c, hc⟩ := h.offset.f
  obtain ⟨q, hq⟩ := Quat.exists_f (q := o.rotation) h.w h.v.1 h.v.2.1 h.v.2.2
  refine ⟨⟨p, q, c⟩, ?_, ?_⟩
  · cases o; simp_all [f]
  · have := h.unit
    rw [hq] at this
    simpa [Quat.f, Orientation.Unit, Quat.normSq] using this
theorem unitPose_f {r : Orientation ℝ} (h : r.Unit) : UnitPose r.f :=
  ⟨finite3_f _, finite3_f _, rfl, finite3_f ⟨r.rotation.i, r.rotation.j, r.rotation.k⟩, by simpa [Quat.f, Orientation.Unit, Quat.normSq] using h⟩
theorem Rigid.unitPose {o : Orientation XReal} (h : Rigid o) : UnitPose o := by
  obtain ⟨r, rfl, h⟩ := h; exact unitPose_f h

/-- A rotation vector that is zero or turns by more than `2^-22` (about 0.000014 degrees); smaller ones are taken
for zero by `from_scaled_axis`. -/
def NotTiny (r : Vec3 XReal) : Prop := r = Vec3.zeros ∨ Scalar.lt (lit 2 8388608) r.magnitude = true

theorem notTiny_f {r : Vec3 ℝ} : NotTiny r.f ↔ (r = Vec3.o ∨ 2 * Quat.meps < r.len) := by
  unfold NotTiny Quat.meps
  simp only [Vec3.f_zeros, Vec3.f_inj, lit_eq, Vec3.f_magnitude, fin_lt, decide_eq_true_eq]
  norm_num

theorem exp_rodrigues {r : Vec3 ℝ} (h : r = Vec3.o ∨ 2 * Quat.meps < r.len) (v : Vec3 ℝ) :
    (Quat.exp r).rot v = rodrigues r v := by
  rcases h with rfl | h
  · simp
  · exact Quat.exp_rot h v

/-! ### C51 -/

/-- **C51.** Local and world coordinates are inverse to each other, preserve distances and (for directions) inner
products, and `local_origin_in_world` is the image of the origin. -/
theorem C51_rigid_transforms {o : Orientation XReal} (h : UnitPose o) {p q : Vec3 XReal} (hp : Finite3 p)
    (hq : Finite3 q) :
    o.positionIntoLocal (o.positionIntoWorld p) = p ∧ o.positionIntoWorld (o.positionIntoLocal p) = p ∧
    o.directionIntoLocal (o.directionIntoWorld p) = p ∧ o.directionIntoWorld (o.directionIntoLocal p) = p ∧
    (o.positionIntoWorld p - o.positionIntoWorld q).magnitude = (p - q).magnitude ∧
    (o.positionIntoLocal p - o.positionIntoLocal q).magnitude = (p - q).magnitude ∧
    (o.directionIntoWorld p).dot (o.directionIntoWorld q) = p.dot q ∧
    (o.directionIntoLocal p).dot (o.directionIntoLocal q) = p.dot q ∧
    o.positionIntoWorld p - o.positionIntoWorld q = o.directionIntoWorld (p - q) ∧
    o.localOriginInWorld = o.positionIntoWorld ⟨fin 0, fin 0, fin 0⟩ := by
  obtain ⟨r, rfl, hr⟩ := h.rigid
  obtain ⟨p, rfl⟩ := hp.f
  obtain ⟨q, rfl⟩ := hq.f
  have hr' : r.rotation.conj.normSq = 1 := by rw [Quat.conj_normSq]; exact hr
  have e1 : r.toWorld p - r.toWorld q = r.rotation.rot (p - q) := by
    unfold toWorld
    rw [show p - q = (p + r.internalOriginOffset) - (q + r.internalOriginOffset) by ext <;> simp, Quat.rot_sub]
    ext <;> simp
  have e2 : r.toLocal p - r.toLocal q = r.rotation.conj.rot (p - q) := by
    unfold toLocal
    rw [show p - q = (p - r.position) - (q - r.position) by ext <;> simp, Quat.rot_sub _ (p - r.position)]
    ext <;> simp only [Vec3.sub_x, Vec3.sub_y, Vec3.sub_z] <;> ring
  simp only [f_positionIntoWorld _ _ hr, f_positionIntoLocal, f_directionIntoLocal, f_directionIntoWorld, Vec3.f_sub,
    Vec3.f_magnitude, Vec3.f_dot, toLocal_toWorld _ _ hr, toWorld_toLocal _ _ hr, Quat.rot_conj_rot _ hr,
    Quat.rot_rot_conj _ hr, e1, e2, Quat.rot_len _ hr, Quat.rot_len _ hr', Quat.rot_dot _ _ hr, Quat.rot_dot _ _ hr',
    true_and]
  simp [localOriginInWorld, Vec3.zeros]

/-- Orientations of the code are such poses: `Orientation::new` and `affect_with` of finite vectors give unit poses. -/
theorem C51_poses {p r d : Vec3 XReal} (hp : Finite3 p) (hr : Finite3 r) (hd : Finite3 d) :
    UnitPose (Orientation.new p r d) ∧
    ∀ o, UnitPose o → UnitPose (o.afterAffected p r) := by
  obtain ⟨p, rfl⟩ := hp.f
  obtain ⟨r, rfl⟩ := hr.f
  obtain ⟨d, rfl⟩ := hd.f
  refine ⟨?_, ?_⟩
  · rw [f_new]; exact unitPose_f (Quat.exp_normSq r)
  · intro o ho
    obtain ⟨o, rfl, hu⟩ := ho.rigid
    rw [f_afterAffected]; exact unitPose_f (after_unit o hu p r)

/-- A turned, shifted pose with an origin offset meets the hypotheses. -/
example : UnitPose (Orientation.new ⟨fin 1, fin 2, fin 3⟩ ⟨fin 0, fin 1, fin (-2)⟩ ⟨fin (1/2), fin 0, fin 7⟩) ∧
    Finite3 ⟨fin 4, fin (-5), fin 6⟩ :=
  ⟨(C51_poses ⟨rfl, rfl, rfl⟩ ⟨rfl, rfl, rfl⟩ ⟨rfl, rfl, rfl⟩).1, rfl, rfl, rfl⟩

/-! ### C57 -/

/-- **C57.** `lerp` interpolates positions linearly; at time 0 it is the pose `a` and at time 1 the pose `b` with the
origin offset of `a`, as maps from local to world coordinates.  (The rotation vectors of the end points must not be
tiny; `C57_tiny` says what happens then.) -/
theorem C57_lerp {a b : Orientation XReal} (ha : UnitPose a) (hb : UnitPose b) (t : ℝ) {p : Vec3 XReal}
    (hp : Finite3 p) :
    (lerp (fin t) a b).position = a.position.scale (fin (1 - t)) + b.position.scale (fin t) ∧
    (lerp (fin t) a b).internalOriginOffset = a.internalOriginOffset ∧ UnitPose (lerp (fin t) a b) ∧
    (NotTiny a.rotationVec → (lerp (fin 0) a b).positionIntoWorld p = a.positionIntoWorld p) ∧
    (NotTiny b.rotationVec → (lerp (fin 1) a b).positionIntoWorld p =
      ({ b with internalOriginOffset := a.internalOriginOffset }).positionIntoWorld p) := by
  obtain ⟨a, rfl, ua⟩ := ha.rigid
  obtain ⟨b, rfl, ub⟩ := hb.rigid
  obtain ⟨p, rfl⟩ := hp.f
  have hl : ∀ t : ℝ, lerp (fin t) a.f b.f = (⟨a.position.scale (1 - t) + b.position.scale t,
      Quat.exp ((Quat.log a.rotation).scale (1 - t) + (Quat.log b.rotation).scale t),
      a.internalOriginOffset⟩ : Orientation ℝ).f := by
    intro t
    simp only [lerp, f_rotationVec]
    simp [f]
  have same : ∀ {q : Quat ℝ}, q.normSq = 1 → NotTiny (Quat.log q).f → ∀ v, (Quat.exp (Quat.log q)).rot v = q.rot v := by
    intro q hq ht v
    rw [notTiny_f] at ht
    rw [exp_rodrigues ht, Quat.log_rot hq]
  refine ⟨?_, ?_, ?_, ?_, ?_⟩
  · rw [hl]; simp
  · rw [hl]; rfl
  · rw [hl]; exact unitPose_f (Quat.exp_normSq _)
  · intro ht
    rw [f_rotationVec] at ht
    rw [hl, f_positionIntoWorld _ _ ua, f_positionIntoWorld _ _ (by exact Quat.exp_normSq _)]
    simp [toWorld, same ua ht]
  · intro ht
    rw [f_rotationVec] at ht
    rw [hl, f_positionIntoWorld _ _ (by exact Quat.exp_normSq _)]
    change _ = (⟨b.position, b.rotation, a.internalOriginOffset⟩ : Orientation ℝ).f.positionIntoWorld p.f
    rw [f_positionIntoWorld _ _ (by exact ub)]
    simp [toWorld, same ub ht]

/-- **C57**, the exception: a turn by at most `2^-22` is lost by `lerp`. -/
theorem C57_tiny {a b : Orientation XReal} (ha : UnitPose a) (hb : UnitPose b) (h : ¬ NotTiny a.rotationVec) :
    (lerp (fin 0) a b).rotation = Quat.identity := by
  obtain ⟨a, rfl, ua⟩ := ha.rigid
  obtain ⟨b, rfl, ub⟩ := hb.rigid
  rw [f_rotationVec, notTiny_f] at h
  push Not at h
  simp only [lerp, f_rotationVec]
  simp [f, Quat.exp_small h.2]

/-! ### C03: the rotation -/

/-- **C03**, rotation: the entity is turned by its rotation vector (Rodrigues' formula), and the rotation vector read
back denotes the same rotation; a vector of length at most `2^-22` is stored as no rotation. -/
theorem C03_rotation_read_back {γ : Type} [ForceGenerator XReal γ] {s s' : System XReal γ} {e : Entity XReal} {h : Handle}
    (hr : Reachable s) (ha : s.addEntity e = (s', some h)) {r : Vec3 ℝ} (hrot : e.rotation = r.f) :
    ∃ p, s'.getEntity h = some p ∧ ∃ r' : Vec3 ℝ, p.rotation = r'.f ∧
      (NotTiny e.rotation → ∀ v, rodrigues r' v = rodrigues r v) ∧
      (¬ NotTiny e.rotation → r' = Vec3.o) ∧
      ∀ v : Vec3 ℝ, p.lastOrientation.rotation.rotate v.f = (rodrigues r' v).f := by
  obtain ⟨-, ⟨p, hp, h1, h2, h3, h4, h5, h6, h7, h8⟩, -⟩ := C03_add_then_get_entity hr ha
  refine ⟨p, hp, Quat.log (Quat.exp r), ?_, ?_, ?_, ?_⟩
  · obtain ⟨E, hE, rfl⟩ := getEntity_eq_some.mp hp
    have h8' : E.orientation.rotation = Quat.fromScaledAxis e.rotation := h8
    show E.orientation.rotation.scaledAxis = _
    rw [h8', hrot, Quat.f_fromScaledAxis, Quat.f_scaledAxis]
  · intro ht v
    rw [hrot, notTiny_f] at ht
    rw [Quat.log_rot (Quat.exp_normSq r), exp_rodrigues ht]
  · intro ht
    rw [hrot, notTiny_f] at ht
    push Not at ht
    rw [Quat.exp_small ht.2, Quat.log_e]
  · intro v
    rw [h8, hrot, Quat.f_fromScaledAxis, Quat.f_rotate, Quat.log_rot (Quat.exp_normSq r)]

/-- An added ball turned by 4 radians about the y axis meets the hypotheses. -/
example : ∃ (s' : Demo.Sys) (h : Handle) (r : Vec3 ℝ), Reachable Demo.s3 ∧
    Demo.s3.addEntity { Demo.ball with rotation := ⟨fin 0, fin 4, fin 0⟩ } = (s', some h) ∧
    (⟨fin 0, fin 4, fin 0⟩ : Vec3 XReal) = r.f ∧ NotTiny r.f := by
  obtain ⟨s', hs⟩ : ∃ s' h, Demo.s3.addEntity { Demo.ball with rotation := ⟨fin 0, fin 4, fin 0⟩ } = (s', some h) := by
    rw [System.addEntity, InternalEntity.newFrom, if_neg (by simp [Demo.ball])]; exact ⟨_, _, rfl⟩
  obtain ⟨h, hs⟩ := hs
  refine ⟨s', h, ⟨0, 4, 0⟩, Demo.reachable3, hs, rfl, notTiny_f.mpr (Or.inr ?_)⟩
  simp only [Vec3.len, Vec3.dot, Quat.meps]
  rw [show (0 * 0 + 4 * 4 + 0 * 0 : ℝ) = 4 * 4 by norm_num, Real.sqrt_mul_self (by norm_num)]
  norm_num

/-- Two turned poses meet the hypotheses of `C57_lerp`. -/
example : UnitPose (Orientation.new ⟨fin 1, fin 2, fin 3⟩ ⟨fin 0, fin 1, fin 0⟩ Vec3.zeros) ∧
    UnitPose (Orientation.new ⟨fin 4, fin 2, fin 3⟩ ⟨fin 2, fin 1, fin 0⟩ Vec3.zeros) :=
  ⟨(C51_poses ⟨rfl, rfl, rfl⟩ ⟨rfl, rfl, rfl⟩ ⟨rfl, rfl, rfl⟩).1, (C51_poses ⟨rfl, rfl, rfl⟩ ⟨rfl, rfl, rfl⟩ ⟨rfl, rfl, rfl⟩).1⟩

end Fluffy.Props
