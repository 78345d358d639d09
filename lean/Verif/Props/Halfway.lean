import Verif.Props.Whirl
import Verif.Props.Normals
/-
C97: where a contact with a turning box is reported. `transform_out_of` carries the contact from the box's own space into the world by the pose that `lerp` puts in between
the poses at the start and at the end of the step.
-/
set_option linter.unusedSectionVars false
set_option linter.unusedSimpArgs false
namespace Fluffy.Props
open XReal

/-- The quaternion of the turn about the unit vector `k` by the angle `θ`. -/
noncomputable def turnBy (k : Vec3 ℝ) (θ : ℝ) : Quat ℝ := ⟨Real.cos (θ / 2), k.x * Real.sin (θ / 2), k.y * Real.sin (θ / 2), k.z * Real.sin (θ / 2)⟩

section
variable {k : Vec3 ℝ} (hk : k.dot k = 1)
include hk

theorem turnBy_unit (θ : ℝ) : (turnBy k θ).normSq = 1 := by
  have := Real.sin_sq_add_cos_sq (θ / 2)
  rw [Vec3.dot_def] at hk
  simp only [Quat.normSq, turnBy]
  linear_combination this + Real.sin (θ / 2) ^ 2 * hk

theorem turnBy_len (θ : ℝ) : (k.scale θ).len = |θ| := by
  rw [Vec3.len_scale]; unfold Vec3.len; rw [hk]; simp

theorem exp_turnBy {θ : ℝ} (h : 2 * Quat.meps < |θ|) : Quat.exp (k.scale θ) = turnBy k θ := by
  have hm := Quat.meps_pos
  have hlen : ((k.scale θ).scale 2⁻¹).len = |θ| / 2 := by
    rw [Vec3.len_scale, turnBy_len hk, abs_of_pos (by norm_num : (0 : ℝ) < 2⁻¹)]; ring
  have hne : ¬ ((k.scale θ).scale 2⁻¹).dot ((k.scale θ).scale 2⁻¹) ≤ Quat.meps * Quat.meps := by
    rw [← Vec3.len_sq, hlen]; nlinarith
  have hθ : θ ≠ 0 := by rintro rfl; simp at h; linarith
  unfold Quat.exp turnBy
  rw [if_neg hne]
  simp only [hlen]
  rcases abs_cases θ with ⟨e, -⟩ | ⟨e, -⟩
  · rw [e]
    ext <;> simp only [Vec3.scale_x, Vec3.scale_y, Vec3.scale_z] <;> field_simp
  · rw [e, show -θ / 2 = -(θ / 2) by ring, Real.cos_neg, Real.sin_neg]
    ext <;> simp only [Vec3.scale_x, Vec3.scale_y, Vec3.scale_z] <;> field_simp

theorem turnBy_mul (a b : ℝ) : (turnBy k a).mul (turnBy k b) = turnBy k (a + b) := by
  unfold turnBy Quat.mul
  rw [show (a + b) / 2 = a / 2 + b / 2 by ring, Real.cos_add, Real.sin_add]
  rw [Vec3.dot_def] at hk
  ext
  · simp only; linear_combination (-(Real.sin (a / 2) * Real.sin (b / 2))) * hk
  · simp only; ring
  · simp only; ring
  · simp only; ring

theorem log_turnBy {θ : ℝ} (h1 : -Real.pi < θ) (h2 : θ < Real.pi) : Quat.log (turnBy k θ) = k.scale θ := by
  have hc : 0 < Real.cos (θ / 2) := Real.cos_pos_of_mem_Ioo ⟨by linarith, by linarith⟩
  have hv : (turnBy k θ).vec = k.scale (Real.sin (θ / 2)) := rfl
  have hvv : (k.scale (Real.sin (θ / 2))).dot (k.scale (Real.sin (θ / 2))) = Real.sin (θ / 2) ^ 2 := by
    rw [Vec3.scale_dot, Vec3.dot_scale, hk]; ring
  have hl : (k.scale (Real.sin (θ / 2))).len = |Real.sin (θ / 2)| := turnBy_len hk _
  unfold Quat.log
  have hw : (turnBy k θ).w = Real.cos (θ / 2) := rfl
  simp only [hw, hc.le, if_true, hv, hvv, hl, abs_of_pos hc]
  by_cases h0 : θ = 0
  · subst h0; simp
  have hs : Real.sin (θ / 2) ≠ 0 := by
    rcases lt_or_gt_of_ne h0 with h | h
    · exact (Real.sin_neg_of_neg_of_neg_pi_lt (by linarith) (by linarith)).ne
    · exact (Real.sin_pos_of_pos_of_lt_pi (by linarith) (by linarith)).ne'
  have hlt : ¬ 1 ≤ Real.cos (θ / 2) := by
    intro h
    have := Real.sin_sq_add_cos_sq (θ / 2)
    have : Real.sin (θ / 2) ^ 2 ≤ 0 := by nlinarith
    exact hs (by nlinarith [sq_nonneg (Real.sin (θ / 2))])
  rw [if_pos (by positivity), if_neg hlt, Vec3.scale_scale, Vec3.scale_scale]
  rcases lt_or_gt_of_ne h0 with h | h
  · have hs' : Real.sin (θ / 2) < 0 := Real.sin_neg_of_neg_of_neg_pi_lt (by linarith) (by linarith)
    rw [abs_of_neg hs', show Real.cos (θ / 2) = Real.cos (-(θ / 2)) by rw [Real.cos_neg], Real.arccos_cos (by linarith) (by linarith)]
    congr 1; field_simp
  · have hs' : 0 < Real.sin (θ / 2) := Real.sin_pos_of_pos_of_lt_pi (by linarith) (by linarith)
    rw [abs_of_pos hs', Real.arccos_cos (by linarith) (by linarith)]
    congr 1; field_simp

omit hk in
theorem log_neg {q : Quat ℝ} (h : q.w ≠ 0) : Quat.log ⟨-q.w, -q.i, -q.j, -q.k⟩ = Quat.log q := by
  have hv : (⟨-q.w, -q.i, -q.j, -q.k⟩ : Quat ℝ).vec = -q.vec := rfl
  unfold Quat.log
  simp only [hv, abs_neg, Vec3.neg_neg']
  rcases lt_or_gt_of_ne h with h | h
  · rw [if_pos (show 0 ≤ -q.w by linarith), if_neg (not_le.mpr h)]
  · rw [if_neg (show ¬ 0 ≤ -q.w by linarith), if_pos h.le]

/-- Beyond half a turn the rotation vector jumps to the other end. -/
theorem log_turnBy_over {θ : ℝ} (h1 : Real.pi < θ) (h2 : θ < 3 * Real.pi) : Quat.log (turnBy k θ) = k.scale (θ - 2 * Real.pi) := by
  rw [← log_turnBy hk (θ := θ - 2 * Real.pi) (by linarith) (by linarith)]
  have hw : (turnBy k (θ - 2 * Real.pi)).w ≠ 0 := by
    show Real.cos _ ≠ 0
    exact (Real.cos_pos_of_mem_Ioo ⟨by linarith, by linarith⟩).ne'
  rw [← log_neg hw]
  congr 1
  unfold turnBy
  rw [show (θ - 2 * Real.pi) / 2 = θ / 2 - Real.pi by ring, Real.cos_sub_pi, Real.sin_sub_pi]
  ext <;> simp

theorem turnBy_rot (θ : ℝ) (v : Vec3 ℝ) : (turnBy k θ).rot v = rodrigues (k.scale θ) v := by
  have h := Real.sin_sq_add_cos_sq (θ / 2)
  rw [Quat.rot_axis hk (c := Real.cos (θ / 2)) (s := Real.sin (θ / 2)) (by nlinarith) rfl rfl, rodrigues_signed hk]
  have c2 : Real.cos θ = Real.cos (θ / 2) * Real.cos (θ / 2) - Real.sin (θ / 2) * Real.sin (θ / 2) := by
    rw [← Real.cos_add]; congr 1; ring
  have s2 : Real.sin θ = 2 * Real.sin (θ / 2) * Real.cos (θ / 2) := by
    rw [← Real.sin_two_mul]; congr 1; ring
  rw [c2, s2]
end

/-! ### In between -/

/-- Where the point `y` of a body's own space is when the part `t` of a step has passed, in which the body moves by `l` and turns by the rotation vector `a`. -/
noncomputable def midway (o : Orientation ℝ) (l a : Vec3 ℝ) (t : ℝ) (y : Vec3 ℝ) : Vec3 ℝ :=
  o.position + l.scale t + rodrigues (a.scale t) (o.rotation.rot (y + o.internalOriginOffset))

theorem lerp_real (a b : Orientation ℝ) (t : ℝ) : Orientation.lerp (fin t) a.f b.f = (⟨a.position.scale (1 - t) + b.position.scale t,
    Quat.exp ((Quat.log a.rotation).scale (1 - t) + (Quat.log b.rotation).scale t), a.internalOriginOffset⟩ : Orientation ℝ).f := by
  simp only [Orientation.lerp, Orientation.f_rotationVec]
  simp [Orientation.f]

/-- The pose in between two poses that are turned about the same axis. -/
theorem lerp_about {k : Vec3 ℝ} (hk : k.dot k = 1) {o : Orientation ℝ} {θ φ α β : ℝ} (ho : o.rotation = turnBy k θ) (hφ : 2 * Quat.meps < |φ|)
    (hα : Quat.log (turnBy k θ) = k.scale α) (hβ : Quat.log (turnBy k (φ + θ)) = k.scale β) {t : ℝ} (ht : 2 * Quat.meps < |α * (1 - t) + β * t| ∨ α * (1 - t) + β * t = 0)
    (l y : Vec3 ℝ) :
    (Orientation.lerp (fin t) o.f (o.after l (k.scale φ)).f).positionIntoWorld y.f =
      (o.position + l.scale t + rodrigues (k.scale (α * (1 - t) + β * t)) (y + o.internalOriginOffset)).f := by
  have hrot : (o.after l (k.scale φ)).rotation = turnBy k (φ + θ) := by
    show (Quat.exp (k.scale φ)).mul o.rotation = _
    rw [exp_turnBy hk hφ, ho, turnBy_mul hk]
  have hvec : (k.scale α).scale (1 - t) + (k.scale β).scale t = k.scale (α * (1 - t) + β * t) := by ext <;> simp <;> ring
  rw [lerp_real, hrot, ho, hα, hβ, hvec, Orientation.f_positionIntoWorld _ _ (by exact Quat.exp_normSq _), Vec3.f_inj]
  unfold Orientation.toWorld
  simp only
  have e : (Quat.exp (k.scale (α * (1 - t) + β * t))).rot (y + o.internalOriginOffset) = rodrigues (k.scale (α * (1 - t) + β * t)) (y + o.internalOriginOffset) := by
    rcases ht with h | h
    · rw [exp_turnBy hk h, turnBy_rot hk]
    · rw [h]; simp
  rw [e]
  unfold Orientation.after
  ext <;> simp <;> ring

/-- **C97.** The pose by which the contact is carried into the world is the one that the box has at that time, if the box turns about the axis about which it has been turned
already, stays on the same side of half a turn, and is then turned by more than `2^-22` or not at all.
Missing from the full statement: that this holds for every turning box, which is false as soon as the box turns past half a turn (`C97_false`). -/
theorem C97_axis_partial {k : Vec3 ℝ} (hk : k.dot k = 1) {o : Orientation ℝ} {θ φ : ℝ} (ho : o.rotation = turnBy k θ) (h1 : |θ| < Real.pi) (h2 : |θ + φ| < Real.pi)
    (hφ : 2 * Quat.meps < |φ|) {t : ℝ} (ht : 2 * Quat.meps < |θ + φ * t| ∨ θ + φ * t = 0) (l y : Vec3 ℝ) :
    (Orientation.lerp (fin t) o.f (o.after l (k.scale φ)).f).positionIntoWorld y.f = (midway o l (k.scale φ) t y).f := by
  obtain ⟨a1, a2⟩ := abs_lt.mp h1
  obtain ⟨b1, b2⟩ := abs_lt.mp h2
  have e : θ * (1 - t) + (φ + θ) * t = θ + φ * t := by ring
  rw [lerp_about hk ho hφ (log_turnBy hk a1 a2) (log_turnBy hk (by linarith) (by linarith)) (by rw [e]; exact ht), e]
  unfold midway
  rw [ho, turnBy_rot hk, Vec3.scale_scale, rodrigues_add, add_comm (φ * t)]

/-- **C97**, past half a turn: the pose by which the contact is carried into the world is that of a box which turns backward, the long way round. -/
theorem C97_backward {k : Vec3 ℝ} (hk : k.dot k = 1) {o : Orientation ℝ} {θ φ : ℝ} (ho : o.rotation = turnBy k θ) (h1 : |θ| < Real.pi) (h2 : Real.pi < θ + φ)
    (h3 : θ + φ < 3 * Real.pi) {t : ℝ} (ht : 2 * Quat.meps < |θ + (φ - 2 * Real.pi) * t| ∨ θ + (φ - 2 * Real.pi) * t = 0) (hφ : 2 * Quat.meps < |φ|) (l y : Vec3 ℝ) :
    (Orientation.lerp (fin t) o.f (o.after l (k.scale φ)).f).positionIntoWorld y.f = (midway o l (k.scale (φ - 2 * Real.pi)) t y).f := by
  obtain ⟨a1, a2⟩ := abs_lt.mp h1
  have e : θ * (1 - t) + (φ + θ - 2 * Real.pi) * t = θ + (φ - 2 * Real.pi) * t := by ring
  rw [lerp_about hk ho hφ (log_turnBy hk a1 a2) (log_turnBy_over hk (by linarith) (by linarith)) (by rw [e]; exact ht), e]
  unfold midway
  rw [ho, turnBy_rot hk, Vec3.scale_scale, rodrigues_add, add_comm (_ * t)]

/-! ### A contact on the wrong side -/

namespace Mill
/-- The z axis. -/
def ez : Vec3 ℝ := ⟨0, 0, 1⟩
theorem ez_unit : ez.dot ez = 1 := by simp [ez, Vec3.dot_def]
/-- A cube with edges of length 2 around the origin of its entity. -/
noncomputable def cube : BoxCollider XReal := ⟨none, (Vec3.o).f, (⟨-1, -1, -1⟩ : Vec3 ℝ).f, (⟨1, 1, 1⟩ : Vec3 ℝ).f, fin 0, .default⟩
theorem cube_valid : Collider.newFrom (.box cube) = some (.box cube) := by
  have h : (⟨1, 1, 1⟩ : Vec3 ℝ) - ⟨-1, -1, -1⟩ = ⟨2, 2, 2⟩ := by ext <;> norm_num
  unfold Collider.newFrom BoxCollider.isValid
  simp only [cube, Vec3.f_sub, h]
  simp [cornerMin, cornerMax, fmin, fmax, Vec3.f]
  norm_num
/-- A ball of radius 1/2. -/
noncomputable def pea : SphereCollider XReal := ⟨none, (Vec3.o).f, fin (1 / 2), fin 0, .default⟩
theorem pea_valid : Collider.newFrom (.sphere pea) = some (.sphere pea) := by
  unfold Collider.newFrom SphereCollider.isValid
  simp [pea, MINIMUM_RADIUS]
  norm_num
/-- The cube, turned by 135 degrees. -/
noncomputable def before : Orientation ℝ := ⟨.o, turnBy ez (3 * Real.pi / 4), .o⟩
/-- A quarter turn. -/
noncomputable def quarter : Vec3 ℝ := ez.scale (Real.pi / 2)

/-- In the cube's own space the ball comes straight to the middle of a face, which it touches in the middle of the step. -/
theorem local_hit : ∃ D : Collision XReal, collideSphereBox (fin (1 / 2)) (⟨2, 0, 0⟩ : Vec3 ℝ).f (⟨-1, 0, 0⟩ : Vec3 ℝ).f (⟨-1, -1, -1⟩ : Vec3 ℝ).f (⟨1, 1, 1⟩ : Vec3 ℝ).f = .ok (some D) ∧
    D.times.min = fin (1 / 2) ∧ D.normal = (⟨-1, 0, 0⟩ : Vec3 ℝ).f ∧ D.position = (⟨1, 0, 0⟩ : Vec3 ℝ).f := by
  have hs : settled (⟨-1, 0, 0⟩ : Vec3 ℝ) = ⟨-1, 0, 0⟩ := by
    unfold settled settle eps
    ext <;> norm_num [abs_of_neg]
  obtain ⟨D, u, hD, hu, hle⟩ := surface_by (r := 1 / 2) (by norm_num) (c := ⟨2, 0, 0⟩) (m := ⟨-1, 0, 0⟩) (a := ⟨-1, -1, -1⟩) (b := ⟨1, 1, 1⟩) (by norm_num) (by norm_num) (by norm_num)
    (t := 1 / 2) (by norm_num) (by norm_num) (by rw [hs]; unfold OverFace; norm_num [along])
  have hge : 1 / 2 ≤ u := by
    obtain ⟨R, hR, hp, -, hP⟩ := surface_times (r := 1 / 2) (by norm_num) (c := ⟨2, 0, 0⟩) (m := ⟨-1, 0, 0⟩) (a := ⟨-1, -1, -1⟩) (b := ⟨1, 1, 1⟩)
      (by norm_num) (by norm_num) (by norm_num)
    rw [hs] at hP
    unfold boxSurfaceCollision at hD
    simp only [hR] at hD
    split at hD
    · rename_i he
      obtain ⟨t, ht, hf⟩ := (unit_times hp.built).2 (by simpa using he)
      cases hD
      rw [hu, fin_inj] at ht
      subst ht
      refine hP (fun t => 1 / 2 ≤ t) (fun _ _ _ h1 _ h2 _ => le_trans h1 h2) (fun v hv => ?_) u hf.1.2.2
      unfold OverFace at hv
      norm_num [along] at hv
      rcases hv with h | h
      · linarith [h.2]
      · linarith [h.2]
    · cases hD
  have hu2 : u = 1 / 2 := le_antisymm hle hge
  subst hu2
  refine ⟨D, ?_, hu, ?_⟩
  · obtain ⟨o, ho⟩ := collideSphereBox_ok (r := fin (1 / 2)) (c := (⟨2, 0, 0⟩ : Vec3 ℝ).f) (m := (⟨-1, 0, 0⟩ : Vec3 ℝ).f) (a := (⟨-1, -1, -1⟩ : Vec3 ℝ).f) (b := (⟨1, 1, 1⟩ : Vec3 ℝ).f)
    rw [ho]
    cases o with
    | none => exact absurd (boxHit_iff.mpr (.inl hD)) ((sphereBox_earliest ho).2.mp rfl D)
    | some C =>
      rcases boxHit_iff.mp ((sphereBox_earliest ho).1 C rfl).1 with h | ⟨p, q, he, h⟩ | ⟨v, hv, h⟩
      · rw [hD] at h; cases h; rfl
      · exfalso
        have hd : q - p ≠ .o := BoxEdge.ne (a := ⟨-1, -1, -1⟩) (b := ⟨1, 1, 1⟩) (by norm_num) (by norm_num) (by norm_num) he
        obtain ⟨t, z, x, -, t0, t1, -, -, hz, ⟨κ, k0, k1, hx⟩, hl⟩ := C60_reported hd h
        have hfar : 9 / 10 * (9 / 10) ≤ (z - along ⟨2, 0, 0⟩ ⟨-1, 0, 0⟩ t).dot (z - along ⟨2, 0, 0⟩ ⟨-1, 0, 0⟩ t) := by
          have hsq : (z - x).dot (z - x) ≤ 1 / 100 := by
            have h1 := Vec3.len_sq (z - x)
            have h2 := Vec3.len_nonneg (z - x)
            unfold eps at hl
            nlinarith
          rw [Vec3.dot_def] at hsq
          have c1 : (z.x - x.x) ^ 2 ≤ 1 / 100 ∧ (z.y - x.y) ^ 2 ≤ 1 / 100 ∧ (z.z - x.z) ^ 2 ≤ 1 / 100 := by
            simp only [Vec3.sub_x, Vec3.sub_y, Vec3.sub_z] at hsq
            refine ⟨?_, ?_, ?_⟩ <;> nlinarith [sq_nonneg (z.x - x.x), sq_nonneg (z.y - x.y), sq_nonneg (z.z - x.z)]
          obtain ⟨-, cy, cz⟩ := c1
          obtain ⟨ya, yb⟩ := abs_le_of_sq_le_sq' (show (z.y - x.y) ^ 2 ≤ (1 / 10) ^ 2 by norm_num; exact cy) (by norm_num)
          obtain ⟨za, zb⟩ := abs_le_of_sq_le_sq' (show (z.z - x.z) ^ 2 ≤ (1 / 10) ^ 2 by norm_num; exact cz) (by norm_num)
          have hxy : x.y = 1 ∨ x.y = -1 ∨ x.z = 1 ∨ x.z = -1 := by
            subst hx
            obtain ⟨p1, p2, p3⟩ := p
            obtain ⟨q1, q2, q3⟩ := q
            rcases he with ⟨h1, h2, h3, h4, h5, h6⟩ | ⟨h1, h2, h3, h4, h5, h6⟩ | ⟨h1, h2, h3, h4, h5, h6⟩ <;> simp only at h1 h2 h3 h4 h5 h6
            · subst h4; rcases h3 with rfl | rfl <;> simp [along]
            · subst h6; rcases h5 with rfl | rfl <;> simp [along]
            · subst h4; rcases h3 with rfl | rfl <;> simp [along]
          rw [Vec3.dot_def]
          simp only [Vec3.sub_x, Vec3.sub_y, Vec3.sub_z, along, Vec3.add_x, Vec3.add_y, Vec3.add_z, Vec3.scale_x, Vec3.scale_y, Vec3.scale_z]
          have := mul_self_nonneg (z.x - (2 + -1 * t))
          rcases hxy with e | e | e | e
          · nlinarith [mul_self_nonneg z.z]
          · nlinarith [mul_self_nonneg z.z]
          · nlinarith [mul_self_nonneg z.y]
          · nlinarith [mul_self_nonneg z.y]
        norm_num at hz hfar
        linarith
      · exfalso
        obtain ⟨t, -, -, -, hd⟩ := C43_reported (by norm_num) h
        obtain ⟨-, hy, hz⟩ := hv
        simp only at hy hz
        rw [Vec3.dot_def] at hd
        simp only [Vec3.sub_x, Vec3.sub_y, Vec3.sub_z, along, Vec3.add_x, Vec3.add_y, Vec3.add_z, Vec3.scale_x, Vec3.scale_y, Vec3.scale_z, Vec3.o_x, Vec3.o_y, Vec3.o_z] at hd
        rcases hy with e | e <;> rw [e] at hd <;> nlinarith [mul_self_nonneg (2 + -1 * t - (v.x + 0 * t)), mul_self_nonneg (0 + 0 * t - (v.z + 0 * t))]
  · obtain ⟨n, q, hn, hq, -, -, hqe, hp⟩ := C64_surface_partial (by norm_num) (by norm_num) (by norm_num) hD hu
    have hal : along (⟨2, 0, 0⟩ : Vec3 ℝ) ⟨-1, 0, 0⟩ (1 / 2) = ⟨3 / 2, 0, 0⟩ := by ext <;> norm_num [along]
    rw [hal] at hqe hp
    obtain ⟨⟨hl, κ, k0, hk⟩, -⟩ := hp (by unfold BeyondOneFace; norm_num) ⟨1, 0, 0⟩ (by
      refine ⟨by norm_num [InBox], fun z hz => ?_⟩
      have h1 : z.x ≤ 1 := hz.1.2
      rw [Vec3.dot_def, Vec3.dot_def]
      simp only [Vec3.sub_x, Vec3.sub_y, Vec3.sub_z]
      nlinarith [mul_self_nonneg (z.y - 0), mul_self_nonneg (z.z - 0)])
    have hx := congrArg Vec3.x hk
    have hy := congrArg Vec3.y hk
    have hz := congrArg Vec3.z hk
    simp only [Vec3.sub_x, Vec3.sub_y, Vec3.sub_z, Vec3.scale_x, Vec3.scale_y, Vec3.scale_z, sub_self] at hx hy hz
    have ny : n.y = 0 := by rcases mul_eq_zero.mp hy.symm with h | h; exacts [h, absurd h k0.ne']
    have nz : n.z = 0 := by rcases mul_eq_zero.mp hz.symm with h | h; exacts [h, absurd h k0.ne']
    have hsq := Vec3.len_sq n
    rw [hl, Vec3.dot_def, ny, nz] at hsq
    have nx : n.x = -1 := by
      have hneg : n.x < 0 := by nlinarith
      nlinarith
    have hne : n = ⟨-1, 0, 0⟩ := by ext <;> assumption
    subst hne
    refine ⟨hn, ?_⟩
    rw [hq, hqe, Vec3.f_inj]; ext <;> norm_num
/-- The ball is where it is, in the world, at the start, at the end, and in the middle of the step. -/
theorem path : before.rotation.rot ⟨2, 0, 0⟩ = ⟨-Real.sqrt 2, Real.sqrt 2, 0⟩ ∧ (before.after .o quarter).rotation.rot ⟨1, 0, 0⟩ = ⟨-(Real.sqrt 2 / 2), -(Real.sqrt 2 / 2), 0⟩ := by
  have hm : 2 * Quat.meps < |Real.pi / 2| := by
    rw [abs_of_pos (by have := Real.pi_pos; positivity)]
    have := Real.two_le_pi
    unfold Quat.meps; linarith
  have c1 : Real.cos (3 * Real.pi / 4) = -(Real.sqrt 2 / 2) := by
    rw [show 3 * Real.pi / 4 = Real.pi - Real.pi / 4 by ring, Real.cos_pi_sub, Real.cos_pi_div_four]
  have s1 : Real.sin (3 * Real.pi / 4) = Real.sqrt 2 / 2 := by
    rw [show 3 * Real.pi / 4 = Real.pi - Real.pi / 4 by ring, Real.sin_pi_sub, Real.sin_pi_div_four]
  have c2 : Real.cos (Real.pi / 2 + 3 * Real.pi / 4) = -(Real.sqrt 2 / 2) := by
    rw [show Real.pi / 2 + 3 * Real.pi / 4 = Real.pi / 4 + Real.pi by ring, Real.cos_add_pi, Real.cos_pi_div_four]
  have s2 : Real.sin (Real.pi / 2 + 3 * Real.pi / 4) = -(Real.sqrt 2 / 2) := by
    rw [show Real.pi / 2 + 3 * Real.pi / 4 = Real.pi / 4 + Real.pi by ring, Real.sin_add_pi, Real.sin_pi_div_four]
  constructor
  · show (turnBy ez (3 * Real.pi / 4)).rot _ = _
    rw [turnBy_rot ez_unit, rodrigues_signed ez_unit, c1, s1]
    ext <;> simp [ez, Vec3.dot_def] <;> ring
  · show ((Quat.exp (ez.scale (Real.pi / 2))).mul (turnBy ez (3 * Real.pi / 4))).rot _ = _
    rw [exp_turnBy ez_unit hm, turnBy_mul ez_unit, turnBy_rot ez_unit, rodrigues_signed ez_unit, c2, s2]
    ext <;> simp [ez, Vec3.dot_def]
end Mill

open Mill in
/-- **C97 is false**: a cube makes a quarter turn during a step, past half a turn, and a ball of radius 1/2 touches it in the middle of the step. The contact is reported on
the far side of the cube, more than four radii away from the centre of the ball, and its normal points from the ball away from the cube. -/
theorem C97_false : ∃ (s : SphereCollider XReal) (b : BoxCollider XReal) (o : Orientation ℝ) (a p q n x : Vec3 ℝ) (C : Collision XReal),
    Collider.newFrom (.sphere s) = some (.sphere s) ∧ Collider.newFrom (.box b) = some (.box b) ∧ o.Unit ∧ s.radius = fin (1 / 2) ∧ s.center = Vec3.o.f ∧
    b.minCorner = Vec3.f ⟨-1, -1, -1⟩ ∧ b.maxCorner = Vec3.f ⟨1, 1, 1⟩ ∧ o.position = .o ∧ o.internalOriginOffset = .o ∧
    collide (.sphere s) (Scene.pose p).f (Scene.pose q).f (.box b) o.f (o.after .o a).f = .ok (some C) ∧ C.times.min = fin (1 / 2) ∧ C.position = x.f ∧ C.normal = n.f ∧
    2 < (x - along p (q - p) (1 / 2)).len ∧ n.dot (o.position - along p (q - p) (1 / 2)) < 0 ∧
    (midway o .o a (1 / 2) ⟨1, 0, 0⟩ = -x) := by
  obtain ⟨D, hD, ht, hn, hx⟩ := local_hit
  obtain ⟨hp, hq⟩ := path
  have hm : 2 * Quat.meps < |Real.pi / 2| := by
    rw [abs_of_pos (by have := Real.pi_pos; positivity)]
    have := Real.two_le_pi
    unfold Quat.meps; linarith
  have hU : before.Unit := turnBy_unit ez_unit _
  have hU' : (before.after .o quarter).Unit := Orientation.after_unit _ hU _ _
  have hsq : Real.sqrt 2 * Real.sqrt 2 = 2 := Real.mul_self_sqrt (by norm_num)
  have h2p : 0 < Real.sqrt 2 := Real.sqrt_pos.mpr (by norm_num)
  have l1 : before.toLocal ⟨-Real.sqrt 2, Real.sqrt 2, 0⟩ = ⟨2, 0, 0⟩ := by
    rw [← hp]
    unfold Orientation.toLocal
    show before.rotation.conj.rot (before.rotation.rot ⟨2, 0, 0⟩ - .o) - .o = _
    rw [Vec3.sub_o, Vec3.sub_o, Quat.rot_conj_rot _ hU]
  have l2 : (before.after .o quarter).toLocal ⟨-(Real.sqrt 2 / 2), -(Real.sqrt 2 / 2), 0⟩ = ⟨1, 0, 0⟩ := by
    rw [← hq]
    unfold Orientation.toLocal
    show (before.after .o quarter).rotation.conj.rot ((before.after .o quarter).rotation.rot ⟨1, 0, 0⟩ - (.o + .o)) - .o = _
    rw [Vec3.add_o, Vec3.sub_o, Vec3.sub_o, Quat.rot_conj_rot _ hU']
  have w : ∀ p : Vec3 ℝ, (Scene.pose p).f.positionIntoWorld Vec3.o.f = p.f := by
    intro p
    rw [Orientation.f_positionIntoWorld _ _ (Scene.pose_unit p), Vec3.f_inj]
    simp [Orientation.toWorld, Scene.pose]
  have hdiff : (⟨1, 0, 0⟩ : Vec3 ℝ) - ⟨2, 0, 0⟩ = ⟨-1, 0, 0⟩ := by ext <;> norm_num
  have hlerp : Orientation.lerp (fin (1 / 2)) before.f (before.after .o quarter).f = (Scene.pose .o).f := by
    have hr : (before.after .o quarter).rotation = turnBy ez (Real.pi / 2 + 3 * Real.pi / 4) := by
      show (Quat.exp (ez.scale (Real.pi / 2))).mul (turnBy ez (3 * Real.pi / 4)) = _
      rw [exp_turnBy ez_unit hm, turnBy_mul ez_unit]
    have hpi := Real.pi_pos
    rw [lerp_real, hr, show before.rotation = turnBy ez (3 * Real.pi / 4) from rfl, log_turnBy ez_unit (by linarith) (by linarith),
      log_turnBy_over ez_unit (by linarith) (by linarith)]
    have e : (ez.scale (3 * Real.pi / 4)).scale (1 - 1 / 2) + (ez.scale (Real.pi / 2 + 3 * Real.pi / 4 - 2 * Real.pi)).scale (1 / 2) = .o := by ext <;> simp [ez] <;> ring
    have e' : before.position.scale (1 - 1 / 2) + (before.after .o quarter).position.scale (1 / 2) = .o := by
      show Vec3.o.scale _ + (Vec3.o + Vec3.o).scale _ = _
      simp
    rw [e, e', Quat.exp_o]; rfl
  refine ⟨pea, cube, before, quarter, ⟨-Real.sqrt 2, Real.sqrt 2, 0⟩, ⟨-(Real.sqrt 2 / 2), -(Real.sqrt 2 / 2), 0⟩, ⟨-1, 0, 0⟩, ⟨1, 0, 0⟩, D.transformOutOf before.f (before.after .o quarter).f,
    pea_valid, cube_valid, hU, rfl, rfl, rfl, rfl, rfl, rfl, ?_, ht, ?_, ?_, ?_, ?_, ?_⟩
  · show (do
      let r ← collideSphereBox (fin (1 / 2)) (before.f.positionIntoLocal ((Scene.pose _).f.positionIntoWorld Vec3.o.f))
        ((before.after .o quarter).f.positionIntoLocal ((Scene.pose _).f.positionIntoWorld Vec3.o.f) - before.f.positionIntoLocal ((Scene.pose _).f.positionIntoWorld Vec3.o.f))
        (⟨-1, -1, -1⟩ : Vec3 ℝ).f (⟨1, 1, 1⟩ : Vec3 ℝ).f
      .ok (r.map (fun x : Collision XReal => x.transformOutOf before.f (before.after .o quarter).f)) : Res (Option (Collision XReal))) = _
    rw [w, w, Orientation.f_positionIntoLocal, Orientation.f_positionIntoLocal, l1, l2, Vec3.f_sub, hdiff, hD]
    rfl
  · unfold Collision.transformOutOf
    simp only [ht, hlerp, hx]
    rw [Orientation.f_positionIntoWorld _ _ (Scene.pose_unit _), Vec3.f_inj]
    simp [Orientation.toWorld, Scene.pose]
  · unfold Collision.transformOutOf
    simp only [ht, hlerp, hn]
    rw [Orientation.f_directionIntoWorld, Vec3.f_inj]
    simp [Scene.pose]
  · apply Real.lt_sqrt_of_sq_lt
    rw [Vec3.dot_def]
    simp only [along, Vec3.sub_x, Vec3.sub_y, Vec3.sub_z, Vec3.add_x, Vec3.add_y, Vec3.add_z, Vec3.scale_x, Vec3.scale_y, Vec3.scale_z]
    nlinarith
  · rw [Vec3.dot_def]
    simp only [along, before, Vec3.o_x, Vec3.o_y, Vec3.o_z, Vec3.sub_x, Vec3.sub_y, Vec3.sub_z, Vec3.add_x, Vec3.add_y, Vec3.add_z, Vec3.scale_x, Vec3.scale_y, Vec3.scale_z]
    nlinarith
  · unfold midway
    rw [show before.rotation = turnBy ez (3 * Real.pi / 4) from rfl, turnBy_rot ez_unit, show quarter.scale (1 / 2) = ez.scale (Real.pi / 4) by
      unfold quarter; rw [Vec3.scale_scale]; congr 1; ring, rodrigues_add, show Real.pi / 4 + 3 * Real.pi / 4 = Real.pi by ring, rodrigues_signed ez_unit, Real.cos_pi, Real.sin_pi]
    ext <;> simp [before, ez, Vec3.dot_def]

/-- The hypotheses of `C97_axis_partial` are met by a cube that has been turned by 45 degrees and makes a quarter turn, halfway through; those of `C97_backward` by one that
has been turned by 135 degrees. -/
example : Mill.ez.dot Mill.ez = 1 ∧ |Real.pi / 4| < Real.pi ∧ |Real.pi / 4 + Real.pi / 2| < Real.pi ∧ 2 * Quat.meps < |Real.pi / 2| ∧
    2 * Quat.meps < |Real.pi / 4 + Real.pi / 2 * (1 / 2)| ∧ |3 * Real.pi / 4| < Real.pi ∧ Real.pi < 3 * Real.pi / 4 + Real.pi / 2 ∧ 3 * Real.pi / 4 + Real.pi / 2 < 3 * Real.pi ∧
    3 * Real.pi / 4 + (Real.pi / 2 - 2 * Real.pi) * (1 / 2) = 0 := by
  have hpi := Real.pi_pos
  have h2 := Real.two_le_pi
  refine ⟨Mill.ez_unit, ?_, ?_, ?_, ?_, ?_, by linarith, by linarith, by ring⟩ <;> rw [abs_of_pos (by positivity)] <;> (try unfold Quat.meps) <;> linarith

end Fluffy.Props
