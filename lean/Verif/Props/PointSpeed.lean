import Verif.Props.Series
/-
C101: the velocity at a point of a body, by which contacts are judged, and the way that the point goes in a step.
-/
set_option linter.unusedSectionVars false
set_option linter.unusedSimpArgs false
namespace Fluffy.Props
open InternalEntity Step XReal Demo

/-- **C101.** In a step of length `d` in which nothing is recorded, every point `q` fixed to an awake body goes the way that the velocity at it promises, up to
`3/5 (|w| d)²` times its distance from the centre of mass (and up to `2^-22` times that distance if the body turns so slowly that the turn is lost). The velocity is that which
the body has for the step, with which contacts are judged, at the place where the point is at the start.

Missing: it goes along an arc, not along the velocity (`C101_false`). -/
theorem C101_partial {s s' : System XReal (GravityGenerator XReal)} {ord : IterOrder} {d : ℝ} (hd : Proper (fin d)) (hh : s.step ord (fin d) = .ok s')
    (hr : s'.collisionRecords = []) (hn : s.iterationMax ≠ 0) (hg : Earthly s) {h : Handle} {E : InternalEntity XReal} (hE : s.entities.get h = some E)
    (ha : E.asleep = false) (hf : FiniteInertia E.makePub) (hu : UnitPose E.orientation) (hv : Finite3 E.velocity) {w : Vec3 ℝ} (hw : E.angularVelocity = w.f) (q : Vec3 ℝ) :
    ∃ (E' : InternalEntity XReal) (x x' y V : Vec3 ℝ), s'.entities.get h = some E' ∧ E.orientation.position = y.f ∧ E.orientation.positionIntoWorld q.f = x.f ∧
      E'.orientation.positionIntoWorld q.f = x'.f ∧ ({ E with velocity := E'.velocity } : InternalEntity XReal).velocityAt x.f = V.f ∧
      (x' - x - V.scale d).len ≤ max (3 / 5 * (w.len * |d|) ^ 2) (1 / 4194304) * (x - y).len ∧
      (1 / 4194304 < w.len * |d| → (x' - x - V.scale d).len ≤ 3 / 5 * (w.len * |d|) ^ 2 * (x - y).len) := by
  obtain ⟨o, ho, uo⟩ := hu.rigid
  obtain ⟨v, hv⟩ := hv.f
  obtain ⟨E', u, h1, h2, h3, -, h5⟩ := whirl_step hd hh hr hn hg hE ha hf ho hv hw
  have uo' := Orientation.after_unit _ uo (u.scale d) (w.scale d)
  set r := o.rotation.rot (q + o.internalOriginOffset) with hrr
  have hx : o.toWorld q = o.position + r := rfl
  have hl : (w.scale d).len = w.len * |d| := Vec3.len_scale _ _
  have hm : 2 * Quat.meps = 1 / 4194304 := by unfold Quat.meps; norm_num
  have hx' : (o.after (u.scale d) (w.scale d)).toWorld q = o.position + u.scale d + (Quat.exp (w.scale d)).rot r := by
    unfold Orientation.toWorld
    show o.position + u.scale d + ((Quat.exp (w.scale d)).mul o.rotation).rot (q + o.internalOriginOffset) = _
    rw [Quat.rot_mul _ (Quat.exp_normSq _) uo]
  have hV : ({ E with velocity := E'.velocity } : InternalEntity XReal).velocityAt (o.toWorld q).f = (u + w.cross r).f := by
    show E'.velocity + E.angularVelocity.cross ((o.toWorld q).f - E.orientation.position) = _
    rw [h2, hw, ho]
    show u.f + w.f.cross ((o.toWorld q).f - o.position.f) = _
    rw [Vec3.f_sub, Vec3.f_cross, Vec3.f_add, hx, show o.position + r - o.position = r by ext <;> simp]
  have hdiff : (o.after (u.scale d) (w.scale d)).toWorld q - o.toWorld q - (u + w.cross r).scale d = (Quat.exp (w.scale d)).rot r - r - (w.scale d).cross r := by
    rw [hx', hx]
    ext <;> simp only [Vec3.add_x, Vec3.add_y, Vec3.add_z, Vec3.sub_x, Vec3.sub_y, Vec3.sub_z, Vec3.scale_x, Vec3.scale_y, Vec3.scale_z, Vec3.cross_x, Vec3.cross_y,
      Vec3.cross_z] <;> ring
  have fast : 1 / 4194304 < w.len * |d| → ((Quat.exp (w.scale d)).rot r - r - (w.scale d).cross r).len ≤ 3 / 5 * (w.len * |d|) ^ 2 * r.len := by
    intro hc
    rw [Quat.exp_rot (by rw [hl, hm]; exact hc), ← hl]
    exact rodrigues_second _ _
  have hxy : o.toWorld q - o.position = r := by rw [hx]; ext <;> simp
  refine ⟨E', o.toWorld q, (o.after (u.scale d) (w.scale d)).toWorld q, o.position, u + w.cross r, h1, by rw [ho]; rfl, by rw [ho, Orientation.f_positionIntoWorld _ _ uo],
    by rw [h5, Orientation.f_positionIntoWorld _ _ uo'], hV, ?_, ?_⟩
  · rw [hdiff, hxy]
    by_cases hc : 1 / 4194304 < w.len * |d|
    · exact (fast hc).trans (mul_le_mul_of_nonneg_right (le_max_left _ _) r.len_nonneg)
    · rw [Quat.exp_small (by rw [hl, hm]; exact not_lt.mp hc), Quat.rot_e, show r - r - (w.scale d).cross r = -((w.scale d).cross r) by ext <;> simp, Vec3.len_neg]
      refine (cross_len _ _).trans (mul_le_mul_of_nonneg_right ?_ r.len_nonneg)
      rw [hl]; exact (not_lt.mp hc).trans (le_max_right _ _)
  · intro hc; rw [hdiff, hxy]; exact fast hc

/-- **C101** is not exact: a point at distance 1 from the centre of mass of a body that makes half a turn in a step ends on the other side, two away from where it was along x, while the velocity at it
is along y, in which direction the turn does not take it at all. The hypotheses of `C101_partial` are met. -/
theorem C101_false : ∃ (s s' : System XReal (GravityGenerator XReal)) (E E' : InternalEntity XReal) (w q x x' V : Vec3 ℝ), Reachable s ∧ Proper (fin 1) ∧
    s.step .id (fin 1) = .ok s' ∧ s'.collisionRecords = [] ∧ s.iterationMax ≠ 0 ∧ Earthly s ∧ s.entities.get h0 = some E ∧ E.asleep = false ∧ FiniteInertia E.makePub ∧
    UnitPose E.orientation ∧ Finite3 E.velocity ∧ E.angularVelocity = w.f ∧ s'.entities.get h0 = some E' ∧
    E.orientation.positionIntoWorld q.f = x.f ∧ E'.orientation.positionIntoWorld q.f = x'.f ∧
    ({ E with velocity := E'.velocity } : InternalEntity XReal).velocityAt x.f = V.f ∧ x' - x - V.scale 1 = ⟨-2, -Real.pi, 0⟩ := by
  have hpi := Real.two_le_pi
  have lz : (Vec3.mk 0 0 Real.pi : Vec3 ℝ).len = Real.pi := len_of (by linarith) (by simp [Vec3.dot_def])
  obtain ⟨s, p, hr, hproj, hn, hg, hp, hi, hu, hv, hw, hrot⟩ := whirl_system ⟨0, 0, Real.pi⟩
  have hd : Proper (fin 1) := proper_fin (by norm_num)
  obtain ⟨s', hh, hrec, -, awake⟩ := hproj.fly hd
  obtain ⟨E, hE, rfl⟩ := getEntity_eq_some.mp hp
  have ha : E.asleep = false := awake _ hp
  have hv' : Finite3 E.velocity := by rw [show E.velocity = _ from hv]; exact finite3_f _
  obtain ⟨o, ho, uo⟩ := UnitPose.rigid hu
  have ho : E.orientation = o.f := ho
  obtain ⟨E', u, h1, h2, h3, -, h5⟩ := whirl_step hd hh hrec hn hg hE ha hi ho (show E.velocity = _ from hv) (show E.angularVelocity = _ from hw)
  have uo' := Orientation.after_unit _ uo (u.scale 1) (Vec3.scale ⟨0, 0, Real.pi⟩ 1)
  obtain ⟨R, hR, e⟩ := rotation_rot hp (o := o) ho uo
  have hR0 : R = .o := by rw [hrot, Vec3.f_inj] at hR; exact hR.symm
  let q : Vec3 ℝ := ⟨1, 0, 0⟩ - o.internalOriginOffset
  have hq : o.rotation.rot (q + o.internalOriginOffset) = ⟨1, 0, 0⟩ := by
    rw [← e, hR0, rodrigues_o]; ext <;> simp [q]
  have hx : o.toWorld q = o.position + ⟨1, 0, 0⟩ := by unfold Orientation.toWorld; rw [hq]
  have hturn : (Quat.exp (Vec3.scale ⟨0, 0, Real.pi⟩ 1)).rot ⟨1, 0, 0⟩ = ⟨-1, 0, 0⟩ := by
    rw [Quat.exp_rot (by rw [Vec3.scale_one, lz]; unfold Quat.meps; linarith), Vec3.scale_one,
      show (Vec3.mk 0 0 Real.pi : Vec3 ℝ) = Vec3.scale ⟨0, 0, 1⟩ Real.pi by ext <;> simp, rodrigues_signed (by simp [Vec3.dot_def])]
    ext <;> simp [Vec3.dot_def]
  have hx' : (o.after (u.scale 1) (Vec3.scale ⟨0, 0, Real.pi⟩ 1)).toWorld q = o.position + u.scale 1 + ⟨-1, 0, 0⟩ := by
    unfold Orientation.toWorld
    show o.position + u.scale 1 + ((Quat.exp (Vec3.scale ⟨0, 0, Real.pi⟩ 1)).mul o.rotation).rot (q + o.internalOriginOffset) = _
    rw [Quat.rot_mul _ (Quat.exp_normSq _) uo, hq, hturn]
  refine ⟨s, s', E, E', _, q, o.toWorld q, _, u + (Vec3.mk 0 0 Real.pi).cross ⟨1, 0, 0⟩, hr, hd, hh, hrec, hn, hg, hE, ha, hi, hu, hv', hw, h1,
    by rw [ho, Orientation.f_positionIntoWorld _ _ uo], by rw [h5, Orientation.f_positionIntoWorld _ _ uo'], ?_, ?_⟩
  · show E'.velocity + E.angularVelocity.cross ((o.toWorld q).f - E.orientation.position) = _
    rw [h2, show E.angularVelocity = _ from hw, ho, hx]
    show u.f + (Vec3.mk 0 0 Real.pi : Vec3 ℝ).f.cross ((o.position + ⟨1, 0, 0⟩).f - o.position.f) = _
    rw [Vec3.f_sub, Vec3.f_cross, Vec3.f_add, show o.position + ⟨1, 0, 0⟩ - o.position = (⟨1, 0, 0⟩ : Vec3 ℝ) by ext <;> simp]
  · rw [hx', hx]
    ext <;> simp <;> ring
end Fluffy.Props
