import Verif.Num.Kernel
import Verif.Props.Drift
import Verif.Props.Detect
import Verif.Props.Through
import Verif.Props.Box
/-
C99: balls do not pass through one another.
-/
set_option linter.unusedSectionVars false
set_option linter.unusedSimpArgs false
namespace Fluffy.Props
open InternalEntity Step

/-! ### Balls that meet are found -/

section
variable {γ : Type} [ForceGenerator XReal γ]
open XReal

/-- Where two balls meet that were apart and move through each other: how fast they approach along the line from where the centre of the first was at the start to the point of
contact, if the first is not chased by the second. -/
theorem first_meeting {r1 r2 : ℝ} (h1 : 0 < r1) (h2 : 0 ≤ r2) {c1 m1 c2 m2 : Vec3 ℝ} (hv : eps ≤ (m1 - m2).dot (m1 - m2)) (hd : eps ≤ discriminant r1 c1 m1 r2 c2 m2)
    (apart : (r1 + r2) * (r1 + r2) < (c1 - c2).dot (c1 - c2)) {t : ℝ} (hf : First (BallsMeet r1 c1 m1 r2 c2 m2) t) (chase : 0 ≤ m1.dot (m1 - m2)) {u : Vec3 ℝ}
    (hu : u = ((along c1 m1 t).scale r2 + (along c2 m2 t).scale r1).scale (1 / (r1 + r2)) - c1) :
    r1 * √(discriminant r1 c1 m1 r2 c2 m2) ≤ (m1 - m2).dot u * (2 * (r1 + r2)) ∧ u.len ≤ m1.len + r1 := by
  have hR : 0 < r1 + r2 := by linarith
  have hA : 0 < (m1 - m2).dot (m1 - m2) := lt_of_lt_of_le eps_pos hv
  have hD : 0 < discriminant r1 c1 m1 r2 c2 m2 := lt_of_lt_of_le eps_pos hd
  have hss := Real.mul_self_sqrt hD.le
  have hs := Real.sqrt_pos.mpr hD
  have hdef : discriminant r1 c1 m1 r2 c2 m2 = 2 * (m1 - m2).dot (c1 - c2) * (2 * (m1 - m2).dot (c1 - c2)) -
    4 * (m1 - m2).dot (m1 - m2) * ((c1 - c2).dot (c1 - c2) - (r1 + r2) * (r1 + r2)) := rfl
  obtain ⟨⟨t0, t1, hm⟩, hmin⟩ := hf
  rw [balls_quadratic h1.le h2] at hm
  have hmin' : ∀ x, 0 ≤ x → x ≤ 1 → (m1 - m2).dot (m1 - m2) * x ^ 2 + 2 * (m1 - m2).dot (c1 - c2) * x + ((c1 - c2).dot (c1 - c2) - (r1 + r2) * (r1 + r2)) ≤ 0 → t ≤ x :=
    fun x a b c => hmin x a b ((balls_quadratic h1.le h2 _ _ _ _ x).mpr c)
  generalize hs' : √(discriminant r1 c1 m1 r2 c2 m2) = σ at *
  have ec : (along c1 m1 t - along c2 m2 t).dot (m1 - m2) = (m1 - m2).dot (m1 - m2) * t + (m1 - m2).dot (c1 - c2) := by
    simp [along, Vec3.dot_def]; ring
  have el : (along c1 m1 t - along c2 m2 t).dot (along c1 m1 t - along c2 m2 t) = (m1 - m2).dot (m1 - m2) * t ^ 2 + 2 * (m1 - m2).dot (c1 - c2) * t + (c1 - c2).dot (c1 - c2) := by
    simp [along, Vec3.dot_def]; ring
  have eu : u = m1.scale t - (along c1 m1 t - along c2 m2 t).scale (r1 / (r1 + r2)) := by
    have hr' : r1 = (r1 + r2) * (r1 / (r1 + r2)) := by field_simp
    have hr2 : r2 = (r1 + r2) * (1 - r1 / (r1 + r2)) := by field_simp; ring
    have hone : (r1 + r2) * (1 / (r1 + r2)) = 1 := by field_simp
    generalize r1 / (r1 + r2) = ρ at *
    generalize 1 / (r1 + r2) = κ at *
    generalize r1 + r2 = R at *
    rw [hu, hr', hr2]
    ext <;> simp only [along, Vec3.sub_x, Vec3.sub_y, Vec3.sub_z, Vec3.add_x, Vec3.add_y, Vec3.add_z, Vec3.scale_x, Vec3.scale_y, Vec3.scale_z]
    · linear_combination ((c1.x + m1.x * t) * (1 - ρ) + (c2.x + m2.x * t) * ρ) * hone
    · linear_combination ((c1.y + m1.y * t) * (1 - ρ) + (c2.y + m2.y * t) * ρ) * hone
    · linear_combination ((c1.z + m1.z * t) * (1 - ρ) + (c2.z + m2.z * t) * ρ) * hone
  generalize (m1 - m2).dot (m1 - m2) = A at *
  generalize (m1 - m2).dot (c1 - c2) = B at *
  generalize (c1 - c2).dot (c1 - c2) = L at *
  rw [hdef] at hss
  -- the first root
  have hroot : 2 * A * t + 2 * B = -σ := by
    have hr : A * ((-(2 * B) - σ) / (2 * A)) ^ 2 + 2 * B * ((-(2 * B) - σ) / (2 * A)) + (L - (r1 + r2) * (r1 + r2)) = 0 := by
      field_simp
      nlinarith
    have hsq : (2 * A * t + 2 * B) ^ 2 ≤ σ ^ 2 := by nlinarith
    have hab := abs_le_of_sq_le_sq' hsq hs.le
    have hle : (-(2 * B) - σ) / (2 * A) ≤ t := by rw [div_le_iff₀ (by linarith)]; linarith [hab.1]
    have h0 : 0 ≤ (-(2 * B) - σ) / (2 * A) := by
      by_contra hneg
      push Not at hneg
      have i1 : -(2 * B) - σ < 0 := by
        by_contra hc
        push Not at hc
        exact absurd (div_nonneg hc (by linarith : (0:ℝ) ≤ 2 * A)) (not_le.mpr hneg)
      have i2 : 2 * B ≤ σ := by
        have := hab.2
        have : 0 ≤ 2 * A * t := by positivity
        linarith
      nlinarith
    have := hmin' _ h0 (hle.trans t1) hr.le
    have e : t = (-(2 * B) - σ) / (2 * A) := le_antisymm this hle
    rw [e]; field_simp; ring
  have hdist : (along c1 m1 t - along c2 m2 t).dot (along c1 m1 t - along c2 m2 t) = (r1 + r2) * (r1 + r2) := by
    rw [el]; nlinarith
  constructor
  · have : (m1 - m2).dot u = t * m1.dot (m1 - m2) - r1 / (r1 + r2) * (along c1 m1 t - along c2 m2 t).dot (m1 - m2) := by
      rw [eu]; simp [Vec3.dot_def]; ring
    rw [this, ec]
    have e2 : r1 / (r1 + r2) * (2 * (r1 + r2)) = 2 * r1 := by field_simp
    have e3 : 0 ≤ t * m1.dot (m1 - m2) * (2 * (r1 + r2)) := by positivity
    have e4 : (A * t + B) = -σ / 2 := by linarith
    rw [e4]
    nlinarith
  · rw [eu]
    have hl : ((along c1 m1 t - along c2 m2 t).scale (r1 / (r1 + r2))).len = r1 := by
      rw [Vec3.len_scale, len_of hR.le hdist, abs_of_nonneg (by positivity)]; field_simp
    have h3 : (m1.scale t).len ≤ m1.len := by
      rw [Vec3.len_scale, abs_of_nonneg t0]
      exact mul_le_of_le_one_right (Vec3.len_nonneg _) t1
    have := len_triangle (m1.scale t) (-(along c1 m1 t - along c2 m2 t).scale (r1 / (r1 + r2)))
    rw [Vec3.len_neg, hl] at this
    have e : m1.scale t - (along c1 m1 t - along c2 m2 t).scale (r1 / (r1 + r2)) = m1.scale t + -(along c1 m1 t - along c2 m2 t).scale (r1 / (r1 + r2)) := by
      ext <;> simp <;> ring
    rw [e]; linarith
/-- A body that nothing touches in a step, before and after the search for contacts. -/
theorem in_peace {G : γ → Prop} (tame : Tame G) {s s' : System XReal γ} (hf : FiniteHistory G s) (hf' : FiniteHistory G s') {ord : IterOrder} {d : ℝ}
    (p : Phases ord s s' (fin d)) (hr : s'.collisionRecords = []) (hn : s.iterationMax ≠ 0) {h : Handle} {e : Entity XReal} (he : s.getEntity h = some e)
    (awake : e.asleep = false) : ∃ (E X Y : InternalEntity XReal) (i : StepInfo XReal) (o : Orientation ℝ) (v w : Vec3 ℝ), e = E.makePub ∧ s.entities.get h = some E ∧
      p.mid.entities.get h = some X ∧ X.orientation = o.f ∧ E.orientation = o.f ∧ o.Unit ∧ X.velocity = v.f ∧ X.angularVelocity = w.f ∧ X.neighbors = E.neighbors ∧
      X.colliders = E.colliders ∧ i ∈ p.infos ∧ i.handle = h ∧ i.linearMovement = (v.scale d).f ∧ i.angularMovement = (w.scale d).f ∧
      s'.getEntity h = some Y.makePub ∧ Y.velocity = v.f ∧ Y.angularVelocity = w.f ∧ Y.orientation = (o.after (v.scale d) (w.scale d)).f := by
  obtain ⟨E, gE, rfl⟩ := getEntity_iff.mp he
  obtain ⟨o, ho, hou⟩ := ((hf.fine tame).1 _ _ gE).pose
  obtain ⟨-, -, k3, -, k5, k6⟩ := integrateAll_spec (Arena.handles_nodup _) p.integrate
  have hke : h ∈ s.entities.handles := Arena.mem_handles.mpr ⟨E, gE⟩
  rw [← k5] at hke
  obtain ⟨i, hi, hik⟩ := List.mem_map.mp hke
  obtain ⟨X, gX, hi'⟩ := k6 i hi
  rw [hik] at gX
  obtain ⟨Y, gY, y1, y2, y3⟩ := p.free hr hn gE awake gX
  obtain ⟨X', gX', hv⟩ := k3.get gE
  obtain rfl : X = X' := Option.some.inj (gX.symm.trans gX')
  have fY := (hf'.fine tame).1 _ _ gY
  obtain ⟨v, hv'⟩ := fY.vel
  obtain ⟨w, hw'⟩ := fY.ang
  rw [hv'] at y1
  rw [hw'] at y2
  refine ⟨E, X, Y, i, o, v, w, rfl, gE, gX, by rw [hv]; exact ho, ho, hou, y1.symm, y2.symm, by rw [hv], by rw [hv], hi, hik, ?_, ?_, getEntity_iff.mpr ⟨Y, gY, rfl⟩, hv', hw', ?_⟩
  · rw [hi', ← y1]; exact Vec3.f_scale _ _
  · rw [hi', ← y2]; exact Vec3.f_scale _ _
  · rw [y3, ← y1, ← y2, ho, one_eq]
    simp only [Vec3.f_scale, Orientation.f_afterAffected, Orientation.f_inj]
    congr 1 <;> ext <;> simp

/-- A collider whose centre is the position of its body. -/
theorem center_offset {o : Orientation ℝ} (hou : o.Unit) {c : Vec3 ℝ} (h : o.f.positionIntoWorld c.f = o.position.f) : c + o.internalOriginOffset = .o := by
  rw [Orientation.f_positionIntoWorld o c hou] at h
  have e : o.position + o.rotation.rot (c + o.internalOriginOffset) = o.position := (Vec3.f_inj _ _).mp h
  have e2 : o.rotation.rot (c + o.internalOriginOffset) = .o := by
    ext
    · have := congrArg Vec3.x e; simp at this; simpa using this
    · have := congrArg Vec3.y e; simp at this; simpa using this
    · have := congrArg Vec3.z e; simp at this; simpa using this
  have := Quat.rot_conj_rot (c + o.internalOriginOffset) hou
  rw [e2, Quat.rot_o] at this
  exact this.symm

/-- **C99 (partial).** If a step reports no contact, then no two balls went through one another in it.  The positions are those before and after the step, on the straight line
between which the balls move.  The first, by the index of its handle, may spin.
Missing: balls that overlap at the start; those that are slow (their relative movement in the step is below 1 mm) or graze one another (the discriminant of the quadratic equation
for the time of contact is small, `C99_marbles`); and those of which the first is chased by the second (`C99_false`). -/
theorem C99_partial {G : γ → Prop} (tame : Tame G) {s s' : System XReal γ} (hf : FiniteHistory G s) {ord : IterOrder} {d : ℝ} (hd : 1 / 1000000 ≤ d)
    (hh : s.step ord (fin d) = .ok s') (quiet : s'.collisionRecords = []) (hn : s.iterationMax ≠ 0) {h1 h2 ch1 ch2 : Handle} {a b a' b' : Entity XReal}
    (order : h1.index < h2.index) (ha : s.getEntity h1 = some a) (hb : s.getEntity h2 = some b) (awake1 : a.asleep = false) (awake2 : b.asleep = false)
    (ha' : s'.getEntity h1 = some a') (hb' : s'.getEntity h2 = some b') (spinless : b'.angularVelocity = (Vec3.o).f) {sc1 sc2 : SphereCollider XReal}
    (col1 : ch1 ∈ a.colliders) (col2 : ch2 ∈ b.colliders) (hs1 : s.getCollider ch1 = some (.sphere sc1)) (hs2 : s.getCollider ch2 = some (.sphere sc2))
    (cen1 : a.lastOrientation.positionIntoWorld sc1.center = a.position) (cen2 : b.lastOrientation.positionIntoWorld sc2.center = b.position)
    {r1 r2 : ℝ} (rad1 : sc1.radius = fin r1) (rad2 : sc2.radius = fin r2) (pos1 : 0 < r1) (pos2 : 0 < r2)
    {x1 x2 m1 m2 : Vec3 ℝ} (hx1 : a.position = x1.f) (hx2 : b.position = x2.f) (hm1 : a'.position = (x1 + m1).f) (hm2 : b'.position = (x2 + m2).f)
    (apart : (r1 + r2) * (r1 + r2) < (x1 - x2).dot (x1 - x2)) (fast : eps ≤ (m1 - m2).dot (m1 - m2))
    (grazing : discriminant r1 x1 m1 r2 x2 m2 < -eps ∨ eps ≤ discriminant r1 x1 m1 r2 x2 m2) (chase : 0 ≤ m1.dot (m1 - m2))
    (size : d * (m1.len + r1) * (r1 + r2) ≤ 500 * r1) : ∀ t, 0 ≤ t → t < 1 → ¬ BallsMeet r1 x1 m1 r2 x2 m2 t := by
  have dpos : 0 < d := lt_of_lt_of_le (by norm_num) hd
  have hf' : FiniteHistory G s' := .call ord (.step (fin d)) .unit hf rfl (by simp only [System.exec, hh, Res.ok_bind]) (fun _ _ _ => by rw [quiet]; simp)
  obtain ⟨p⟩ := step_phases (proper_fin hd) hh
  obtain ⟨E1, X1, Y1, i1, o1, v1, w1, rfl, gE1, gX1, oX1, oE1, u1, vX1, wX1, nb1, cX1, im1, ih1, il1, ia1, gY1, vY1, wY1, oY1⟩ := in_peace tame hf hf' p quiet hn ha awake1
  obtain ⟨E2, X2, Y2, i2, o2, v2, w2, rfl, gE2, gX2, oX2, oE2, u2, vX2, wX2, nb2, cX2, im2, ih2, il2, ia2, gY2, vY2, wY2, oY2⟩ := in_peace tame hf hf' p quiet hn hb awake2
  obtain rfl : a' = Y1.makePub := Option.some.inj (ha'.symm.trans gY1)
  obtain rfl : b' = Y2.makePub := Option.some.inj (hb'.symm.trans gY2)
  have hx1' : o1.position = x1 := (Vec3.f_inj _ _).mp (by rw [← hx1]; show _ = E1.orientation.position; rw [oE1]; rfl)
  have hx2' : o2.position = x2 := (Vec3.f_inj _ _).mp (by rw [← hx2]; show _ = E2.orientation.position; rw [oE2]; rfl)
  have hp1 : o1.position + v1.scale d = x1 + m1 := (Vec3.f_inj _ _).mp (by rw [← hm1]; show _ = Y1.orientation.position; rw [oY1]; rfl)
  have hp2 : o2.position + v2.scale d = x2 + m2 := (Vec3.f_inj _ _).mp (by rw [← hm2]; show _ = Y2.orientation.position; rw [oY2]; rfl)
  subst hx1' hx2'
  have cancel : ∀ x u v : Vec3 ℝ, x + u = x + v → u = v := by
    intro x u v h
    ext
    · have := congrArg Vec3.x h; simpa using this
    · have := congrArg Vec3.y h; simpa using this
    · have := congrArg Vec3.z h; simpa using this
  obtain rfl := cancel _ _ _ hp1
  obtain rfl := cancel _ _ _ hp2
  obtain rfl : w2 = .o := (Vec3.f_inj _ _).mp (by rw [← wY2]; exact spinless)
  have hcol : p.mid.toWorld.colliders = s.colliders := by
    have := (integrateAll_spec (Arena.handles_nodup _) p.integrate).1
    rw [this]
  rw [getCollider_eq] at hs1 hs2
  obtain ⟨c1, hc1⟩ : ∃ c : Vec3 ℝ, sc1.center = c.f := (hf.colliders _ _ hs1).1.f
  obtain ⟨c2, hc2⟩ : ∃ c : Vec3 ℝ, sc2.center = c.f := (hf.colliders _ _ hs2).1.f
  have z1 : c1 + o1.internalOriginOffset = .o := center_offset u1 (by
    have : E1.orientation.positionIntoWorld sc1.center = E1.orientation.position := cen1
    rw [oE1, hc1] at this; exact this)
  have z2 : c2 + o2.internalOriginOffset = .o := center_offset u2 (by
    have : E2.orientation.positionIntoWorld sc2.center = E2.orientation.position := cen2
    rw [oE2, hc2] at this; exact this)
  have hcoll : collide (.sphere sc1) o1.f (o1.f.afterAffected (v1.scale d).f (w1.scale d).f) (.sphere sc2) o2.f (o2.f.afterAffected (v2.scale d).f ((Vec3.o).scale d).f) =
      .ok (collideSphereSphere (fin r1) o1.position.f (v1.scale d).f (fin r2) o2.position.f (v2.scale d).f) := by
    unfold collide
    have k1 : (o1.after (v1.scale d) (w1.scale d)).toWorld c1 = o1.position + v1.scale d := toWorld_center (o := o1.after (v1.scale d) (w1.scale d)) z1
    have k2 : (o2.after (v2.scale d) ((Vec3.o).scale d)).toWorld c2 = o2.position + v2.scale d := toWorld_center (o := o2.after (v2.scale d) ((Vec3.o).scale d)) z2
    simp only [Orientation.f_afterAffected, rad1, rad2, hc1, hc2, Orientation.f_positionIntoWorld _ _ u1, Orientation.f_positionIntoWorld _ _ u2,
      Orientation.f_positionIntoWorld _ _ (Orientation.after_unit _ u1 _ _), Orientation.f_positionIntoWorld _ _ (Orientation.after_unit _ u2 _ _),
      toWorld_center z1, toWorld_center z2, k1, k2, Vec3.f_sub]
    have e : ∀ x u : Vec3 ℝ, x + u - x = u := fun x u => by ext <;> simp
    rw [e, e]
  rcases sphereSphere_first (r1 := r1) (r2 := r2) (c1 := o1.position) (m1 := v1.scale d) (c2 := o2.position) (m2 := v2.scale d) (by linarith)
      (P := BallsMeet r1 o1.position (v1.scale d) r2 o2.position (v2.scale d)) (fun t _ _ => by
        rw [balls_quadratic pos1.le pos2.le]
        exact (C40_quadratic_partial _ _ _ fast).1 grazing t) with ⟨-, h⟩ | ⟨C, t, q, hC, ht, hfi, hq, hp, hnm⟩
  · exact fun t t0 t1 => h t t0 t1.le
  have hdis : eps ≤ discriminant r1 o1.position (v1.scale d) r2 o2.position (v2.scale d) := by
    refine grazing.resolve_left fun hneg => ?_
    have hm := hfi.1.2.2
    rw [balls_quadratic pos1.le pos2.le] at hm
    unfold discriminant at hneg
    have := eps_pos
    nlinarith [sq_nonneg (2 * (v1.scale d - v2.scale d).dot (v1.scale d - v2.scale d) * t + 2 * (v1.scale d - v2.scale d).dot (o1.position - o2.position))]
  obtain ⟨g1, g2⟩ := first_meeting pos1 pos2.le fast hdis apart hfi chase (u := q - o1.position) (by rw [hq])
  generalize hu : q - o1.position = u at *
  have hroot : 1 / 1000 ≤ √(discriminant r1 o1.position (v1.scale d) r2 o2.position (v2.scale d)) := by
    apply Real.le_sqrt_of_sq_le
    unfold eps at hdis
    linarith
  have hpos : 0 < (v1.scale d - v2.scale d).dot u := by
    have : 0 < r1 * √(discriminant r1 o1.position (v1.scale d) r2 o2.position (v2.scale d)) := mul_pos pos1 (by linarith)
    by_contra hc
    push Not at hc
    nlinarith
  have hune : u ≠ .o := by
    rintro rfl
    simp [Vec3.dot_def] at hpos
  have hul := Vec3.len_pos hune
  have happ : eps ≤ (v1 + w1.cross u - v2).dot (u.scale u.len⁻¹) := by
    have e1 : (v1 + w1.cross u - v2).dot (u.scale u.len⁻¹) = (v1.scale d - v2.scale d).dot u * u.len⁻¹ / d := by
      rw [eq_div_iff dpos.ne']
      simp [Vec3.dot_def]; ring
    rw [e1, le_div_iff₀ dpos, ← div_eq_mul_inv, le_div_iff₀ hul]
    have e2 : eps * d * u.len * (2 * (r1 + r2)) ≤ r1 * (1 / 1000) := by
      have : d * u.len * (r1 + r2) ≤ d * ((v1.scale d).len + r1) * (r1 + r2) := by gcongr
      unfold eps
      linarith
    have e3 : r1 * (1 / 1000) ≤ (v1.scale d - v2.scale d).dot u * (2 * (r1 + r2)) := le_trans (by gcongr) g1
    exact le_of_mul_le_mul_right (e2.trans e3) (by linarith)
  obtain ⟨n1, n2⟩ := strangers_awake hf.reachable ha hb awake1 awake2 _ _ gE1 gE2
  have hne : h1 ≠ h2 := by rintro rfl; exact lt_irrefl _ order
  obtain ⟨j1, hj1⟩ := List.getElem?_of_mem im1
  obtain ⟨j2, hj2⟩ := List.getElem?_of_mem im2
  have hj : j1 < j2 := by
    have k5 := (integrateAll_spec (Arena.handles_nodup _) p.integrate).2.2.2.2.1
    have hsort := Arena.handles_sorted s.entities
    rw [← k5] at hsort
    by_contra hc
    push Not at hc
    rcases hc.lt_or_eq with hc | hc
    · have b1 : j1 < p.infos.length := by
        by_contra hlen; rw [List.getElem?_eq_none (by omega)] at hj1; cases hj1
      have := List.pairwise_iff_getElem.mp hsort j2 j1 (by rw [List.length_map]; omega) (by rw [List.length_map]; exact b1) hc
      rw [List.getElem_map, List.getElem_map] at this
      rw [List.getElem?_eq_getElem b1] at hj1
      rw [List.getElem?_eq_getElem (by omega)] at hj2
      rw [Option.some.inj hj1, Option.some.inj hj2, ih1, ih2] at this
      omega
    · rw [hc, hj1] at hj2
      cases hj2
      exact hne (ih1.symm.trans ih2)
  have hK : ∃ k, Contact p.mid.toWorld p.infos k ∧ k.percent = fin t := by
    refine ⟨_, ⟨j1, j2, i1, i2, hj, hj1, hj2, X1, X2, by rw [ih1]; exact gX1, by rw [ih2]; exact gX2, by rw [ih1, ih2]; exact hne, by rw [ih2, nb1]; exact n1,
      by rw [ih1, nb2]; exact n2, ch1, by rw [cX1]; exact col1, ch2, by rw [cX2]; exact col2, .sphere sc1, .sphere sc2, C, by rw [hcol]; exact hs1, by rw [hcol]; exact hs2, ?_, ?_, rfl⟩, ht⟩
    · rw [oX1, oX2, il1, ia1, il2, ia2, hcoll, hC]
    · rw [hp, hnm, Vec3.f_normalize hune]
      unfold InternalEntity.velocityAt
      rw [vX1, wX1, vX2, wX2, oX1, oX2]
      simp only [Orientation.f_position, Vec3.f_sub, Vec3.f_cross, Vec3.f_add, Vec3.f_dot, EPSILON_eq, fin_lt, decide_eq_false_iff_not, not_lt]
      rw [hu]
      refine happ.trans (le_of_eq ?_)
      simp [Vec3.dot_def]
  obtain ⟨k, hk, hkt⟩ := hK
  have hrec0 : p.final.world.collisionRecords = [] := by
    have := (sleepLoop_frame p.selfless p.sleep).2
    rw [quiet] at this
    cases hc : p.concluded <;> rw [hc] at this <;> simpa using this.symm
  have k1 := (integrateAll_spec (Arena.handles_nodup _) p.integrate).1
  rcases iterate_quiet p.iterate (by rw [hrec0]; simp only; rw [k1]) with ⟨h0, -, -⟩ | ⟨hsearch, -, -⟩
  · exact absurd h0 hn
  · have h1t : 1 ≤ t := search_before hsearch hk hkt (p := 1) one_eq
    intro x hx0 hx1 hmeet
    have := hfi.2 x hx0 hx1.le hmeet
    linarith

open Scene Demo in
/-- Two balls of radius 1, eight metres apart. -/
theorem two_finite (v w : Vec3 ℝ) (e t : XReal) : FiniteHistory (fun g : GravityGenerator XReal => Finite3 g.acceleration)
    (scene (dot (fin 1) .o v [h0] up) (dot (fin 1) ⟨10, 0, 0⟩ w [h1] up) (sphere 1) (sphere 1) 10 e t) := by
  have hs : ∀ (p v : Vec3 ℝ), FiniteEntity (source (fin 1) p v) := by
    intro p v
    exact ⟨finite3_f p, ⟨rfl, rfl, rfl⟩, finite3_f v, ⟨rfl, rfl, rfl⟩, ⟨rfl, rfl, rfl⟩, fun h => by cases h⟩
  refine FiniteHistory.of_steps (scene_steps (by simp) (by simp) .o v ⟨10, 0, 0⟩ w (sphere_newFrom 1) (sphere_newFrom 1) (sphere_weightless _ 1) (sphere_weightless _ 1) 10 e t) ?_ ?_
  · simp only [List.mem_cons, List.not_mem_nil, or_false]
    rintro x (rfl | rfl | rfl | rfl | rfl | rfl | rfl)
    · trivial
    · trivial
    · trivial
    · exact ⟨finite3_f _, rfl, rfl, rfl, rfl⟩
    · exact ⟨finite3_f _, rfl, rfl, rfl, rfl⟩
    · exact hs _ _
    · exact hs _ _
  · simp only [List.mem_cons, List.not_mem_nil, or_false]
    rintro x (rfl | rfl | rfl | rfl | rfl | rfl | rfl) dt h <;> cases h

open Scene Demo in
/-- The hypotheses of `C99_partial` can be met: a ball that moves with 1 m/s towards another one eight metres away, which it would meet after eight seconds; the step takes one. -/
example (e t : XReal) : ∃ (s' : System XReal (GravityGenerator XReal)) (a' b' : Entity XReal),
    System.step .id (scene (dot (fin 1) .o ⟨1, 0, 0⟩ [h0] up) (dot (fin 1) ⟨10, 0, 0⟩ .o [h1] up) (sphere 1) (sphere 1) 10 e t) (fin 1) = .ok s' ∧ s'.collisionRecords = [] ∧
      s'.getEntity h0 = some a' ∧ s'.getEntity h1 = some b' ∧ a'.position = (.o + (⟨1, 0, 0⟩ : Vec3 ℝ)).f ∧ b'.position = ((⟨10, 0, 0⟩ : Vec3 ℝ) + .o).f ∧
      b'.angularVelocity = (Vec3.o).f ∧ eps ≤ discriminant 1 .o ⟨1, 0, 0⟩ 1 ⟨10, 0, 0⟩ .o ∧ ∀ t, 0 ≤ t → t < 1 → ¬ BallsMeet 1 .o ⟨1, 0, 0⟩ 1 ⟨10, 0, 0⟩ .o t := by
  have hd : eps ≤ discriminant 1 .o ⟨1, 0, 0⟩ 1 ⟨10, 0, 0⟩ .o := by unfold discriminant eps; simp [Vec3.dot_def]; norm_num
  have hF := two_finite ⟨1, 0, 0⟩ .o e t
  obtain ⟨S, hS⟩ : ∃ S : System XReal (GravityGenerator XReal),
    S = scene (dot (fin 1) .o ⟨1, 0, 0⟩ [h0] up) (dot (fin 1) ⟨10, 0, 0⟩ .o [h1] up) (sphere 1) (sphere 1) 10 e t := ⟨_, rfl⟩
  rw [← hS] at hF ⊢
  have g0 : S.colliders.get h0 = some ((sphere 1).setEntity (some h0)) := by rw [hS]; rfl
  have g1 : S.colliders.get h1 = some ((sphere 1).setEntity (some h1)) := by rw [hS]; rfl
  have hlive : ∀ k E, S.entities.get k = some E → k = h0 ∧ E = dot (fin 1) .o ⟨1, 0, 0⟩ [h0] up ∨ k = h1 ∧ E = dot (fin 1) ⟨10, 0, 0⟩ .o [h1] up := by
    intro k E hk
    have hk' : k ∈ S.entities.handles := Arena.mem_handles.mpr ⟨E, hk⟩
    rw [hS] at hk hk'
    simp only [scene, two_handles, List.mem_cons, List.not_mem_nil, or_false] at hk hk'
    rcases hk' with rfl | rfl
    · rw [two_get0] at hk; cases hk; exact Or.inl ⟨rfl, rfl⟩
    · rw [two_get1] at hk; cases hk; exact Or.inr ⟨rfl, rfl⟩
  have hball : ∀ k E c C, S.entities.get k = some E → c ∈ E.colliders → S.colliders.get c = some C → ∃ sc, C = .sphere sc := by
    intro k E c C hk hc hC
    rcases hlive k E hk with ⟨-, rfl⟩ | ⟨-, rfl⟩
    · obtain rfl : c = h0 := by simpa [dot] using hc
      exact ⟨_, (Option.some.inj (g0.symm.trans hC)).symm⟩
    · obtain rfl : c = h1 := by simpa [dot] using hc
      exact ⟨_, (Option.some.inj (g1.symm.trans hC)).symm⟩
  obtain ⟨s', hstep, -⟩ := Step.step_total (ord := .id) (s := S) (fin 1) (by
      intro k E n hk hn
      rcases hlive k E hk with ⟨-, rfl⟩ | ⟨-, rfl⟩ <;> exact absurd hn (by simp [dot, up]))
    ⟨by
      intro k E c hk hc
      rcases hlive k E hk with ⟨-, rfl⟩ | ⟨-, rfl⟩
      · obtain rfl : c = h0 := by simpa [dot] using hc
        exact ⟨_, g0⟩
      · obtain rfl : c = h1 := by simpa [dot] using hc
        exact ⟨_, g1⟩, by
      intro k1 k2 E1 E2 c1 c2 C1 C2 hne h1' h2' hc1 hc2 hC1 hC2 o1 o2 o3 o4
      obtain ⟨_, rfl⟩ := hball _ _ _ _ h1' hc1 hC1
      obtain ⟨_, rfl⟩ := hball _ _ _ _ h2' hc2 hC2
      exact ⟨_, rfl⟩⟩
  have hint : integrateAll (fin 1) S.generators.handles S.entities.handles { S with collisionRecords := [], debug := [] } =
      .ok ({ S with collisionRecords := [], debug := [] },
        [⟨h0, (⟨1, 0, 0⟩ : Vec3 ℝ).f, (Vec3.o).f, []⟩, ⟨h1, (Vec3.o).f, (Vec3.o).f, []⟩]) := by
    rw [hS]
    simp only [scene, two_handles]
    have hgen : (Arena.new : Arena (GravityGenerator XReal)).handles = [] := rfl
    rw [hgen]
    simp only [integrateAll]
    have one := fun (p v : Vec3 ℝ) (cs : List Handle) (s : System XReal (GravityGenerator XReal)) (h : Handle) (hg : s.entities.get h = some (dot (fin 1) p v cs up)) =>
      integrate (some 1) p v cs up 1 s hg
    simp only [mx] at one
    rw [one _ _ _ _ _ (two_get0 _ _)]
    simp only [Res.ok_bind, two_set0]
    rw [one _ _ _ _ _ (two_get1 _ _)]
    simp only [Res.ok_bind, two_set1, o_scale]
    have e1 : ∀ u : Vec3 ℝ, u.scale 1 = u := fun u => by ext <;> simp
    rw [e1]
  have hp := proper_fin (d := 1) (by norm_num)
  have hrec : s'.collisionRecords = [] := by
    by_contra hne
    obtain ⟨r, l, hl⟩ := List.exists_cons_of_ne_nil hne
    obtain ⟨mid, infos, st, k, i1, i2, i3, i4, -⟩ := C55_records hp hstep (i := 0) (r := r) (by rw [hl]; rfl)
    rw [hint] at i1
    simp only [Except.ok.injEq, Prod.mk.injEq] at i1
    obtain ⟨rfl, rfl⟩ := i1
    unfold iterate at i2
    simp only [Except.ok.injEq, Prod.mk.injEq, and_true] at i2
    subst i2
    have hcs : ({ S with collisionRecords := [], debug := [] } : System XReal (GravityGenerator XReal)).toWorld.colliders =
      Scene.two ((sphere 1).setEntity (some h0)) ((sphere 1).setEntity (some h1)) := by rw [hS]; rfl
    have hsr := search .id (w := ({ S with collisionRecords := [], debug := [] } : System XReal (GravityGenerator XReal)).toWorld)
      (a := dot (fin 1) .o ⟨1, 0, 0⟩ [h0] up) (b := dot (fin 1) ⟨10, 0, 0⟩ .o [h1] up) (by rw [hS]; rfl) hcs rfl rfl (by simp [dot, up]) (by simp [dot, up])
      (i1 := ⟨h0, (⟨1, 0, 0⟩ : Vec3 ℝ).f, (Vec3.o).f, []⟩) (i2 := ⟨h1, (Vec3.o).f, (Vec3.o).f, []⟩) rfl rfl
    have hnone : collide ((sphere 1).setEntity (some h0)) (pose .o).f ((pose .o).f.afterAffected (⟨1, 0, 0⟩ : Vec3 ℝ).f (Vec3.o).f) ((sphere 1).setEntity (some h1))
        (pose ⟨10, 0, 0⟩).f ((pose ⟨10, 0, 0⟩).f.afterAffected (Vec3.o).f (Vec3.o).f) = .ok none := by
      rcases C43_collide_partial (s1 := ⟨some h0, (Vec3.o).f, fin 1, fin 0, ⟨fin 1, fin (1 / 4), fin 0, fin 0⟩⟩) (s2 := ⟨some h1, (Vec3.o).f, fin 1, fin 0, ⟨fin 1, fin (1 / 4), fin 0, fin 0⟩⟩)
        (o1 := (pose .o).f) (e1 := (pose .o).f.afterAffected (⟨1, 0, 0⟩ : Vec3 ℝ).f (Vec3.o).f) (o2 := (pose ⟨10, 0, 0⟩).f)
        (e2 := (pose ⟨10, 0, 0⟩).f.afterAffected (Vec3.o).f (Vec3.o).f) (r1 := 1) (r2 := 1) (a1 := .o) (b1 := ⟨1, 0, 0⟩) (a2 := ⟨10, 0, 0⟩) (b2 := ⟨10, 0, 0⟩) rfl rfl
        (by rw [Orientation.f_positionIntoWorld _ _ (pose_unit _)]; simp [Orientation.toWorld, pose])
        (by rw [Orientation.f_afterAffected, Orientation.f_positionIntoWorld _ _ (Orientation.after_unit _ (pose_unit _) _ _), toWorld_center (by simp [Orientation.after, pose])]
            simp [Orientation.after, pose])
        (by rw [Orientation.f_positionIntoWorld _ _ (pose_unit _)]; simp [Orientation.toWorld, pose])
        (by rw [Orientation.f_afterAffected, Orientation.f_positionIntoWorld _ _ (Orientation.after_unit _ (pose_unit _) _ _), toWorld_center (by simp [Orientation.after, pose])]
            simp [Orientation.after, pose])
        zero_le_one zero_le_one (by norm_num) (by simp [Vec3.dot_def, eps]; norm_num) (Or.inr (by simp [discriminant, Vec3.dot_def, eps]; norm_num)) with h | ⟨C, t, q, -, -, hfi, -⟩
      · exact h.1
      · exfalso
        have := hfi.1.2.2
        rw [balls_quadratic zero_le_one zero_le_one] at this
        simp [Vec3.dot_def] at this
        nlinarith [hfi.1.1, hfi.1.2.1]
    have hcp : considerPair (Scene.two ((sphere 1).setEntity (some h0)) ((sphere 1).setEntity (some h1))) (dot (fin 1) .o ⟨1, 0, 0⟩ [h0] up) (dot (fin 1) ⟨10, 0, 0⟩ .o [h1] up)
        ⟨h0, (⟨1, 0, 0⟩ : Vec3 ℝ).f, (Vec3.o).f, []⟩ ⟨h1, (Vec3.o).f, (Vec3.o).f, []⟩ 0 1 h0 h1 none = .ok none := by
      unfold considerPair
      simp only [two_get0, two_get1, unwrap, Res.ok_bind]
      rw [show (dot (fin 1) .o ⟨1, 0, 0⟩ [h0] up).orientation = (pose .o).f from rfl, show (dot (fin 1) ⟨10, 0, 0⟩ .o [h1] up).orientation = (pose ⟨10, 0, 0⟩).f from rfl, hnone]
      rfl
    have hsr := hsr.trans ((congrArg (fun x => considerPair x _ _ _ _ 0 1 h0 h1 none) hcs).trans hcp)
    have := C55_search hsr k i3
    rw [this] at i4
    cases i4
  obtain ⟨ph⟩ := step_phases hp hstep
  have hmid : ph.mid = { S with collisionRecords := [], debug := [] } := by
    have := ph.integrate
    rw [hint] at this
    simp only [Except.ok.injEq, Prod.mk.injEq] at this
    exact this.1.symm
  have hS0 : S.entities.get h0 = some (dot (fin 1) .o ⟨1, 0, 0⟩ [h0] up) := by rw [hS]; rfl
  have hS1 : S.entities.get h1 = some (dot (fin 1) ⟨10, 0, 0⟩ .o [h1] up) := by rw [hS]; rfl
  obtain ⟨y0, gy0, v0, w0, p0⟩ := ph.free hrec (by rw [hS]; simp [scene]) hS0 rfl (by rw [hmid]; exact hS0)
  obtain ⟨y1, gy1, v1, w1, p1⟩ := ph.free hrec (by rw [hS]; simp [scene]) hS1 rfl (by rw [hmid]; exact hS1)
  have q0 : y0.orientation.position = (.o + (⟨1, 0, 0⟩ : Vec3 ℝ)).f := by
    rw [p0]
    simp only [dot, one_eq, Vec3.f_scale, Orientation.f_afterAffected, Orientation.f_position, Vec3.f_inj]
    ext <;> simp [Orientation.after, pose]
  have q1 : y1.orientation.position = ((⟨10, 0, 0⟩ : Vec3 ℝ) + .o).f := by
    rw [p1]
    simp only [dot, one_eq, Vec3.f_scale, Orientation.f_afterAffected, Orientation.f_position, Vec3.f_inj]
    ext <;> simp [Orientation.after, pose]
  have a0 := getEntity_iff.mpr ⟨y0, gy0, rfl⟩
  have a1 := getEntity_iff.mpr ⟨y1, gy1, rfl⟩
  refine ⟨s', _, _, hstep, hrec, a0, a1, q0, q1, w1, hd, ?_⟩
  refine C99_partial tame_gravity hF (by norm_num) hstep hrec (by rw [hS]; simp [scene]) (h1 := h0) (h2 := h1) (ch1 := h0) (ch2 := h1) (by simp [h0, h1])
    (getEntity_iff.mpr ⟨_, hS0, rfl⟩) (getEntity_iff.mpr ⟨_, hS1, rfl⟩) rfl rfl a0 a1 w1 (by simp [dot, makePub]) (by simp [dot, makePub]) (by rw [getCollider_eq, g0]; rfl)
    (by rw [getCollider_eq, g1]; rfl) ?_ ?_ rfl rfl one_pos one_pos rfl rfl q0 q1 ?_ ?_ (Or.inr hd) ?_ ?_
  · show (pose .o).f.positionIntoWorld (Vec3.o).f = (Vec3.o).f
    rw [Orientation.f_positionIntoWorld _ _ (pose_unit _)]; simp [Orientation.toWorld, pose]
  · show (pose ⟨10, 0, 0⟩).f.positionIntoWorld (Vec3.o).f = (⟨10, 0, 0⟩ : Vec3 ℝ).f
    rw [Orientation.f_positionIntoWorld _ _ (pose_unit _)]; simp [Orientation.toWorld, pose]
  · simp [Vec3.dot_def]; norm_num
  · simp [Vec3.dot_def, eps]; norm_num
  · simp [Vec3.dot_def]
  · rw [len_of (v := ⟨1, 0, 0⟩) zero_le_one (by simp [Vec3.dot_def])]; norm_num
end

section
open F32
variable [Libm]

/-- `n` steps without records, and something about the state after them. -/
def quietly : Nat → F32 → System F32 (GravityGenerator F32) → (System F32 (GravityGenerator F32) → Bool) → Bool
  | 0, _, s, f => f s
  | n + 1, d, s, f => (s.step .id d).test fun m => m.collisionRecords.isEmpty && quietly n d m f

theorem of_quietly {f : System F32 (GravityGenerator F32) → Bool} {d : F32} : ∀ {n : Nat} {s : System F32 (GravityGenerator F32)}, s.collisionRecords = [] → quietly n d s f = true →
    ∃ m, stepAll (List.replicate n (.id, d)) s = .ok m ∧ (∀ k ≤ n, ∃ x, stepAll (List.replicate k (.id, d)) s = .ok x ∧ x.collisionRecords = []) ∧ f m = true
  | 0, s, hr, h => ⟨s, rfl, fun k hk => by obtain rfl := Nat.le_zero.mp hk; exact ⟨s, rfl, hr⟩, h⟩
  | n + 1, s, hr, h => by
    unfold quietly at h
    obtain ⟨x, hx, h⟩ := Res.of_test h
    simp only [Bool.and_eq_true, List.isEmpty_iff] at h
    obtain ⟨m, h1, h2, h3⟩ := of_quietly h.1 h.2
    refine ⟨m, ?_, fun k hk => ?_, h3⟩
    · rw [List.replicate_succ]; unfold stepAll; rw [hx]; exact h1
    · cases k with
      | zero => exact ⟨s, rfl, hr⟩
      | succ k =>
        rw [List.replicate_succ]; unfold stepAll; rw [hx]
        exact h2 k (by omega)

/-- A ball of 1 kg with radius 1/8 at `p` on the x axis, with velocity `v` along it, for the calls that make it. -/
def runner (h : Handle) (p : F32) (v : Int) : List (Op F32 (GravityGenerator F32)) :=
  [.addEntity (thing (num 1) ⟨p, num 0, num 0⟩ (vec v 0 0)), .addCollider (ball (vec 0 0 0) (num 1 8) (num 0) (num 1)), .linkCollider h (some h)]

open Demo in
/-- **C99 is false**, in binary32: a ball at 0 that moves with 64 m/s is overtaken by a ball at -1/2 with 128 m/s, and after one step of 1/64 s the second is in front of the
first, at 3/2 against 1.  The radii are 1/8, so the one went through the other.  There is no record of a contact, and the velocities are as before. -/
theorem C99_false : ∃ (s s' : System F32 (GravityGenerator F32)) (a b a' b' : Entity F32), Reachable s ∧ s.step .id (num 1 64) = .ok s' ∧
    s'.collisionRecords = [] ∧ s.getEntity h0 = some a ∧ s.getEntity h1 = some b ∧ s'.getEntity h0 = some a' ∧ s'.getEntity h1 = some b' ∧
    Val a.position.x 0 ∧ Val b.position.x (-1 / 2) ∧ Val a'.position.x 1 ∧ Val b'.position.x (3 / 2) ∧ Val a'.velocity.x 64 ∧ Val b'.velocity.x 128 := by
  have h : ((play (plain (runner h0 (num 0) 64 ++ runner h1 (num (-1) 2) 128)) (System.new : System F32 (GravityGenerator F32))).test fun r =>
      (r.1.step .id (num 1 64)).test fun s' => s'.collisionRecords.isEmpty && match r.1.getEntity h0, r.1.getEntity h1, s'.getEntity h0, s'.getEntity h1 with
      | some a, some b, some a', some b' => valued a.position.x 0 && valued b.position.x (-1 / 2) && valued a'.position.x 1 && valued b'.position.x (3 / 2) &&
          valued a'.velocity.x 64 && valued b'.velocity.x 128
      | _, _, _, _ => false) = true := by kernel_refl
  obtain ⟨⟨s, outs⟩, hplay, h⟩ := Res.of_test h
  obtain ⟨s', hs', h⟩ := Res.of_test h
  simp only [Bool.and_eq_true, List.isEmpty_iff] at h
  obtain ⟨hr, h⟩ := h
  split at h
  · rename_i a b a' b' h1 h2 h3 h4
    simp only [Bool.and_eq_true, valued_iff] at h
    obtain ⟨⟨⟨⟨⟨e1, e2⟩, e3⟩, e4⟩, e5⟩, e6⟩ := h
    exact ⟨s, s', a, b, a', b', play_reachable hplay, hs', hr, h1, h2, h3, h4, e1, e2, e3, e4, e5, e6⟩
  · cases h

open Demo in
/-- The same two balls, added in the other order: the contact is found, they exchange their velocities, and the one behind stays behind, at 3/4 against 7/4. -/
theorem C99_order : ∃ (s s' : System F32 (GravityGenerator F32)) (a b a' b' : Entity F32) (r : CollisionRecord F32), Reachable s ∧ s.step .id (num 1 64) = .ok s' ∧
    s'.collisionRecords = [r] ∧ s.getEntity h0 = some a ∧ s.getEntity h1 = some b ∧ s'.getEntity h0 = some a' ∧ s'.getEntity h1 = some b' ∧
    Val a.position.x (-1 / 2) ∧ Val b.position.x 0 ∧ Val a'.position.x (3 / 4) ∧ Val b'.position.x (7 / 4) ∧ Val a'.velocity.x 64 ∧ Val b'.velocity.x 128 := by
  have h : ((play (plain (runner h0 (num (-1) 2) 128 ++ runner h1 (num 0) 64)) (System.new : System F32 (GravityGenerator F32))).test fun r =>
      (r.1.step .id (num 1 64)).test fun s' => (match s'.collisionRecords with
        | [_] => true
        | _ => false) && match r.1.getEntity h0, r.1.getEntity h1, s'.getEntity h0, s'.getEntity h1 with
      | some a, some b, some a', some b' => valued a.position.x (-1 / 2) && valued b.position.x 0 && valued a'.position.x (3 / 4) && valued b'.position.x (7 / 4) &&
          valued a'.velocity.x 64 && valued b'.velocity.x 128
      | _, _, _, _ => false) = true := by kernel_refl
  obtain ⟨⟨s, outs⟩, hplay, h⟩ := Res.of_test h
  obtain ⟨s', hs', h⟩ := Res.of_test h
  simp only [Bool.and_eq_true] at h
  obtain ⟨hr, h⟩ := h
  split at hr
  · rename_i r hr'
    split at h
    · rename_i a b a' b' h1 h2 h3 h4
      simp only [Bool.and_eq_true, valued_iff] at h
      obtain ⟨⟨⟨⟨⟨e1, e2⟩, e3⟩, e4⟩, e5⟩, e6⟩ := h
      exact ⟨s, s', a, b, a', b', r, play_reachable hplay, hs', hr', h1, h2, h3, h4, e1, e2, e3, e4, e5, e6⟩
    · cases h
  · cases hr

/-- A ball of 1 kg with radius 13/256 at `p` on the x axis, with velocity `v` along it. -/
def marble (h : Handle) (p v : F32) : List (Op F32 (GravityGenerator F32)) :=
  [.addEntity (thing (num 1) ⟨p, num 0, num 0⟩ ⟨v, num 0, num 0⟩), .addCollider (ball (vec 0 0 0) (num 13 256) (num 0) (num 1)), .linkCollider h (some h)]

open Demo in
/-- **C99 is false** for small balls at usual speeds: a ball with a radius of 5.1 cm at rest is hit centrally by one with 31 cm/s.  In 21 steps of 1/64 s no contact is
recorded (`mₙ` is the state after `n` steps), and the centre of the second comes to be where that of the first is, though the balls did not overlap at first.  In the next step
the search finds a contact, with a normal of NaN. -/
theorem C99_marbles : ∃ (s m mid : System F32 (GravityGenerator F32)) (a b a' b' : Entity F32) (infos : List (StepInfo F32)) (k : Candidate F32), Reachable s ∧
    stepAll (List.replicate 21 (.id, num 1 64)) s = .ok m ∧ (∀ n ≤ 21, ∃ mₙ, stepAll (List.replicate n (.id, num 1 64)) s = .ok mₙ ∧ mₙ.collisionRecords = []) ∧
    s.getEntity h0 = some a ∧ s.getEntity h1 = some b ∧ m.getEntity h0 = some a' ∧ m.getEntity h1 = some b' ∧
    Val a.position.x 0 ∧ Val b.position.x (105 / 1024) ∧ a'.position = a.position ∧ b'.position = a'.position ∧ Val b'.velocity.x (-5 / 16) ∧
    Step.integrateAll (num 1 64) m.generators.handles m.entities.handles m = .ok (mid, infos) ∧
    Step.searchFirst .id mid.toWorld 0 infos none = .ok (some k) ∧ k.collision.normal = ⟨.nan, .nan, .nan⟩ := by
  have h : ((play (plain (marble h0 (num 0) (num 0) ++ marble h1 (num 105 1024) (num (-5) 16))) (System.new : System F32 (GravityGenerator F32))).test fun r =>
      r.1.collisionRecords.isEmpty && quietly 21 (num 1 64) r.1 fun m => (match r.1.getEntity h0, r.1.getEntity h1, m.getEntity h0, m.getEntity h1 with
      | some a, some b, some a', some b' => valued a.position.x 0 && valued b.position.x (105 / 1024) && vecEq a'.position a.position &&
          vecEq b'.position a'.position && valued b'.velocity.x (-5 / 16)
      | _, _, _, _ => false) && (Step.integrateAll (num 1 64) m.generators.handles m.entities.handles m).test fun i => (Step.searchFirst .id i.1.toWorld 0 i.2 none).test fun b =>
        match b with
        | some k => vecEq k.collision.normal ⟨.nan, .nan, .nan⟩
        | none => false) = true := by kernel_refl
  obtain ⟨⟨s, outs⟩, hplay, h⟩ := Res.of_test h
  simp only [Bool.and_eq_true, List.isEmpty_iff] at h
  obtain ⟨hr, h⟩ := h
  obtain ⟨m, hm, hq, h⟩ := of_quietly hr h
  simp only [Bool.and_eq_true] at h
  obtain ⟨h, h'⟩ := h
  obtain ⟨⟨mid, infos⟩, hi, h'⟩ := Res.of_test h'
  obtain ⟨best, hb, h'⟩ := Res.of_test h'
  cases best with
  | none => cases h'
  | some k =>
    split at h
    · rename_i a b a' b' h1 h2 h3 h4
      simp only [Bool.and_eq_true, valued_iff, vecEq_iff] at h h'
      obtain ⟨⟨⟨⟨e1, e2⟩, e3⟩, e4⟩, e5⟩ := h
      exact ⟨s, m, mid, a, b, a', b', infos, k, play_reachable hplay, hm, hq, h1, h2, h3, h4, e1, e2, e3, e4, e5, hi, hb, h'⟩
    · cases h
end

end Fluffy.Props
