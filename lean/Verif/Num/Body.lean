import Verif.Num.Pose
import Verif.Model.Step
/-
Rigid bodies over the reals, and the collision response of the code seen as operations on them.
-/
set_option linter.unusedSectionVars false
namespace Fluffy
open XReal

namespace Mat3
variable (a : Mat3 ℝ) (u v : Vec3 ℝ) (k : ℝ)
@[simp] theorem mulVec_x : (a.mulVec u).x = a.r1.x * u.x + a.r1.y * u.y + a.r1.z * u.z := rfl
@[simp] theorem mulVec_y : (a.mulVec u).y = a.r2.x * u.x + a.r2.y * u.y + a.r2.z * u.z := rfl
@[simp] theorem mulVec_z : (a.mulVec u).z = a.r3.x * u.x + a.r3.y * u.y + a.r3.z * u.z := rfl
theorem mulVec_add : a.mulVec (u + v) = a.mulVec u + a.mulVec v := by ext <;> simp <;> ring
theorem mulVec_scale : a.mulVec (u.scale k) = (a.mulVec u).scale k := by ext <;> simp <;> ring
theorem mulVec_neg : a.mulVec (-u) = -a.mulVec u := by ext <;> simp <;> ring
@[simp] theorem mulVec_o : a.mulVec Vec3.o = Vec3.o := by ext <;> simp
@[simp] theorem o_mulVec : o.mulVec u = Vec3.o := by ext <;> simp [o]
/-- A singular matrix "inverts" to zero. -/
theorem inv_of_det {a : Mat3 ℝ} (h : a.det = 0) : a.inv = o := by simp [inv, h]
theorem mul_inv_vec {a : Mat3 ℝ} (h : a.det ≠ 0) (u : Vec3 ℝ) : a.mulVec (a.inv.mulVec u) = u := by
  simp only [inv, h, if_false]
  ext <;> simp only [mulVec_x, mulVec_y, mulVec_z, scale, Vec3.scale_x, Vec3.scale_y, Vec3.scale_z] <;> field_simp <;>
    simp only [det] <;> ring
theorem inv_mul_vec {a : Mat3 ℝ} (h : a.det ≠ 0) (u : Vec3 ℝ) : a.inv.mulVec (a.mulVec u) = u := by
  simp only [inv, h, if_false]
  ext <;> simp only [mulVec_x, mulVec_y, mulVec_z, scale, Vec3.scale_x, Vec3.scale_y, Vec3.scale_z] <;> field_simp <;>
    simp only [det] <;> ring

/-- `a` is symmetric. -/
def Symm (a : Mat3 ℝ) : Prop := ∀ u v : Vec3 ℝ, (a.mulVec u).dot v = u.dot (a.mulVec v)
/-- `a` is positive semidefinite. -/
def Psd (a : Mat3 ℝ) : Prop := ∀ u : Vec3 ℝ, 0 ≤ (a.mulVec u).dot u
theorem symm_o : Symm o := fun u v => by simp
theorem psd_o : Psd o := fun u => by simp
theorem Symm.inv {a : Mat3 ℝ} (h : a.Symm) : a.inv.Symm := by
  intro u v
  by_cases hd : a.det = 0
  · rw [inv_of_det hd]; simp
  · have h1 := h (a.inv.mulVec u) (a.inv.mulVec v)
    rw [mul_inv_vec hd, mul_inv_vec hd] at h1
    exact h1.symm
theorem Psd.inv {a : Mat3 ℝ} (h : a.Psd) : a.inv.Psd := by
  intro u
  by_cases hd : a.det = 0
  · rw [inv_of_det hd]; simp
  · have h1 := h (a.inv.mulVec u)
    rw [mul_inv_vec hd, Vec3.dot_comm] at h1
    exact h1
end Mat3

/-- A rigid body; `none` is an infinite mass. -/
structure Body where
  mass : Option ℝ
  inertia : Mat3 ℝ
  pos : Vec3 ℝ
  vel : Vec3 ℝ
  ang : Vec3 ℝ

namespace Body

/-- The entity has finite numbers, those of the body. -/
structure Of (b : Body) (e : InternalEntity XReal) : Prop where
  mass : e.totalMass = match b.mass with | none => posInf | some m => fin m
  inertia : e.momentOfInertia = b.inertia.f
  pos : e.orientation.position = b.pos.f
  vel : e.velocity = b.vel.f
  ang : e.angularVelocity = b.ang.f

/-- Mass positive (or infinite), inertia symmetric and positive semidefinite. -/
structure Physical (b : Body) : Prop where
  mass : ∀ m, b.mass = some m → 0 < m
  symm : b.inertia.Symm
  psd : b.inertia.Psd

/-- One over the mass. -/
noncomputable def im (b : Body) : ℝ := match b.mass with | none => 0 | some m => m⁻¹
/-- The inverse of the inertia tensor. -/
noncomputable def W (b : Body) : Mat3 ℝ := b.inertia.inv
/-- The velocity of the body's point at `p`. -/
def at' (b : Body) (p : Vec3 ℝ) : Vec3 ℝ := b.vel + b.ang.cross (p - b.pos)
/-- The impulse `j` acts on the body at `p`. -/
noncomputable def kick (b : Body) (p j : Vec3 ℝ) : Body :=
  { b with vel := b.vel + j.scale b.im, ang := b.ang + b.W.mulVec ((p - b.pos).cross j) }
/-- How much the velocity at `p` along `n` of one body changes per unit of impulse along `n`. -/
noncomputable def comply (b : Body) (p n : Vec3 ℝ) : ℝ :=
  b.im + (b.W.mulVec ((p - b.pos).cross n)).dot ((p - b.pos).cross n)

variable {b b1 b2 : Body} {e e1 e2 : InternalEntity XReal}

theorem Physical.im_nonneg (h : b.Physical) : 0 ≤ b.im := by
  unfold im; rcases hb : b.mass with _ | m
  · exact le_refl _
  · exact inv_nonneg.mpr (h.mass m hb).le
theorem Physical.im_pos (h : b.Physical) {m : ℝ} (hb : b.mass = some m) : 0 < b.im := by
  unfold im; rw [hb]; exact inv_pos.mpr (h.mass m hb)
theorem Physical.comply_nonneg (h : b.Physical) (p n : Vec3 ℝ) : b.im ≤ b.comply p n := by
  unfold comply; have := h.psd.inv ((p - b.pos).cross n); unfold W; linarith
theorem Physical.kick (h : b.Physical) (p j : Vec3 ℝ) : (b.kick p j).Physical := ⟨h.mass, h.symm, h.psd⟩
@[simp] theorem kick_pos (p j : Vec3 ℝ) : (b.kick p j).pos = b.pos := rfl
@[simp] theorem kick_mass (p j : Vec3 ℝ) : (b.kick p j).mass = b.mass := rfl
@[simp] theorem kick_inertia (p j : Vec3 ℝ) : (b.kick p j).inertia = b.inertia := rfl
@[simp] theorem kick_im (p j : Vec3 ℝ) : (b.kick p j).im = b.im := rfl
@[simp] theorem kick_W (p j : Vec3 ℝ) : (b.kick p j).W = b.W := rfl
@[simp] theorem kick_comply (p j q n : Vec3 ℝ) : (b.kick p j).comply q n = b.comply q n := rfl
@[simp] theorem kick_o (p : Vec3 ℝ) : b.kick p Vec3.o = b := by unfold Body.kick; simp

theorem Of.im (h : b.Of e) (hp : b.Physical) : one / e.totalMass = fin b.im := by
  rw [h.mass]; unfold Body.im
  rcases hb : b.mass with _ | m
  · simp
  · simp only [one_eq]; rw [fin_div (hp.mass m hb).ne', one_div]
theorem Of.W (h : b.Of e) : e.inverseMomentOfInertia = b.W.f := by
  unfold InternalEntity.inverseMomentOfInertia
  rw [h.inertia]
  have := Mat3.f_tryInverse b.inertia
  revert this
  cases b.inertia.f.tryInverse <;> exact fun h => h
theorem Of.at (h : b.Of e) (p : Vec3 ℝ) : e.velocityAt p.f = (b.at' p).f := by
  unfold InternalEntity.velocityAt at'
  rw [h.vel, h.ang, h.pos]; simp
theorem Of.kick (h : b.Of e) (hp : b.Physical) (p j : Vec3 ℝ) : (b.kick p j).Of (e.applyImpulse p.f j.f) where
  mass := h.mass
  inertia := h.inertia
  pos := h.pos
  vel := by
    show e.velocity + Vec3.scale j.f (one / e.totalMass) = _
    rw [h.im hp, h.vel]; simp [Body.kick]
  ang := by
    show e.angularVelocity + e.inverseMomentOfInertia.mulVec ((p.f - e.orientation.position).cross j.f) = _
    rw [h.W, h.pos, h.ang]; simp [Body.kick]

theorem triple (u r n : Vec3 ℝ) : (u.cross r).dot n = u.dot (r.cross n) := by
  simp only [Vec3.dot_def, Vec3.cross_x, Vec3.cross_y, Vec3.cross_z]; ring

/-- The denominator of the impulse. -/
noncomputable def denom (b1 b2 : Body) (p n : Vec3 ℝ) : ℝ := b1.comply p n + b2.comply p n

theorem impulseDenominator (h1 : b1.Of e1) (h2 : b2.Of e2) (p1 : b1.Physical) (p2 : b2.Physical) (t : Range XReal)
    (p n : Vec3 ℝ) : Step.impulseDenominator e1 e2 ⟨t, p.f, n.f⟩ = fin (denom b1 b2 p n) := by
  unfold Step.impulseDenominator
  simp only [h1.im p1, h2.im p2, h1.W, h2.W, h1.pos, h2.pos, Vec3.f_sub, Vec3.f_cross, Mat3.f_mulVec, Vec3.f_dot, fin_add,
    triple]
  simp only [denom, comply, fin_inj]; ring

/-- The speed at which the bodies approach along `n` at `p`. -/
def closing (b1 b2 : Body) (p n : Vec3 ℝ) : ℝ := (b1.at' p - b2.at' p).dot n
/-- The normal impulse on the first body. -/
noncomputable def normalImpulse (b1 b2 : Body) (r : ℝ) (p n : Vec3 ℝ) : Vec3 ℝ :=
  n.scale (-(1 + r) * closing b1 b2 p n / denom b1 b2 p n)

theorem collisionImpulse (h1 : b1.Of e1) (h2 : b2.Of e2) (p1 : b1.Physical) (p2 : b2.Physical) (t : Range XReal)
    {p n : Vec3 ℝ} (hd : denom b1 b2 p n ≠ 0) (r : ℝ) :
    Step.collisionImpulse e1 e2 (fin r) ⟨t, p.f, n.f⟩ = (normalImpulse b1 b2 r p n).f := by
  unfold Step.collisionImpulse
  simp only [impulseDenominator h1 h2 p1 p2, h1.at, h2.at, Vec3.f_sub, Vec3.f_dot, one_eq, fin_add, fin_neg, fin_mul,
    fin_div hd, Vec3.f_scale]
  rfl

/-- The sliding velocity at the contact. -/
def sliding (b1 b2 : Body) (p n : Vec3 ℝ) : Vec3 ℝ := b1.at' p - b2.at' p - n.scale (closing b1 b2 p n)

/-- The friction impulse on the first body, `μ` being the coefficient used. -/
noncomputable def frictionImpulse (b1 b2 : Body) (μ : ℝ) (J p n : Vec3 ℝ) : Vec3 ℝ :=
  (sliding b1 b2 p n).scale (-(min 1 (J.len * μ * denom b1 b2 p n / (sliding b1 b2 p n).len)))

theorem friction (h1 : b1.Of e1) (h2 : b2.Of e2) (p1 : b1.Physical) (p2 : b2.Physical) {k : Step.Candidate XReal}
    {p n J : Vec3 ℝ} {s d : ℝ} (hd : denom b1 b2 p n ≠ 0) (hp : k.collision.position = p.f) (hn : k.collision.normal = n.f)
    (hs : k.staticFriction = fin s) (hdy : k.dynamicFriction = fin d) :
    ∃ μ, (μ = s ∨ μ = d) ∧
      (Step.frictionImpulse e1 e2 J.f k).1 = (frictionImpulse b1 b2 μ J p n).f := by
  obtain ⟨t, hk⟩ : ∃ t, k.collision = ⟨t, p.f, n.f⟩ := by
    refine ⟨k.collision.times, ?_⟩
    rw [← hp, ← hn]
  unfold Step.frictionImpulse
  simp only [hk, impulseDenominator h1 h2 p1 p2, h1.at, h2.at, Vec3.f_sub, Vec3.f_dot, Vec3.f_scale, Vec3.f_magnitude,
    hs, hdy, fin_div hd]
  have hsl : b1.at' p - b2.at' p - n.scale ((b1.at' p - b2.at' p).dot n) = sliding b1 b2 p n := rfl
  simp only [hsl]
  obtain ⟨μ, hμ, hc⟩ : ∃ μ, (μ = s ∨ μ = d) ∧ (if Scalar.lt (Scalar.abs (fin ((b1.at' p - b2.at' p).dot n)) /
      fin (sliding b1 b2 p n).len) k.frictionThreshold = true then fin s else fin d) = fin μ := by
    split
    · exact ⟨s, Or.inl rfl, rfl⟩
    · exact ⟨d, Or.inr rfl, rfl⟩
  refine ⟨μ, hμ, ?_⟩
  simp only [hc, fin_mul]
  by_cases h0 : (sliding b1 b2 p n) = Vec3.o
  · have hfin : ∀ x : XReal, (∃ r, (if (!Scalar.isFinite (if Scalar.lt one x = true then one else x)) = true then zero
        else if Scalar.lt one x = true then one else x) = fin r) := by
      intro x
      cases x <;> simp
      split <;> simp
    obtain ⟨r, hr⟩ := hfin (fin (J.len * μ) / fin ((sliding b1 b2 p n).len / denom b1 b2 p n))
    rw [hr]
    simp [frictionImpulse, h0]
  · have hl : (sliding b1 b2 p n).len ≠ 0 := fun hc => h0 ((Vec3.len_eq_zero _).mp hc)
    rw [fin_div (div_ne_zero hl hd)]
    have hq : J.len * μ / ((sliding b1 b2 p n).len / denom b1 b2 p n) =
        J.len * μ * denom b1 b2 p n / (sliding b1 b2 p n).len := by field_simp
    rw [hq]
    simp only [one_eq, fin_lt, decide_eq_true_eq, zero_eq, frictionImpulse]
    by_cases hlt : 1 < J.len * μ * denom b1 b2 p n / (sliding b1 b2 p n).len
    · simp [hlt, min_eq_left hlt.le]
    · simp [hlt, min_eq_right (not_lt.mp hlt)]

/-- The whole response, on bodies. -/
theorem respondPair (h1 : b1.Of e1) (h2 : b2.Of e2) (p1 : b1.Physical) (p2 : b2.Physical) {k : Step.Candidate XReal}
    {p n : Vec3 ℝ} {r s d : ℝ} (hd : denom b1 b2 p n ≠ 0) (hp : k.collision.position = p.f)
    (hn : k.collision.normal = n.f) (hr : k.restitution = fin r)
    (hs : k.staticFriction = fin s) (hdy : k.dynamicFriction = fin d) (rt ta : XReal) (i1 i2 : StepInfo XReal) :
    ∃ μ F, (μ = s ∨ μ = d) ∧
      F = frictionImpulse (b1.kick p (normalImpulse b1 b2 r p n)) (b2.kick p (-normalImpulse b1 b2 r p n)) μ
        (normalImpulse b1 b2 r p n) p n ∧
      ((b1.kick p (normalImpulse b1 b2 r p n)).kick p F).Of (Step.respondPair k rt ta e1 e2 i1 i2).first ∧
      ((b2.kick p (-normalImpulse b1 b2 r p n)).kick p (-F)).Of (Step.respondPair k rt ta e1 e2 i1 i2).second := by
  obtain ⟨t, hk⟩ : ∃ t, k.collision = ⟨t, p.f, n.f⟩ := by
    refine ⟨k.collision.times, ?_⟩
    rw [← hp, ← hn]
  have hJ := collisionImpulse h1 h2 p1 p2 t hd r
  have k1 := h1.kick p1 p (normalImpulse b1 b2 r p n)
  have k2 := h2.kick p2 p (-normalImpulse b1 b2 r p n)
  obtain ⟨μ, hμ, hF⟩ := friction (J := normalImpulse b1 b2 r p n) k1 k2 (p1.kick _ _) (p2.kick _ _) (k := k) (s := s)
    (d := d) (by simpa [denom] using hd) hp hn hs hdy
  refine ⟨μ, _, hμ, rfl, ?_, ?_⟩
  · show ((b1.kick p (normalImpulse b1 b2 r p n)).kick p _).Of ((e1.applyImpulse k.collision.position
      (Step.collisionImpulse e1 e2 k.restitution k.collision)).applyImpulse k.collision.position
      (Step.frictionImpulse (e1.applyImpulse k.collision.position
      (Step.collisionImpulse e1 e2 k.restitution k.collision)) (e2.applyImpulse k.collision.position
      (-Step.collisionImpulse e1 e2 k.restitution k.collision))
      (Step.collisionImpulse e1 e2 k.restitution k.collision) k).1)
    rw [hr, hk, hJ, Vec3.f_neg, hF]
    exact k1.kick (p1.kick _ _) _ _
  · show ((b2.kick p (-normalImpulse b1 b2 r p n)).kick p _).Of ((e2.applyImpulse k.collision.position
      (-Step.collisionImpulse e1 e2 k.restitution k.collision)).applyImpulse k.collision.position
      (-(Step.frictionImpulse (e1.applyImpulse k.collision.position
      (Step.collisionImpulse e1 e2 k.restitution k.collision)) (e2.applyImpulse k.collision.position
      (-Step.collisionImpulse e1 e2 k.restitution k.collision))
      (Step.collisionImpulse e1 e2 k.restitution k.collision) k).1))
    rw [hr, hk, hJ, Vec3.f_neg, hF, Vec3.f_neg]
    exact k2.kick (p2.kick _ _) _ _

/-! ### Mechanics of an impulse -/

theorem at_kick (p j : Vec3 ℝ) :
    (b.kick p j).at' p = b.at' p + (j.scale b.im + (b.W.mulVec ((p - b.pos).cross j)).cross (p - b.pos)) := by
  unfold at' kick; ext <;> simp <;> ring

/-- The work the impulse `j` does at a body that starts at rest, times two. -/
noncomputable def give (b : Body) (p j : Vec3 ℝ) : ℝ :=
  j.dot j * b.im + (b.W.mulVec ((p - b.pos).cross j)).dot ((p - b.pos).cross j)
@[simp] theorem kick_give (p j q n : Vec3 ℝ) : (b.kick p j).give q n = b.give q n := rfl
theorem at_kick_dot (p j n : Vec3 ℝ) : ((b.kick p j).at' p).dot n =
    (b.at' p).dot n + (j.dot n * b.im + (b.W.mulVec ((p - b.pos).cross j)).dot ((p - b.pos).cross n)) := by
  rw [at_kick, Vec3.add_dot, Vec3.add_dot, Vec3.scale_dot, triple]
theorem give_eq (p j : Vec3 ℝ) : ((b.kick p j).at' p).dot j - (b.at' p).dot j = b.give p j := by
  rw [at_kick_dot]; unfold give; ring
theorem cross_scale (r n : Vec3 ℝ) (k : ℝ) : r.cross (n.scale k) = (r.cross n).scale k := by ext <;> simp <;> ring
theorem cross_neg (r n : Vec3 ℝ) : r.cross (-n) = -(r.cross n) := by ext <;> simp <;> ring
theorem give_scale (p j : Vec3 ℝ) (k : ℝ) : b.give p (j.scale k) = b.give p j * (k * k) := by
  unfold give; rw [cross_scale, Mat3.mulVec_scale]
  simp only [Vec3.scale_dot, Vec3.dot_scale]; ring
theorem give_neg (p j : Vec3 ℝ) : b.give p (-j) = b.give p j := by
  unfold give; rw [cross_neg, Mat3.mulVec_neg]
  simp only [Vec3.neg_dot, Vec3.dot_neg]; ring
theorem give_unit {n : Vec3 ℝ} (hn : n.dot n = 1) (p : Vec3 ℝ) : b.give p n = b.comply p n := by
  unfold give comply; rw [hn]; ring
theorem closing_kick (p j n : Vec3 ℝ) : closing (b1.kick p j) (b2.kick p (-j)) p n = closing b1 b2 p n +
    (j.dot n * (b1.im + b2.im) + (b1.W.mulVec ((p - b1.pos).cross j)).dot ((p - b1.pos).cross n) +
      (b2.W.mulVec ((p - b2.pos).cross j)).dot ((p - b2.pos).cross n)) := by
  unfold closing
  rw [Vec3.sub_dot, Vec3.sub_dot, at_kick_dot, at_kick_dot, cross_neg, Mat3.mulVec_neg, Vec3.neg_dot, Vec3.neg_dot]
  ring
theorem closing_kick_along {n : Vec3 ℝ} (hn : n.dot n = 1) (p : Vec3 ℝ) (k : ℝ) :
    closing (b1.kick p (n.scale k)) (b2.kick p (-(n.scale k))) p n = closing b1 b2 p n + k * denom b1 b2 p n := by
  rw [closing_kick]
  simp only [cross_scale, Mat3.mulVec_scale, Vec3.scale_dot, hn, denom, comply]; ring
theorem restitution {n : Vec3 ℝ} (hn : n.dot n = 1) {p : Vec3 ℝ} (hd : denom b1 b2 p n ≠ 0) (r : ℝ) :
    closing (b1.kick p (normalImpulse b1 b2 r p n)) (b2.kick p (-normalImpulse b1 b2 r p n)) p n =
      -r * closing b1 b2 p n := by
  unfold normalImpulse
  rw [closing_kick_along hn]
  field_simp; ring

theorem denom_pos (p1 : b1.Physical) (p2 : b2.Physical) (hm : b1.mass ≠ none ∨ b2.mass ≠ none) (p n : Vec3 ℝ) :
    0 < denom b1 b2 p n := by
  unfold denom
  have h1 := p1.comply_nonneg p n
  have h2 := p2.comply_nonneg p n
  have i1 := p1.im_nonneg
  have i2 := p2.im_nonneg
  rcases hm with hm | hm
  · obtain ⟨m, hm⟩ := Option.ne_none_iff_exists'.mp hm
    have := p1.im_pos hm; linarith
  · obtain ⟨m, hm⟩ := Option.ne_none_iff_exists'.mp hm
    have := p2.im_pos hm; linarith

end Body
end Fluffy
