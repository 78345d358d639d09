import Verif.Num.Body
/-
C31-C36: the response to a collision, over exact numbers (`XReal`).

The two entities are seen as rigid bodies (`Body.Of`): a positive or infinite mass, the moment of inertia the code
reports for them, position, velocity and angular velocity.
-/
set_option linter.unusedSectionVars false
namespace Fluffy.Props
open Fluffy XReal Body

/-! ### Specification -/

/-- A collision of two bodies as handed to the response: finite contact point and unit normal, finite material
constants, and at least one mass finite. -/
structure Impact (e1 e2 : InternalEntity XReal) (k : Step.Candidate XReal) (b1 b2 : Body) (p n : Vec3 ℝ) (r s d : ℝ) :
    Prop where
  of1 : b1.Of e1
  of2 : b2.Of e2
  phys1 : b1.Physical
  phys2 : b2.Physical
  movable : b1.mass ≠ none ∨ b2.mass ≠ none
  pos : k.collision.position = p.f
  nor : k.collision.normal = n.f
  unit : n.dot n = 1
  rest : k.restitution = fin r
  stat : k.staticFriction = fin s
  dyn : k.dynamicFriction = fin d

/-- `m v` -/
def momentum (m : ℝ) (b : Body) : Vec3 ℝ := b.vel.scale m
/-- `(x - q) × m v + I ω` -/
def angularMomentum (m : ℝ) (b : Body) (q : Vec3 ℝ) : Vec3 ℝ :=
  (b.pos - q).cross (b.vel.scale m) + b.inertia.mulVec b.ang
/-- Kinetic energy; immovable bodies count zero. -/
noncomputable def kinetic (b : Body) : ℝ :=
  match b.mass with
  | none => 0
  | some m => m * b.vel.dot b.vel / 2 + (b.inertia.mulVec b.ang).dot b.ang / 2
/-- Bodies whose rotation obeys Newton's laws in the code: invertible inertia; or no moment of inertia at all (a point
mass) and no spin; or immovable and at rest. -/
def Regular (b : Body) : Prop :=
  (b.mass ≠ none ∧ b.inertia.det ≠ 0) ∨ (b.mass ≠ none ∧ b.inertia.det = 0 ∧ b.ang = Vec3.o) ∨
  (b.mass = none ∧ b.inertia.det = 0 ∧ b.vel = Vec3.o ∧ b.ang = Vec3.o)

section
variable {e1 e2 : InternalEntity XReal} {k : Step.Candidate XReal} {b1 b2 : Body} {p n : Vec3 ℝ} {r s d : ℝ}

theorem Impact.denom_pos (h : Impact e1 e2 k b1 b2 p n r s d) : 0 < denom b1 b2 p n :=
  Body.denom_pos h.phys1 h.phys2 h.movable p n
theorem Impact.respond (h : Impact e1 e2 k b1 b2 p n r s d) (rt ta : XReal) (i1 i2 : StepInfo XReal) :
    ∃ μ F, (μ = s ∨ μ = d) ∧
      F = Body.frictionImpulse (b1.kick p (normalImpulse b1 b2 r p n)) (b2.kick p (-normalImpulse b1 b2 r p n)) μ
        (normalImpulse b1 b2 r p n) p n ∧
      ((b1.kick p (normalImpulse b1 b2 r p n)).kick p F).Of (Step.respondPair k rt ta e1 e2 i1 i2).first ∧
      ((b2.kick p (-normalImpulse b1 b2 r p n)).kick p (-F)).Of (Step.respondPair k rt ta e1 e2 i1 i2).second :=
  Body.respondPair h.of1 h.of2 h.phys1 h.phys2 h.denom_pos.ne' h.pos h.nor h.rest h.stat h.dyn rt ta i1 i2

/-- Without friction the response is the normal impulse. -/
theorem Impact.respond0 (h : Impact e1 e2 k b1 b2 p n r 0 0) (rt ta : XReal) (i1 i2 : StepInfo XReal) :
    (b1.kick p (normalImpulse b1 b2 r p n)).Of (Step.respondPair k rt ta e1 e2 i1 i2).first ∧
    (b2.kick p (-normalImpulse b1 b2 r p n)).Of (Step.respondPair k rt ta e1 e2 i1 i2).second := by
  obtain ⟨μ, F, hμ, rfl, h1, h2⟩ := h.respond rt ta i1 i2
  have hμ : μ = 0 := by rcases hμ with h | h <;> exact h
  subst hμ
  simp only [Body.frictionImpulse, mul_zero, zero_mul, zero_div, min_eq_right (zero_le_one' ℝ), neg_zero, Vec3.scale_zero,
    Vec3.neg_o, kick_o] at h1 h2
  exact ⟨h1, h2⟩

/-! ### C31 -/

/-- **C31.** After the collision impulse the closing speed along the normal is minus the restitution times the one
before, whatever the masses (one may be infinite), inertia, contact point and spins. -/
theorem C31_restitution (h : Impact e1 e2 k b1 b2 p n r s d) :
    let c := k.collision
    let J := Step.collisionImpulse e1 e2 k.restitution c
    ((e1.applyImpulse c.position J).velocityAt c.position - (e2.applyImpulse c.position (-J)).velocityAt c.position).dot
      c.normal = -k.restitution * (e1.velocityAt c.position - e2.velocityAt c.position).dot c.normal := by
  obtain ⟨t, hk⟩ : ∃ t, k.collision = ⟨t, p.f, n.f⟩ := ⟨k.collision.times, by rw [← h.pos, ← h.nor]⟩
  have hJ := Body.collisionImpulse h.of1 h.of2 h.phys1 h.phys2 t h.denom_pos.ne' r
  have k1 := h.of1.kick h.phys1 p (normalImpulse b1 b2 r p n)
  have k2 := h.of2.kick h.phys2 p (-normalImpulse b1 b2 r p n)
  intro c J
  have hJ' : J = (normalImpulse b1 b2 r p n).f := by rw [← hJ, ← hk, ← h.rest]
  rw [hJ', h.pos, h.nor, h.rest, Vec3.f_neg, k1.at, k2.at, h.of1.at, h.of2.at]
  simp only [Vec3.f_sub, Vec3.f_dot, fin_mul, fin_neg, fin_inj]
  exact Body.restitution h.unit h.denom_pos.ne' r

/-- **C31**, the whole response when there is no friction. -/
theorem C31_frictionless (h : Impact e1 e2 k b1 b2 p n r 0 0) (rt ta : XReal) (i1 i2 : StepInfo XReal) :
    let R := Step.respondPair k rt ta e1 e2 i1 i2
    let P := k.collision.position
    (R.first.velocityAt P - R.second.velocityAt P).dot k.collision.normal =
      -k.restitution * (e1.velocityAt P - e2.velocityAt P).dot k.collision.normal := by
  obtain ⟨h1, h2⟩ := h.respond0 rt ta i1 i2
  intro R P
  show (R.first.velocityAt k.collision.position - R.second.velocityAt k.collision.position).dot k.collision.normal =
      -k.restitution * (e1.velocityAt k.collision.position - e2.velocityAt k.collision.position).dot k.collision.normal
  rw [h.pos, h.nor, h.rest, h1.at, h2.at, h.of1.at, h.of2.at]
  simp only [Vec3.f_sub, Vec3.f_dot, fin_mul, fin_neg, fin_inj]
  exact Body.restitution h.unit h.denom_pos.ne' r

/-! ### C32, C33 -/

/-- **C32.** The whole response, friction included, conserves linear momentum. -/
theorem C32_momentum (h : Impact e1 e2 k b1 b2 p n r s d) {m1 m2 : ℝ} (hm1 : b1.mass = some m1) (hm2 : b2.mass = some m2)
    (rt ta : XReal) (i1 i2 : StepInfo XReal) :
    let R := Step.respondPair k rt ta e1 e2 i1 i2
    ∃ b1' b2' : Body, b1'.Of R.first ∧ b2'.Of R.second ∧ b1'.mass = some m1 ∧ b2'.mass = some m2 ∧
      momentum m1 b1' + momentum m2 b2' = momentum m1 b1 + momentum m2 b2 := by
  obtain ⟨μ, F, hμ, -, h1, h2⟩ := h.respond rt ta i1 i2
  refine ⟨_, _, h1, h2, hm1, hm2, ?_⟩
  have e1 : b1.im = m1⁻¹ := by unfold Body.im; rw [hm1]
  have e2 : b2.im = m2⁻¹ := by unfold Body.im; rw [hm2]
  have n1 := (h.phys1.mass m1 hm1).ne'
  have n2 := (h.phys2.mass m2 hm2).ne'
  generalize normalImpulse b1 b2 r p n = J
  simp only [momentum, Body.kick, Body.im, hm1, hm2]
  ext <;> simp <;> field_simp <;> ring

theorem angularMomentum_kick {b : Body} {m : ℝ} (hp : b.Physical) (hm : b.mass = some m) (hi : b.inertia.det ≠ 0)
    (p j q : Vec3 ℝ) : angularMomentum m (b.kick p j) q = angularMomentum m b q + (p - q).cross j := by
  have e1 : b.im = m⁻¹ := by unfold Body.im; rw [hm]
  have n1 := (hp.mass m hm).ne'
  unfold angularMomentum
  simp only [Body.kick, Mat3.mulVec_add, Body.W, Mat3.mul_inv_vec hi, e1]
  ext <;> simp <;> field_simp <;> ring

/-- **C33.** The whole response, friction included, conserves angular momentum about any point. -/
theorem C33_angular_momentum (h : Impact e1 e2 k b1 b2 p n r s d) {m1 m2 : ℝ} (hm1 : b1.mass = some m1)
    (hm2 : b2.mass = some m2) (hi1 : b1.inertia.det ≠ 0) (hi2 : b2.inertia.det ≠ 0)
    (rt ta : XReal) (i1 i2 : StepInfo XReal) (q : Vec3 ℝ) :
    let R := Step.respondPair k rt ta e1 e2 i1 i2
    ∃ b1' b2' : Body, b1'.Of R.first ∧ b2'.Of R.second ∧ b1'.mass = some m1 ∧ b2'.mass = some m2 ∧
      angularMomentum m1 b1' q + angularMomentum m2 b2' q = angularMomentum m1 b1 q + angularMomentum m2 b2 q := by
  obtain ⟨μ, F, hμ, -, h1, h2⟩ := h.respond rt ta i1 i2
  refine ⟨_, _, h1, h2, hm1, hm2, ?_⟩
  rw [angularMomentum_kick (h.phys1.kick _ _) (by exact hm1) (by exact hi1),
    angularMomentum_kick (h.phys2.kick _ _) (by exact hm2) (by exact hi2),
    angularMomentum_kick h.phys1 hm1 hi1, angularMomentum_kick h.phys2 hm2 hi2, Body.cross_neg, Body.cross_neg]
  generalize (p - q).cross F = u
  generalize (p - q).cross (normalImpulse b1 b2 r p n) = w
  ext <;> simp <;> ring

/-! ### C34 -/

theorem kinetic_kick {b : Body} (hp : b.Physical) (hr : Regular b) (p j : Vec3 ℝ) :
    kinetic (b.kick p j) = kinetic b + (b.at' p).dot j + b.give p j / 2 := by
  have hcr : (b.at' p).dot j = b.vel.dot j + b.ang.dot ((p - b.pos).cross j) := by
    unfold Body.at'; rw [Vec3.add_dot, Body.triple]
  rw [hcr]
  unfold Body.give kinetic
  have lin : ∀ m : ℝ, b.mass = some m → m * (b.vel + j.scale b.im).dot (b.vel + j.scale b.im) =
      m * b.vel.dot b.vel + 2 * b.vel.dot j + j.dot j * b.im := by
    intro m hm
    have e1 : b.im = m⁻¹ := by unfold Body.im; rw [hm]
    have n1 := (hp.mass m hm).ne'
    simp only [Vec3.add_dot, Vec3.dot_add, Vec3.scale_dot, Vec3.dot_scale, e1, Vec3.dot_comm j b.vel]
    field_simp; ring
  rcases hr with ⟨hm, hi⟩ | ⟨hm, hi, hw⟩ | ⟨hm, hi, hv, hw⟩
  · obtain ⟨m, hm⟩ := Option.ne_none_iff_exists'.mp hm
    simp only [Body.kick, hm]
    rw [lin m hm]
    have hs := hp.symm
    have ha : (b.inertia.mulVec (b.ang + b.W.mulVec ((p - b.pos).cross j))).dot
        (b.ang + b.W.mulVec ((p - b.pos).cross j)) = (b.inertia.mulVec b.ang).dot b.ang +
        2 * b.ang.dot ((p - b.pos).cross j) +
        (b.W.mulVec ((p - b.pos).cross j)).dot ((p - b.pos).cross j) := by
      generalize (p - b.pos).cross j = u
      have h1 : b.inertia.mulVec (b.W.mulVec u) = u := Mat3.mul_inv_vec hi u
      rw [Mat3.mulVec_add, h1, Vec3.add_dot, Vec3.dot_add, Vec3.dot_add, hs b.ang (b.W.mulVec u), h1, Vec3.dot_comm u b.ang,
        Vec3.dot_comm u (b.W.mulVec u)]
      ring
    rw [ha]; ring
  · obtain ⟨m, hm⟩ := Option.ne_none_iff_exists'.mp hm
    simp only [Body.kick, hm]
    rw [lin m hm]
    have hW : b.W = Mat3.o := Mat3.inv_of_det hi
    simp [hW, hw]; ring
  · have hW : b.W = Mat3.o := Mat3.inv_of_det hi
    have h0 : b.im = 0 := by unfold Body.im; rw [hm]
    simp [Body.kick, hm, hW, hw, hv, h0]

/-- **C34.** The energy balance of the normal impulse. -/
theorem C34_energy (h : Impact e1 e2 k b1 b2 p n r s d) (hr1 : Regular b1) (hr2 : Regular b2) :
    let c := k.collision
    let J := Step.collisionImpulse e1 e2 k.restitution c
    ∃ b1' b2' : Body, b1'.Of (e1.applyImpulse c.position J) ∧ b2'.Of (e2.applyImpulse c.position (-J)) ∧
      ∃ D : ℝ, Step.impulseDenominator e1 e2 c = fin D ∧ 0 < D ∧
        kinetic b1' + kinetic b2' = kinetic b1 + kinetic b2 + (r * r - 1) / 2 * (closing b1 b2 p n * closing b1 b2 p n) / D ∧
        (r = 1 → kinetic b1' + kinetic b2' = kinetic b1 + kinetic b2) ∧
        (0 ≤ r → r ≤ 1 → kinetic b1' + kinetic b2' ≤ kinetic b1 + kinetic b2) := by
  obtain ⟨t, hk⟩ : ∃ t, k.collision = ⟨t, p.f, n.f⟩ := ⟨k.collision.times, by rw [← h.pos, ← h.nor]⟩
  have hJ := Body.collisionImpulse h.of1 h.of2 h.phys1 h.phys2 t h.denom_pos.ne' r
  have hD := Body.impulseDenominator h.of1 h.of2 h.phys1 h.phys2 t p n
  intro c J
  have hJ' : J = (normalImpulse b1 b2 r p n).f := by rw [← hJ, ← hk, ← h.rest]
  have key : kinetic (b1.kick p (normalImpulse b1 b2 r p n)) + kinetic (b2.kick p (-normalImpulse b1 b2 r p n)) =
      kinetic b1 + kinetic b2 + (r * r - 1) / 2 * (closing b1 b2 p n * closing b1 b2 p n) / denom b1 b2 p n := by
    rw [kinetic_kick h.phys1 hr1, kinetic_kick h.phys2 hr2, Body.give_neg]
    unfold normalImpulse
    rw [Body.give_scale, Body.give_scale, Body.give_unit h.unit, Body.give_unit h.unit, Vec3.dot_neg, Vec3.dot_scale,
      Vec3.dot_scale]
    have hc : (b1.at' p).dot n - (b2.at' p).dot n = closing b1 b2 p n := by unfold closing; rw [Vec3.sub_dot]
    have hd : b1.comply p n + b2.comply p n = denom b1 b2 p n := rfl
    have hD := h.denom_pos.ne'
    have : ∀ x : ℝ, (b1.at' p).dot n * x + -((b2.at' p).dot n * x) = closing b1 b2 p n * x := by
      intro x; rw [← hc]; ring
    have e2 : ∀ x : ℝ, b1.comply p n * x / 2 + b2.comply p n * x / 2 = denom b1 b2 p n * x / 2 := by
      intro x; rw [← hd]; ring
    have h3 := this (-(1 + r) * closing b1 b2 p n / denom b1 b2 p n)
    have h4 := e2 (-(1 + r) * closing b1 b2 p n / denom b1 b2 p n * (-(1 + r) * closing b1 b2 p n / denom b1 b2 p n))
    calc _ = kinetic b1 + kinetic b2 + closing b1 b2 p n * (-(1 + r) * closing b1 b2 p n / denom b1 b2 p n) +
          denom b1 b2 p n * (-(1 + r) * closing b1 b2 p n / denom b1 b2 p n *
            (-(1 + r) * closing b1 b2 p n / denom b1 b2 p n)) / 2 := by rw [← h3, ← h4]; ring
      _ = _ := by field_simp; ring
  refine ⟨b1.kick p (normalImpulse b1 b2 r p n), b2.kick p (-normalImpulse b1 b2 r p n), ?_, ?_, denom b1 b2 p n, ?_,
    h.denom_pos, key, ?_, ?_⟩
  · rw [hJ', h.pos]; exact h.of1.kick h.phys1 p _
  · rw [hJ', h.pos, Vec3.f_neg]; exact h.of2.kick h.phys2 p _
  · rw [← hD, ← hk]
  · rintro rfl; rw [key]; ring
  · intro h0 h1
    rw [key]
    have : (r * r - 1) / 2 * (closing b1 b2 p n * closing b1 b2 p n) / denom b1 b2 p n ≤ 0 := by
      apply div_nonpos_of_nonpos_of_nonneg _ h.denom_pos.le
      apply mul_nonpos_of_nonpos_of_nonneg _ (mul_self_nonneg _)
      nlinarith
    linarith

/-- **C34**, the whole response when there is no friction. -/
theorem C34_frictionless (h : Impact e1 e2 k b1 b2 p n r 0 0) (hr1 : Regular b1) (hr2 : Regular b2)
    (rt ta : XReal) (i1 i2 : StepInfo XReal) (h0 : 0 ≤ r) (h1 : r ≤ 1) :
    let R := Step.respondPair k rt ta e1 e2 i1 i2
    ∃ b1' b2' : Body, b1'.Of R.first ∧ b2'.Of R.second ∧ kinetic b1' + kinetic b2' ≤ kinetic b1 + kinetic b2 ∧
      (r = 1 → kinetic b1' + kinetic b2' = kinetic b1 + kinetic b2) := by
  obtain ⟨o1, o2⟩ := h.respond0 rt ta i1 i2
  obtain ⟨c1, c2, q1, q2, D, -, -, -, q3, q4⟩ := C34_energy h hr1 hr2
  have hJ : Step.collisionImpulse e1 e2 k.restitution k.collision = (normalImpulse b1 b2 r p n).f := by
    obtain ⟨t, hk⟩ : ∃ t, k.collision = ⟨t, p.f, n.f⟩ := ⟨k.collision.times, by rw [← h.pos, ← h.nor]⟩
    rw [← Body.collisionImpulse h.of1 h.of2 h.phys1 h.phys2 t h.denom_pos.ne' r, ← hk, ← h.rest]
  rw [hJ, h.pos] at q1 q2
  have uniq : ∀ {a b : Body} {e : InternalEntity XReal}, a.Of e → b.Of e → a = b := by
    intro a b e ha hb
    cases a with | mk m I x v w =>
    cases b with | mk m' I' x' v' w' =>
    have t1 := ha.mass.symm.trans hb.mass
    have t2 := ha.inertia.symm.trans hb.inertia
    have t3 := ha.pos.symm.trans hb.pos
    have t4 := ha.vel.symm.trans hb.vel
    have t5 := ha.ang.symm.trans hb.ang
    simp only [Mat3.f_inj, Vec3.f_inj] at t2 t3 t4 t5
    have t6 : m = m' := by
      cases m <;> cases m' <;> simp_all
    rw [t6, t2, t3, t4, t5]
  rw [uniq q1 (h.of1.kick h.phys1 p _)] at q3 q4
  rw [Vec3.f_neg] at q2
  rw [uniq q2 (h.of2.kick h.phys2 p _)] at q3 q4
  exact ⟨_, _, o1, o2, q4 h0 h1, q3⟩

/-! ### C35 -/

/-- **C35**, what is true of friction: it is tangential, directed against the sliding velocity left by the normal
impulse, at most the sliding velocity itself in size, and at most the friction coefficient times the normal impulse
*times the impulse denominator*.  (The code multiplies the fraction by the sliding velocity instead of by the
impulse that stops the sliding, so the last factor is one too many.)  Hence it stays in the friction cone if that
denominator is at most 1, and neither reverses the sliding nor adds energy if a unit tangential impulse changes the
relative velocity by at most 1.  Missing: these without the conditions, which is false (`C35_false`). -/
theorem C35_friction_partial (h : Impact e1 e2 k b1 b2 p n r s d) (hs : 0 ≤ s) (hd : 0 ≤ d)
    (rt ta : XReal) (i1 i2 : StepInfo XReal) :
    let R := Step.respondPair k rt ta e1 e2 i1 i2
    let J := normalImpulse b1 b2 r p n
    let c1 := b1.kick p J
    let c2 := b2.kick p (-J)
    let S := sliding c1 c2 p n
    ∃ F : Vec3 ℝ, ∃ μ : ℝ, (μ = s ∨ μ = d) ∧ (c1.kick p F).Of R.first ∧ (c2.kick p (-F)).Of R.second ∧
      F.dot n = 0 ∧ (∃ x, 0 ≤ x ∧ x ≤ 1 ∧ F = S.scale (-x)) ∧ F.len ≤ J.len * μ * denom b1 b2 p n ∧
      (denom b1 b2 p n ≤ 1 → F.len ≤ μ * J.len) ∧
      (c1.give p S + c2.give p S ≤ S.dot S →
        0 ≤ (sliding (c1.kick p F) (c2.kick p (-F)) p n).dot S ∧
        (Regular b1 → Regular b2 →
          kinetic (c1.kick p F) + kinetic (c2.kick p (-F)) ≤ kinetic c1 + kinetic c2)) := by
  obtain ⟨μ, F, hμ, hF, h1, h2⟩ := h.respond rt ta i1 i2
  intro R J c1 c2 S
  have hμ0 : 0 ≤ μ := by rcases hμ with rfl | rfl <;> assumption
  have hD := h.denom_pos
  have hDc : denom c1 c2 p n = denom b1 b2 p n := rfl
  have hSn : S.dot n = 0 := by
    show (c1.at' p - c2.at' p - n.scale (closing c1 c2 p n)).dot n = 0
    rw [Vec3.sub_dot, Vec3.scale_dot, h.unit]; unfold closing; ring
  set x := min 1 (J.len * μ * denom b1 b2 p n / S.len) with hx
  have hF : F = S.scale (-x) := hF
  have hx0 : 0 ≤ x := le_min zero_le_one
    (div_nonneg (mul_nonneg (mul_nonneg (Vec3.len_nonneg _) hμ0) hD.le) (Vec3.len_nonneg _))
  have hx1 : x ≤ 1 := min_le_left _ _
  have hFlen : F.len = S.len * x := by rw [hF, Vec3.len_scale, abs_neg, abs_of_nonneg hx0]
  have hlen : F.len ≤ J.len * μ * denom b1 b2 p n := by
    rw [hFlen]
    by_cases h0 : S.len = 0
    · rw [h0, zero_mul]; exact mul_nonneg (mul_nonneg (Vec3.len_nonneg _) hμ0) hD.le
    · calc S.len * x ≤ S.len * (J.len * μ * denom b1 b2 p n / S.len) :=
          mul_le_mul_of_nonneg_left (min_le_right _ _) (Vec3.len_nonneg _)
        _ = _ := by field_simp
  refine ⟨F, μ, hμ, h1, h2, ?_, ⟨x, hx0, hx1, hF⟩, hlen, ?_, ?_⟩
  · rw [hF, Vec3.scale_dot, hSn, zero_mul]
  · intro h1
    refine le_trans hlen ?_
    have := mul_nonneg (Vec3.len_nonneg J) hμ0
    nlinarith
  · intro hg
    have hxx : x * x ≤ x := by nlinarith
    have hgn : 0 ≤ c1.give p S + c2.give p S := by
      have q1 := (h.phys1.psd.inv ((p - b1.pos).cross S))
      have q2 := (h.phys2.psd.inv ((p - b2.pos).cross S))
      have q3 := mul_nonneg (Vec3.dot_self_nonneg S) h.phys1.im_nonneg
      have q4 := mul_nonneg (Vec3.dot_self_nonneg S) h.phys2.im_nonneg
      show 0 ≤ (S.dot S * b1.im + (b1.W.mulVec ((p - b1.pos).cross S)).dot ((p - b1.pos).cross S)) +
        (S.dot S * b2.im + (b2.W.mulVec ((p - b2.pos).cross S)).dot ((p - b2.pos).cross S))
      unfold Body.W; linarith
    have hSS : (c1.at' p - c2.at' p).dot S = S.dot S := by
      have : S = c1.at' p - c2.at' p - n.scale (closing c1 c2 p n) := rfl
      have e : c1.at' p - c2.at' p = S + n.scale (closing c1 c2 p n) := by rw [this]; ext <;> simp
      rw [e, Vec3.add_dot, Vec3.scale_dot, Vec3.dot_comm n S, hSn]; ring
    refine ⟨?_, ?_⟩
    · have e : (sliding (c1.kick p F) (c2.kick p (-F)) p n).dot S =
          ((c1.kick p F).at' p - (c2.kick p (-F)).at' p).dot S := by
        show (_ - n.scale _ : Vec3 ℝ).dot S = _
        rw [Vec3.sub_dot, Vec3.scale_dot, Vec3.dot_comm n S, hSn]; ring
      rw [e, Vec3.sub_dot, Body.at_kick_dot (b := c1) p F S, Body.at_kick_dot (b := c2) p (-F) S, hF]
      have hSS' : (c1.at' p).dot S - (c2.at' p).dot S = S.dot S := by rw [← hSS, Vec3.sub_dot]
      have hn : -(S.scale (-x)) = S.scale x := by ext <;> simp
      rw [hn]
      simp only [Body.cross_scale, Mat3.mulVec_scale, Vec3.scale_dot]
      have : c1.give p S + c2.give p S = (S.dot S * c1.im + (c1.W.mulVec ((p - c1.pos).cross S)).dot ((p - c1.pos).cross S))
        + (S.dot S * c2.im + (c2.W.mulVec ((p - c2.pos).cross S)).dot ((p - c2.pos).cross S)) := rfl
      have h5 : S.dot S - x * (c1.give p S + c2.give p S) ≥ 0 := by nlinarith [Vec3.dot_self_nonneg S]
      rw [this] at h5
      linarith
    · intro r1 r2
      have reg : ∀ {b : Body} (j : Vec3 ℝ), Regular b → Regular (b.kick p j) := by
        intro b j hr
        rcases hr with ⟨hm, hi⟩ | ⟨hm, hi, hw⟩ | ⟨hm, hi, hv, hw⟩
        · exact Or.inl ⟨hm, hi⟩
        · refine Or.inr (Or.inl ⟨hm, hi, ?_⟩)
          have hW : b.W = Mat3.o := Mat3.inv_of_det hi
          simp [Body.kick, hW, hw]
        · refine Or.inr (Or.inr ⟨hm, hi, ?_⟩)
          have hW : b.W = Mat3.o := Mat3.inv_of_det hi
          have h0 : b.im = 0 := by unfold Body.im; rw [hm]
          simp [Body.kick, hW, hw, hv, h0]
      rw [kinetic_kick (h.phys1.kick _ _) (reg _ r1), kinetic_kick (h.phys2.kick _ _) (reg _ r2), Body.give_neg, hF,
        Body.give_scale, Body.give_scale, Vec3.dot_neg, Vec3.dot_scale, Vec3.dot_scale]
      have hSS' : (c1.at' p).dot S - (c2.at' p).dot S = S.dot S := by rw [← hSS, Vec3.sub_dot]
      have h5 : (c1.give p S + c2.give p S) * (x * x) ≤ S.dot S * x := by
        calc _ ≤ (c1.give p S + c2.give p S) * x := mul_le_mul_of_nonneg_left hxx hgn
          _ ≤ _ := mul_le_mul_of_nonneg_right hg hx0
      have h6 : 0 ≤ S.dot S * x := mul_nonneg (Vec3.dot_self_nonneg S) hx0
      have h7 : (c1.at' p).dot S * -x + -((c2.at' p).dot S * -x) = -(S.dot S * x) := by rw [← hSS']; ring
      have h8 : -x * -x = x * x := by ring
      rw [h8]
      linarith

/-! ### C36 -/

/-- **C36**, collisions: an infinite-mass entity without a moment of inertia (which is what an infinite-mass collider
makes it, see `C36_from_collider`) keeps its velocity and angular velocity.  Missing: an entity whose *own* mass is
infinite but whose colliders have finite mass gets a finite moment of inertia and starts to spin (`C36_false`). -/
theorem C36_immovable_partial (h : Impact e1 e2 k b1 b2 p n r s d) (rt ta : XReal) (i1 i2 : StepInfo XReal) :
    let R := Step.respondPair k rt ta e1 e2 i1 i2
    (Scalar.isInfinite e1.totalMass = true → e1.momentOfInertia = Mat3.zeros →
      R.first.velocity = e1.velocity ∧ R.first.angularVelocity = e1.angularVelocity) ∧
    (Scalar.isInfinite e2.totalMass = true → e2.momentOfInertia = Mat3.zeros →
      R.second.velocity = e2.velocity ∧ R.second.angularVelocity = e2.angularVelocity) := by
  obtain ⟨μ, F, hμ, hF, h1, h2⟩ := h.respond rt ta i1 i2
  have still : ∀ {b : Body} {e : InternalEntity XReal}, b.Of e → Scalar.isInfinite e.totalMass = true →
      e.momentOfInertia = Mat3.zeros → ∀ j, b.kick p j = b := by
    intro b e ho hi hm j
    rw [ho.mass] at hi
    rw [ho.inertia, Mat3.f_zeros, Mat3.f_inj] at hm
    have hW : b.W = Mat3.o := by unfold Body.W; rw [hm]; exact Mat3.inv_of_det (by simp [Mat3.det, Mat3.o])
    have h0 : b.im = 0 := by
      unfold Body.im
      rcases hb : b.mass with _ | m
      · rfl
      · rw [hb] at hi; simp at hi
    unfold Body.kick; simp [hW, h0]
  refine ⟨fun hi hm => ?_, fun hi hm => ?_⟩
  · rw [still h.of1 hi hm, still h.of1 hi hm] at h1
    exact ⟨h1.vel.trans h.of1.vel.symm, h1.ang.trans h.of1.ang.symm⟩
  · rw [still h.of2 hi hm, still h.of2 hi hm] at h2
    exact ⟨h2.vel.trans h.of2.vel.symm, h2.ang.trans h.of2.ang.symm⟩

end
/-! ### Concrete bodies -/

/-- An unturned entity with the given mass, moment of inertia, position, velocity and angular velocity. -/
def entityOf (m : XReal) (I : Mat3 ℝ) (x v w : Vec3 ℝ) : InternalEntity XReal :=
  { orientation := ⟨x.f, Quat.e.f, Vec3.o.f⟩, ownMass := m, totalMass := m, preppedMoment := I.f
    velocity := v.f, angularVelocity := w.f, colliders := [], fallingAsleep := false, fallingAsleepTime := fin 0
    asleep := false, neighbors := [] }
theorem entityOf_inertia (m : XReal) (I : Mat3 ℝ) (x v w : Vec3 ℝ) : (entityOf m I x v w).momentOfInertia = I.f := by
  unfold InternalEntity.momentOfInertia Orientation.finalizeMomentOfInertia rotateMomentOfInertia
  simp only [entityOf, Quat.f_matrix, Mat3.f_mul, Mat3.f_transpose, Mat3.f_inj]
  ext <;> simp [Quat.matrix, Quat.e, Mat3.mul, Mat3.transpose, Vec3.dot_def]
theorem entityOf_body (m : ℝ) (I : Mat3 ℝ) (x v w : Vec3 ℝ) : (Body.mk (some m) I x v w).Of (entityOf (fin m) I x v w) :=
  ⟨rfl, entityOf_inertia _ _ _ _ _, rfl, rfl, rfl⟩
theorem entityOf_inf (I : Mat3 ℝ) (x v w : Vec3 ℝ) : (Body.mk none I x v w).Of (entityOf posInf I x v w) :=
  ⟨rfl, entityOf_inertia _ _ _ _ _, rfl, rfl, rfl⟩
/-- A candidate collision at `p` with normal `n`. -/
def hitAt (p n : Vec3 ℝ) (r s d : ℝ) : Step.Candidate XReal :=
  { percent := fin 0, collision := ⟨Range.single (fin 0), p.f, n.f⟩, restitution := fin r, staticFriction := fin s
    dynamicFriction := fin d, frictionThreshold := fin 0, firstHandle := ⟨0, 0⟩, secondHandle := ⟨1, 0⟩
    firstIndex := 0, secondIndex := 1 }

theorem diag_symm (v : Vec3 ℝ) : (Mat3.diag v).Symm := fun a b => by
  simp only [Mat3.diag, Vec3.dot_def, Mat3.mulVec_x, Mat3.mulVec_y, Mat3.mulVec_z]; ring
theorem diag_psd {v : Vec3 ℝ} (h1 : 0 ≤ v.x) (h2 : 0 ≤ v.y) (h3 : 0 ≤ v.z) : (Mat3.diag v).Psd := fun a => by
  simp only [Mat3.diag, Vec3.dot_def, Mat3.mulVec_x, Mat3.mulVec_y, Mat3.mulVec_z]
  have := mul_nonneg h1 (mul_self_nonneg a.x)
  have := mul_nonneg h2 (mul_self_nonneg a.y)
  have := mul_nonneg h3 (mul_self_nonneg a.z)
  nlinarith
theorem len_of {v : Vec3 ℝ} {l : ℝ} (hl : 0 ≤ l) (h : v.dot v = l * l) : v.len = l := by
  unfold Vec3.len; rw [h, Real.sqrt_mul_self hl]

/-- Two spinning bodies of different masses and full inertia, hit off-centre: the hypotheses of C31-C35 can be met
together. -/
example : ∃ e1 e2 k b1 b2 p n, Impact e1 e2 k b1 b2 p n (1/2) (3/10) (1/5) ∧ Regular b1 ∧ Regular b2 ∧
    b1.mass = some 2 ∧ b2.mass = some 3 ∧ closing b1 b2 p n = 3 := by
  refine ⟨entityOf (fin 2) (Mat3.diag ⟨1, 2, 3⟩) ⟨0, 0, 0⟩ ⟨1, 0, 0⟩ ⟨0, 0, 1⟩,
    entityOf (fin 3) (Mat3.diag ⟨1, 1, 1⟩) ⟨2, 1, 0⟩ ⟨-3, 4, 0⟩ ⟨0, 2, 0⟩, hitAt ⟨1, 1, 0⟩ ⟨1, 0, 0⟩ (1/2) (3/10) (1/5),
    ⟨some 2, Mat3.diag ⟨1, 2, 3⟩, ⟨0, 0, 0⟩, ⟨1, 0, 0⟩, ⟨0, 0, 1⟩⟩,
    ⟨some 3, Mat3.diag ⟨1, 1, 1⟩, ⟨2, 1, 0⟩, ⟨-3, 4, 0⟩, ⟨0, 2, 0⟩⟩, ⟨1, 1, 0⟩, ⟨1, 0, 0⟩, ?_, ?_, ?_, rfl, rfl, ?_⟩
  · exact ⟨entityOf_body _ _ _ _ _, entityOf_body _ _ _ _ _,
      ⟨by rintro m ⟨⟩; norm_num, diag_symm _, diag_psd (by norm_num) (by norm_num) (by norm_num)⟩,
      ⟨by rintro m ⟨⟩; norm_num, diag_symm _, diag_psd (by norm_num) (by norm_num) (by norm_num)⟩,
      Or.inl (by simp), rfl, rfl, by norm_num [Vec3.dot_def], rfl, rfl, rfl⟩
  · exact Or.inl ⟨by simp, by norm_num [Mat3.det, Mat3.diag]⟩
  · exact Or.inl ⟨by simp, by norm_num [Mat3.det, Mat3.diag]⟩
  · norm_num [closing, Body.at', Vec3.dot_def]

/-- A body against an immovable one without inertia: the hypotheses of C36. -/
example : ∃ e1 e2 k b1 b2 p n, Impact e1 e2 k b1 b2 p n (1/2) (3/10) (1/5) ∧ Regular b1 ∧ Regular b2 ∧
    Scalar.isInfinite e1.totalMass = true ∧ e1.momentOfInertia = Mat3.zeros ∧ closing b1 b2 p n = 3 := by
  refine ⟨entityOf posInf Mat3.o ⟨0, 0, 0⟩ Vec3.o Vec3.o,
    entityOf (fin 3) (Mat3.diag ⟨1, 1, 1⟩) ⟨2, 1, 0⟩ ⟨-3, 4, 0⟩ ⟨0, 2, 0⟩, hitAt ⟨1, 1, 0⟩ ⟨1, 0, 0⟩ (1/2) (3/10) (1/5),
    ⟨none, Mat3.o, ⟨0, 0, 0⟩, Vec3.o, Vec3.o⟩,
    ⟨some 3, Mat3.diag ⟨1, 1, 1⟩, ⟨2, 1, 0⟩, ⟨-3, 4, 0⟩, ⟨0, 2, 0⟩⟩, ⟨1, 1, 0⟩, ⟨1, 0, 0⟩, ?_, ?_, ?_, rfl, ?_, ?_⟩
  · exact ⟨entityOf_inf _ _ _ _, entityOf_body _ _ _ _ _,
      ⟨by rintro m ⟨⟩, Mat3.symm_o, Mat3.psd_o⟩,
      ⟨by rintro m ⟨⟩; norm_num, diag_symm _, diag_psd (by norm_num) (by norm_num) (by norm_num)⟩,
      Or.inr (by simp), rfl, rfl, by norm_num [Vec3.dot_def], rfl, rfl, rfl⟩
  · exact Or.inr (Or.inr ⟨rfl, by norm_num [Mat3.det, Mat3.o], rfl, rfl⟩)
  · exact Or.inl ⟨by simp, by norm_num [Mat3.det, Mat3.diag]⟩
  · rw [entityOf_inertia, Mat3.f_zeros]
  · norm_num [closing, Body.at', Vec3.dot_def]

/-- **C35** is false: two bodies of mass 1/4, one moving at (1, 1, 0) into the other at rest, without restitution and
with friction coefficients 1/2.  The friction impulse is eight times what the friction cone allows, turns the sliding
velocity (0, 1, 0) into (0, -3, 0) and multiplies the kinetic energy left by the normal impulse. -/
theorem C35_false : ∃ e1 e2 k b1 b2 p n r s d, Impact e1 e2 k b1 b2 p n r s d ∧ Regular b1 ∧ Regular b2 ∧
    0 ≤ r ∧ r ≤ 1 ∧ 0 ≤ s ∧ 0 ≤ d ∧ ∀ rt ta i1 i2,
      let R := Step.respondPair k rt ta e1 e2 i1 i2
      let J := normalImpulse b1 b2 r p n
      let c1 := b1.kick p J
      let c2 := b2.kick p (-J)
      ∃ F, (c1.kick p F).Of R.first ∧ (c2.kick p (-F)).Of R.second ∧
        max s d * J.len < F.len ∧
        sliding (c1.kick p F) (c2.kick p (-F)) p n = (sliding c1 c2 p n).scale (-3) ∧ sliding c1 c2 p n ≠ Vec3.o ∧
        kinetic b1 + kinetic b2 < kinetic (c1.kick p F) + kinetic (c2.kick p (-F)) := by
  have hdet : (Mat3.o : Mat3 ℝ).det = 0 := by norm_num [Mat3.det, Mat3.o]
  have H : Impact (entityOf (fin (1/4)) Mat3.o ⟨0, 0, 0⟩ ⟨1, 1, 0⟩ Vec3.o) (entityOf (fin (1/4)) Mat3.o ⟨2, 0, 0⟩ Vec3.o Vec3.o)
      (hitAt ⟨1, 0, 0⟩ ⟨1, 0, 0⟩ 0 (1/2) (1/2)) ⟨some (1/4), Mat3.o, ⟨0, 0, 0⟩, ⟨1, 1, 0⟩, Vec3.o⟩
      ⟨some (1/4), Mat3.o, ⟨2, 0, 0⟩, Vec3.o, Vec3.o⟩ ⟨1, 0, 0⟩ ⟨1, 0, 0⟩ 0 (1/2) (1/2) :=
    ⟨entityOf_body _ _ _ _ _, entityOf_body _ _ _ _ _, ⟨by rintro m ⟨⟩; norm_num, Mat3.symm_o, Mat3.psd_o⟩,
      ⟨by rintro m ⟨⟩; norm_num, Mat3.symm_o, Mat3.psd_o⟩, Or.inl (by simp), rfl, rfl, by norm_num [Vec3.dot_def], rfl, rfl, rfl⟩
  refine ⟨_, _, _, _, _, _, _, _, _, _, H, Or.inr (Or.inl ⟨by simp, hdet, rfl⟩), Or.inr (Or.inl ⟨by simp, hdet, rfl⟩),
    le_refl _, zero_le_one, by norm_num, by norm_num, ?_⟩
  intro rt ta i1 i2 R J c1 c2
  have hW : (Mat3.o : Mat3 ℝ).inv = Mat3.o := Mat3.inv_of_det hdet
  have hD : denom ⟨some (1/4), Mat3.o, ⟨0, 0, 0⟩, ⟨1, 1, 0⟩, Vec3.o⟩ ⟨some (1/4), Mat3.o, ⟨2, 0, 0⟩, Vec3.o, Vec3.o⟩
      ⟨1, 0, 0⟩ ⟨1, 0, 0⟩ = 8 := by
    norm_num [denom, Body.comply, Body.im, Body.W, hW]
  have hJ : J = ⟨-1/8, 0, 0⟩ := by
    show normalImpulse _ _ _ _ _ = _
    unfold normalImpulse; rw [hD]
    norm_num [closing, Body.at', Vec3.dot_def, Vec3.scale]
  have hc1 : c1 = ⟨some (1/4), Mat3.o, ⟨0, 0, 0⟩, ⟨1/2, 1, 0⟩, Vec3.o⟩ := by
    show Body.kick _ _ J = _
    rw [hJ]; unfold Body.kick Body.im Body.W; simp only [hW, Mat3.o_mulVec, Vec3.add_o, Body.mk.injEq, true_and, and_true]
    ext <;> norm_num
  have hc2 : c2 = ⟨some (1/4), Mat3.o, ⟨2, 0, 0⟩, ⟨1/2, 0, 0⟩, Vec3.o⟩ := by
    show Body.kick _ _ (-J) = _
    rw [hJ]; unfold Body.kick Body.im Body.W; simp only [hW, Mat3.o_mulVec, Vec3.add_o, Body.mk.injEq, true_and, and_true]
    ext <;> norm_num
  have hS : sliding c1 c2 ⟨1, 0, 0⟩ ⟨1, 0, 0⟩ = ⟨0, 1, 0⟩ := by
    rw [hc1, hc2]; unfold sliding closing Body.at'; ext <;> norm_num [Vec3.dot_def]
  obtain ⟨μ, F, hμ, hF, h1, h2⟩ := H.respond rt ta i1 i2
  have hμ : μ = 1/2 := by rcases hμ with h | h <;> exact h
  have hF : F = ⟨0, -1/2, 0⟩ := by
    have hF : F = (sliding c1 c2 ⟨1, 0, 0⟩ ⟨1, 0, 0⟩).scale (-(min 1 (J.len * μ * 8 /
      (sliding c1 c2 ⟨1, 0, 0⟩ ⟨1, 0, 0⟩).len))) := by rw [← hD]; exact hF
    rw [hF, hS, hJ, hμ, len_of (l := 1/8) (by norm_num) (by norm_num [Vec3.dot_def]),
      len_of (l := 1) (by norm_num) (by norm_num [Vec3.dot_def])]
    ext <;> norm_num
  refine ⟨F, h1, h2, ?_, ?_, ?_, ?_⟩
  · rw [hF, hJ, len_of (l := 1/8) (by norm_num) (by norm_num [Vec3.dot_def]),
      len_of (l := 1/2) (by norm_num) (by norm_num [Vec3.dot_def])]
    norm_num
  · rw [hS, hF, hc1, hc2]
    unfold sliding closing Body.at' Body.kick Body.im Body.W
    ext <;> norm_num [Vec3.dot_def, hW]
  · rw [hS]; intro hc; have := congrArg Vec3.y hc; norm_num at this
  · rw [hF, hc1, hc2]
    unfold kinetic Body.kick Body.im Body.W
    norm_num [Vec3.dot_def, hW]

/-- **C36** is false: an entity of infinite mass but with the moment of inertia of a finite collider starts to spin
when hit off-centre. -/
theorem C36_false : ∃ e1 e2 k b1 b2 p n r s d, Impact e1 e2 k b1 b2 p n r s d ∧
    Scalar.isInfinite e1.totalMass = true ∧ ∀ rt ta i1 i2,
      (Step.respondPair k rt ta e1 e2 i1 i2).first.angularVelocity ≠ e1.angularVelocity := by
  have H : Impact (entityOf posInf (Mat3.diag ⟨1, 1, 1⟩) ⟨0, 0, 0⟩ Vec3.o Vec3.o)
      (entityOf (fin 1) Mat3.o ⟨2, 1, 0⟩ ⟨-2, 0, 0⟩ Vec3.o)
      (hitAt ⟨1, 1, 0⟩ ⟨1, 0, 0⟩ 0 0 0) ⟨none, Mat3.diag ⟨1, 1, 1⟩, ⟨0, 0, 0⟩, Vec3.o, Vec3.o⟩
      ⟨some 1, Mat3.o, ⟨2, 1, 0⟩, ⟨-2, 0, 0⟩, Vec3.o⟩ ⟨1, 1, 0⟩ ⟨1, 0, 0⟩ 0 0 0 :=
    ⟨entityOf_inf _ _ _ _, entityOf_body _ _ _ _ _,
      ⟨by rintro m ⟨⟩, diag_symm _, diag_psd (by norm_num) (by norm_num) (by norm_num)⟩,
      ⟨by rintro m ⟨⟩; norm_num, Mat3.symm_o, Mat3.psd_o⟩, Or.inr (by simp), rfl, rfl, by norm_num [Vec3.dot_def], rfl, rfl, rfl⟩
  refine ⟨_, _, _, _, _, _, _, _, _, _, H, rfl, fun rt ta i1 i2 hc => ?_⟩
  obtain ⟨h1, -⟩ := H.respond0 rt ta i1 i2
  rw [h1.ang] at hc
  have hW : (Mat3.diag ⟨1, 1, 1⟩).inv = Mat3.diag ⟨1, 1, 1⟩ := by
    unfold Mat3.inv; rw [if_neg (by norm_num [Mat3.det, Mat3.diag])]
    norm_num [Mat3.det, Mat3.diag, Mat3.scale, Vec3.scale]
  have hW' : (Mat3.o : Mat3 ℝ).inv = Mat3.o := Mat3.inv_of_det (by norm_num [Mat3.det, Mat3.o])
  have := congrArg (fun v : Vec3 XReal => v.z) hc
  simp only [entityOf, Vec3.f_z, fin_inj] at this
  simp only [Body.kick, Body.W, hW, normalImpulse, closing, Body.at', denom, Body.comply, Body.im, hW'] at this
  norm_num [Mat3.diag, Vec3.dot_def] at this

end Fluffy.Props
