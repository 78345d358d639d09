import Verif.Props.Response
import Verif.Props.Earliest
import Verif.Props.Handles
import Verif.Props.Drift
/-
C92: which friction coefficient a contact gets.
-/
set_option linter.unusedSectionVars false
set_option linter.unusedSimpArgs false
namespace Fluffy.Props
open InternalEntity Step Demo System
section
open XReal Body
variable {e1 e2 : InternalEntity XReal} {k : Step.Candidate XReal} {b1 b2 : Body} {p n : Vec3 ℝ} {r s d : ℝ}

/-- A candidate whose two coefficients are the same. -/
def levelled (k : Step.Candidate XReal) (μ : XReal) : Step.Candidate XReal := { k with staticFriction := μ, dynamicFriction := μ }

theorem respondPair_levelled (k : Step.Candidate XReal) (rt ta : XReal) (e1 e2 : InternalEntity XReal) (i1 i2 : StepInfo XReal) :
    ∃ c : Bool, (let c1 := e1.applyImpulse k.collision.position (collisionImpulse e1 e2 k.restitution k.collision)
      let c2 := e2.applyImpulse k.collision.position (-collisionImpulse e1 e2 k.restitution k.collision)
      let v := c1.velocityAt k.collision.position - c2.velocityAt k.collision.position
      let w := v.dot k.collision.normal
      c = Scalar.lt (Scalar.abs w / (v - k.collision.normal.scale w).magnitude) k.frictionThreshold) ∧
    Step.respondPair k rt ta e1 e2 i1 i2 = Step.respondPair (levelled k (if c then k.staticFriction else k.dynamicFriction)) rt ta e1 e2 i1 i2 := by
  refine ⟨_, rfl, ?_⟩
  have key : ∀ a b : InternalEntity XReal, ∀ J : Vec3 XReal, let v := a.velocityAt k.collision.position - b.velocityAt k.collision.position
      let w := v.dot k.collision.normal
      Step.frictionImpulse a b J k = Step.frictionImpulse a b J (levelled k
        (if Scalar.lt (Scalar.abs w / (v - k.collision.normal.scale w).magnitude) k.frictionThreshold then k.staticFriction else k.dynamicFriction)) := by
    intro a b J v w
    cases hc : Scalar.lt (Scalar.abs w / (v - k.collision.normal.scale w).magnitude) k.frictionThreshold <;> simp only [v, w] at hc <;>
      simp [Step.frictionImpulse, levelled, hc]
  unfold Step.respondPair
  simp only
  rw [key]
  rfl

/-- **C92**, what the code does. After the normal impulse `J` the bodies part at `r` times the speed `u` at which they approached, and slide along each other with the
velocity `S`. The friction impulse is directed against `S`, and computed with the *static* coefficient if `|S|` is greater than `r u` divided by the threshold, and with the
*dynamic* coefficient otherwise.
Missing: that fast sliding gets the dynamic coefficient and slow sliding the static one, which is false (`C92_false`). -/
theorem C92_coefficient_partial (h : Impact e1 e2 k b1 b2 p n r s d) {t : ℝ} (ht : k.frictionThreshold = fin t) (rt ta : XReal) (i1 i2 : StepInfo XReal) :
    let R := Step.respondPair k rt ta e1 e2 i1 i2
    let J := normalImpulse b1 b2 r p n
    let c1 := b1.kick p J
    let c2 := b2.kick p (-J)
    let S := sliding c1 c2 p n
    let μ := if |r * closing b1 b2 p n| < t * S.len then s else d
    let F := S.scale (-(min 1 (J.len * μ * denom b1 b2 p n / S.len)))
    S ≠ Vec3.o → (c1.kick p F).Of R.first ∧ (c2.kick p (-F)).Of R.second := by
  intro R J c1 c2 S μ F hS
  obtain ⟨c, hc, hR⟩ := respondPair_levelled k rt ta e1 e2 i1 i2
  have hSl : S.len ≠ 0 := fun h => hS ((Vec3.len_eq_zero _).mp h)
  have hSp : 0 < S.len := lt_of_le_of_ne (Vec3.len_nonneg _) (Ne.symm hSl)
  have hcl : closing c1 c2 p n = -r * closing b1 b2 p n := Body.restitution h.unit h.denom_pos.ne' r
  have hcμ : (if c then k.staticFriction else k.dynamicFriction) = fin μ := by
    obtain ⟨tt, hk⟩ : ∃ t, k.collision = ⟨t, p.f, n.f⟩ := ⟨k.collision.times, by rw [← h.pos, ← h.nor]⟩
    have hJ := Body.collisionImpulse h.of1 h.of2 h.phys1 h.phys2 tt h.denom_pos.ne' r
    have k1 := h.of1.kick h.phys1 p J
    have k2 := h.of2.kick h.phys2 p (-J)
    have hJ' : collisionImpulse e1 e2 k.restitution k.collision = J.f := by rw [hk, h.rest]; exact hJ
    simp only [h.pos, h.nor, hJ', Vec3.f_neg, k1.at, k2.at, Vec3.f_sub, Vec3.f_dot, Vec3.f_scale, Vec3.f_magnitude, ht] at hc
    have hc : c = Scalar.lt (Scalar.abs (fin (closing c1 c2 p n)) / fin S.len) (fin t) := hc
    have habs : |r * closing b1 b2 p n| = |closing c1 c2 p n| := by rw [hcl, neg_mul, abs_neg]
    rw [show (Scalar.abs (fin (closing c1 c2 p n)) : XReal) = fin |closing c1 c2 p n| from rfl, fin_div hSl, fin_lt] at hc
    rw [hc, h.stat, h.dyn]
    show (if decide _ = true then _ else _) = fin (if _ then _ else _)
    rw [habs]
    by_cases hx : |closing c1 c2 p n| / S.len < t
    · rw [if_pos (decide_eq_true hx), if_pos (by rwa [div_lt_iff₀ hSp] at hx)]
    · rw [if_neg (by simp [hx]), if_neg (by rwa [div_lt_iff₀ hSp] at hx)]
  have H : Impact e1 e2 (levelled k (fin μ)) b1 b2 p n r μ μ := ⟨h.of1, h.of2, h.phys1, h.phys2, h.movable, h.pos, h.nor, h.unit, h.rest, rfl, rfl⟩
  obtain ⟨μ', F', hμ', hF', h1, h2⟩ := H.respond rt ta i1 i2
  have hμ' : μ' = μ := by rcases hμ' with h | h <;> exact h
  have hFF : F' = F := by rw [hF', hμ']; rfl
  rw [hFF] at h1 h2
  have hRR : R = Step.respondPair (levelled k (fin μ)) rt ta e1 e2 i1 i2 := by rw [← hcμ]; exact hR
  rw [hRR]
  exact ⟨h1, h2⟩

/-- **C92**, contacts without restitution, as of everything that rests or slides on the ground: with a positive threshold they always get the static coefficient,
however fast the sliding. -/
theorem C92_inelastic (h : Impact e1 e2 k b1 b2 p n 0 s d) {t : ℝ} (ht : k.frictionThreshold = fin t) (ht0 : 0 < t) (rt ta : XReal) (i1 i2 : StepInfo XReal) :
    let R := Step.respondPair k rt ta e1 e2 i1 i2
    let J := normalImpulse b1 b2 0 p n
    let c1 := b1.kick p J
    let c2 := b2.kick p (-J)
    let S := sliding c1 c2 p n
    let F := S.scale (-(min 1 (J.len * s * denom b1 b2 p n / S.len)))
    S ≠ Vec3.o → (c1.kick p F).Of R.first ∧ (c2.kick p (-F)).Of R.second := by
  intro R J c1 c2 S F hS
  have hSp : 0 < S.len := lt_of_le_of_ne (Vec3.len_nonneg _) (fun h => hS ((Vec3.len_eq_zero _).mp h.symm))
  have := C92_coefficient_partial h ht rt ta i1 i2 hS
  simp only [zero_mul, abs_zero] at this
  rw [if_pos (mul_pos ht0 hSp)] at this
  exact this

/-- The hypotheses are met: two bodies of 1/4 kg, one moving at (1, 1, 0) into the other at rest. -/
example : ∃ e1 e2 k b1 b2 p n r s d, Impact e1 e2 k b1 b2 p n r s d ∧ r = 0 ∧ k.frictionThreshold = fin 1 ∧
    sliding (b1.kick p (normalImpulse b1 b2 r p n)) (b2.kick p (-normalImpulse b1 b2 r p n)) p n ≠ Vec3.o := by
  have hdet : (Mat3.o : Mat3 ℝ).det = 0 := by norm_num [Mat3.det, Mat3.o]
  have hW : (Mat3.o : Mat3 ℝ).inv = Mat3.o := Mat3.inv_of_det hdet
  refine ⟨entityOf (fin (1/4)) Mat3.o ⟨0, 0, 0⟩ ⟨1, 1, 0⟩ Vec3.o, entityOf (fin (1/4)) Mat3.o ⟨2, 0, 0⟩ Vec3.o Vec3.o,
      { hitAt ⟨1, 0, 0⟩ ⟨1, 0, 0⟩ 0 (1/2) (1/3) with frictionThreshold := fin 1 }, ⟨some (1/4), Mat3.o, ⟨0, 0, 0⟩, ⟨1, 1, 0⟩, Vec3.o⟩,
      ⟨some (1/4), Mat3.o, ⟨2, 0, 0⟩, Vec3.o, Vec3.o⟩, ⟨1, 0, 0⟩, ⟨1, 0, 0⟩, 0, 1/2, 1/3,
    ⟨entityOf_body _ _ _ _ _, entityOf_body _ _ _ _ _, ⟨by rintro m ⟨⟩; norm_num, Mat3.symm_o, Mat3.psd_o⟩,
      ⟨by rintro m ⟨⟩; norm_num, Mat3.symm_o, Mat3.psd_o⟩, Or.inl (by simp), rfl, rfl, by norm_num [Vec3.dot_def], rfl, rfl, rfl⟩, rfl, rfl, fun hc => ?_⟩
  have := congrArg Vec3.y hc
  norm_num [sliding, closing, Body.at', Body.kick, normalImpulse, denom, Body.comply, Body.im, Body.W, hW, Vec3.dot_def, Vec3.scale] at this
end

section
variable {α : Type} [Scalar α]
/-- **C92**, where the constants of a contact come from, in any arithmetic: each is the product of those of two colliders, one of each of the entities that touch. -/
theorem C92_products {ord : IterOrder} {w : World α} {infos : List (StepInfo α)} {k : Candidate α} (h : searchFirst ord w 0 infos none = .ok (some k)) :
    ∃ first second ch1 ch2 c1 c2, w.entities.get k.firstHandle = some first ∧ w.entities.get k.secondHandle = some second ∧ ch1 ∈ first.colliders ∧ ch2 ∈ second.colliders ∧
      w.colliders.get ch1 = some c1 ∧ w.colliders.get ch2 = some c2 ∧
      k.restitution = c1.material.restitution * c2.material.restitution ∧ k.frictionThreshold = c1.material.frictionThreshold * c2.material.frictionThreshold ∧
      k.staticFriction = c1.material.staticFriction * c2.material.staticFriction ∧ k.dynamicFriction = c1.material.dynamicFriction * c2.material.dynamicFriction := by
  obtain ⟨_, _, i1, i2, -, -, -, first, second, h1, h2, -, -, -, ch1, hc1, ch2, hc2, c1, c2, c, g1, g2, -, -, rfl⟩ := searchFirst_contact h
  exact ⟨first, second, ch1, ch2, c1, c2, h1, h2, hc1, hc2, g1, g2, rfl, rfl, rfl, rfl⟩
end

/-! ### In binary32 -/
section
open F32
variable [Libm]

/-- A ball of 1 kg just above a floor, moving down at 1 m/s and sideways at the given speed. The materials: restitution 1/2, threshold 1, static coefficient 1/2 and
dynamic coefficient 0. -/
def skidCalls (v : F32) : List (Op F32 (GravityGenerator F32)) :=
  [.addEntity (thing (num 1) ⟨num 0, num 5 4, num 0⟩ ⟨v, num (-1), num 0⟩), .addCollider (.sphere ⟨none, vec 0 0 0, num 1, num 0, ⟨num 1 2, num 1, num 1 2, num 0⟩⟩),
   .linkCollider h0 (some h0),
   .addEntity (thing (.inf false) (vec 0 0 0) (vec 0 0 0)), .addCollider (.plane ⟨none, vec 0 0 0, vec 0 1 0, num 0, ⟨num 1, num 1, num 1, num 1⟩⟩),
   .linkCollider h1 (some h1), .step (num 1)]

/-- **C92 is false**: a ball that skids over a floor at 1/8 m/s, slower than it bounces up, keeps this speed: it is given the dynamic coefficient, which is 0. At 8 m/s it
is given the static one and slowed to 29/4 m/s. -/
theorem C92_false : ∃ (s t : System F32 (GravityGenerator F32)) (a b : Entity F32),
    (∃ o, play (plain (skidCalls (num 1 8))) System.new = .ok (s, o)) ∧ (∃ o, play (plain (skidCalls (num 8))) System.new = .ok (t, o)) ∧
    s.collisionRecords.length = 1 ∧ t.collisionRecords.length = 1 ∧ s.getEntity h0 = some a ∧ t.getEntity h0 = some b ∧
    a.velocity = ⟨num 1 8, num 1 2, num 0⟩ ∧ b.velocity = ⟨num 29 4, num 1 2, num 0⟩ := by
  have key : ∀ v w : F32, ((play (plain (skidCalls v)) (System.new : System F32 (GravityGenerator F32))).test fun r =>
      r.1.collisionRecords.length == 1 && (match r.1.entities.get h0 with | some a => vecEq a.velocity ⟨w, num 1 2, num 0⟩ | _ => false)) = true →
      ∃ (s : System F32 (GravityGenerator F32)) (a : Entity F32), (∃ o, play (plain (skidCalls v)) System.new = .ok (s, o)) ∧ s.collisionRecords.length = 1 ∧
        s.getEntity h0 = some a ∧ a.velocity = ⟨w, num 1 2, num 0⟩ := by
    intro v w h
    obtain ⟨⟨s, outs⟩, hplay, h⟩ := Res.of_test h
    simp only [Bool.and_eq_true, beq_iff_eq] at h
    obtain ⟨hl, h⟩ := h
    split at h
    · rename_i a ha
      exact ⟨s, a.makePub, ⟨outs, hplay⟩, hl, getEntity_eq_some.mpr ⟨a, ha, rfl⟩, vecEq_iff.mp h⟩
    · cases h
  obtain ⟨s, a, h1, h2, h3, h4⟩ := key (num 1 8) (num 1 8) (by kernel_refl)
  obtain ⟨t, b, h5, h6, h7, h8⟩ := key (num 8) (num 29 4) (by kernel_refl)
  exact ⟨s, t, a, b, h1, h5, h2, h6, h3, h7, h4, h8⟩
end
end Fluffy.Props
