import Verif.Props.Normals32
/-
C84: momentum of a contact in binary32.
-/
set_option linter.unusedSectionVars false
set_option linter.unusedSimpArgs false
namespace Fluffy.F32
variable [Libm]

/-- An impulse `j` given to a mass `m` of velocity `v`. -/
theorem Val.kick {v j m : F32} {x y z S : ℚ} (hv : Val v x) (hj : Val j y) (hm : Val m z) (hz0 : 2 ^ (-60 : ℤ) ≤ z) (hz1 : z ≤ 2 ^ 60)
    (hS0 : 2 ^ (-60 : ℤ) ≤ S) (hS1 : S ≤ 2 ^ 60) (hS : z * |x| + |y| ≤ S) :
    ∃ u, Val (v + j * (one / m)) u ∧ |z * (u - x) - y| ≤ 4 / 2 ^ 24 * S := by
  have hzp : 0 < z := lt_of_lt_of_le (by positivity) hz0
  have hSp : 0 < S := lt_of_lt_of_le (by positivity) hS0
  have e24 : (2 : ℚ) ^ 24 = 16777216 := by norm_num
  have hiz : 0 < 1 / z := by positivity
  have i0 : (2 : ℚ) ^ (-126 : ℤ) ≤ 1 / z := by
    rw [le_div_iff₀ hzp]
    calc (2 : ℚ) ^ (-126 : ℤ) * z ≤ 2 ^ (-126 : ℤ) * 2 ^ 60 := by gcongr
      _ ≤ 1 := by norm_num [zpow_neg]
  have i1 : 1 / z ≤ 2 ^ 60 := by
    rw [div_le_iff₀ hzp]
    calc (1 : ℚ) = 2 ^ 60 * 2 ^ (-60 : ℤ) := by norm_num [zpow_neg]
      _ ≤ 2 ^ 60 * z := by gcongr
  have s0 : (2 : ℚ) ^ (-126 : ℤ) ≤ S * (1 / z) := by
    have : (2 : ℚ) ^ (-60 : ℤ) ≤ 1 / z := by
      rw [le_div_iff₀ hzp]
      calc (2 : ℚ) ^ (-60 : ℤ) * z ≤ 2 ^ (-60 : ℤ) * 2 ^ 60 := by gcongr
        _ = 1 := by norm_num [zpow_neg]
    calc (2 : ℚ) ^ (-126 : ℤ) ≤ 2 ^ (-60 : ℤ) * 2 ^ (-60 : ℤ) := by norm_num [zpow_neg]
      _ ≤ S * (1 / z) := by gcongr
  have s1 : S * (1 / z) ≤ 2 ^ 120 := by
    calc S * (1 / z) ≤ 2 ^ 60 * 2 ^ 60 := by gcongr
      _ = 2 ^ 120 := by norm_num
  have hcap : (2 : ℚ) ^ 120 * 4 < 2 ^ 128 := by norm_num
  have hcap' : (2 : ℚ) ^ 60 * 4 < 2 ^ 128 := by norm_num
  -- the inverse of the mass
  have r1 := rnd_split (le_of_eq (abs_of_pos hiz)) i0
  rw [e24] at r1
  have hiv := val_one.div hm hzp.ne' (show |Fluffy.rnd (1 / z)| < 2 ^ 128 by
    have : Fluffy.rnd (1 / z) = 1 / z + (Fluffy.rnd (1 / z) - 1 / z) := by ring
    rw [this]; refine lt_of_le_of_lt (abs_add_le _ _) ?_
    rw [abs_of_pos hiz]; linarith)
  generalize hI : Fluffy.rnd (1 / z) = I at *
  -- the change of velocity
  have hy : |y| ≤ S := by have := mul_nonneg hzp.le (abs_nonneg x); linarith
  have t0 : |y * I - y * (1 / z)| ≤ |y| * (1 / z) / 16777216 := by
    rw [← mul_sub, abs_mul, mul_div_assoc]
    gcongr
  have hyz : |y * (1 / z)| = |y| * (1 / z) := by rw [abs_mul, abs_of_pos hiz]
  have hyS : |y| * (1 / z) ≤ S * (1 / z) := by gcongr
  have t1 : |y * I| ≤ S * (1 / z) * (1 + 1 / 16777216) := by
    have : y * I = y * (1 / z) + (y * I - y * (1 / z)) := by ring
    rw [this]; refine (abs_add_le _ _).trans ?_
    rw [hyz]; linarith
  have r2 := rnd_split t1 (le_trans s0 (le_mul_of_one_le_right (by positivity) (by norm_num)))
  rw [e24] at r2
  have hSz : 0 < S * (1 / z) := by positivity
  have hjv := hj.mul hiv (show |Fluffy.rnd (y * I)| < 2 ^ 128 by
    have : Fluffy.rnd (y * I) = y * I + (Fluffy.rnd (y * I) - y * I) := by ring
    rw [this]; refine lt_of_le_of_lt (abs_add_le _ _) ?_
    linarith)
  generalize hD : Fluffy.rnd (y * I) = D at *
  have d0 : |D - y * (1 / z)| ≤ S * (1 / z) * (2 / 16777216 + 1 / 16777216 / 16777216) := by
    have : D - y * (1 / z) = (D - y * I) + (y * I - y * (1 / z)) := by ring
    rw [this]; refine (abs_add_le _ _).trans ?_
    linarith
  -- the new velocity
  have hx : |x| + |y| * (1 / z) ≤ S * (1 / z) := by
    calc |x| + |y| * (1 / z) = (z * |x| + |y|) * (1 / z) := by field_simp
      _ ≤ S * (1 / z) := by gcongr
  have u0 : |x + D| ≤ S * (1 / z) * (1 + 2 / 16777216 + 1 / 16777216 / 16777216) := by
    have : x + D = x + (y * (1 / z) + (D - y * (1 / z))) := by ring
    rw [this]
    refine (abs_add_le _ _).trans ?_
    have := (abs_add_le (y * (1 / z)) (D - y * (1 / z)))
    rw [hyz] at this
    linarith
  have r3 := rnd_split u0 (le_trans s0 (le_mul_of_one_le_right (by positivity) (by norm_num)))
  rw [e24] at r3
  have huv := hv.add hjv (show |Fluffy.rnd (x + D)| < 2 ^ 128 by
    have : Fluffy.rnd (x + D) = (x + D) + (Fluffy.rnd (x + D) - (x + D)) := by ring
    rw [this]; refine lt_of_le_of_lt (abs_add_le _ _) ?_
    linarith)
  refine ⟨_, huv, ?_⟩
  generalize Fluffy.rnd (x + D) = u at *
  have f1 : |u - x - y * (1 / z)| ≤ S * (1 / z) * (4 / 16777216) := by
    have : u - x - y * (1 / z) = (u - (x + D)) + (D - y * (1 / z)) := by ring
    rw [this]; refine (abs_add_le _ _).trans ?_
    linarith
  have f2 : z * (u - x) - y = z * (u - x - y * (1 / z)) := by field_simp
  rw [f2, abs_mul, abs_of_pos hzp, e24]
  calc z * |u - x - y * (1 / z)| ≤ z * (S * (1 / z) * (4 / 16777216)) := by gcongr
    _ = 4 / 16777216 * S := by field_simp

/-- Two impulses, one after the other. -/
theorem Val.kick_twice {v j f m : F32} {x y w z S : ℚ} (hv : Val v x) (hj : Val j y) (hf : Val f w) (hm : Val m z) (hz0 : 2 ^ (-60 : ℤ) ≤ z) (hz1 : z ≤ 2 ^ 60)
    (hS0 : 2 ^ (-60 : ℤ) ≤ S) (hS1 : S ≤ 2 ^ 59) (hS : z * |x| + |y| + |w| ≤ S) :
    ∃ u, Val (v + j * (one / m) + f * (one / m)) u ∧ |z * (u - x) - (y + w)| ≤ 17 / 2 ^ 25 * S := by
  have hzp : 0 < z := lt_of_lt_of_le (by positivity) hz0
  have hSp : 0 < S := lt_of_lt_of_le (by positivity) hS0
  obtain ⟨u, hu, e1⟩ := Val.kick hv hj hm hz0 hz1 hS0 (le_trans hS1 (by norm_num)) (by linarith [abs_nonneg w])
  have h1 : z * |u| ≤ z * |x| + |y| + 4 / 2 ^ 24 * S := by
    have : z * u = z * x + (y + (z * (u - x) - y)) := by ring
    have h := abs_add_le (z * x) (y + (z * (u - x) - y))
    rw [← this, abs_mul, abs_of_pos hzp, abs_mul, abs_of_pos hzp] at h
    linarith [abs_add_le y (z * (u - x) - y)]
  have e24 : (2 : ℚ) ^ 24 = 16777216 := by norm_num
  have e25 : (2 : ℚ) ^ 25 = 33554432 := by norm_num
  rw [e24] at e1 h1
  obtain ⟨t, ht, e2⟩ := Val.kick (S := S * (1 + 4 / 16777216)) hu hf hm hz0 hz1 (le_trans hS0 (le_mul_of_one_le_right hSp.le (by norm_num)))
    (by
      have : (2 : ℚ) ^ 59 * 2 = 2 ^ 60 := by norm_num
      linarith)
    (by linarith)
  rw [e24] at e2
  refine ⟨t, ht, ?_⟩
  have : z * (t - x) - (y + w) = (z * (u - x) - y) + (z * (t - u) - w) := by ring
  rw [this, e25]
  refine (abs_add_le _ _).trans ?_
  linarith

end Fluffy.F32

namespace Fluffy.Props
open Fluffy.F32 Step
variable [Libm]

theorem axis_neg (a : Axis) (v : Vec3 F32) : a.of (-v) = -a.of v := by cases a <;> rfl

/-- **C84.** With binary32 arithmetic, the response to a contact gives the two bodies opposite momentum up to rounding.  Let `j` and `f` be the components of the impulse and of the
friction impulse along an axis, and let `S` be at least the size of all momentum involved: each body's momentum along the axis changes by `j + f`, respectively `-(j + f)`, up
to `17/2^25` of `S`, so their sum changes by at most `17/2^24` of `S`, that is by a millionth of it. -/
theorem C84_exchange (k : Candidate F32) (rt ta : F32) (e1 e2 : InternalEntity F32) (i1 i2 : StepInfo F32) (a : Axis) {m1 m2 v1 v2 j f S : ℚ}
    (hm1 : Val e1.totalMass m1) (hm2 : Val e2.totalMass m2) (hv1 : Val (a.of e1.velocity) v1) (hv2 : Val (a.of e2.velocity) v2)
    (hj : Val (a.of (collisionImpulse e1 e2 k.restitution k.collision)) j)
    (hf : Val (a.of (frictionImpulse (e1.applyImpulse k.collision.position (collisionImpulse e1 e2 k.restitution k.collision))
      (e2.applyImpulse k.collision.position (-collisionImpulse e1 e2 k.restitution k.collision)) (collisionImpulse e1 e2 k.restitution k.collision) k).1) f)
    (hm10 : 2 ^ (-60 : ℤ) ≤ m1) (hm11 : m1 ≤ 2 ^ 60) (hm20 : 2 ^ (-60 : ℤ) ≤ m2) (hm21 : m2 ≤ 2 ^ 60)
    (hS1 : m1 * |v1| + |j| + |f| ≤ S) (hS2 : m2 * |v2| + |j| + |f| ≤ S) (hS0 : 2 ^ (-60 : ℤ) ≤ S) (hS : S ≤ 2 ^ 59) :
    let R := respondPair k rt ta e1 e2 i1 i2
    ∃ u1 u2, Val (a.of R.first.velocity) u1 ∧ Val (a.of R.second.velocity) u2 ∧ R.first.totalMass = e1.totalMass ∧ R.second.totalMass = e2.totalMass ∧
      |m1 * (u1 - v1) - (j + f)| ≤ 17 / 2 ^ 25 * S ∧ |m2 * (u2 - v2) + (j + f)| ≤ 17 / 2 ^ 25 * S ∧
      |(m1 * u1 + m2 * u2) - (m1 * v1 + m2 * v2)| ≤ 17 / 2 ^ 24 * S := by
  intro R
  obtain ⟨u1, h1, b1⟩ := Val.kick_twice hv1 hj hf hm1 hm10 hm11 hS0 hS hS1
  obtain ⟨u2, h2, b2⟩ := Val.kick_twice hv2 hj.neg hf.neg hm2 hm20 hm21 hS0 hS (by rw [abs_neg, abs_neg]; exact hS2)
  rw [← axis_neg, ← axis_neg] at h2
  have b2' : |m2 * (u2 - v2) + (j + f)| ≤ 17 / 2 ^ 25 * S := by
    rw [show m2 * (u2 - v2) + (j + f) = m2 * (u2 - v2) - (-j + -f) by ring]; exact b2
  refine ⟨u1, u2, ?_, ?_, rfl, rfl, b1, b2', ?_⟩
  · show Val (a.of (e1.velocity + _ + _)) u1
    rw [a.add, a.add, a.scale, a.scale]; exact h1
  · show Val (a.of (e2.velocity + _ + _)) u2
    rw [a.add, a.add, a.scale, a.scale]; exact h2
  · have : m1 * u1 + m2 * u2 - (m1 * v1 + m2 * v2) = (m1 * (u1 - v1) - (j + f)) + (m2 * (u2 - v2) + (j + f)) := by ring
    rw [this]
    refine (abs_add_le _ _).trans ?_
    rw [show (17 : ℚ) / 2 ^ 24 * S = 17 / 2 ^ 25 * S + 17 / 2 ^ 25 * S by norm_num; ring]
    linarith

section
open Demo

/-- A heavy ball in slow motion and a light ball that comes towards it. -/
def pushCalls : List (Op F32 (GravityGenerator F32)) :=
  [.addEntity (thing (num 1073741824) (vec 0 0 0) (vec 1 0 0)), .addCollider (ball (vec 0 0 0) (num 1) (num 0) (num 1)), .linkCollider h0 (some h0),
   .addEntity (thing (num 1) (vec 4 0 0) (vec (-7) 0 0)), .addCollider (ball (vec 0 0 0) (num 1) (num 0) (num 1)), .linkCollider h1 (some h1)]

/-- **C84 (not more).** Momentum is not conserved exactly: a ball of 1 kg comes with 7 m/s towards a ball of 2^30 kg that moves with 1 m/s and bounces off with 9 m/s, and the velocity
of the heavy ball is the same as before, so that 16 kg m/s came from nowhere. -/
theorem C84_unfelt : ∃ (s s' : System F32 (GravityGenerator F32)) (a b a' b' : Entity F32) (r : CollisionRecord F32), Reachable s ∧ s.step .id (num 1 2) = .ok s' ∧
    s'.collisionRecords = [r] ∧ s.getEntity h0 = some a ∧ s.getEntity h1 = some b ∧ s'.getEntity h0 = some a' ∧ s'.getEntity h1 = some b' ∧
    Val a.lastTotalMass (2 ^ 30) ∧ Val b.lastTotalMass 1 ∧ a'.velocity = a.velocity ∧ Val a.velocity.x 1 ∧ Val b.velocity.x (-7) ∧ Val b'.velocity.x 9 := by
  have h : ((play (plain pushCalls) (System.new : System F32 (GravityGenerator F32))).test fun r => (r.1.step .id (num 1 2)).test fun s' =>
      (match s'.collisionRecords with
        | [_] => true
        | _ => false) && match r.1.getEntity h0, r.1.getEntity h1, s'.getEntity h0, s'.getEntity h1 with
      | some a, some b, some a', some b' => valued a.lastTotalMass (2 ^ 30) && valued b.lastTotalMass 1 && vecEq a'.velocity a.velocity && valued a.velocity.x 1 &&
          valued b.velocity.x (-7) && valued b'.velocity.x 9
      | _, _, _, _ => false) = true := by kernel_refl
  obtain ⟨⟨s, outs⟩, hplay, h⟩ := Res.of_test h
  obtain ⟨s', hs, h⟩ := Res.of_test h
  rw [Bool.and_eq_true] at h
  obtain ⟨hr, h⟩ := h
  split at hr
  case h_2 => cases hr
  case h_1 r hr' =>
  split at h
  case h_2 => cases h
  case h_1 a b a' b' ha hb ha' hb' =>
  simp only [Bool.and_eq_true, valued_iff, vecEq_iff] at h
  obtain ⟨⟨⟨⟨⟨q1, q2⟩, q3⟩, q4⟩, q5⟩, q6⟩ := h
  exact ⟨s, s', a, b, a', b', r, play_reachable hplay, hs, hr', ha, hb, ha', hb', q1, q2, q3, q4, q5, q6⟩

/-- A contact in the middle between two things. -/
def midContact : Candidate F32 := ⟨num 0, ⟨⟨num 0, num 1⟩, vec 0 0 0, vec 1 0 0⟩, num 1 2, num 0, num 0, num 0, h0, h1, 0, 1⟩

/-- The hypotheses of `C84_exchange` are met: 3 kg with 1 m/s against 1 kg with -1 m/s, restitution 1/2. -/
example : ∃ (e1 e2 : InternalEntity F32) (j f : ℚ), Val e1.totalMass 3 ∧ Val e2.totalMass 1 ∧ Val (Axis.x.of e1.velocity) 1 ∧ Val (Axis.x.of e2.velocity) (-1) ∧
    Val (Axis.x.of (collisionImpulse e1 e2 midContact.restitution midContact.collision)) j ∧ j < -2 ∧
    Val (Axis.x.of (frictionImpulse (e1.applyImpulse midContact.collision.position (collisionImpulse e1 e2 midContact.restitution midContact.collision))
      (e2.applyImpulse midContact.collision.position (-collisionImpulse e1 e2 midContact.restitution midContact.collision))
      (collisionImpulse e1 e2 midContact.restitution midContact.collision) midContact).1) f ∧ 3 * |(1 : ℚ)| + |j| + |f| ≤ 8 ∧ 1 * |(-1 : ℚ)| + |j| + |f| ≤ 8 := by
  have h : (match InternalEntity.newFrom (thing (num 3) (vec (-1) 0 0) (vec 1 0 0)), InternalEntity.newFrom (thing (num 1) (vec 1 0 0) (vec (-1) 0 0)) with
      | some e1, some e2 => valued e1.totalMass 3 && valued e2.totalMass 1 && valued (Axis.x.of e1.velocity) 1 && valued (Axis.x.of e2.velocity) (-1) &&
        valued (Axis.x.of (collisionImpulse e1 e2 midContact.restitution midContact.collision)) (-9 / 4) &&
        valued (Axis.x.of (frictionImpulse (e1.applyImpulse midContact.collision.position (collisionImpulse e1 e2 midContact.restitution midContact.collision))
          (e2.applyImpulse midContact.collision.position (-collisionImpulse e1 e2 midContact.restitution midContact.collision))
          (collisionImpulse e1 e2 midContact.restitution midContact.collision) midContact).1) 0
      | _, _ => false) = true := by kernel_refl
  split at h
  case h_2 => cases h
  case h_1 e1 e2 _ _ =>
  simp only [Bool.and_eq_true, valued_iff] at h
  obtain ⟨⟨⟨⟨⟨q1, q2⟩, q3⟩, q4⟩, q5⟩, q6⟩ := h
  exact ⟨e1, e2, _, _, q1, q2, q3, q4, q5, by norm_num, q6, by norm_num [abs_of_neg], by norm_num [abs_of_neg]⟩

end

end Fluffy.Props
