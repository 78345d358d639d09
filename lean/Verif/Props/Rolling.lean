import Verif.Props.Grip
import Verif.Props.Floor
import Verif.Props.Inertia
import Mathlib.Analysis.SpecificLimits.Basic
/-
C93: sliding turns into rolling.
-/
set_option linter.unusedSectionVars false
set_option linter.unusedSimpArgs false
namespace Fluffy.Props
open InternalEntity Step XReal Body

/-! ### Specification -/

/-- `b` touches `f` with a point straight below (or above) its centre along `n`, at distance `|l|`; `b` has mass `m` and the same moment of inertia `i` about every axis
(if it is zero, the code does not turn the body);
`f` is immovable and at rest. -/
structure Treads (b f : Body) (p n : Vec3 ℝ) (l m i : ℝ) : Prop where
  mass : b.mass = some m
  inertia : b.inertia = Mat3.diag ⟨i, i, i⟩
  positive : 0 < m ∧ 0 ≤ i
  below : p - b.pos = n.scale l
  ground : Fixed f

/-- The velocity of the ball's lowest point along the ground. The ball rolls if it is zero. -/
def slip (b : Body) (p n : Vec3 ℝ) : Vec3 ℝ := b.at' p - n.scale ((b.at' p).dot n)

/-- How much a unit impulse along the ground changes the slip: `1/m` by moving the ball, `l²/i` by spinning it. -/
noncomputable def yielding (l m i : ℝ) : ℝ := 1 / m + l * l / i

/-- The slip after a contact: less the friction, which is at most `c`, times the yielding. -/
noncomputable def rubbed (K c : ℝ) (S : Vec3 ℝ) : Vec3 ℝ := S.scale (1 - K * min 1 (c / S.len))

section
variable {e1 e2 : InternalEntity XReal} {k : Step.Candidate XReal} {b f : Body} {p n : Vec3 ℝ} {r s d l m i : ℝ}

theorem Treads.W (h : Treads b f p n l m i) (u : Vec3 ℝ) : b.W.mulVec u = u.scale (1 / i) := by
  rcases h.positive.2.eq_or_lt with hi | hi
  · have hdet : (Mat3.diag ⟨i, i, i⟩ : Mat3 ℝ).det = 0 := by rw [← hi]; simp [Mat3.det, Mat3.diag]
    unfold Body.W; rw [h.inertia, Mat3.inv_of_det hdet, ← hi]; ext <;> simp
  have hi := hi.ne'
  have hdet : (Mat3.diag ⟨i, i, i⟩ : Mat3 ℝ).det = i * i * i := by simp [Mat3.det, Mat3.diag]; ring
  have hne : (Mat3.diag ⟨i, i, i⟩ : Mat3 ℝ).det ≠ 0 := by rw [hdet]; positivity
  have e : (Mat3.diag ⟨i, i, i⟩ : Mat3 ℝ).mulVec (u.scale (1 / i)) = u := by
    ext <;> simp [Mat3.diag] <;> field_simp
  have := Mat3.inv_mul_vec hne (u.scale (1 / i))
  rw [e] at this
  unfold Body.W; rw [h.inertia]; exact this

theorem Treads.im (h : Treads b f p n l m i) : b.im = 1 / m := by unfold Body.im; rw [h.mass]; simp

theorem Treads.cross (h : Treads b f p n l m i) : (p - b.pos).cross n = .o := by rw [h.below]; ext <;> simp <;> ring

theorem Treads.comply (h : Treads b f p n l m i) : b.comply p n = 1 / m := by unfold Body.comply; rw [h.cross, h.im]; simp

theorem Treads.kick (h : Treads b f p n l m i) (j : Vec3 ℝ) : Treads (b.kick p j) f p n l m i := ⟨h.mass, h.inertia, h.positive, h.below, h.ground⟩

theorem Fixed.at {f : Body} (h : Fixed f) (p : Vec3 ℝ) : f.at' p = .o := by unfold Body.at'; rw [h.vel, h.ang]; ext <;> simp

/-- What an impulse at the contact point does there. -/
theorem Treads.at_kick (h : Treads b f p n l m i) (hn : n.dot n = 1) (j : Vec3 ℝ) :
    (b.kick p j).at' p = b.at' p + j.scale (1 / m) + (j - n.scale (j.dot n)).scale (l * l / i) := by
  rw [Body.at_kick, h.W, h.im, h.below]
  have : (((n.scale l).cross j).scale (1 / i)).cross (n.scale l) = (j.scale (n.dot n) - n.scale (j.dot n)).scale (l * l / i) := by
    ext <;> simp [Vec3.dot_def] <;> ring
  rw [this, hn]
  ext <;> simp <;> ring

theorem slip_kick_along (h : Treads b f p n l m i) (hn : n.dot n = 1) (x : ℝ) : slip (b.kick p (n.scale x)) p n = slip b p n := by
  unfold slip
  rw [h.at_kick hn, Vec3.scale_dot, hn]
  have e : (b.at' p + (n.scale x).scale (1 / m) + (n.scale x - n.scale (1 * x)).scale (l * l / i)).dot n = (b.at' p).dot n + x / m := by
    have : (b.at' p + (n.scale x).scale (1 / m) + (n.scale x - n.scale (1 * x)).scale (l * l / i)).dot n = (b.at' p).dot n + x / m * n.dot n := by
      simp [Vec3.dot_def]; ring
    rw [this, hn, mul_one]
  rw [e]
  ext <;> simp <;> ring

theorem slip_kick_across (h : Treads b f p n l m i) (hn : n.dot n = 1) {j : Vec3 ℝ} (hj : j.dot n = 0) :
    slip (b.kick p j) p n = slip b p n + j.scale (yielding l m i) := by
  unfold slip yielding
  rw [h.at_kick hn, hj]
  have e : (b.at' p + j.scale (1 / m) + (j - n.scale 0).scale (l * l / i)).dot n = (b.at' p).dot n := by
    have : (b.at' p + j.scale (1 / m) + (j - n.scale 0).scale (l * l / i)).dot n = (b.at' p).dot n + j.dot n * (1 / m + l * l / i) := by
      simp [Vec3.dot_def]; ring
    rw [this, hj]; ring
  rw [e]
  ext <;> simp <;> ring

theorem slip_perp (hn : n.dot n = 1) : (slip b p n).dot n = 0 := by
  unfold slip
  rw [Vec3.sub_dot, Vec3.scale_dot, hn]; ring

theorem Treads.sliding_first (h : Treads b f p n l m i) : Body.sliding b f p n = slip b p n ∧ Body.closing b f p n = (b.at' p).dot n := by
  unfold Body.sliding Body.closing slip
  rw [h.ground.at]
  have : b.at' p - Vec3.o = b.at' p := by ext <;> simp
  rw [this]; exact ⟨rfl, rfl⟩

theorem Treads.sliding_second (h : Treads b f p n l m i) : Body.sliding f b p n = -slip b p n ∧ Body.closing f b p n = -(b.at' p).dot n := by
  unfold Body.sliding Body.closing slip
  rw [h.ground.at]
  have e : (Vec3.o - b.at' p).dot n = -(b.at' p).dot n := by simp [Vec3.dot_def]; ring
  rw [e]
  exact ⟨by ext <;> simp <;> ring, rfl⟩

theorem Treads.denom (h : Treads b f p n l m i) : Body.denom b f p n = 1 / m ∧ Body.denom f b p n = 1 / m := by
  unfold Body.denom
  have e : f.comply p n = 0 := by unfold Body.comply; rw [h.ground.im, h.ground.W]; simp
  rw [h.comply, e]; exact ⟨add_zero _, zero_add _⟩

theorem Vec3.len_neg' (u : Vec3 ℝ) : (-u).len = u.len := by unfold Vec3.len; congr 1; simp [Vec3.dot_def]

/-- An impulse along the normal and one across it. -/
theorem Treads.kicks (h : Treads b f p n l m i) (S : Vec3 ℝ) (x y : ℝ) :
    ((b.kick p (n.scale x)).kick p (S.scale y)).vel = b.vel + n.scale (x / m) + S.scale (y / m) ∧
    ((b.kick p (n.scale x)).kick p (S.scale y)).ang = b.ang + ((n.scale l).cross S).scale (y / i) := by
  have h1 : ((b.kick p (n.scale x)).kick p (S.scale y)).vel = b.vel + (n.scale x).scale b.im + (S.scale y).scale b.im := rfl
  have h2 : ((b.kick p (n.scale x)).kick p (S.scale y)).ang = b.ang + b.W.mulVec ((p - b.pos).cross (n.scale x)) + b.W.mulVec ((p - b.pos).cross (S.scale y)) := rfl
  rw [h1, h2, h.im, h.W, h.W, h.below]
  constructor <;> ext <;> simp <;> ring

/-- **C93**, what a contact does to the slip of a ball that touches immovable ground. `u` is the speed towards the ground before the contact. The slip `S` becomes
`(1 - K x) S`, where `K` is the yielding and `x` is 1 or, if that is less, `μ (1 + r) u / |S|`; `μ` is the coefficient chosen (C92). The friction changes the velocity by `-x S / m` and the spin accordingly. This is for contacts that list the
ball first. -/
theorem C93_slip_first (h : Impact e1 e2 k b f p n r s d) (hT : Treads b f p n l m i) {t : ℝ} (ht : k.frictionThreshold = fin t) (rt ta : XReal) (i1 i2 : StepInfo XReal) :
    let S := slip b p n
    let u := |(b.at' p).dot n|
    let μ := if |r| * u < t * S.len then s else d
    ∃ b' : Body, b'.Of (Step.respondPair k rt ta e1 e2 i1 i2).first ∧ Treads b' f p n l m i ∧ b'.pos = b.pos ∧
      slip b' p n = rubbed (yielding l m i) (|1 + r| * u * μ) S ∧ (b'.at' p).dot n = -r * (b.at' p).dot n ∧
      b'.vel = b.vel - n.scale ((1 + r) * (b.at' p).dot n) - S.scale (min 1 (|1 + r| * u * μ / S.len) / m) ∧
      b'.ang = b.ang - ((n.scale l).cross S).scale (min 1 (|1 + r| * u * μ / S.len) / i) := by
  intro S u μ
  have hm := hT.positive.1
  obtain ⟨x, hx⟩ : ∃ x, normalImpulse b f r p n = n.scale x := ⟨_, rfl⟩
  have hxv : x = -(1 + r) * (b.at' p).dot n * m := by
    have e : normalImpulse b f r p n = n.scale (-(1 + r) * (b.at' p).dot n * m) := by
      unfold normalImpulse; rw [hT.sliding_first.2, hT.denom.1]; congr 1; field_simp
    rw [hx] at e
    have := congrArg (Vec3.dot n) e
    simpa [Vec3.dot_scale, h.unit] using this
  have hJ : (normalImpulse b f r p n).len = |1 + r| * u * m := by
    have h1 : n.len = 1 := by unfold Vec3.len; rw [h.unit, Real.sqrt_one]
    rw [hx, Vec3.len_scale, h1, one_mul, hxv, abs_mul, abs_mul, abs_neg, abs_of_pos hm]
  have hS1 : slip (b.kick p (normalImpulse b f r p n)) p n = S := by rw [hx]; exact slip_kick_along hT h.unit x
  have hTk := hT.kick (normalImpulse b f r p n)
  have hsl : Body.sliding (b.kick p (normalImpulse b f r p n)) (f.kick p (-normalImpulse b f r p n)) p n = S := by
    rw [hT.ground.kick, hTk.sliding_first.1, hS1]
  have hcl : ((b.kick p (normalImpulse b f r p n)).at' p).dot n = -r * (b.at' p).dot n := by
    have := Body.restitution (b1 := b) (b2 := f) h.unit h.denom_pos.ne' r
    rwa [hT.ground.kick, hTk.sliding_first.2, hT.sliding_first.2] at this
  have hSn : S.dot n = 0 := slip_perp h.unit
  have finish : ∀ y : ℝ, (((b.kick p (normalImpulse b f r p n)).kick p (S.scale y)).at' p).dot n = -r * (b.at' p).dot n := by
    intro y
    rw [hTk.at_kick h.unit, ← hcl]
    have e : ∀ a : Vec3 ℝ, (a + (S.scale y).scale (1 / m) + (S.scale y - n.scale ((S.scale y).dot n)).scale (l * l / i)).dot n = a.dot n := by
      intro a
      rw [Vec3.scale_dot, hSn]
      have : (a + (S.scale y).scale (1 / m) + (S.scale y - n.scale (0 * y)).scale (l * l / i)).dot n = a.dot n + S.dot n * (y * (1 / m + l * l / i)) := by
        simp [Vec3.dot_def]; ring
      rw [this, hSn]; ring
    exact e _
  have last : ∀ y : ℝ, ((b.kick p (normalImpulse b f r p n)).kick p (S.scale y)).vel = b.vel - n.scale ((1 + r) * (b.at' p).dot n) - S.scale (-y / m) ∧
      ((b.kick p (normalImpulse b f r p n)).kick p (S.scale y)).ang = b.ang - ((n.scale l).cross S).scale (-y / i) := by
    intro y
    have e : x / m = -((1 + r) * (b.at' p).dot n) := by rw [hxv]; field_simp
    obtain ⟨k1, k2⟩ := hT.kicks S x y
    rw [hx, k1, k2, e]
    constructor <;> ext <;> simp <;> ring
  by_cases hS : S = .o
  · obtain ⟨ν, F, -, hF, h1, -⟩ := h.respond rt ta i1 i2
    have hF : F = .o := by rw [hF]; unfold Body.frictionImpulse; rw [hsl, hS]; ext <;> simp
    have f0 : F = S.scale 0 := by rw [hF, hS]; ext <;> simp
    refine ⟨_, h1, hTk.kick F, rfl, ?_, by rw [f0]; exact finish 0, ?_, ?_⟩
    · rw [hF, Body.kick_o, hS1, hS]
      unfold rubbed; ext <;> simp
    · rw [f0, (last 0).1, hS]; ext <;> simp
    · rw [f0, (last 0).2, hS]; ext <;> simp
  · have hSl : S.len ≠ 0 := fun h => hS ((Vec3.len_eq_zero _).mp h)
    have := C92_coefficient_partial h ht rt ta i1 i2
    simp only at this
    rw [hsl, hT.sliding_first.2, abs_mul, hJ, hT.denom.1] at this
    obtain ⟨h1, -⟩ := this hS
    have e : |1 + r| * u * m * μ * (1 / m) / S.len = |1 + r| * u * μ / S.len := by field_simp
    refine ⟨_, h1, hTk.kick _, rfl, ?_, finish _, (last _).1.trans ?_, (last _).2.trans ?_⟩
    rotate_left
    · rw [neg_neg, ← e]
    · rw [neg_neg, ← e]
    rw [slip_kick_across hTk h.unit (by rw [Vec3.scale_dot, hSn, zero_mul]), hS1]
    show S + (S.scale (-(min 1 (|1 + r| * u * m * μ * (1 / m) / S.len)))).scale _ = _
    rw [e]
    unfold rubbed
    ext <;> simp <;> ring

/-- **C93**, the same for contacts that list the ball second. -/
theorem C93_slip_second (h : Impact e1 e2 k f b p n r s d) (hT : Treads b f p n l m i) {t : ℝ} (ht : k.frictionThreshold = fin t) (rt ta : XReal) (i1 i2 : StepInfo XReal) :
    let S := slip b p n
    let u := |(b.at' p).dot n|
    let μ := if |r| * u < t * S.len then s else d
    ∃ b' : Body, b'.Of (Step.respondPair k rt ta e1 e2 i1 i2).second ∧ Treads b' f p n l m i ∧ b'.pos = b.pos ∧
      slip b' p n = rubbed (yielding l m i) (|1 + r| * u * μ) S ∧ (b'.at' p).dot n = -r * (b.at' p).dot n ∧
      b'.vel = b.vel - n.scale ((1 + r) * (b.at' p).dot n) - S.scale (min 1 (|1 + r| * u * μ / S.len) / m) ∧
      b'.ang = b.ang - ((n.scale l).cross S).scale (min 1 (|1 + r| * u * μ / S.len) / i) := by
  intro S u μ
  have hm := hT.positive.1
  obtain ⟨x, hx⟩ : ∃ x, normalImpulse f b r p n = n.scale x := ⟨_, rfl⟩
  have hxv : x = (1 + r) * (b.at' p).dot n * m := by
    have e : normalImpulse f b r p n = n.scale ((1 + r) * (b.at' p).dot n * m) := by
      unfold normalImpulse; rw [hT.sliding_second.2, hT.denom.2]; congr 1; field_simp
    rw [hx] at e
    have := congrArg (Vec3.dot n) e
    simpa [Vec3.dot_scale, h.unit] using this
  have hxn : -normalImpulse f b r p n = n.scale (-x) := by rw [hx]; ext <;> simp
  have hJ : (normalImpulse f b r p n).len = |1 + r| * u * m := by
    have h1 : n.len = 1 := by unfold Vec3.len; rw [h.unit, Real.sqrt_one]
    rw [hx, Vec3.len_scale, h1, one_mul, hxv, abs_mul, abs_mul, abs_of_pos hm]
  have hS1 : slip (b.kick p (-normalImpulse f b r p n)) p n = S := by rw [hxn]; exact slip_kick_along hT h.unit _
  have hTk := hT.kick (-normalImpulse f b r p n)
  have hsl : Body.sliding (f.kick p (normalImpulse f b r p n)) (b.kick p (-normalImpulse f b r p n)) p n = -S := by
    rw [hT.ground.kick, hTk.sliding_second.1, hS1]
  have hcl : ((b.kick p (-normalImpulse f b r p n)).at' p).dot n = -r * (b.at' p).dot n := by
    have := Body.restitution (b1 := f) (b2 := b) h.unit h.denom_pos.ne' r
    rw [hT.ground.kick, hTk.sliding_second.2, hT.sliding_second.2] at this
    linarith
  have hSn : S.dot n = 0 := slip_perp h.unit
  have finish : ∀ y : ℝ, (((b.kick p (-normalImpulse f b r p n)).kick p (S.scale y)).at' p).dot n = -r * (b.at' p).dot n := by
    intro y
    rw [hTk.at_kick h.unit, ← hcl]
    have e : ∀ a : Vec3 ℝ, (a + (S.scale y).scale (1 / m) + (S.scale y - n.scale ((S.scale y).dot n)).scale (l * l / i)).dot n = a.dot n := by
      intro a
      rw [Vec3.scale_dot, hSn]
      have : (a + (S.scale y).scale (1 / m) + (S.scale y - n.scale (0 * y)).scale (l * l / i)).dot n = a.dot n + S.dot n * (y * (1 / m + l * l / i)) := by
        simp [Vec3.dot_def]; ring
      rw [this, hSn]; ring
    exact e _
  have last : ∀ y : ℝ, ((b.kick p (-normalImpulse f b r p n)).kick p (S.scale y)).vel = b.vel - n.scale ((1 + r) * (b.at' p).dot n) - S.scale (-y / m) ∧
      ((b.kick p (-normalImpulse f b r p n)).kick p (S.scale y)).ang = b.ang - ((n.scale l).cross S).scale (-y / i) := by
    intro y
    have e : -x / m = -((1 + r) * (b.at' p).dot n) := by rw [hxv]; field_simp
    obtain ⟨k1, k2⟩ := hT.kicks S (-x) y
    rw [hxn, k1, k2, e]
    constructor <;> ext <;> simp <;> ring
  have hneg : ∀ y : ℝ, -((-S).scale y) = S.scale y := fun y => by ext <;> simp
  by_cases hS : S = .o
  · obtain ⟨ν, F, -, hF, -, h1⟩ := h.respond rt ta i1 i2
    have hF : F = .o := by rw [hF]; unfold Body.frictionImpulse; rw [hsl, hS]; ext <;> simp
    have f0 : -F = S.scale 0 := by rw [hF, hS]; ext <;> simp
    have f1 : -F = .o := by rw [hF]; ext <;> simp
    refine ⟨_, h1, hTk.kick (-F), rfl, ?_, by rw [f0]; exact finish 0, ?_, ?_⟩
    · rw [f1, Body.kick_o, hS1, hS]
      unfold rubbed; ext <;> simp
    · rw [f0, (last 0).1, hS]; ext <;> simp
    · rw [f0, (last 0).2, hS]; ext <;> simp
  · have hSl : S.len ≠ 0 := fun h => hS ((Vec3.len_eq_zero _).mp h)
    have hS' : -S ≠ .o := fun h => hSl (by rw [← Vec3.len_neg', h]; simp [Vec3.len, Vec3.dot_def])
    have := C92_coefficient_partial h ht rt ta i1 i2
    simp only at this
    rw [hsl, hT.sliding_second.2, abs_mul, abs_neg, Vec3.len_neg', hJ, hT.denom.2, hneg] at this
    obtain ⟨-, h1⟩ := this hS'
    have e : |1 + r| * u * m * μ * (1 / m) / S.len = |1 + r| * u * μ / S.len := by field_simp
    refine ⟨_, h1, hTk.kick _, rfl, ?_, finish _, (last _).1.trans ?_, (last _).2.trans ?_⟩
    rotate_left
    · rw [neg_neg, ← e]
    · rw [neg_neg, ← e]
    rw [slip_kick_across hTk h.unit (by rw [Vec3.scale_dot, hSn, zero_mul]), hS1]
    show S + (S.scale (-(min 1 (|1 + r| * u * m * μ * (1 / m) / S.len)))).scale _ = _
    rw [e]
    unfold rubbed
    ext <;> simp <;> ring

/-! ### One contact after the other -/

theorem rubbed_len (K c : ℝ) (S : Vec3 ℝ) : (rubbed K c S).len = |1 - K * min 1 (c / S.len)| * S.len := by
  unfold rubbed; rw [Vec3.len_scale, mul_comm]

/-- A contact of a ball with the ground, as the code responds to it: `b` before, `b'` after. The friction impulse it allows, divided by the mass, is at least `c`, whichever
of the two coefficients is chosen. -/
def Rubs (n : Vec3 ℝ) (l m i c : ℝ) (b b' : Body) : Prop :=
  ∃ (e1 e2 : InternalEntity XReal) (k : Step.Candidate XReal) (f : Body) (p : Vec3 ℝ) (r s d t : ℝ) (rt ta : XReal) (i1 i2 : StepInfo XReal),
    Treads b f p n l m i ∧ k.frictionThreshold = fin t ∧
    c ≤ |1 + r| * |(b.at' p).dot n| * s ∧ c ≤ |1 + r| * |(b.at' p).dot n| * d ∧
    (Impact e1 e2 k b f p n r s d ∧ b'.Of (Step.respondPair k rt ta e1 e2 i1 i2).first ∨
     Impact e1 e2 k f b p n r s d ∧ b'.Of (Step.respondPair k rt ta e1 e2 i1 i2).second)

/-- What happens between contacts: the velocity changes along `n` only, as by weight; the spin does not change. Where the body is does not matter. -/
structure Hops (n : Vec3 ℝ) (b b' : Body) : Prop where
  mass : b'.mass = b.mass
  inertia : b'.inertia = b.inertia
  spin : b'.ang = b.ang
  fall : ∃ w : ℝ, b'.vel = b.vel + n.scale w

/-- The velocity along the ground of the lowest point of a ball: `l` along `n` from its centre. -/
def skid (n : Vec3 ℝ) (l : ℝ) (b : Body) : Vec3 ℝ := slip b (b.pos + n.scale l) n

theorem Of.unique {b b' : Body} {e : InternalEntity XReal} (h : b.Of e) (h' : b'.Of e) : b = b' := by
  have h1 := h.mass.symm.trans h'.mass
  have h2 := (Mat3.f_inj _ _).mp (h.inertia.symm.trans h'.inertia)
  have h3 := (Vec3.f_inj _ _).mp (h.pos.symm.trans h'.pos)
  have h4 := (Vec3.f_inj _ _).mp (h.vel.symm.trans h'.vel)
  have h5 := (Vec3.f_inj _ _).mp (h.ang.symm.trans h'.ang)
  obtain ⟨m1, I1, x1, v1, a1⟩ := b
  obtain ⟨m2, I2, x2, v2, a2⟩ := b'
  simp only at h1 h2 h3 h4 h5
  subst h2 h3 h4 h5
  cases m1 <;> cases m2 <;> simp at h1 ⊢
  exact h1

theorem Treads.skid (h : Treads b f p n l m i) : skid n l b = slip b p n := by
  unfold Props.skid
  have : b.pos + n.scale l = p := by rw [← h.below]; ext <;> simp
  rw [this]

theorem Hops.skid {b b' : Body} (hn : n.dot n = 1) (h : Hops n b b') : skid n l b' = skid n l b := by
  obtain ⟨w, hw⟩ := h.fall
  unfold Props.skid slip Body.at'
  rw [hw, h.spin]
  have e : ∀ b : Body, b.pos + n.scale l - b.pos = n.scale l := fun b => by ext <;> simp
  rw [e, e]
  have e2 : (b.vel + n.scale w + b.ang.cross (n.scale l)).dot n = (b.vel + b.ang.cross (n.scale l)).dot n + w := by
    have : (b.vel + n.scale w + b.ang.cross (n.scale l)).dot n = (b.vel + b.ang.cross (n.scale l)).dot n + w * n.dot n := by simp [Vec3.dot_def]; ring
    rw [this, hn, mul_one]
  rw [e2]
  ext <;> simp <;> ring

theorem Rubs.law {b b' : Body} {c : ℝ} (h : Rubs n l m i c b b') : ∃ C : ℝ, c ≤ C ∧ skid n l b' = rubbed (yielding l m i) C (skid n l b) ∧ n.dot n = 1 ∧ 0 < m ∧ 0 ≤ i := by
  obtain ⟨e1, e2, k, f, p, r, s, d, t, rt, ta, i1, i2, hT, ht, c1, c2, ⟨hI, hb⟩ | ⟨hI, hb⟩⟩ := h
  · obtain ⟨b2, o2, T2, -, hs, -⟩ := C93_slip_first hI hT ht rt ta i1 i2
    obtain rfl := Of.unique hb o2
    refine ⟨_, ?_, by rw [T2.skid, hT.skid]; exact hs, hI.unit, hT.positive⟩
    split <;> assumption
  · obtain ⟨b2, o2, T2, -, hs, -⟩ := C93_slip_second hI hT ht rt ta i1 i2
    obtain rfl := Of.unique hb o2
    refine ⟨_, ?_, by rw [T2.skid, hT.skid]; exact hs, hI.unit, hT.positive⟩
    split <;> assumption

theorem yielding_pos (hm : 0 < m) (hi : 0 ≤ i) : 0 < yielding l m i := by
  unfold yielding
  have := mul_self_nonneg l
  positivity

/-- A slip that is rubbed again and again goes to zero if the yielding is less than 2. -/
theorem rubbed_run {K c : ℝ} (hc : 0 < c) (hKp : 0 < K) (hK : K < 2) {T : Nat → Vec3 ℝ} (law : ∀ k, ∃ C, c ≤ C ∧ T (k + 1) = rubbed K C (T k)) :
    ∃ q : ℝ, 0 ≤ q ∧ q < 1 ∧ ∀ k, (T k).len ≤ q ^ k * (T 0).len := by
  set a0 := (T 0).len with ha0
  have ha0n : 0 ≤ a0 := Vec3.len_nonneg _
  rcases ha0n.eq_or_lt with h0 | h0
  · refine ⟨0, le_refl _, zero_lt_one, fun k => ?_⟩
    rw [← h0, mul_zero]
    induction k with
    | zero => exact h0.symm.le
    | succ k ih =>
      obtain ⟨C, hC, e⟩ := law k
      have : (T k).len = 0 := le_antisymm ih (Vec3.len_nonneg _)
      rw [e, rubbed_len, this, mul_zero]
  · set x := min 1 (c / a0) with hx
    have hx0 : 0 < x := lt_min zero_lt_one (div_pos hc h0)
    have hx1 : x ≤ 1 := min_le_left _ _
    set q := max |1 - K * x| |1 - K| with hq
    have hq1 : q < 1 := by
      refine max_lt ?_ ?_ <;> rw [abs_lt]
      · constructor <;> nlinarith
      · constructor <;> nlinarith
    have hq0 : 0 ≤ q := le_trans (abs_nonneg _) (le_max_left _ _)
    refine ⟨q, hq0, hq1, fun k => ?_⟩
    induction k with
    | zero => simp [ha0]
    | succ k ih =>
      obtain ⟨C, hC, e⟩ := law k
      rw [e, rubbed_len]
      set a := (T k).len with ha
      have han : 0 ≤ a := Vec3.len_nonneg _
      rcases han.eq_or_lt with hz | hz
      · rw [← hz, mul_zero]; positivity
      have hle : a ≤ a0 := le_trans ih (by
        have : q ^ k ≤ 1 := pow_le_one₀ hq0 hq1.le
        nlinarith)
      have hy : x ≤ min 1 (C / a) := by
        refine le_min hx1 (le_trans (min_le_right _ _) ?_)
        exact div_le_div₀ (le_trans hc.le hC) hC hz hle
      have hy1 : min 1 (C / a) ≤ 1 := min_le_left _ _
      have hb : |1 - K * min 1 (C / a)| ≤ q := by
        set y := min 1 (C / a)
        rw [abs_le]
        have m1 : 1 - K * y ≤ 1 - K * x := by nlinarith
        have m2 : 1 - K ≤ 1 - K * y := by nlinarith
        have l1 : |1 - K * x| ≤ q := le_max_left _ _
        have l2 : |1 - K| ≤ q := le_max_right _ _
        exact ⟨by linarith [(abs_le.mp l2).1], by linarith [(abs_le.mp l1).2]⟩
      calc |1 - K * min 1 (C / a)| * a ≤ q * a := mul_le_mul_of_nonneg_right hb han
        _ ≤ q * (q ^ k * a0) := mul_le_mul_of_nonneg_left ih hq0
        _ = q ^ (k + 1) * a0 := by ring

/-- **C93 (partial).** A ball that touches the ground again and again, with contacts that all allow some friction: if its yielding is less than 2, then the slip goes to zero,
that is, the ball ends up rolling; and it does so at least as fast as the powers of a number less than 1. If the yielding is at most 1, then the slip never changes its
direction. Missing: balls that yield by 2 or more (`C93_false`). -/
theorem C93_rolls_partial {c : ℝ} (hc : 0 < c) (hK : yielding l m i < 2) {B : Nat → Body} (run : ∀ k, ∃ b', Rubs n l m i c (B k) b' ∧ Hops n b' (B (k + 1))) :
    (∃ q : ℝ, 0 ≤ q ∧ q < 1 ∧ ∀ k, (skid n l (B k)).len ≤ q ^ k * (skid n l (B 0)).len) ∧
    Filter.Tendsto (fun k => (skid n l (B k)).len) Filter.atTop (nhds 0) ∧
    (yielding l m i ≤ 1 → ∀ k, ∃ x : ℝ, 0 ≤ x ∧ x ≤ 1 ∧ skid n l (B (k + 1)) = (skid n l (B k)).scale x) := by
  set K := yielding l m i with hKd
  have law : ∀ k, ∃ C, c ≤ C ∧ skid n l (B (k + 1)) = rubbed K C (skid n l (B k)) := by
    intro k
    obtain ⟨b', hR, hH⟩ := run k
    obtain ⟨C, hC, e, hn, -⟩ := hR.law
    exact ⟨C, hC, by rw [hH.skid hn, e]⟩
  have hKp : 0 < K := by
    obtain ⟨b', hR, -⟩ := run 0
    obtain ⟨-, -, -, -, hm, hi⟩ := hR.law
    exact yielding_pos hm hi
  have share : ∀ {C a : ℝ}, c ≤ C → 0 ≤ a → 0 ≤ min 1 (C / a) ∧ min 1 (C / a) ≤ 1 := fun hC ha =>
    ⟨le_min zero_le_one (div_nonneg (le_trans hc.le hC) ha), min_le_left _ _⟩
  have main : ∃ q : ℝ, 0 ≤ q ∧ q < 1 ∧ ∀ k, (skid n l (B k)).len ≤ q ^ k * (skid n l (B 0)).len := rubbed_run hc hKp hK law
  refine ⟨main, ?_, fun h1 k => ?_⟩
  · obtain ⟨q, h0, h1, hk⟩ := main
    have lim : Filter.Tendsto (fun k => q ^ k * (skid n l (B 0)).len) Filter.atTop (nhds 0) := by
      have := (tendsto_pow_atTop_nhds_zero_of_lt_one h0 h1).mul_const (skid n l (B 0)).len
      rwa [zero_mul] at this
    exact squeeze_zero (fun k => Vec3.len_nonneg _) hk lim
  · obtain ⟨C, hC, e⟩ := law k
    obtain ⟨y0, y1⟩ := share hC (Vec3.len_nonneg (skid n l (B k)))
    refine ⟨_, ?_, ?_, e⟩
    · nlinarith
    · nlinarith

/-- **C93 is false** for balls that yield by more than 2: the slower a ball slips, compared with the friction the contacts allow, the more its slip grows, and it changes its
direction at every contact. So such a ball never comes to roll, unless it happens to slip at exactly one of certain speeds. -/
theorem C93_grows {c : ℝ} (hK : 2 < yielding l m i) {b b' : Body} (h : Rubs n l m i c b b') (small : (skid n l b).len ≤ c) :
    skid n l b' = (skid n l b).scale (-(yielding l m i - 1)) ∧ (skid n l b ≠ .o → (skid n l b).len < (skid n l b').len) := by
  obtain ⟨C, hC, e, -⟩ := h.law
  have hS : skid n l b' = (skid n l b).scale (-(yielding l m i - 1)) := by
    by_cases h0 : (skid n l b).len = 0
    · rw [e, (Vec3.len_eq_zero _).mp h0]; unfold rubbed; ext <;> simp
    · have hp : 0 < (skid n l b).len := lt_of_le_of_ne (Vec3.len_nonneg _) (Ne.symm h0)
      rw [e]; unfold rubbed
      rw [min_eq_left (by rw [le_div_iff₀ hp]; linarith)]
      congr 1; ring
  refine ⟨hS, fun h0 => ?_⟩
  have hp : 0 < (skid n l b).len := lt_of_le_of_ne (Vec3.len_nonneg _) (fun h => h0 ((Vec3.len_eq_zero _).mp h.symm))
  rw [hS, Vec3.len_scale, abs_neg, abs_of_pos (by linarith)]
  nlinarith

/-- The yielding of a ball with the moment of inertia that the code gives to a sphere collider of mass `m` and radius `r`. -/
theorem C93_yielding (c : SphereCollider XReal) {m r : ℝ} (hm : c.mass = fin m) (hr : c.radius = fin r) (hv : c.isValid = true) (m0 : 0 < m) :
    ∃ i, (Collider.sphere c).momentOfInertia = (Mat3.diag ⟨i, i, i⟩).f ∧ yielding r m i = (1 + 5 / 2 * r) / m ∧ yielding (-r) m i = (1 + 5 / 2 * r) / m := by
  refine ⟨2/5 * m * r, (C18_sphere_partial c hm hr hv).1, ?_⟩
  have r0 : r ≠ 0 := by
    simp [SphereCollider.isValid, MINIMUM_RADIUS, hr] at hv
    rintro rfl
    linarith [hv.1]
  unfold yielding
  constructor <;> field_simp <;> ring

/-! ### Concrete cases -/

/-- A ball of mass `m` and moment of inertia `i` that comes down at 1 m/s. -/
structure Descends (n : Vec3 ℝ) (m i : ℝ) (b : Body) : Prop where
  mass : b.mass = some m
  inertia : b.inertia = Mat3.diag ⟨i, i, i⟩
  speed : b.vel.dot n = -1

/-- The record of a step of an entity that has not moved. -/
noncomputable def idle : StepInfo XReal := ⟨⟨0, 0⟩, Vec3.zeros, Vec3.zeros, []⟩

/-- Such a ball touches the ground (with friction coefficients 1, threshold 1 and no restitution) and comes down at 1 m/s again. -/
theorem Descends.next (hn : n.dot n = 1) (hm : 0 < m) (hi : 0 < i) (h : Descends n m i b) :
    ∃ b1, Descends n m i b1 ∧ skid n l b1 = rubbed (yielding l m i) 1 (skid n l b) ∧ ∃ b', Rubs n l m i 1 b b' ∧ Hops n b' b1 := by
  have hdet : (Mat3.o : Mat3 ℝ).det = 0 := by norm_num [Mat3.det, Mat3.o]
  have hW : (Mat3.o : Mat3 ℝ).inv = Mat3.o := Mat3.inv_of_det hdet
  obtain ⟨bm, bI, x, v, a⟩ := b
  obtain ⟨h1, h2, h3⟩ := h
  simp only at h1 h2 h3
  subst h1 h2
  set p := x + n.scale l with hp
  have hT : Treads ⟨some m, Mat3.diag ⟨i, i, i⟩, x, v, a⟩ ⟨none, Mat3.o, Vec3.o, Vec3.o, Vec3.o⟩ p n l m i :=
    ⟨rfl, rfl, ⟨hm, hi.le⟩, by rw [hp]; ext <;> simp, ⟨rfl, hW, rfl, rfl⟩⟩
  have hI : Impact (entityOf (fin m) (Mat3.diag ⟨i, i, i⟩) x v a) (entityOf posInf Mat3.o Vec3.o Vec3.o Vec3.o) { hitAt p n 0 1 1 with frictionThreshold := fin 1 }
      ⟨some m, Mat3.diag ⟨i, i, i⟩, x, v, a⟩ ⟨none, Mat3.o, Vec3.o, Vec3.o, Vec3.o⟩ p n 0 1 1 :=
    ⟨entityOf_body _ _ _ _ _, entityOf_inf _ _ _ _, ⟨by rintro _ ⟨⟩; exact hm, diag_symm _, diag_psd hi.le hi.le hi.le⟩, ⟨by rintro m ⟨⟩, Mat3.symm_o, Mat3.psd_o⟩,
      Or.inl (by simp), rfl, rfl, hn, rfl, rfl, rfl⟩
  have hat : (Body.at' ⟨some m, Mat3.diag ⟨i, i, i⟩, x, v, a⟩ p).dot n = -1 := by
    unfold Body.at'
    rw [hT.below]
    show (v + a.cross (n.scale l)).dot n = -1
    have : (v + a.cross (n.scale l)).dot n = v.dot n := by simp [Vec3.dot_def]; ring
    rw [this, h3]
  obtain ⟨b', o1, T', -, hs, hv, -⟩ := C93_slip_first hI hT (t := 1) rfl zero zero idle idle
  rw [hat] at hs hv
  have hb' : b'.vel.dot n = 0 := by
    have : (b'.at' p).dot n = b'.vel.dot n := by
      unfold Body.at'
      rw [T'.below]; simp [Vec3.dot_def]; ring
    rw [← this, hv]; norm_num
  have hH : Hops n b' { b' with vel := b'.vel + n.scale (-1) } := ⟨rfl, rfl, rfl, -1, rfl⟩
  refine ⟨{ b' with vel := b'.vel + n.scale (-1) }, ⟨T'.mass, T'.inertia, ?_⟩, ?_, b', ?_, hH⟩
  · show (b'.vel + n.scale (-1)).dot n = -1
    rw [Vec3.add_dot, Vec3.scale_dot, hb', hn]; norm_num
  · rw [hH.skid hn, T'.skid, hT.skid, hs]
    norm_num
  · refine ⟨_, _, _, _, p, 0, 1, 1, 1, zero, zero, idle, idle, hT, rfl, ?_, ?_, Or.inl ⟨hI, o1⟩⟩ <;> rw [hat] <;> norm_num

theorem Descends.run (hn : n.dot n = 1) (hm : 0 < m) (hi : 0 < i) (h : Descends n m i b) : ∃ B : Nat → Body, B 0 = b ∧
    ∀ k, skid n l (B (k + 1)) = rubbed (yielding l m i) 1 (skid n l (B k)) ∧ ∃ b', Rubs n l m i 1 (B k) b' ∧ Hops n b' (B (k + 1)) := by
  choose g hg using fun x : { b : Body // Descends n m i b } => x.2.next (l := l) hn hm hi
  let B : Nat → { b : Body // Descends n m i b } := fun k => Nat.rec ⟨b, h⟩ (fun _ x => ⟨g x, (hg x).1⟩) k
  exact ⟨fun k => (B k).1, rfl, fun k => (hg (B k)).2⟩

/-- The hypotheses of `C93_rolls_partial` are met: a ball of 10 kg and radius 1 that slides at 3 m/s. -/
theorem C93_applies : ∃ (n : Vec3 ℝ) (l m i : ℝ) (B : Nat → Body), yielding l m i < 1 ∧ (skid n l (B 0)).len = 3 ∧
    ∀ k, ∃ b', Rubs n l m i 1 (B k) b' ∧ Hops n b' (B (k + 1)) := by
  obtain ⟨B, h0, hB⟩ := Descends.run (n := ⟨0, 1, 0⟩) (l := -1) (m := 10) (i := 4) (b := ⟨some 10, Mat3.diag ⟨4, 4, 4⟩, Vec3.o, ⟨3, -1, 0⟩, Vec3.o⟩)
    (by norm_num [Vec3.dot_def]) (by norm_num) (by norm_num) ⟨rfl, rfl, by norm_num [Vec3.dot_def]⟩
  refine ⟨_, _, _, _, B, by norm_num [yielding], ?_, fun k => (hB k).2⟩
  rw [h0]
  refine len_of (by norm_num) ?_
  norm_num [skid, slip, Body.at', Vec3.dot_def]

/-- **C93 is false**: a ball of 1 kg and radius 1, with the moment of inertia the code gives it, that comes down at 1 m/s every time (friction coefficients 1, no restitution)
slips at 7/4 m/s forever, to one side and to the other. -/
theorem C93_false : ∃ (c : SphereCollider XReal) (n : Vec3 ℝ) (i : ℝ) (B : Nat → Body), c.isValid = true ∧ c.mass = fin 1 ∧ c.radius = fin 1 ∧
    (Collider.sphere c).momentOfInertia = (Mat3.diag ⟨i, i, i⟩).f ∧ (∀ k, ∃ b', Rubs n (-1) 1 i 1 (B k) b' ∧ Hops n b' (B (k + 1))) ∧
    ∀ k, (skid n (-1) (B k)).len = 7 / 4 ∧ skid n (-1) (B (k + 1)) = -skid n (-1) (B k) := by
  have hv : ({ SphereCollider.new (fin 1) with mass := fin 1 } : SphereCollider XReal).isValid = true := by
    simp [SphereCollider.isValid, SphereCollider.new, MINIMUM_RADIUS]
    norm_num
  obtain ⟨i, hi, -, hy⟩ := C93_yielding { SphereCollider.new (fin 1) with mass := fin 1 } (m := 1) (r := 1) rfl rfl hv one_pos
  have hi25 : i = 2 / 5 := by
    have := hi.symm.trans (C18_sphere_partial { SphereCollider.new (fin 1) with mass := fin 1 } (m := 1) (r := 1) rfl rfl hv).1
    have := congrArg (fun a => a.r1.x) ((Mat3.f_inj _ _).mp this)
    simpa [Mat3.diag] using this
  obtain ⟨B, h0, hB⟩ := Descends.run (n := ⟨0, 1, 0⟩) (l := -1) (m := 1) (i := i) (b := ⟨some 1, Mat3.diag ⟨i, i, i⟩, Vec3.o, ⟨7 / 4, -1, 0⟩, Vec3.o⟩)
    (by norm_num [Vec3.dot_def]) (by norm_num) (by rw [hi25]; norm_num) ⟨rfl, rfl, by norm_num [Vec3.dot_def]⟩
  have step : ∀ k, (skid ⟨0, 1, 0⟩ (-1) (B k)).len = 7 / 4 → skid ⟨0, 1, 0⟩ (-1) (B (k + 1)) = -skid ⟨0, 1, 0⟩ (-1) (B k) := by
    intro k hk
    rw [(hB k).1, hy]
    unfold rubbed
    rw [hk, min_eq_right (by norm_num)]
    ext <;> simp <;> ring
  have len : ∀ k, (skid ⟨0, 1, 0⟩ (-1) (B k)).len = 7 / 4 := by
    intro k
    induction k with
    | zero =>
      rw [h0]
      refine len_of (by norm_num) ?_
      norm_num [skid, slip, Body.at', Vec3.dot_def]
    | succ k ih => rw [step k ih, Vec3.len_neg', ih]
  exact ⟨_, _, i, B, hv, rfl, rfl, hi, fun k => (hB k).2, fun k => ⟨len k, step k (len k)⟩⟩
end
end Fluffy.Props
