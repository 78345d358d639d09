import Verif.Props.Times
import Verif.Num.Fin
/-
C42-C44: collision detection between spheres and planes and between spheres, over exact numbers.
-/
set_option linter.unusedSectionVars false
set_option linter.unusedSimpArgs false
namespace Fluffy.Props
open Fluffy XReal

/-! ### Specification -/

/-- A point moving at constant speed during the step. -/
def along (start movement : Vec3 ℝ) (t : ℝ) : Vec3 ℝ := start + movement.scale t
/-- The point is in the closed ball. -/
def InBall (center : Vec3 ℝ) (radius : ℝ) (x : Vec3 ℝ) : Prop := (x - center).len ≤ radius
/-- The point is in the half-space behind the plane. -/
def Behind (point normal x : Vec3 ℝ) : Prop := (x - point).dot normal ≤ 0
/-- `t` is the first time of the step with the property. -/
def First (P : ℝ → Prop) (t : ℝ) : Prop := (0 ≤ t ∧ t ≤ 1 ∧ P t) ∧ ∀ u, 0 ≤ u → u ≤ 1 → P u → t ≤ u

/-- The moving ball and the moving half-space share a point at time `t`. -/
def BallMeetsPlane (r : ℝ) (c m p n v : Vec3 ℝ) (t : ℝ) : Prop :=
  ∃ x, InBall (along c m t) r x ∧ Behind (along p v t) n x
/-- The moving balls share a point at time `t`. -/
def BallsMeet (r1 : ℝ) (c1 m1 : Vec3 ℝ) (r2 : ℝ) (c2 m2 : Vec3 ℝ) (t : ℝ) : Prop :=
  ∃ x, InBall (along c1 m1 t) r1 x ∧ InBall (along c2 m2 t) r2 x

/-! ### Geometry -/

theorem inBall_iff {c x : Vec3 ℝ} {r : ℝ} (hr : 0 ≤ r) : InBall c r x ↔ (x - c).dot (x - c) ≤ r * r := by
  unfold InBall
  rw [← Vec3.len_sq]
  exact ⟨fun h => mul_self_le_mul_self (Vec3.len_nonneg _) h, fun h => abs_le_of_sq_le_sq' (by nlinarith) hr |>.2⟩

theorem cauchy (a b : Vec3 ℝ) : (a.dot b) * (a.dot b) ≤ a.dot a * b.dot b := by
  simp only [Vec3.dot_def]
  nlinarith [sq_nonneg (a.x * b.y - a.y * b.x), sq_nonneg (a.y * b.z - a.z * b.y), sq_nonneg (a.z * b.x - a.x * b.z)]

theorem dot_bound {a b : Vec3 ℝ} {r s : ℝ} (hr : 0 ≤ r) (hs : 0 ≤ s) (ha : a.dot a ≤ r * r) (hb : b.dot b ≤ s * s) :
    |a.dot b| ≤ r * s := by
  apply abs_le_of_sq_le_sq
  · have := cauchy a b
    have h1 : a.dot a * b.dot b ≤ (r * r) * (s * s) := mul_le_mul ha hb (Vec3.dot_self_nonneg b) (by positivity)
    nlinarith
  · positivity

/-- A ball and a half-space share a point exactly if the centre's height over the plane is at most the radius. -/
theorem ball_plane {r : ℝ} (hr : 0 ≤ r) {c p n : Vec3 ℝ} (hn : n.dot n = 1) :
    (∃ x, InBall c r x ∧ Behind p n x) ↔ (c - p).dot n ≤ r := by
  constructor
  · rintro ⟨x, h1, h2⟩
    rw [inBall_iff hr] at h1
    unfold Behind at h2
    have h3 := dot_bound (a := x - c) (b := n) hr zero_le_one h1 (by rw [hn]; norm_num)
    have h4 : (c - p).dot n = (x - p).dot n - (x - c).dot n := by simp [Vec3.dot_def]; ring
    have := (abs_le.mp h3).1
    rw [h4]; linarith
  · intro h
    refine ⟨c + n.scale (-r), (inBall_iff hr).mpr ?_, ?_⟩
    · have : (c + n.scale (-r) - c).dot (c + n.scale (-r) - c) = r * r * n.dot n := by simp [Vec3.dot_def]; ring
      rw [this, hn, mul_one]
    · unfold Behind
      have : (c + n.scale (-r) - p).dot n = (c - p).dot n - r * n.dot n := by simp [Vec3.dot_def]; ring
      rw [this, hn]; linarith

/-- Two balls share a point exactly if their centres are at most the sum of the radii apart. -/
theorem ball_ball {r s : ℝ} (hr : 0 ≤ r) (hs : 0 ≤ s) {c d : Vec3 ℝ} :
    (∃ x, InBall c r x ∧ InBall d s x) ↔ (c - d).dot (c - d) ≤ (r + s) * (r + s) := by
  constructor
  · rintro ⟨x, h1, h2⟩
    rw [inBall_iff hr] at h1
    rw [inBall_iff hs] at h2
    have h3 := dot_bound hr hs h1 h2
    have h4 : (c - d).dot (c - d) = (x - c).dot (x - c) + (x - d).dot (x - d) - 2 * (x - c).dot (x - d) := by
      simp [Vec3.dot_def]; ring
    have := (abs_le.mp h3).1
    rw [h4]; nlinarith
  · intro h
    rcases eq_or_lt_of_le (add_nonneg hr hs) with h0 | h0
    · have hcd : (c - d).dot (c - d) = 0 := le_antisymm (by rw [← h0] at h; simpa using h) (Vec3.dot_self_nonneg _)
      have he := (Vec3.dot_self_eq_zero _).mp hcd
      have hcc : c - c = Vec3.o := by ext <;> simp
      refine ⟨c, (inBall_iff hr).mpr ?_, (inBall_iff hs).mpr ?_⟩
      · rw [hcc, (Vec3.dot_self_eq_zero _).mpr rfl]; exact mul_self_nonneg r
      · rw [hcd]; exact mul_self_nonneg s
    · refine ⟨c + (d - c).scale (r / (r + s)), (inBall_iff hr).mpr ?_, (inBall_iff hs).mpr ?_⟩
      · have e : (c + (d - c).scale (r / (r + s)) - c).dot (c + (d - c).scale (r / (r + s)) - c) =
            (r / (r + s)) * (r / (r + s)) * (c - d).dot (c - d) := by simp [Vec3.dot_def]; ring
        rw [e]
        calc (r / (r + s)) * (r / (r + s)) * (c - d).dot (c - d) ≤ (r / (r + s)) * (r / (r + s)) * ((r + s) * (r + s)) :=
              mul_le_mul_of_nonneg_left h (mul_self_nonneg _)
          _ = r * r := by field_simp
      · have e : (c + (d - c).scale (r / (r + s)) - d).dot (c + (d - c).scale (r / (r + s)) - d) =
            (s / (r + s)) * (s / (r + s)) * (c - d).dot (c - d) := by
          have : r / (r + s) = 1 - s / (r + s) := by field_simp; ring
          rw [this]; simp [Vec3.dot_def]; ring
        rw [e]
        calc (s / (r + s)) * (s / (r + s)) * (c - d).dot (c - d) ≤ (s / (r + s)) * (s / (r + s)) * ((r + s) * (r + s)) :=
              mul_le_mul_of_nonneg_left h (mul_self_nonneg _)
          _ = s * s := by field_simp

/-! ### Times within the step -/

theorem unit_built : Built (unitRange : Range XReal) := .range _ _
theorem holds_unit {t : ℝ} : Holds (unitRange : Range XReal) (fin t) ↔ 0 ≤ t ∧ t ≤ 1 := by
  unfold unitRange
  rw [zero_eq, one_eq, holds_range]
  constructor
  · rintro (h | h)
    · exact h
    · constructor <;> linarith
  · exact Or.inl

theorem unit_times {R : Range XReal} (hR : Built R) :
    ((R.intersect unitRange).isEmpty = true → ∀ t : ℝ, 0 ≤ t → t ≤ 1 → ¬ Holds R (fin t)) ∧
    ((R.intersect unitRange).isEmpty = false → ∃ t, (R.intersect unitRange).min = fin t ∧ First (fun t => Holds R (fin t)) t) := by
  constructor
  · intro he t h0 h1 h
    exact (C39_isEmpty (hR.intersect unit_built)).mp he (fin t) ((C39_intersect _ _ _).mpr ⟨h, holds_unit.mpr ⟨h0, h1⟩⟩)
  · intro he
    have h := inStep_of_unit (R := R) (p := Vec3.zeros) (n := Vec3.zeros) (by rw [he]; simp)
    obtain ⟨_, h2, h3, h4⟩ := h
    simp only at h2 h3 h4
    have h5 := le_trans' h3 h4
    have hm : (R.intersect unitRange).min = (R.intersect unitRange).lo := by unfold Range.min; rw [if_neg (by rw [he]; simp)]
    have hx : (R.intersect unitRange).max = (R.intersect unitRange).hi := by unfold Range.max; rw [if_neg (by rw [he]; simp)]
    obtain ⟨t, ht⟩ : ∃ t, (R.intersect unitRange).min = fin t := by
      revert h2 h5
      cases (R.intersect unitRange).min <;> simp
    refine ⟨t, ht, ?_⟩
    have hin : Holds (R.intersect unitRange) (fin t) := by
      rw [holds_iff', ← hm, ← hx, ht]
      rw [ht] at h3
      exact ⟨by simp, h3⟩
    have hu := (C39_intersect _ _ _).mp hin
    have hb := holds_unit.mp hu.2
    refine ⟨⟨hb.1, hb.2, hu.1⟩, ?_⟩
    intro u u0 u1 hu'
    have hq := holds_iff'.mp ((C39_intersect R unitRange (fin u)).mpr ⟨hu', holds_unit.mpr ⟨u0, u1⟩⟩)
    rw [← hm, ht] at hq
    simpa using hq.1

/-- Times within the step, for a range that is the set of times with a property. -/
theorem unit_first {R : Range XReal} (hR : Built R) {P : ℝ → Prop} (hP : ∀ t, 0 ≤ t → t ≤ 1 → (Holds R (fin t) ↔ P t)) :
    ((R.intersect unitRange).isEmpty = true ∧ ∀ t : ℝ, 0 ≤ t → t ≤ 1 → ¬ P t) ∨
    ((R.intersect unitRange).isEmpty = false ∧ ∃ t, (R.intersect unitRange).min = fin t ∧ First P t) := by
  cases he : (R.intersect unitRange).isEmpty with
  | true => exact Or.inl ⟨rfl, fun t h0 h1 hp => (unit_times hR).1 he t h0 h1 ((hP t h0 h1).mpr hp)⟩
  | false =>
    right
    obtain ⟨t, ht, hf⟩ := (unit_times hR).2 he
    refine ⟨rfl, t, ht, ⟨hf.1.1, hf.1.2.1, (hP t hf.1.1 hf.1.2.1).mp hf.1.2.2⟩, ?_⟩
    exact fun u u0 u1 hu => hf.2 u u0 u1 ((hP u u0 u1).mpr hu)

theorem bounded_range (a b : ℝ) : Bounded (Range.range (fin a) (fin b)) := by
  have h : (Range.range (fin a) (fin b)).isEmpty = false := by unfold Range.range Range.isEmpty; split <;> simp
  unfold Bounded Range.min Range.max
  simp only [h, Bool.false_eq_true, if_false]
  unfold Range.range
  by_cases hab : a < b
  · simp [hab]
  · simp [hab]

/-! ### C42 -/

theorem overlap_built {r : XReal} {c m p n v : Vec3 XReal} {b : Bool} : Built (spherePlaneOverlapTime r c m p n v b) :=
  .overlap _ (.range _ _) (.range _ _)

/-- The times computed by `sphere_plane_overlap_time` for a half-space, if the approach is not slower than the cut-off. -/
theorem overlap_half {r : ℝ} (hr : 0 ≤ r) {c m p n v : Vec3 ℝ} (hn : n.dot n = 1) (hv : eps ≤ |(m - v).dot n|) (t : ℝ) :
    Holds (spherePlaneOverlapTime (fin r) c.f m.f p.f n.f v.f true) (fin t) ↔ BallMeetsPlane r c m p n v t := by
  unfold BallMeetsPlane
  rw [ball_plane hr hn]
  unfold spherePlaneOverlapTime
  simp only [fin_neg, Vec3.f_scale, Vec3.f_add, Vec3.f_dot, if_true, inf_eq, neg_posInf, fin_sub]
  have e1 : (c + n.scale (-r)).dot n = c.dot n - r := by
    have : (c + n.scale (-r)).dot n = c.dot n - r * n.dot n := by simp [Vec3.dot_def]; ring
    rw [this, hn, mul_one]
  have e2 : (c + n.scale r).dot n = c.dot n + r := by
    have : (c + n.scale r).dot n = c.dot n + r * n.dot n := by simp [Vec3.dot_def]; ring
    rw [this, hn, mul_one]
  have e3 : v.dot n - m.dot n = -((m - v).dot n) := by simp [Vec3.dot_def]; ring
  rw [e1, e2, e3]
  have hne1 : (Range.range (fin (c.dot n - r)) (fin (c.dot n + r))).isEmpty = false := by
    unfold Range.range Range.isEmpty; split <;> simp
  have hne2 : (Range.range (fin (p.dot n)) negInf).isEmpty = false := by simp [Range.range, Range.isEmpty]
  have hb : Bounded (Range.range (fin (c.dot n - r)) (fin (c.dot n + r))) := by
    exact bounded_range _ _
  rw [C41_overlap_partial (.range _ _) (.range _ _) hne1 hne2 (Or.inl hb) (by rw [abs_neg]; exact hv)]
  have e4 : (along c m t - along p v t).dot n = c.dot n - p.dot n + (m - v).dot n * t := by simp [along, Vec3.dot_def]; ring
  rw [e4]
  constructor
  · rintro ⟨x, y, hx, hy, e⟩
    rw [holds_range] at hx
    rw [C39_range] at hy
    simp at hy
    rcases hx with hx | hx <;> linarith [hx.1, hx.2]
  · intro h
    refine ⟨c.dot n - r, c.dot n - r + (m - v).dot n * t, holds_range.mpr (Or.inl ⟨le_refl _, by linarith⟩), ?_, by ring⟩
    rw [C39_range]
    simp
    linarith

/-- ... and if it is slower, all times or none according to the position at the start. -/
theorem overlap_half_slow {r : ℝ} (hr : 0 ≤ r) {c m p n v : Vec3 ℝ} (hn : n.dot n = 1) (hv : |(m - v).dot n| < eps) (t : ℝ) :
    Holds (spherePlaneOverlapTime (fin r) c.f m.f p.f n.f v.f true) (fin t) ↔ BallMeetsPlane r c m p n v 0 := by
  unfold BallMeetsPlane
  rw [ball_plane hr hn]
  unfold spherePlaneOverlapTime Range.linearOverlap
  simp only [fin_neg, Vec3.f_scale, Vec3.f_add, Vec3.f_dot, if_true, inf_eq, neg_posInf, fin_sub]
  have e1 : (c + n.scale (-r)).dot n = c.dot n - r := by
    have : (c + n.scale (-r)).dot n = c.dot n - r * n.dot n := by simp [Vec3.dot_def]; ring
    rw [this, hn, mul_one]
  have e2 : (c + n.scale r).dot n = c.dot n + r := by
    have : (c + n.scale r).dot n = c.dot n + r * n.dot n := by simp [Vec3.dot_def]; ring
    rw [this, hn, mul_one]
  have e3 : v.dot n - m.dot n = -((m - v).dot n) := by simp [Vec3.dot_def]; ring
  rw [e1, e2, e3, if_pos (by unfold eps at hv; simpa using hv)]
  have e4 : (along c m 0 - along p v 0).dot n = c.dot n - p.dot n := by simp [along, Vec3.dot_def]; ring
  rw [e4]
  cases he : ((Range.range (fin (c.dot n - r)) (fin (c.dot n + r))).intersect (Range.range (fin (p.dot n)) negInf)).isEmpty with
  | true =>
    simp only [if_true]
    constructor
    · intro h; exact absurd h (C39_empty _)
    · intro h
      exfalso
      refine (C39_isEmpty (.intersect (.range _ _) (.range _ _))).mp he (fin (c.dot n - r)) ((C39_intersect _ _ _).mpr ⟨?_, ?_⟩)
      · exact holds_range.mpr (Or.inl ⟨le_refl _, by linarith⟩)
      · rw [C39_range]; simp; linarith
  | false =>
    simp only [Bool.false_eq_true, if_false]
    refine iff_of_true ((C39_everything _).mpr rfl) ?_
    by_contra hlt
    push Not at hlt
    have : ((Range.range (fin (c.dot n - r)) (fin (c.dot n + r))).intersect (Range.range (fin (p.dot n)) negInf)).isEmpty = true := by
      rw [C39_isEmpty (.intersect (.range _ _) (.range _ _))]
      intro x hx
      rw [C39_intersect, C39_range, C39_range] at hx
      cases x <;> simp at hx
      rcases hx.1 with q | q <;> linarith [q.1, q.2, hx.2]
    rw [he] at this
    cases this

/-- **C42.** Unless the plane is approached or left slower than the cut-off, a collision of a moving sphere with a moving plane is reported exactly
when they share a point at some time of the step, with the earliest such time, the sphere's deepest point at that time and minus
the plane's normal. -/
theorem C42_spherePlane_partial {r : ℝ} (hr : 0 ≤ r) {c m p n v : Vec3 ℝ} (hn : n.dot n = 1) (hv : eps ≤ |(m - v).dot n|) :
    (collideSpherePlane (fin r) c.f m.f p.f n.f v.f = none ∧ ∀ t, 0 ≤ t → t ≤ 1 → ¬ BallMeetsPlane r c m p n v t) ∨
    ∃ C t, collideSpherePlane (fin r) c.f m.f p.f n.f v.f = some C ∧ C.times.min = fin t ∧ First (BallMeetsPlane r c m p n v) t ∧
      C.position = (along c m t - n.scale r).f ∧ C.normal = (-n).f := by
  unfold collideSpherePlane
  simp only
  rcases unit_first (overlap_built (r := fin r) (c := c.f) (m := m.f) (p := p.f) (n := n.f) (v := v.f) (b := true))
    (fun t _ _ => overlap_half hr hn hv t) with ⟨he, h⟩ | ⟨he, t, ht, hf⟩
  · left; rw [he]; exact ⟨rfl, h⟩
  · right
    rw [he]
    refine ⟨_, t, rfl, ht, hf, ?_, rfl⟩
    simp only [ht, fin_neg, Vec3.f_scale, Vec3.f_add]
    rw [Vec3.f_inj]
    unfold along
    ext <;> simp <;> ring

/-- **C42**, slow approach: the collision is reported exactly if the sphere touches the plane at the start. -/
theorem C42_spherePlane_slow {r : ℝ} (hr : 0 ≤ r) {c m p n v : Vec3 ℝ} (hn : n.dot n = 1) (hv : |(m - v).dot n| < eps) :
    (collideSpherePlane (fin r) c.f m.f p.f n.f v.f = none ∧ ¬ BallMeetsPlane r c m p n v 0) ∨
    ∃ C, collideSpherePlane (fin r) c.f m.f p.f n.f v.f = some C ∧ C.times.min = fin 0 ∧ BallMeetsPlane r c m p n v 0 ∧
      C.position = (c - n.scale r).f ∧ C.normal = (-n).f := by
  unfold collideSpherePlane
  simp only
  rcases unit_first (overlap_built (r := fin r) (c := c.f) (m := m.f) (p := p.f) (n := n.f) (v := v.f) (b := true))
    (fun t _ _ => overlap_half_slow hr hn hv t) with ⟨he, h⟩ | ⟨he, t, ht, hf⟩
  · left; rw [he]; exact ⟨rfl, h 0 (le_refl _) zero_le_one⟩
  · right
    rw [he]
    have ht0 : t = 0 := le_antisymm (hf.2 0 (le_refl _) zero_le_one hf.1.2.2) hf.1.1
    subst ht0
    refine ⟨_, rfl, ht, hf.1.2.2, ?_, rfl⟩
    simp only [ht, fin_neg, Vec3.f_scale, Vec3.f_add]
    rw [Vec3.f_inj]
    ext <;> simp <;> ring

/-- **C42 fails** as stated: a sphere that reaches the plane slowly during the step is not reported. -/
theorem C42_false : ∃ (r : ℝ) (c m p n v : Vec3 ℝ), 0 < r ∧ n.dot n = 1 ∧
    (∃ t, 0 ≤ t ∧ t ≤ 1 ∧ BallMeetsPlane r c m p n v t) ∧ collideSpherePlane (fin r) c.f m.f p.f n.f v.f = none := by
  refine ⟨1, ⟨0, 1 + 1 / 4000000, 0⟩, ⟨0, -(1 / 2000000), 0⟩, .o, ⟨0, 1, 0⟩, .o, by norm_num, by norm_num [Vec3.dot_def], ⟨1, by norm_num, by norm_num, ?_⟩, ?_⟩
  · unfold BallMeetsPlane
    rw [ball_plane zero_le_one (by norm_num [Vec3.dot_def])]
    norm_num [along, Vec3.dot_def]
  · rcases C42_spherePlane_slow (r := 1) (c := ⟨0, 1 + 1 / 4000000, 0⟩) (m := ⟨0, -(1 / 2000000), 0⟩) (p := .o) (n := ⟨0, 1, 0⟩) (v := .o)
      zero_le_one (by norm_num [Vec3.dot_def]) (by unfold eps; norm_num [Vec3.dot_def, abs_of_pos]) with h | ⟨_, _, _, h, _⟩
    · exact h.1
    · exfalso
      unfold BallMeetsPlane at h
      rw [ball_plane zero_le_one (by norm_num [Vec3.dot_def])] at h
      norm_num [along, Vec3.dot_def] at h

/-! ### C43 -/

/-- The coefficients of the squared distance of the centres minus the square of the sum of the radii, as a quadratic in time. -/
theorem balls_quadratic {r1 r2 : ℝ} (h1 : 0 ≤ r1) (h2 : 0 ≤ r2) (c1 m1 c2 m2 : Vec3 ℝ) (t : ℝ) :
    BallsMeet r1 c1 m1 r2 c2 m2 t ↔
      (m1 - m2).dot (m1 - m2) * t ^ 2 + 2 * (m1 - m2).dot (c1 - c2) * t + ((c1 - c2).dot (c1 - c2) - (r1 + r2) * (r1 + r2)) ≤ 0 := by
  unfold BallsMeet
  rw [ball_ball h1 h2]
  have : (along c1 m1 t - along c2 m2 t).dot (along c1 m1 t - along c2 m2 t) =
      (m1 - m2).dot (m1 - m2) * t ^ 2 + 2 * (m1 - m2).dot (c1 - c2) * t + (c1 - c2).dot (c1 - c2) := by
    simp [along, Vec3.dot_def]; ring
  rw [this]
  constructor <;> intro h <;> linarith

/-- The discriminant that `collide_sphere_with_sphere` looks at. -/
def discriminant (r1 : ℝ) (c1 m1 : Vec3 ℝ) (r2 : ℝ) (c2 m2 : Vec3 ℝ) : ℝ :=
  2 * (m1 - m2).dot (c1 - c2) * (2 * (m1 - m2).dot (c1 - c2)) -
    4 * (m1 - m2).dot (m1 - m2) * ((c1 - c2).dot (c1 - c2) - (r1 + r2) * (r1 + r2))

/-- The result of `collide_sphere_with_sphere`, for any set of times its range is known to be. -/
theorem sphereSphere_first {r1 r2 : ℝ} (hr : 0 < r1 + r2) {c1 m1 c2 m2 : Vec3 ℝ} {P : ℝ → Prop}
    (hP : ∀ t, 0 ≤ t → t ≤ 1 → (Holds (Range.quadraticZeros (fin ((m1 - m2).dot (m1 - m2))) (fin (2 * (m1 - m2).dot (c1 - c2)))
      (fin ((c1 - c2).dot (c1 - c2) - (r1 + r2) * (r1 + r2)))) (fin t) ↔ P t)) :
    (collideSphereSphere (fin r1) c1.f m1.f (fin r2) c2.f m2.f = none ∧ ∀ t, 0 ≤ t → t ≤ 1 → ¬ P t) ∨
    ∃ C t q, collideSphereSphere (fin r1) c1.f m1.f (fin r2) c2.f m2.f = some C ∧ C.times.min = fin t ∧ First P t ∧
      q = ((along c1 m1 t).scale r2 + (along c2 m2 t).scale r1).scale (1 / (r1 + r2)) ∧
      C.position = q.f ∧ C.normal = (q - c1).f.normalize := by
  unfold collideSphereSphere
  simp only [Vec3.f_sub, Vec3.f_dot, fin_add, fin_mul, fin_sub, two_eq]
  rcases unit_first (.quadratic (fin ((m1 - m2).dot (m1 - m2))) (fin (2 * (m1 - m2).dot (c1 - c2)))
      (fin ((c1 - c2).dot (c1 - c2) - (r1 + r2) * (r1 + r2)))) hP with ⟨he, h⟩ | ⟨he, t, ht, hf⟩
  · left; rw [he]; exact ⟨rfl, h⟩
  · right
    rw [he]
    have e : (((c1.f + m1.f.scale (fin t)).scale (fin r2)) + ((c2.f + m2.f.scale (fin t)).scale (fin r1))).scale (one / fin (r1 + r2)) =
        (((along c1 m1 t).scale r2 + (along c2 m2 t).scale r1).scale (1 / (r1 + r2))).f := by
      rw [one_eq, fin_div hr.ne']
      simp only [Vec3.f_scale, Vec3.f_add]
      rfl
    refine ⟨_, t, _, rfl, ht, hf, rfl, ?_, ?_⟩
    · simp only [ht]; exact e
    · simp only [ht]; rw [e, Vec3.f_sub]

/-- **C43.** For a relative movement not below the cut-off and a discriminant not within the cut-off of zero, a collision of two moving
spheres is reported exactly when they touch or overlap at some time of the step, with the earliest such time, at the point dividing the centres
at that time in the ratio of the radii. -/
theorem C43_sphereSphere_partial {r1 r2 : ℝ} (h1 : 0 ≤ r1) (h2 : 0 ≤ r2) (hr : 0 < r1 + r2) {c1 m1 c2 m2 : Vec3 ℝ}
    (hv : eps ≤ (m1 - m2).dot (m1 - m2))
    (hd : discriminant r1 c1 m1 r2 c2 m2 < -eps ∨ eps ≤ discriminant r1 c1 m1 r2 c2 m2) :
    (collideSphereSphere (fin r1) c1.f m1.f (fin r2) c2.f m2.f = none ∧ ∀ t, 0 ≤ t → t ≤ 1 → ¬ BallsMeet r1 c1 m1 r2 c2 m2 t) ∨
    ∃ C t q, collideSphereSphere (fin r1) c1.f m1.f (fin r2) c2.f m2.f = some C ∧ C.times.min = fin t ∧
      First (BallsMeet r1 c1 m1 r2 c2 m2) t ∧ C.position = q.f ∧ (q - along c1 m1 t).scale r2 = (along c2 m2 t - q).scale r1 := by
  rcases sphereSphere_first hr (P := BallsMeet r1 c1 m1 r2 c2 m2) (fun t _ _ => by
    rw [balls_quadratic h1 h2]
    exact (C40_quadratic_partial _ _ _ hv).1 hd t) with h | ⟨C, t, q, hC, ht, hf, hq, hp, _⟩
  · exact Or.inl h
  · refine Or.inr ⟨C, t, q, hC, ht, hf, hp, ?_⟩
    rw [hq]
    have := hr.ne'
    ext <;> simp <;> field_simp <;> ring

/-- **C43**, grazing passes (discriminant within the cut-off of zero): at most one time is reported, at which the squared distance of the
centres is within `EPSILON/(4|dv|^2)` of the square of the sum of the radii, and no time of overlap is further than `sqrt EPSILON/(2|dv|^2)` from it. -/
theorem C43_grazing {r1 r2 : ℝ} (h1 : 0 ≤ r1) (h2 : 0 ≤ r2) (hr : 0 < r1 + r2) {c1 m1 c2 m2 : Vec3 ℝ}
    (hv : eps ≤ (m1 - m2).dot (m1 - m2))
    (hd : ¬ (discriminant r1 c1 m1 r2 c2 m2 < -eps ∨ eps ≤ discriminant r1 c1 m1 r2 c2 m2)) :
    ∃ t₀ : ℝ, |(along c1 m1 t₀ - along c2 m2 t₀).dot (along c1 m1 t₀ - along c2 m2 t₀) - (r1 + r2) * (r1 + r2)| ≤ eps / (4 * (m1 - m2).dot (m1 - m2)) ∧
      (∀ t, BallsMeet r1 c1 m1 r2 c2 m2 t → (2 * (m1 - m2).dot (m1 - m2) * (t - t₀)) ^ 2 ≤ eps) ∧
      ((collideSphereSphere (fin r1) c1.f m1.f (fin r2) c2.f m2.f = none ∧ ¬ (0 ≤ t₀ ∧ t₀ ≤ 1)) ∨
        ∃ C, collideSphereSphere (fin r1) c1.f m1.f (fin r2) c2.f m2.f = some C ∧ C.times.min = fin t₀ ∧ 0 ≤ t₀ ∧ t₀ ≤ 1) := by
  obtain ⟨t₀, hset, hval, hnear⟩ := (C40_quadratic_partial _ _ _ hv).2 hd
  refine ⟨t₀, ?_, ?_, ?_⟩
  · convert hval using 2
    simp [along, Vec3.dot_def]; ring
  · intro t ht
    exact hnear t ((balls_quadratic h1 h2 _ _ _ _ t).mp ht)
  · rcases sphereSphere_first hr (P := fun t => t = t₀) (fun t _ _ => hset t) with ⟨h, hno⟩ | ⟨C, t, q, hC, ht, hf, _⟩
    · exact Or.inl ⟨h, fun hb => hno t₀ hb.1 hb.2 rfl⟩
    · have e : t = t₀ := hf.1.2.2
      subst e
      exact Or.inr ⟨C, hC, ht, hf.1.1, hf.1.2.1⟩

/-- **C43**, spheres nearly at rest relative to each other: reported, at the start, exactly when the squared distance of the centres
is less than the square of the sum of the radii plus the cut-off. -/
theorem C43_resting {r1 r2 : ℝ} (hr : 0 < r1 + r2) {c1 m1 c2 m2 : Vec3 ℝ} (hv : (m1 - m2).dot (m1 - m2) < eps)
    (hb : |2 * (m1 - m2).dot (c1 - c2)| < eps) :
    (collideSphereSphere (fin r1) c1.f m1.f (fin r2) c2.f m2.f = none ∧ (r1 + r2) * (r1 + r2) + eps ≤ (c1 - c2).dot (c1 - c2)) ∨
    ∃ C, collideSphereSphere (fin r1) c1.f m1.f (fin r2) c2.f m2.f = some C ∧ C.times.min = fin 0 ∧
      (c1 - c2).dot (c1 - c2) < (r1 + r2) * (r1 + r2) + eps ∧
      C.position = ((c1.scale r2 + c2.scale r1).scale (1 / (r1 + r2))).f := by
  have hv' : |(m1 - m2).dot (m1 - m2)| < eps := by rw [abs_of_nonneg (Vec3.dot_self_nonneg _)]; exact hv
  rcases sphereSphere_first hr (P := fun _ => (c1 - c2).dot (c1 - c2) - (r1 + r2) * (r1 + r2) < eps)
    (fun t _ _ => (C40_degenerate _ _ _ hv').1 hb t) with ⟨h, hno⟩ | ⟨C, t, q, hC, ht, hf, hq, hp, _⟩
  · left; refine ⟨h, ?_⟩; have := hno 0 (le_refl _) zero_le_one; linarith
  · right
    have ht0 : t = 0 := le_antisymm (hf.2 0 (le_refl _) zero_le_one hf.1.2.2) hf.1.1
    subst ht0
    refine ⟨C, hC, ht, by linarith [hf.1.2.2], ?_⟩
    rw [hp, hq, Vec3.f_inj]
    unfold along
    ext <;> simp

/-- **C43 fails** as stated: two spheres of radius 1 with centres at distance 1, so overlapping throughout, that move apart
slowly (1/2000 per step) are not reported. -/
theorem C43_false : ∃ (r1 : ℝ) (c1 m1 : Vec3 ℝ) (r2 : ℝ) (c2 m2 : Vec3 ℝ), 0 < r1 ∧ 0 < r2 ∧
    (∀ t, 0 ≤ t → t ≤ 1 → BallsMeet r1 c1 m1 r2 c2 m2 t) ∧ collideSphereSphere (fin r1) c1.f m1.f (fin r2) c2.f m2.f = none := by
  have e1 : ((⟨1 / 2000, 0, 0⟩ : Vec3 ℝ) - .o).dot (⟨1 / 2000, 0, 0⟩ - .o) = 1 / 4000000 := by norm_num [Vec3.dot_def]
  have e2 : 2 * ((⟨1 / 2000, 0, 0⟩ : Vec3 ℝ) - .o).dot (⟨1, 0, 0⟩ - .o) = 1 / 1000 := by norm_num [Vec3.dot_def]
  have e3 : ((⟨1, 0, 0⟩ : Vec3 ℝ) - .o).dot (⟨1, 0, 0⟩ - .o) - (1 + 1) * (1 + 1) = -3 := by norm_num [Vec3.dot_def]
  refine ⟨1, ⟨1, 0, 0⟩, ⟨1 / 2000, 0, 0⟩, 1, .o, .o, one_pos, one_pos, ?_, ?_⟩
  · intro t h0 h1
    rw [balls_quadratic zero_le_one zero_le_one, e1, e2, e3]
    nlinarith
  · rcases sphereSphere_first (r1 := 1) (r2 := 1) (c1 := ⟨1, 0, 0⟩) (m1 := ⟨1 / 2000, 0, 0⟩) (c2 := .o) (m2 := .o) (by norm_num)
      (P := fun t => 1 / 1000 * t + -3 = 0) (fun t _ _ => by
        rw [e1, e2, e3]
        exact (C40_degenerate _ _ _ (by unfold eps; rw [abs_of_pos (by norm_num)]; norm_num)).2 (by unfold eps; rw [abs_of_pos (by norm_num)]; norm_num) t) with h | ⟨_, t, _, _, _, hf, _⟩
    · exact h.1
    · exfalso
      have := hf.1.2.2
      have := hf.1.2.1
      linarith

/-- Spheres for `C43_sphereSphere_partial`: they meet head on half way through the step. -/
theorem head_on : ∃ C, collideSphereSphere (fin 1) (Vec3.o).f (⟨2, 0, 0⟩ : Vec3 ℝ).f (fin 1) (⟨3, 0, 0⟩ : Vec3 ℝ).f (Vec3.o).f = some C ∧
    C.times.min = fin (1 / 2) ∧ C.position = (⟨2, 0, 0⟩ : Vec3 ℝ).f ∧ C.normal = (⟨1, 0, 0⟩ : Vec3 ℝ).f := by
  have e1 : ((⟨2, 0, 0⟩ : Vec3 ℝ) - .o).dot (⟨2, 0, 0⟩ - .o) = 4 := by norm_num [Vec3.dot_def]
  have e2 : 2 * ((⟨2, 0, 0⟩ : Vec3 ℝ) - .o).dot (.o - ⟨3, 0, 0⟩) = -12 := by norm_num [Vec3.dot_def]
  have e3 : (.o - (⟨3, 0, 0⟩ : Vec3 ℝ)).dot (.o - ⟨3, 0, 0⟩) - (1 + 1) * (1 + 1) = 5 := by norm_num [Vec3.dot_def]
  rcases sphereSphere_first (r1 := 1) (r2 := 1) (c1 := .o) (m1 := ⟨2, 0, 0⟩) (c2 := ⟨3, 0, 0⟩) (m2 := .o) (by norm_num)
      (P := fun t => 4 * t ^ 2 + -12 * t + 5 ≤ 0) (fun t _ _ => by
        rw [e1, e2, e3]
        exact (C40_quadratic_partial _ _ _ (by unfold eps; norm_num)).1 (Or.inr (by unfold eps; norm_num)) t) with h | ⟨C, t, q, hC, ht, hf, hq, hp, hn⟩
  · exact absurd (by norm_num) (h.2 (1 / 2) (by norm_num) (by norm_num))
  · have hle := hf.2 (1 / 2) (by norm_num) (by norm_num) (by norm_num)
    have hP := hf.1.2.2
    have ht' : t = 1 / 2 := by
      apply le_antisymm hle
      by_contra hlt
      push Not at hlt
      simp only at hP
      nlinarith
    subst ht'
    have hq' : q = ⟨2, 0, 0⟩ := by rw [hq]; ext <;> simp [along] <;> norm_num
    refine ⟨C, hC, ht, by rw [hp, hq'], ?_⟩
    rw [hn, hq']
    have hne : (⟨2, 0, 0⟩ : Vec3 ℝ) - .o ≠ .o := fun h => by have := congrArg Vec3.x h; norm_num at this
    rw [Vec3.f_normalize hne, Vec3.f_inj]
    have hl : ((⟨2, 0, 0⟩ : Vec3 ℝ) - .o).len = 2 := by
      unfold Vec3.len; rw [e1, show (4 : ℝ) = 2 * 2 by norm_num]; exact Real.sqrt_mul_self (by norm_num)
    rw [hl]
    ext <;> simp

/-! ### The dispatch

`collide` gives the detectors the world positions at the two ends of the step. -/

/-- **C43** for `collide`: the spheres whose centres are at `a1`, `a2` at the start and at `b1`, `b2` at the end. -/
theorem C43_collide_partial {s1 s2 : SphereCollider XReal} {o1 e1 o2 e2 : Orientation XReal} {r1 r2 : ℝ} {a1 b1 a2 b2 : Vec3 ℝ}
    (hr1 : s1.radius = fin r1) (hr2 : s2.radius = fin r2) (ha1 : o1.positionIntoWorld s1.center = a1.f) (hb1 : e1.positionIntoWorld s1.center = b1.f)
    (ha2 : o2.positionIntoWorld s2.center = a2.f) (hb2 : e2.positionIntoWorld s2.center = b2.f)
    (h1 : 0 ≤ r1) (h2 : 0 ≤ r2) (hr : 0 < r1 + r2) (hv : eps ≤ ((b1 - a1) - (b2 - a2)).dot ((b1 - a1) - (b2 - a2)))
    (hd : discriminant r1 a1 (b1 - a1) r2 a2 (b2 - a2) < -eps ∨ eps ≤ discriminant r1 a1 (b1 - a1) r2 a2 (b2 - a2)) :
    (collide (.sphere s1) o1 e1 (.sphere s2) o2 e2 = .ok none ∧ ∀ t, 0 ≤ t → t ≤ 1 → ¬ BallsMeet r1 a1 (b1 - a1) r2 a2 (b2 - a2) t) ∨
    ∃ C t q, collide (.sphere s1) o1 e1 (.sphere s2) o2 e2 = .ok (some C) ∧ C.times.min = fin t ∧
      First (BallsMeet r1 a1 (b1 - a1) r2 a2 (b2 - a2)) t ∧ C.position = q.f ∧
      (q - along a1 (b1 - a1) t).scale r2 = (along a2 (b2 - a2) t - q).scale r1 := by
  unfold collide
  simp only [hr1, hr2, ha1, hb1, ha2, hb2, Vec3.f_sub]
  rcases C43_sphereSphere_partial h1 h2 hr hv hd with ⟨h, hno⟩ | ⟨C, t, q, hC, h⟩
  · left; rw [h]; exact ⟨rfl, hno⟩
  · right; rw [hC]; exact ⟨C, t, q, rfl, h⟩

/-- **C42** for `collide`, with the sphere first or second: the sphere's centre is at `a`, `b` and the plane's point at `p`, `q` at the start and
at the end. -/
theorem C42_collide_partial {s : SphereCollider XReal} {pl : PlaneCollider XReal} {o1 e1 o2 e2 : Orientation XReal} {r : ℝ} {a b p q n : Vec3 ℝ}
    (hr1 : s.radius = fin r) (hn1 : pl.normal = n.f) (ha : o1.positionIntoWorld s.center = a.f) (hb : e1.positionIntoWorld s.center = b.f)
    (hp : o2.positionIntoWorld pl.position = p.f) (hq : e2.positionIntoWorld pl.position = q.f)
    (hr : 0 ≤ r) (hn : n.dot n = 1) (hv : eps ≤ |((b - a) - (q - p)).dot n|) :
    (collide (.sphere s) o1 e1 (.plane pl) o2 e2 = .ok none ∧ collide (.plane pl) o2 e2 (.sphere s) o1 e1 = .ok none ∧
      ∀ t, 0 ≤ t → t ≤ 1 → ¬ BallMeetsPlane r a (b - a) p n (q - p) t) ∨
    ∃ C D t, collide (.sphere s) o1 e1 (.plane pl) o2 e2 = .ok (some C) ∧ collide (.plane pl) o2 e2 (.sphere s) o1 e1 = .ok (some D) ∧
      C.times.min = fin t ∧ D.times.min = fin t ∧ First (BallMeetsPlane r a (b - a) p n (q - p)) t ∧
      C.position = (along a (b - a) t - n.scale r).f ∧ D.position = (along a (b - a) t - n.scale r).f ∧
      C.normal = (-n).f ∧ D.normal = n.f := by
  unfold collide dispatchSpherePlane
  simp only [hr1, hn1, ha, hb, hp, hq, Vec3.f_sub]
  rcases C42_spherePlane_partial hr hn hv (c := a) (p := p) with ⟨h, hno⟩ | ⟨C, t, hC, h1, h2, h3, h4⟩
  · left; rw [h]; exact ⟨rfl, rfl, hno⟩
  · right
    rw [hC]
    refine ⟨C, C.flip, t, rfl, rfl, h1, h1, h2, h3, h3, h4, ?_⟩
    unfold Collision.flip
    simp only [h4, lit_eq, Vec3.f_scale, Vec3.f_inj]
    ext <;> simp

/-! ### C44 -/

/-- The unit vector from the first point to the second. -/
def Pointing (a b n : Vec3 ℝ) : Prop := n.len = 1 ∧ ∃ k : ℝ, 0 < k ∧ b - a = n.scale k

theorem normalize_pointing {a b : Vec3 ℝ} (h : b - a ≠ .o) : Pointing a b ((b - a).scale (b - a).len⁻¹) := by
  have hl : (b - a).len ≠ 0 := fun hc => h ((Vec3.len_eq_zero _).mp hc)
  have hpos : 0 < (b - a).len := lt_of_le_of_ne (Vec3.len_nonneg _) (Ne.symm hl)
  refine ⟨?_, (b - a).len, hpos, ?_⟩
  · have : ((b - a).scale (b - a).len⁻¹).dot ((b - a).scale (b - a).len⁻¹) = 1 := by
      have e : ((b - a).scale (b - a).len⁻¹).dot ((b - a).scale (b - a).len⁻¹) = (b - a).dot (b - a) * ((b - a).len⁻¹ * (b - a).len⁻¹) := by
        simp [Vec3.dot_def]; ring
      rw [e, ← Vec3.len_sq]; field_simp
    show Real.sqrt _ = 1
    rw [this]; exact Real.sqrt_one
  · generalize (b - a).len = l at hl
    ext <;> simp [mul_assoc, inv_mul_cancel₀ hl]

/-- **C44**, sphere and plane: the reported normal is a unit vector pointing into the half-space. -/
theorem C44_spherePlane {r : ℝ} (hr : 0 ≤ r) {c m p n v : Vec3 ℝ} (hn : n.dot n = 1) {C : Collision XReal}
    (hC : collideSpherePlane (fin r) c.f m.f p.f n.f v.f = some C) : C.normal = (-n).f ∧ (-n).len = 1 := by
  refine ⟨?_, ?_⟩
  · unfold collideSpherePlane at hC
    simp only at hC
    split at hC
    · simp only [Option.some.injEq] at hC; subst hC; rfl
    · cases hC
  · have : (-n).dot (-n) = 1 := by rw [← hn]; simp [Vec3.dot_def]
    unfold Vec3.len; rw [this]; exact Real.sqrt_one

/-- **C44**, two spheres, partial: the reported normal points from where the first sphere's centre was at the *start* of the step to the contact
point, so it is the contact normal if the first sphere has not moved by the time of contact (in particular for a contact at time 0). Missing:
a moving first sphere, for which the claim is false. -/
theorem C44_sphereSphere_partial {r1 r2 : ℝ} (h1 : 0 < r1) (h2 : 0 ≤ r2) {c1 m1 c2 m2 : Vec3 ℝ} {C : Collision XReal} {t : ℝ}
    (hC : collideSphereSphere (fin r1) c1.f m1.f (fin r2) c2.f m2.f = some C) (ht : C.times.min = fin t)
    (hstill : along c1 m1 t = c1) (hne : along c2 m2 t ≠ along c1 m1 t) :
    ∃ n : Vec3 ℝ, C.normal = n.f ∧ Pointing (along c1 m1 t) (along c2 m2 t) n := by
  have hr : 0 < r1 + r2 := by linarith
  rcases sphereSphere_first hr (c1 := c1) (m1 := m1) (c2 := c2) (m2 := m2) (fun t _ _ => Iff.rfl) with h | ⟨D, u, q, hD, hu, hf, hq, hp, hn⟩
  · rw [h.1] at hC; cases hC
  · rw [hC] at hD
    simp only [Option.some.injEq] at hD
    subst hD
    rw [hu] at ht
    simp only [fin_inj] at ht
    subst ht
    have e : q - c1 = (along c2 m2 u - along c1 m1 u).scale (r1 / (r1 + r2)) := by
      rw [hq, hstill]
      generalize along c2 m2 u = b
      have := hr.ne'
      ext <;> simp <;> field_simp <;> ring
    have hk : 0 < r1 / (r1 + r2) := by positivity
    have hne' : q - c1 ≠ .o := by
      intro h0
      apply hne
      rw [h0] at e
      have hx := congrArg Vec3.x e
      have hy := congrArg Vec3.y e
      have hz := congrArg Vec3.z e
      simp only [Vec3.o_x, Vec3.o_y, Vec3.o_z, Vec3.scale_x, Vec3.scale_y, Vec3.scale_z, Vec3.sub_x, Vec3.sub_y, Vec3.sub_z] at hx hy hz
      ext
      · have := (mul_eq_zero.mp hx.symm).resolve_right hk.ne'; linarith
      · have := (mul_eq_zero.mp hy.symm).resolve_right hk.ne'; linarith
      · have := (mul_eq_zero.mp hz.symm).resolve_right hk.ne'; linarith
    refine ⟨(q - c1).scale (q - c1).len⁻¹, ?_, ?_⟩
    · rw [hn, Vec3.f_normalize hne']
    · obtain ⟨hl, k, hk', e'⟩ := normalize_pointing (a := c1) (b := q) hne'
      refine ⟨hl, k / (r1 / (r1 + r2)), by positivity, ?_⟩
      rw [e'] at e
      have hx := congrArg Vec3.x e
      have hy := congrArg Vec3.y e
      have hz := congrArg Vec3.z e
      simp only [Vec3.scale_x, Vec3.scale_y, Vec3.scale_z] at hx hy hz
      ext
      · simp only [Vec3.scale_x]; rw [mul_div_assoc', hx, mul_div_assoc, div_self hk.ne', mul_one]
      · simp only [Vec3.scale_y]; rw [mul_div_assoc', hy, mul_div_assoc, div_self hk.ne', mul_one]
      · simp only [Vec3.scale_z]; rw [mul_div_assoc', hz, mul_div_assoc, div_self hk.ne', mul_one]

/-- **C44 fails** for a moving sphere: a sphere of radius 1 moves from the origin along the x axis and hits an equal sphere off-centre; the
centres are then `(6/5, 8/5, 0)` apart, but the normal is along `(8/5, 4/5, 0)`, as seen from the starting point. -/
theorem C44_false : ∃ (c1 m1 c2 m2 : Vec3 ℝ) (C : Collision XReal) (t : ℝ) (n : Vec3 ℝ),
    collideSphereSphere (fin 1) c1.f m1.f (fin 1) c2.f m2.f = some C ∧ C.times.min = fin t ∧ C.normal = n.f ∧ n.len = 1 ∧
      along c2 m2 t - along c1 m1 t = ⟨6 / 5, 8 / 5, 0⟩ ∧ ¬ ∃ k : ℝ, along c2 m2 t - along c1 m1 t = n.scale k := by
  have e1 : ((⟨2, 0, 0⟩ : Vec3 ℝ) - .o).dot (⟨2, 0, 0⟩ - .o) = 4 := by norm_num [Vec3.dot_def]
  have e2 : 2 * ((⟨2, 0, 0⟩ : Vec3 ℝ) - .o).dot (.o - ⟨11 / 5, 8 / 5, 0⟩) = -44 / 5 := by norm_num [Vec3.dot_def]
  have e3 : (.o - (⟨11 / 5, 8 / 5, 0⟩ : Vec3 ℝ)).dot (.o - ⟨11 / 5, 8 / 5, 0⟩) - (1 + 1) * (1 + 1) = 17 / 5 := by norm_num [Vec3.dot_def]
  rcases sphereSphere_first (r1 := 1) (r2 := 1) (c1 := .o) (m1 := ⟨2, 0, 0⟩) (c2 := ⟨11 / 5, 8 / 5, 0⟩) (m2 := .o) (by norm_num)
      (P := fun t => 4 * t ^ 2 + -44 / 5 * t + 17 / 5 ≤ 0) (fun t _ _ => by
        rw [e1, e2, e3]
        exact (C40_quadratic_partial _ _ _ (by unfold eps; norm_num)).1 (Or.inr (by unfold eps; norm_num)) t) with h | ⟨C, t, q, hC, ht, hf, hq, hp, hn⟩
  · exact absurd (by norm_num) (h.2 (1 / 2) (by norm_num) (by norm_num))
  · have hle := hf.2 (1 / 2) (by norm_num) (by norm_num) (by norm_num)
    have hP := hf.1.2.2
    have ht' : t = 1 / 2 := by
      apply le_antisymm hle
      by_contra hlt
      push Not at hlt
      simp only at hP
      nlinarith
    subst ht'
    have hq' : q = ⟨8 / 5, 4 / 5, 0⟩ := by rw [hq]; ext <;> simp [along] <;> norm_num
    have hne : (⟨8 / 5, 4 / 5, 0⟩ : Vec3 ℝ) - .o ≠ .o := fun h => by have := congrArg Vec3.x h; norm_num at this
    obtain ⟨hl, k, hk, e⟩ := normalize_pointing hne
    have hd : along (⟨11 / 5, 8 / 5, 0⟩ : Vec3 ℝ) .o (1 / 2) - along .o ⟨2, 0, 0⟩ (1 / 2) = ⟨6 / 5, 8 / 5, 0⟩ := by
      ext <;> simp [along] <;> norm_num
    refine ⟨.o, ⟨2, 0, 0⟩, ⟨11 / 5, 8 / 5, 0⟩, .o, C, 1 / 2, _, hC, ht, by rw [hn, hq', Vec3.f_normalize hne], hl, hd, ?_⟩
    rintro ⟨j, hj⟩
    rw [hd] at hj
    generalize ((⟨8 / 5, 4 / 5, 0⟩ : Vec3 ℝ) - .o).scale ((⟨8 / 5, 4 / 5, 0⟩ : Vec3 ℝ) - .o).len⁻¹ = n at *
    have x1 := congrArg Vec3.x e
    have y1 := congrArg Vec3.y e
    have x2 := congrArg Vec3.x hj
    have y2 := congrArg Vec3.y hj
    simp only [Vec3.sub_x, Vec3.sub_y, Vec3.o_x, Vec3.o_y, Vec3.scale_x, Vec3.scale_y, sub_zero] at x1 y1 x2 y2
    have hny : n.x = 2 * n.y := by
      have : k * (n.x - 2 * n.y) = 0 := by linarith
      linarith [(mul_eq_zero.mp this).resolve_left hk.ne']
    rw [hny] at x2
    linarith

end Fluffy.Props
