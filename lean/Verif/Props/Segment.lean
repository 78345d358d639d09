import Verif.Props.Detect
import Verif.Num.Pose
/-
C60: collision detection between spheres and edges, over exact numbers; how far a reported contact can be from a real one.
-/
set_option linter.unusedSectionVars false
set_option linter.unusedSimpArgs false
namespace Fluffy.Props
open Fluffy XReal

/-! ### What a reported zero means -/

/-- The times `quadratic_zeros` reports within the step satisfy the inequality up to a quarter. -/
theorem quad_sound {a b c t : ℝ} (ha : 0 ≤ a) (h0 : 0 ≤ t) (h1 : t ≤ 1)
    (h : Holds (Range.quadraticZeros (fin a) (fin b) (fin c)) (fin t)) : a * t ^ 2 + b * t + c ≤ 1 / 4 := by
  have he : eps = 1 / 1000000 := rfl
  by_cases hae : a < eps
  · have hae' : |a| < eps := by rwa [abs_of_nonneg ha]
    have ht2 : a * t ^ 2 ≤ a := by nlinarith [mul_nonneg ha h0, mul_nonneg ha (sub_nonneg.mpr h1), sq_nonneg t]
    by_cases hb : |b| < eps
    · have := ((C40_degenerate a b c hae').1 hb t).mp h
      have hbt : b * t ≤ |b| := by
        calc b * t ≤ |b * t| := le_abs_self _
          _ = |b| * t := by rw [abs_mul, abs_of_nonneg h0]
          _ ≤ |b| := by nlinarith [abs_nonneg b]
      rw [he] at *
      linarith
    · have := ((C40_degenerate a b c hae').2 (not_lt.mp hb) t).mp h
      rw [he] at hae
      linarith
  · have hae := not_lt.mp hae
    have hpos := lt_of_lt_of_le eps_pos hae
    by_cases hd : b * b - 4 * a * c < -eps ∨ eps ≤ b * b - 4 * a * c
    · have := ((C40_quadratic_partial a b c hae).1 hd t).mp h
      linarith
    · obtain ⟨t₀, h2, h3, -⟩ := (C40_quadratic_partial a b c hae).2 hd
      have := (h2 t).mp h
      subst this
      have h4 : eps / (4 * a) ≤ 1 / 4 := by
        rw [div_le_div_iff₀ (by positivity) (by norm_num)]
        linarith
      exact le_trans (le_abs_self _) (le_trans h3 h4)

/-- **C43**, universal soundness: whenever a collision of two spheres is reported, at the reported time the squared distance of their centres is at
most the square of the sum of the radii plus a quarter. (`C43_phantom` shows that a bound of this size is needed.) -/
theorem C43_reported {r1 r2 : ℝ} (hr : 0 < r1 + r2) {c1 m1 c2 m2 : Vec3 ℝ} {C : Collision XReal}
    (h : collideSphereSphere (fin r1) c1.f m1.f (fin r2) c2.f m2.f = some C) :
    ∃ t : ℝ, C.times.min = fin t ∧ 0 ≤ t ∧ t ≤ 1 ∧
      (along c1 m1 t - along c2 m2 t).dot (along c1 m1 t - along c2 m2 t) ≤ (r1 + r2) * (r1 + r2) + 1 / 4 := by
  rcases sphereSphere_first (c1 := c1) (m1 := m1) (c2 := c2) (m2 := m2) hr (fun t _ _ => Iff.rfl) with h' | ⟨D, t, q, hD, ht, hf, -⟩
  · rw [h'.1] at h; cases h
  · rw [hD] at h; cases h
    refine ⟨t, ht, hf.1.1, hf.1.2.1, ?_⟩
    have := quad_sound (Vec3.dot_self_nonneg _) hf.1.1 hf.1.2.1 hf.1.2.2
    have e : (along c1 m1 t - along c2 m2 t).dot (along c1 m1 t - along c2 m2 t) =
      (m1 - m2).dot (m1 - m2) * t ^ 2 + 2 * (m1 - m2).dot (c1 - c2) * t + (c1 - c2).dot (c1 - c2) := by
      simp [along, Vec3.dot_def]; ring
    rw [e]; linarith

/-- **C43 fails** the other way too: two balls of diameter 1 pass each other with a gap of more than a tenth, and a collision is reported. -/
theorem C43_phantom : ∃ (c1 m1 c2 m2 : Vec3 ℝ) (C : Collision XReal),
    collideSphereSphere (fin (1 / 2)) c1.f m1.f (fin (1 / 2)) c2.f m2.f = some C ∧
    ∀ t, (11 / 10 : ℝ) * (11 / 10) ≤ (along c1 m1 t - along c2 m2 t).dot (along c1 m1 t - along c2 m2 t) := by
  refine ⟨⟨-(1 / 2000), 11 / 10, 0⟩, ⟨1 / 1000, 0, 0⟩, .o, .o, ?_⟩
  have e1 : ((⟨1 / 1000, 0, 0⟩ : Vec3 ℝ) - .o).dot (⟨1 / 1000, 0, 0⟩ - .o) = 1 / 1000000 := by norm_num [Vec3.dot_def]
  have e2 : 2 * ((⟨1 / 1000, 0, 0⟩ : Vec3 ℝ) - .o).dot (⟨-(1 / 2000), 11 / 10, 0⟩ - .o) = -(1 / 1000000) := by norm_num [Vec3.dot_def]
  have e3 : ((⟨-(1 / 2000), 11 / 10, 0⟩ : Vec3 ℝ) - .o).dot (⟨-(1 / 2000), 11 / 10, 0⟩ - .o) - (1 / 2 + 1 / 2) * (1 / 2 + 1 / 2) =
    21 / 100 + 1 / 4000000 := by norm_num [Vec3.dot_def]
  have hset : ∀ t, Holds (Range.quadraticZeros (fin (1 / 1000000)) (fin (-(1 / 1000000))) (fin (21 / 100 + 1 / 4000000))) (fin t) ↔ t = 1 / 2 := by
    intro t
    have : Range.quadraticZeros (fin (1 / 1000000)) (fin (-(1 / 1000000))) (fin (21 / 100 + 1 / 4000000)) = Range.single (fin (1 / 2)) := by
      unfold Range.quadraticZeros
      simp only [fin_abs, EPSILON_eq, fin_lt, fin_mul, fin_sub, fin_neg, lit_eq]
      rw [if_neg (by norm_num [abs_of_pos]), if_neg (by norm_num), if_pos (by norm_num), fin_div (by norm_num)]
      norm_num
    rw [this, holds_single]
  rcases sphereSphere_first (r1 := 1 / 2) (r2 := 1 / 2) (c1 := ⟨-(1 / 2000), 11 / 10, 0⟩) (m1 := ⟨1 / 1000, 0, 0⟩) (c2 := .o) (m2 := .o)
    (by norm_num) (P := fun t => t = 1 / 2) (fun t _ _ => by rw [e1, e2, e3]; exact hset t) with ⟨-, hno⟩ | ⟨C, t, q, hC, -⟩
  · exact absurd rfl (hno (1 / 2) (by norm_num) (by norm_num))
  · refine ⟨C, hC, fun t => ?_⟩
    simp [along, Vec3.dot_def]
    nlinarith [sq_nonneg (-(1 / 2000 : ℝ) + 1 / 1000 * t)]

/-! ### C60 -/

/-- The moving ball and the moving infinite line share a point at time `t`. -/
def BallMeetsLine (r : ℝ) (c m s d v : Vec3 ℝ) (t : ℝ) : Prop := ∃ k : ℝ, InBall (along c m t) r (along s v t + d.scale k)

/-- The point of the line (through `s` with direction `d`) that is nearest to `x`. -/
noncomputable def foot (s d x : Vec3 ℝ) : Vec3 ℝ := s + d.scale ((x - s).dot d / d.dot d)

/-- The direction the code uses. -/
noncomputable def unit (d : Vec3 ℝ) : Vec3 ℝ := d.scale d.len⁻¹
theorem unit_unit {d : Vec3 ℝ} (hd : d ≠ .o) : (unit d).dot (unit d) = 1 := Vec3.unit_normalize hd

theorem foot_perp {s d x : Vec3 ℝ} (hd : d ≠ .o) : (foot s d x - x).dot d = 0 := by
  have h : d.dot d ≠ 0 := fun h => hd ((Vec3.dot_self_eq_zero _).mp h)
  have e : (foot s d x - x).dot d = (x - s).dot d / d.dot d * d.dot d - (x - s).dot d := by
    unfold foot; simp only [Vec3.dot_def, Vec3.sub_x, Vec3.sub_y, Vec3.sub_z, Vec3.add_x, Vec3.add_y, Vec3.add_z, Vec3.scale_x, Vec3.scale_y, Vec3.scale_z]; ring
  rw [e, div_mul_cancel₀ _ h, sub_self]

/-- Nearest indeed. -/
theorem foot_nearest {s d x : Vec3 ℝ} (hd : d ≠ .o) (k : ℝ) : (foot s d x - x).dot (foot s d x - x) ≤ (s + d.scale k - x).dot (s + d.scale k - x) := by
  have hp := foot_perp (s := s) (x := x) hd
  have e : s + d.scale k - x = (foot s d x - x) + d.scale (k - (x - s).dot d / d.dot d) := by
    unfold foot; ext <;> simp <;> ring
  rw [e]
  generalize k - (x - s).dot d / d.dot d = l
  have e2 : ((foot s d x - x) + d.scale l).dot ((foot s d x - x) + d.scale l) =
      (foot s d x - x).dot (foot s d x - x) + 2 * l * (foot s d x - x).dot d + l * l * d.dot d := by
    generalize foot s d x - x = y
    simp [Vec3.dot_def]; ring
  rw [e2, hp]
  nlinarith [mul_nonneg (mul_self_nonneg l) (Vec3.dot_self_nonneg d)]

theorem foot_unit {s d x : Vec3 ℝ} (hd : d ≠ .o) : s + (unit d).scale ((x - s).dot (unit d)) = foot s d x := by
  unfold foot unit
  have h := Vec3.len_sq d
  have hl := (Vec3.len_pos hd).ne'
  rw [← h]
  have e : (x - s).dot (d.scale d.len⁻¹) = (x - s).dot d * d.len⁻¹ := Vec3.dot_scale _ _ _
  rw [e, Vec3.scale_scale]
  congr 2
  field_simp

/-- The squared distance from the line. -/
theorem foot_dist {s d x : Vec3 ℝ} (hd : d ≠ .o) :
    (foot s d x - x).dot (foot s d x - x) = ((x - s).cross (unit d)).dot ((x - s).cross (unit d)) := by
  rw [← foot_unit hd]
  have hu := unit_unit hd
  have e1 : (s + (unit d).scale ((x - s).dot (unit d)) - x).dot (s + (unit d).scale ((x - s).dot (unit d)) - x) =
      (x - s).dot (x - s) - 2 * ((x - s).dot (unit d)) ^ 2 + ((x - s).dot (unit d)) ^ 2 * (unit d).dot (unit d) := by
    generalize unit d = u; simp [Vec3.dot_def]; ring
  have e2 : ((x - s).cross (unit d)).dot ((x - s).cross (unit d)) = (x - s).dot (x - s) * (unit d).dot (unit d) - ((x - s).dot (unit d)) ^ 2 := by
    generalize unit d = u; simp [Vec3.dot_def]; ring
  rw [e1, e2, hu]; ring

/-- The coefficients of the squared distance of the centre from the line minus the square of the radius, as a quadratic in time. -/
def lineA (m d v : Vec3 ℝ) : ℝ := ((m - v).cross d).dot ((m - v).cross d)
def lineB (c m s d v : Vec3 ℝ) : ℝ := 2 * ((c - s).cross d).dot ((m - v).cross d)
def lineC (r : ℝ) (c s d : Vec3 ℝ) : ℝ := ((c - s).cross d).dot ((c - s).cross d) - r * r

theorem line_quadratic {r : ℝ} {c m s d v : Vec3 ℝ} (hd : d ≠ .o) (t : ℝ) :
    (foot (along s v t) d (along c m t) - along c m t).dot (foot (along s v t) d (along c m t) - along c m t) =
      lineA m (unit d) v * t ^ 2 + lineB c m s (unit d) v * t + lineC r c s (unit d) + r * r := by
  rw [foot_dist hd]
  unfold lineA lineB lineC
  generalize unit d = u
  simp [along, Vec3.dot_def]; ring

theorem meetsLine_iff {r : ℝ} (hr : 0 ≤ r) {c m s d v : Vec3 ℝ} (hd : d ≠ .o) (t : ℝ) :
    BallMeetsLine r c m s d v t ↔ lineA m (unit d) v * t ^ 2 + lineB c m s (unit d) v * t + lineC r c s (unit d) ≤ 0 := by
  have h := line_quadratic (r := r) (c := c) (m := m) (s := s) (v := v) hd t
  unfold BallMeetsLine
  constructor
  · rintro ⟨k, hk⟩
    rw [inBall_iff hr] at hk
    have := foot_nearest (s := along s v t) (x := along c m t) hd k
    linarith
  · intro hq
    refine ⟨(along c m t - along s v t).dot d / d.dot d, (inBall_iff hr).mpr ?_⟩
    show (foot (along s v t) d (along c m t) - along c m t).dot (foot (along s v t) d (along c m t) - along c m t) ≤ r * r
    linarith

/-- The result of `collide_sphere_with_line`, for any set of times its range is known to be. -/
theorem sphereLine_first {r : ℝ} {c m s d v : Vec3 ℝ} (hd : d ≠ .o) {P : ℝ → Prop}
    (hP : ∀ t, 0 ≤ t → t ≤ 1 → (Holds (Range.quadraticZeros (fin (lineA m (unit d) v)) (fin (lineB c m s (unit d) v))
      (fin (lineC r c s (unit d)))) (fin t) ↔ P t)) :
    (collideSphereLine (fin r) c.f m.f s.f d.f v.f = none ∧ ∀ t, 0 ≤ t → t ≤ 1 → ¬ P t) ∨
    ∃ C t, collideSphereLine (fin r) c.f m.f s.f d.f v.f = some C ∧ C.times.min = fin t ∧ First P t ∧
      C.position = (foot (along s v t) d (along c m t)).f ∧ C.normal = (foot (along s v t) d (along c m t) - c).f.normalize := by
  unfold collideSphereLine
  rw [Vec3.f_normalize hd]
  change (_ ∨ _)
  simp only [Vec3.f_sub, Vec3.f_cross, Vec3.f_dot, fin_mul, fin_sub, two_eq]
  rcases unit_first (.quadratic (fin (lineA m (unit d) v)) (fin (lineB c m s (unit d) v)) (fin (lineC r c s (unit d)))) hP with ⟨he, h⟩ | ⟨he, t, ht, hf⟩
  · left
    unfold lineA lineB lineC unit at he
    rw [he]; exact ⟨rfl, h⟩
  · right
    have e : (s.f + v.f.scale (fin t)) + (d.scale d.len⁻¹).f.scale (((c.f + m.f.scale (fin t)) - (s.f + v.f.scale (fin t))).dot (d.scale d.len⁻¹).f) =
        (foot (along s v t) d (along c m t)).f := by
      rw [← foot_unit hd]
      simp only [Vec3.f_scale, Vec3.f_add, Vec3.f_sub, Vec3.f_dot]
      rfl
    unfold lineA lineB lineC unit at he ht
    rw [he]
    refine ⟨_, t, rfl, ht, hf, ?_, ?_⟩
    · simp only [ht]; exact e
    · simp only [ht]; rw [e, Vec3.f_sub]

/-- What it means that the hit point of the line is accepted as a point of the segment. -/
theorem segment_test {a b : Vec3 ℝ} (k : ℝ) :
    (|(a - (a + (b - a).scale k)).len + (b - (a + (b - a).scale k)).len - (b - a).len| < eps) ↔ (|k| + |k - 1| - 1) * (b - a).len < eps := by
  have e1 : a - (a + (b - a).scale k) = (b - a).scale (-k) := by ext <;> simp
  have e2 : b - (a + (b - a).scale k) = (b - a).scale (1 - k) := by ext <;> simp <;> ring
  rw [e1, e2, Vec3.len_scale, Vec3.len_scale, abs_neg, abs_sub_comm 1 k]
  have hk : 0 ≤ |k| + |k - 1| - 1 := by
    have := abs_sub_abs_le_abs_sub 1 k
    rw [abs_one, abs_sub_comm 1 k] at this
    linarith
  have e3 : (b - a).len * |k| + (b - a).len * |k - 1| - (b - a).len = (|k| + |k - 1| - 1) * (b - a).len := by ring
  rw [e3, abs_of_nonneg (mul_nonneg hk (Vec3.len_nonneg _))]

/-- `collide_sphere_with_mid_line_segment` reports the hit of the line if its point is (nearly) a point of the segment. -/
theorem midSegment_eq {r : ℝ} {c m a b v : Vec3 ℝ} {C : Collision XReal} {t k : ℝ}
    (h : collideSphereLine (fin r) c.f m.f a.f (b - a).f v.f = some C) (ht : C.times.min = fin t)
    (hp : C.position = (along a v t + (b - a).scale k).f) :
    collideSphereMidSegment (fin r) c.f m.f a.f b.f v.f = if (|k| + |k - 1| - 1) * (b - a).len < eps then some C else none := by
  unfold collideSphereMidSegment
  simp only [Vec3.f_sub, h, ht, hp, Vec3.f_scale, Vec3.f_add, Vec3.f_magnitude, fin_add, fin_sub, fin_abs, XReal.EPSILON_eq, fin_lt]
  have e := segment_test (a := along a v t) (b := along b v t) k
  have eb : along b v t - along a v t = b - a := by unfold along; ext <;> simp
  rw [eb] at e
  unfold eps at e ⊢
  by_cases h : (|k| + |k - 1| - 1) * (b - a).len < 1 / 1000000
  · rw [if_pos h, if_pos]
    simpa [along] using e.mpr h
  · rw [if_neg h, if_neg]
    have := (not_congr e).mpr h
    simpa [along] using this

/-- The point is on the segment. -/
def OnSegment (a b x : Vec3 ℝ) : Prop := ∃ k : ℝ, 0 ≤ k ∧ k ≤ 1 ∧ x = a + (b - a).scale k

/-- A point of the line that passes the test is within the cut-off of the segment. -/
theorem near_segment {a b : Vec3 ℝ} {k : ℝ} (h : (|k| + |k - 1| - 1) * (b - a).len < eps) :
    ∃ x, OnSegment a b x ∧ (a + (b - a).scale k - x).len ≤ eps / 2 := by
  rcases lt_or_ge k 0 with h0 | h0
  · refine ⟨a, ⟨0, le_refl _, zero_le_one, by ext <;> simp⟩, ?_⟩
    have e : a + (b - a).scale k - a = (b - a).scale k := by ext <;> simp
    rw [abs_of_neg h0, abs_of_neg (by linarith : k - 1 < 0)] at h
    rw [e, Vec3.len_scale, abs_of_neg h0]
    nlinarith
  · rcases le_or_gt k 1 with h1 | h1
    · refine ⟨_, ⟨k, h0, h1, rfl⟩, ?_⟩
      rw [Vec3.sub_self', Vec3.len_o]
      exact (half_pos eps_pos).le
    · refine ⟨b, ⟨1, zero_le_one, le_refl _, by ext <;> simp⟩, ?_⟩
      have e : a + (b - a).scale k - b = (b - a).scale (k - 1) := by ext <;> simp <;> ring
      rw [abs_of_nonneg h0, abs_of_pos (by linarith : 0 < k - 1)] at h
      rw [e, Vec3.len_scale, abs_of_pos (by linarith : 0 < k - 1)]
      nlinarith

/-- The moving ball and the moving segment share a point at time `t`. -/
def BallMeetsSegment (r : ℝ) (c m a b v : Vec3 ℝ) (t : ℝ) : Prop :=
  ∃ x, OnSegment (along a v t) (along b v t) x ∧ InBall (along c m t) r x

theorem along_diff (a b v : Vec3 ℝ) (t : ℝ) : along b v t - along a v t = b - a := by unfold along; ext <;> simp

/-- How far along the segment (0 at `a`, 1 at `b`) the nearest point of the line is. -/
noncomputable def footAt (c m a d v : Vec3 ℝ) (t : ℝ) : ℝ := (along c m t - along a v t).dot d / d.dot d

/-- The result of `collide_sphere_with_mid_line_segment`, for any set of times the range is known to be. -/
theorem segment_first {r : ℝ} {c m a b v : Vec3 ℝ} (hd : b - a ≠ .o) {P : ℝ → Prop}
    (hP : ∀ t, 0 ≤ t → t ≤ 1 → (Holds (Range.quadraticZeros (fin (lineA m (unit (b - a)) v)) (fin (lineB c m a (unit (b - a)) v))
      (fin (lineC r c a (unit (b - a))))) (fin t) ↔ P t)) :
    (collideSphereMidSegment (fin r) c.f m.f a.f b.f v.f = none ∧
      ∀ t, First P t → ¬ (0 ≤ footAt c m a (b - a) v t ∧ footAt c m a (b - a) v t ≤ 1)) ∨
    ∃ C t, collideSphereMidSegment (fin r) c.f m.f a.f b.f v.f = some C ∧ C.times.min = fin t ∧ First P t ∧
      C.position = (foot (along a v t) (b - a) (along c m t)).f ∧
      ∃ x, OnSegment (along a v t) (along b v t) x ∧ (foot (along a v t) (b - a) (along c m t) - x).len ≤ eps / 2 := by
  rcases sphereLine_first (r := r) (c := c) (s := a) (m := m) (v := v) hd hP with ⟨h, hno⟩ | ⟨C, t, hC, ht, hf, hp, -⟩
  · left
    refine ⟨?_, fun t ht => absurd ht.1.2.2 (hno t ht.1.1 ht.1.2.1)⟩
    unfold collideSphereMidSegment
    simp only [Vec3.f_sub, h]
  · have e := midSegment_eq (k := footAt c m a (b - a) v t) hC ht (by rw [hp]; rfl)
    by_cases hk : (|footAt c m a (b - a) v t| + |footAt c m a (b - a) v t - 1| - 1) * (b - a).len < eps
    · right
      rw [if_pos hk] at e
      refine ⟨C, t, e, ht, hf, hp, ?_⟩
      have hn := near_segment (a := along a v t) (b := along b v t) (k := footAt c m a (b - a) v t) (by rw [along_diff]; exact hk)
      rw [along_diff] at hn
      exact hn
    · left
      rw [if_neg hk] at e
      refine ⟨e, fun u hu h01 => hk ?_⟩
      have : u = t := le_antisymm (hu.2 t hf.1.1 hf.1.2.1 hf.1.2.2) (hf.2 u hu.1.1 hu.1.2.1 hu.1.2.2)
      subst this
      rw [abs_of_nonneg h01.1, abs_of_nonpos (by linarith [h01.2] : footAt c m a (b - a) v u - 1 ≤ 0)]
      have : footAt c m a (b - a) v u + -(footAt c m a (b - a) v u - 1) - 1 = 0 := by ring
      rw [this, zero_mul]
      exact eps_pos

/-- **C60**, universal soundness: a reported contact of a sphere with an edge is at the point of the edge's line that is nearest to the centre,
at most half the cut-off beyond the edge's ends, and the squared distance of the centre is at most the square of the radius plus a quarter. -/
theorem C60_reported {r : ℝ} {c m a b v : Vec3 ℝ} (hd : b - a ≠ .o) {C : Collision XReal}
    (h : collideSphereMidSegment (fin r) c.f m.f a.f b.f v.f = some C) :
    ∃ (t : ℝ) (q x : Vec3 ℝ), C.times.min = fin t ∧ 0 ≤ t ∧ t ≤ 1 ∧ C.position = q.f ∧ (q - along c m t).dot (b - a) = 0 ∧
      (q - along c m t).dot (q - along c m t) ≤ r * r + 1 / 4 ∧ OnSegment (along a v t) (along b v t) x ∧ (q - x).len ≤ eps / 2 := by
  rcases segment_first (r := r) (c := c) (m := m) (v := v) hd (fun t _ _ => Iff.rfl) with h' | ⟨D, t, hD, ht, hf, hp, x, hx, hq⟩
  · rw [h'.1] at h; cases h
  · rw [hD] at h; cases h
    refine ⟨t, _, x, ht, hf.1.1, hf.1.2.1, hp, foot_perp hd, ?_, hx, hq⟩
    rw [line_quadratic (r := r) hd t]
    have := quad_sound (a := lineA m (unit (b - a)) v) (Vec3.dot_self_nonneg _) hf.1.1 hf.1.2.1 hf.1.2.2
    linarith

/-- The speed across the edge is not below the cut-off and the discriminant is not within it of zero. -/
def CleanLine (r : ℝ) (c m a d v : Vec3 ℝ) : Prop :=
  eps ≤ lineA m (unit d) v ∧
  (lineB c m a (unit d) v * lineB c m a (unit d) v - 4 * lineA m (unit d) v * lineC r c a (unit d) < -eps ∨
    eps ≤ lineB c m a (unit d) v * lineB c m a (unit d) v - 4 * lineA m (unit d) v * lineC r c a (unit d))

/-- The relative speed is not below the cut-off and the discriminant is not within it of zero. -/
def CleanPoint (r : ℝ) (c m p v : Vec3 ℝ) : Prop :=
  eps ≤ (m - v).dot (m - v) ∧ (discriminant r c m 0 p v < -eps ∨ eps ≤ discriminant r c m 0 p v)

/-- **C60**, exact: outside the cut-offs the edge is reported exactly at the first time the ball meets the edge's line, if it does so within the edge. -/
theorem C60_edge_partial {r : ℝ} (hr : 0 ≤ r) {c m a b v : Vec3 ℝ} (hd : b - a ≠ .o) (hc : CleanLine r c m a (b - a) v) :
    (collideSphereMidSegment (fin r) c.f m.f a.f b.f v.f = none ∧ ∀ t, First (BallMeetsLine r c m a (b - a) v) t →
      ¬ (0 ≤ footAt c m a (b - a) v t ∧ footAt c m a (b - a) v t ≤ 1)) ∨
    ∃ C t, collideSphereMidSegment (fin r) c.f m.f a.f b.f v.f = some C ∧ C.times.min = fin t ∧ First (BallMeetsLine r c m a (b - a) v) t ∧
      C.position = (foot (along a v t) (b - a) (along c m t)).f ∧
      ∃ x, OnSegment (along a v t) (along b v t) x ∧ (foot (along a v t) (b - a) (along c m t) - x).len ≤ eps / 2 :=
  segment_first hd (fun t _ _ => by
    rw [meetsLine_iff hr hd]
    exact (C40_quadratic_partial _ _ _ hc.1).1 hc.2 t)

/-- A corner point is reported exactly at the first time it is in the ball. -/
theorem corner_first {r : ℝ} (hr : 0 < r) {c m p v : Vec3 ℝ} (hc : CleanPoint r c m p v) :
    (collideSphereSphere (fin r) c.f m.f (fin 0) p.f v.f = none ∧ ∀ t, 0 ≤ t → t ≤ 1 → ¬ InBall (along c m t) r (along p v t)) ∨
    ∃ C t, collideSphereSphere (fin r) c.f m.f (fin 0) p.f v.f = some C ∧ C.times.min = fin t ∧ First (fun t => InBall (along c m t) r (along p v t)) t := by
  have e : ∀ t, BallsMeet r c m 0 p v t ↔ InBall (along c m t) r (along p v t) := by
    intro t
    unfold BallsMeet
    constructor
    · rintro ⟨x, h1, h2⟩
      have : x - along p v t = .o := (Vec3.len_eq_zero _).mp (le_antisymm h2 (Vec3.len_nonneg _))
      have : x = along p v t := by
        ext
        · have := congrArg Vec3.x this; simp at this; linarith
        · have := congrArg Vec3.y this; simp at this; linarith
        · have := congrArg Vec3.z this; simp at this; linarith
      rwa [← this]
    · intro h
      refine ⟨_, h, ?_⟩
      unfold InBall
      rw [Vec3.sub_self', Vec3.len_o]
  rcases C43_sphereSphere_partial hr.le (le_refl 0) (by linarith) hc.1 hc.2 with ⟨h, hno⟩ | ⟨C, t, q, hC, ht, hf, -⟩
  · exact .inl ⟨h, fun t h0 h1 => by rw [← e]; exact hno t h0 h1⟩
  · refine .inr ⟨C, t, hC, ht, ?_⟩
    have : BallsMeet r c m 0 p v = fun t => InBall (along c m t) r (along p v t) := funext fun t => propext (e t)
    rwa [this] at hf

theorem footAt_linear {c m a d v : Vec3 ℝ} (t : ℝ) : footAt c m a d v t = footAt c m a d v 0 + (m - v).dot d / d.dot d * t := by
  have : (along c m t - along a v t).dot d = (along c m 0 - along a v 0).dot d + (m - v).dot d * t := by simp [along, Vec3.dot_def]; ring
  unfold footAt
  rw [this]; ring

/-- **C60**, completeness for an edge with its two end points: if the ball meets the closed edge during the step, one of the three
detectors reports a contact exactly at the first time it does. -/
theorem C60_complete_partial {r : ℝ} (hr : 0 < r) {c m a b v : Vec3 ℝ} (hd : b - a ≠ .o) (hc : CleanLine r c m a (b - a) v)
    (ha : CleanPoint r c m a v) (hb : CleanPoint r c m b v) {t : ℝ} (ht : First (BallMeetsSegment r c m a b v) t) :
    ∃ C, C.times.min = fin t ∧ (collideSphereMidSegment (fin r) c.f m.f a.f b.f v.f = some C ∨
      collideSphereSphere (fin r) c.f m.f (fin 0) a.f v.f = some C ∨ collideSphereSphere (fin r) c.f m.f (fin 0) b.f v.f = some C) := by
  have hdd : 0 < (b - a).dot (b - a) := lt_of_le_of_ne (Vec3.dot_self_nonneg _) (fun h => hd ((Vec3.dot_self_eq_zero _).mp h.symm))
  -- the end points belong to the edge
  have end_a : ∀ u, InBall (along c m u) r (along a v u) → BallMeetsSegment r c m a b v u := fun u h =>
    ⟨_, ⟨0, le_refl _, zero_le_one, by ext <;> simp⟩, h⟩
  have end_b : ∀ u, InBall (along c m u) r (along b v u) → BallMeetsSegment r c m a b v u := fun u h =>
    ⟨_, ⟨1, zero_le_one, le_refl _, by ext <;> simp⟩, h⟩
  have touch_a : InBall (along c m t) r (along a v t) → ∃ C, C.times.min = fin t ∧ collideSphereSphere (fin r) c.f m.f (fin 0) a.f v.f = some C := by
    intro h
    rcases corner_first hr ha with ⟨-, hno⟩ | ⟨C, u, hC, hu, hf⟩
    · exact absurd h (hno t ht.1.1 ht.1.2.1)
    · have h1 := hf.2 t ht.1.1 ht.1.2.1 h
      have h2 := ht.2 u hf.1.1 hf.1.2.1 (end_a u hf.1.2.2)
      exact ⟨C, by rw [hu, le_antisymm h1 h2], hC⟩
  have touch_b : InBall (along c m t) r (along b v t) → ∃ C, C.times.min = fin t ∧ collideSphereSphere (fin r) c.f m.f (fin 0) b.f v.f = some C := by
    intro h
    rcases corner_first hr hb with ⟨-, hno⟩ | ⟨C, u, hC, hu, hf⟩
    · exact absurd h (hno t ht.1.1 ht.1.2.1)
    · have h1 := hf.2 t ht.1.1 ht.1.2.1 h
      have h2 := ht.2 u hf.1.1 hf.1.2.1 (end_b u hf.1.2.2)
      exact ⟨C, by rw [hu, le_antisymm h1 h2], hC⟩
  -- the ball meets the line
  obtain ⟨x, ⟨k, k0, k1, rfl⟩, hx⟩ := ht.1.2.2
  rw [along_diff] at hx
  have hline : BallMeetsLine r c m a (b - a) v t := ⟨k, hx⟩
  -- where the line is within reach, so is the edge if the foot is on it
  have reach : ∀ u, BallMeetsLine r c m a (b - a) v u → InBall (along c m u) r (along a v u + (b - a).scale (footAt c m a (b - a) v u)) := by
    intro u hu
    rw [meetsLine_iff hr.le hd] at hu
    rw [inBall_iff hr.le]
    have := line_quadratic (r := r) (c := c) (m := m) (s := a) (v := v) hd u
    show (foot (along a v u) (b - a) (along c m u) - along c m u).dot (foot (along a v u) (b - a) (along c m u) - along c m u) ≤ r * r
    linarith
  -- the projection of the centre at time `t`, relative to the point of the edge in reach
  have hcase : footAt c m a (b - a) v t < 0 → InBall (along c m t) r (along a v t) := by
    intro hneg
    rw [inBall_iff hr.le] at hx ⊢
    have e : (along a v t + (b - a).scale k - along c m t).dot (along a v t + (b - a).scale k - along c m t) =
        (along a v t - along c m t).dot (along a v t - along c m t) + k * (k * (b - a).dot (b - a) - 2 * ((along c m t - along a v t).dot (b - a))) := by
      generalize along a v t = A; generalize along c m t = X; simp [Vec3.dot_def]; ring
    have hneg' : (along c m t - along a v t).dot (b - a) < 0 := by
      unfold footAt at hneg
      by_contra hge
      exact absurd (div_nonneg (not_lt.mp hge) hdd.le) (not_le.mpr hneg)
    have : 0 ≤ k * (k * (b - a).dot (b - a) - 2 * ((along c m t - along a v t).dot (b - a))) :=
      mul_nonneg k0 (by nlinarith [mul_nonneg k0 hdd.le])
    linarith
  have hcase' : 1 < footAt c m a (b - a) v t → InBall (along c m t) r (along b v t) := by
    intro hgt
    rw [inBall_iff hr.le] at hx ⊢
    have hb' : along b v t = along a v t + (b - a) := by rw [← along_diff a b v t]; ext <;> simp
    have hgt' : (b - a).dot (b - a) < (along c m t - along a v t).dot (b - a) := by
      unfold footAt at hgt
      rwa [lt_div_iff₀ hdd, one_mul] at hgt
    rw [hb']
    have e : (along a v t + (b - a).scale k - along c m t).dot (along a v t + (b - a).scale k - along c m t) =
        (along a v t + (b - a) - along c m t).dot (along a v t + (b - a) - along c m t) +
        (1 - k) * (2 * ((along c m t - along a v t).dot (b - a)) - (1 + k) * (b - a).dot (b - a)) := by
      generalize along a v t = A; generalize along c m t = X; generalize b - a = d; simp [Vec3.dot_def]; ring
    have : 0 ≤ (1 - k) * (2 * ((along c m t - along a v t).dot (b - a)) - (1 + k) * (b - a).dot (b - a)) :=
      mul_nonneg (by linarith) (by nlinarith)
    linarith
  by_cases hf0 : footAt c m a (b - a) v t < 0
  · obtain ⟨C, h1, h2⟩ := touch_a (hcase hf0)
    exact ⟨C, h1, .inr (.inl h2)⟩
  by_cases hf1 : 1 < footAt c m a (b - a) v t
  · obtain ⟨C, h1, h2⟩ := touch_b (hcase' hf1)
    exact ⟨C, h1, .inr (.inr h2)⟩
  have hf0 := not_lt.mp hf0
  have hf1 := not_lt.mp hf1
  -- the first time the ball meets the line
  have hfirst : ∃ u, First (BallMeetsLine r c m a (b - a) v) u := by
    rcases sphereLine_first (r := r) (c := c) (s := a) (m := m) (v := v) hd (P := BallMeetsLine r c m a (b - a) v) (fun t _ _ => by
      rw [meetsLine_iff hr.le hd]
      exact (C40_quadratic_partial _ _ _ hc.1).1 hc.2 t) with ⟨-, hno⟩ | ⟨C, u, -, -, hf, -⟩
    · exact absurd hline (hno t ht.1.1 ht.1.2.1)
    · exact ⟨u, hf⟩
  obtain ⟨u, hu⟩ := hfirst
  have hut := hu.2 t ht.1.1 ht.1.2.1 hline
  -- between `u` and `t` the line stays within reach
  have between : ∀ w, u ≤ w → w ≤ t → BallMeetsLine r c m a (b - a) v w := by
    intro w h1 h2
    have q1 := (meetsLine_iff hr.le hd u).mp hu.1.2.2
    have q2 := (meetsLine_iff hr.le hd t).mp hline
    rw [meetsLine_iff hr.le hd]
    have hA : 0 ≤ lineA m (unit (b - a)) v := Vec3.dot_self_nonneg _
    generalize lineA m (unit (b - a)) v = A at *
    generalize lineB c m a (unit (b - a)) v = B at *
    generalize lineC r c a (unit (b - a)) = K at *
    rcases eq_or_lt_of_le (le_trans h1 h2) with e | hlt
    · have : w = t := le_antisymm h2 (by rw [← e]; exact h1)
      rw [this]; exact q2
    · have key : (t - u) * (A * w ^ 2 + B * w + K) = (t - w) * (A * u ^ 2 + B * u + K) + (w - u) * (A * t ^ 2 + B * t + K) - A * (t - u) * (w - u) * (t - w) := by ring
      have n1 : (t - w) * (A * u ^ 2 + B * u + K) ≤ 0 := mul_nonpos_of_nonneg_of_nonpos (by linarith) q1
      have n2 : (w - u) * (A * t ^ 2 + B * t + K) ≤ 0 := mul_nonpos_of_nonneg_of_nonpos (by linarith) q2
      have n3 : 0 ≤ A * (t - u) * (w - u) * (t - w) :=
        mul_nonneg (mul_nonneg (mul_nonneg hA (by linarith)) (by linarith)) (by linarith)
      by_contra hc
      push Not at hc
      have := mul_pos (sub_pos.mpr hlt) hc
      linarith
  have on_edge : ∀ w, u ≤ w → w ≤ t → 0 ≤ footAt c m a (b - a) v w → footAt c m a (b - a) v w ≤ 1 → w = t := by
    intro w h1 h2 h3 h4
    refine le_antisymm h2 (ht.2 w (le_trans hu.1.1 h1) (le_trans h2 ht.1.2.1) ⟨_, ⟨_, h3, h4, rfl⟩, ?_⟩)
    rw [along_diff]
    exact reach w (between w h1 h2)
  by_cases hin : 0 ≤ footAt c m a (b - a) v u ∧ footAt c m a (b - a) v u ≤ 1
  · -- the line is first met within the edge
    have hut' := on_edge u (le_refl _) hut hin.1 hin.2
    subst hut'
    rcases C60_edge_partial hr.le hd hc with ⟨-, hno⟩ | ⟨C, w, hC, hw, hf, -⟩
    · exact absurd hin (hno u hu)
    · have : w = u := le_antisymm (hf.2 u hu.1.1 hu.1.2.1 hu.1.2.2) (hu.2 w hf.1.1 hf.1.2.1 hf.1.2.2)
      exact ⟨C, by rw [hw, this], .inl hC⟩
  · -- the foot enters the edge through one of its ends
    set g := footAt c m a (b - a) v with hg
    have lin : ∀ w, g w = g 0 + (m - v).dot (b - a) / (b - a).dot (b - a) * w := fun w => footAt_linear w
    generalize (m - v).dot (b - a) / (b - a).dot (b - a) = s at lin
    rw [not_and_or, not_le, not_le] at hin
    rcases hin with hin | hin
    · have hs : 0 < s * (t - u) := by
        have h1 := lin u; have h2 := lin t
        nlinarith
      have hs0 : 0 < s := by
        rcases lt_or_ge 0 s with h | h
        · exact h
        · exact absurd hs (not_lt.mpr (mul_nonpos_of_nonpos_of_nonneg h (by linarith)))
      have hw : g (u - g u / s) = 0 := by rw [lin, lin u]; field_simp; ring
      have h1 : u ≤ u - g u / s := by
        have : g u / s ≤ 0 := (div_neg_of_neg_of_pos hin hs0).le
        linarith
      have h2 : u - g u / s ≤ t := by
        have : g t = g (u - g u / s) + s * (t - (u - g u / s)) := by rw [lin t, lin (u - g u / s)]; ring
        rw [hw] at this
        by_contra hlt
        push Not at hlt
        have : s * (t - (u - g u / s)) < 0 := mul_neg_of_pos_of_neg hs0 (by linarith)
        linarith
      have he := on_edge _ h1 h2 (by rw [hw]) (by rw [hw]; exact zero_le_one)
      have hga : g t = 0 := by rw [← he]; exact hw
      have := reach t hline
      rw [hga] at this
      have e : along a v t + (b - a).scale 0 = along a v t := by ext <;> simp
      rw [e] at this
      obtain ⟨C, q1, q2⟩ := touch_a this
      exact ⟨C, q1, .inr (.inl q2)⟩
    · have hs : s * (t - u) < 0 := by
        have h1 := lin u; have h2 := lin t
        nlinarith
      have hs0 : s < 0 := by
        rcases lt_or_ge s 0 with h | h
        · exact h
        · exact absurd hs (not_lt.mpr (mul_nonneg h (by linarith)))
      have hw : g (u - (g u - 1) / s) = 1 := by
        have := hs0.ne
        rw [lin, lin u]; field_simp; ring
      have h1 : u ≤ u - (g u - 1) / s := by
        have : (g u - 1) / s ≤ 0 := (div_neg_of_pos_of_neg (by linarith) hs0).le
        linarith
      have h2 : u - (g u - 1) / s ≤ t := by
        have : g t = g (u - (g u - 1) / s) + s * (t - (u - (g u - 1) / s)) := by rw [lin t, lin (u - (g u - 1) / s)]; ring
        rw [hw] at this
        by_contra hlt
        push Not at hlt
        have : 0 < s * (t - (u - (g u - 1) / s)) := mul_pos_of_neg_of_neg hs0 (by linarith)
        linarith
      have he := on_edge _ h1 h2 (by rw [hw]; exact zero_le_one) (by rw [hw])
      have hga : g t = 1 := by rw [← he]; exact hw
      have := reach t hline
      rw [hga] at this
      have e : along a v t + (b - a).scale 1 = along b v t := by unfold along; ext <;> simp <;> ring
      rw [e] at this
      obtain ⟨C, q1, q2⟩ := touch_b this
      exact ⟨C, q1, .inr (.inr q2)⟩

/-- The line is still relative to the centre's distance from it, or clear of the cut-offs. -/
def SafeLine (r : ℝ) (c m a d v : Vec3 ℝ) : Prop := (m - v).cross (unit d) = .o ∨ CleanLine r c m a d v
/-- The point is still relative to the centre, or clear of the cut-offs. -/
def SafePoint (r : ℝ) (c m p v : Vec3 ℝ) : Prop := m - v = .o ∨ CleanPoint r c m p v

/-- A corner point in the ball at some time of the step is reported by that time. -/
theorem corner_by {r : ℝ} (hr : 0 < r) {c m p v : Vec3 ℝ} (hc : SafePoint r c m p v) {t : ℝ} (t0 : 0 ≤ t) (t1 : t ≤ 1)
    (h : InBall (along c m t) r (along p v t)) :
    ∃ C u, collideSphereSphere (fin r) c.f m.f (fin 0) p.f v.f = some C ∧ C.times.min = fin u ∧ u ≤ t := by
  rcases hc with hc | hc
  · rw [inBall_iff hr.le] at h
    have hd : (along p v t - along c m t).dot (along p v t - along c m t) = (c - p).dot (c - p) := by
      have hx := congrArg Vec3.x hc; have hy := congrArg Vec3.y hc; have hz := congrArg Vec3.z hc
      simp at hx hy hz
      have ex : m.x = v.x := by linarith
      have ey : m.y = v.y := by linarith
      have ez : m.z = v.z := by linarith
      simp [along, Vec3.dot_def, ex, ey, ez]; ring
    rcases C43_resting (r1 := r) (r2 := 0) (c1 := c) (m1 := m) (c2 := p) (m2 := v) (by linarith) (by rw [hc, (Vec3.dot_self_eq_zero _).mpr rfl]; exact eps_pos)
      (by rw [hc]; simp [Vec3.dot_def]; exact eps_pos) with ⟨-, h'⟩ | ⟨C, hC, hu, -⟩
    · exfalso
      have := eps_pos
      nlinarith
    · exact ⟨C, 0, hC, hu, t0⟩
  · rcases corner_first hr hc with ⟨-, hno⟩ | ⟨C, u, hC, hu, hf⟩
    · exact absurd h (hno t t0 t1)
    · exact ⟨C, u, hC, hu, hf.2 t t0 t1 h⟩

/-- If the ball meets the closed edge at some time of the step, one of the three detectors reports a contact by that time. -/
theorem edge_by {r : ℝ} (hr : 0 < r) {c m a b v : Vec3 ℝ} (hd : b - a ≠ .o) (hc : SafeLine r c m a (b - a) v)
    (ha : SafePoint r c m a v) (hb : SafePoint r c m b v) {t : ℝ} (t0 : 0 ≤ t) (t1 : t ≤ 1) (ht : BallMeetsSegment r c m a b v t) :
    ∃ C u, C.times.min = fin u ∧ u ≤ t ∧ (collideSphereMidSegment (fin r) c.f m.f a.f b.f v.f = some C ∨
      collideSphereSphere (fin r) c.f m.f (fin 0) a.f v.f = some C ∨ collideSphereSphere (fin r) c.f m.f (fin 0) b.f v.f = some C) := by
  have hdd : 0 < (b - a).dot (b - a) := lt_of_le_of_ne (Vec3.dot_self_nonneg _) (fun h => hd ((Vec3.dot_self_eq_zero _).mp h.symm))
  have touch_a : ∀ w, 0 ≤ w → w ≤ t → InBall (along c m w) r (along a v w) → ∃ C u, C.times.min = fin u ∧ u ≤ t ∧
      (collideSphereMidSegment (fin r) c.f m.f a.f b.f v.f = some C ∨
      collideSphereSphere (fin r) c.f m.f (fin 0) a.f v.f = some C ∨ collideSphereSphere (fin r) c.f m.f (fin 0) b.f v.f = some C) := by
    intro w w0 w1 h
    obtain ⟨C, u, h1, h2, h3⟩ := corner_by hr ha w0 (le_trans w1 t1) h
    exact ⟨C, u, h2, le_trans h3 w1, .inr (.inl h1)⟩
  have touch_b : ∀ w, 0 ≤ w → w ≤ t → InBall (along c m w) r (along b v w) → ∃ C u, C.times.min = fin u ∧ u ≤ t ∧
      (collideSphereMidSegment (fin r) c.f m.f a.f b.f v.f = some C ∨
      collideSphereSphere (fin r) c.f m.f (fin 0) a.f v.f = some C ∨ collideSphereSphere (fin r) c.f m.f (fin 0) b.f v.f = some C) := by
    intro w w0 w1 h
    obtain ⟨C, u, h1, h2, h3⟩ := corner_by hr hb w0 (le_trans w1 t1) h
    exact ⟨C, u, h2, le_trans h3 w1, .inr (.inr h1)⟩
  obtain ⟨x, ⟨k, k0, k1, rfl⟩, hx⟩ := ht
  rw [along_diff] at hx
  have hline : BallMeetsLine r c m a (b - a) v t := ⟨k, hx⟩
  have reach : ∀ u, BallMeetsLine r c m a (b - a) v u → InBall (along c m u) r (along a v u + (b - a).scale (footAt c m a (b - a) v u)) := by
    intro u hu
    rw [meetsLine_iff hr.le hd] at hu
    rw [inBall_iff hr.le]
    have := line_quadratic (r := r) (c := c) (m := m) (s := a) (v := v) hd u
    show (foot (along a v u) (b - a) (along c m u) - along c m u).dot (foot (along a v u) (b - a) (along c m u) - along c m u) ≤ r * r
    linarith
  have hcase : footAt c m a (b - a) v t < 0 → InBall (along c m t) r (along a v t) := by
    intro hneg
    rw [inBall_iff hr.le] at hx ⊢
    have e : (along a v t + (b - a).scale k - along c m t).dot (along a v t + (b - a).scale k - along c m t) =
        (along a v t - along c m t).dot (along a v t - along c m t) + k * (k * (b - a).dot (b - a) - 2 * ((along c m t - along a v t).dot (b - a))) := by
      generalize along a v t = A; generalize along c m t = X; simp [Vec3.dot_def]; ring
    have hneg' : (along c m t - along a v t).dot (b - a) < 0 := by
      unfold footAt at hneg
      by_contra hge
      exact absurd (div_nonneg (not_lt.mp hge) hdd.le) (not_le.mpr hneg)
    have : 0 ≤ k * (k * (b - a).dot (b - a) - 2 * ((along c m t - along a v t).dot (b - a))) :=
      mul_nonneg k0 (by nlinarith [mul_nonneg k0 hdd.le])
    linarith
  have hcase' : 1 < footAt c m a (b - a) v t → InBall (along c m t) r (along b v t) := by
    intro hgt
    rw [inBall_iff hr.le] at hx ⊢
    have hb' : along b v t = along a v t + (b - a) := by rw [← along_diff a b v t]; ext <;> simp
    have hgt' : (b - a).dot (b - a) < (along c m t - along a v t).dot (b - a) := by
      unfold footAt at hgt
      rwa [lt_div_iff₀ hdd, one_mul] at hgt
    rw [hb']
    have e : (along a v t + (b - a).scale k - along c m t).dot (along a v t + (b - a).scale k - along c m t) =
        (along a v t + (b - a) - along c m t).dot (along a v t + (b - a) - along c m t) +
        (1 - k) * (2 * ((along c m t - along a v t).dot (b - a)) - (1 + k) * (b - a).dot (b - a)) := by
      generalize along a v t = A; generalize along c m t = X; generalize b - a = d; simp [Vec3.dot_def]; ring
    have : 0 ≤ (1 - k) * (2 * ((along c m t - along a v t).dot (b - a)) - (1 + k) * (b - a).dot (b - a)) :=
      mul_nonneg (by linarith) (by nlinarith)
    linarith
  by_cases hf0 : footAt c m a (b - a) v t < 0
  · exact touch_a t t0 (le_refl _) (hcase hf0)
  by_cases hf1 : 1 < footAt c m a (b - a) v t
  · exact touch_b t t0 (le_refl _) (hcase' hf1)
  have hf0 := not_lt.mp hf0
  have hf1 := not_lt.mp hf1
  -- a time from which on the line stays in reach, and at which the edge is reported if the foot is on it
  have hfirst : ∃ u, 0 ≤ u ∧ u ≤ t ∧ BallMeetsLine r c m a (b - a) v u ∧
      (0 ≤ footAt c m a (b - a) v u ∧ footAt c m a (b - a) v u ≤ 1 →
        ∃ C, C.times.min = fin u ∧ collideSphereMidSegment (fin r) c.f m.f a.f b.f v.f = some C) := by
    rcases hc with hc | hc
    · have hA : lineA m (unit (b - a)) v = 0 := by unfold lineA; rw [hc]; exact (Vec3.dot_self_eq_zero _).mpr rfl
      have hB : lineB c m a (unit (b - a)) v = 0 := by unfold lineB; rw [hc]; simp [Vec3.dot_def]
      have hC := (meetsLine_iff hr.le hd t).mp hline
      rw [hA, hB] at hC
      have hC : lineC r c a (unit (b - a)) ≤ 0 := by linarith
      refine ⟨0, le_refl _, t0, (meetsLine_iff hr.le hd 0).mpr (by rw [hA, hB]; linarith), fun hin => ?_⟩
      rcases segment_first (r := r) (c := c) (m := m) (a := a) (b := b) (v := v) hd (P := fun _ => lineC r c a (unit (b - a)) < eps) (fun t _ _ => by
        rw [hA, hB]
        exact (C40_degenerate 0 0 _ (by rw [abs_zero]; exact eps_pos)).1 (by rw [abs_zero]; exact eps_pos) t) with ⟨-, hno⟩ | ⟨C, u, hC', hu, hf, -⟩
      · exact absurd hin (hno 0 ⟨⟨le_refl _, zero_le_one, lt_of_le_of_lt hC eps_pos⟩, fun u u0 _ _ => u0⟩)
      · have hu0 : u = 0 := le_antisymm (hf.2 0 (le_refl _) zero_le_one hf.1.2.2) hf.1.1
        exact ⟨C, by rw [hu, hu0], hC'⟩
    · rcases sphereLine_first (r := r) (c := c) (s := a) (m := m) (v := v) hd (P := BallMeetsLine r c m a (b - a) v) (fun t _ _ => by
        rw [meetsLine_iff hr.le hd]
        exact (C40_quadratic_partial _ _ _ hc.1).1 hc.2 t) with ⟨-, hno⟩ | ⟨C, u, -, -, hf, -⟩
      · exact absurd hline (hno t t0 t1)
      · refine ⟨u, hf.1.1, hf.2 t t0 t1 hline, hf.1.2.2, fun hin => ?_⟩
        rcases C60_edge_partial hr.le hd hc with ⟨-, hno⟩ | ⟨C, w, hC, hw, hf', -⟩
        · exact absurd hin (hno u hf)
        · have : w = u := le_antisymm (hf'.2 u hf.1.1 hf.1.2.1 hf.1.2.2) (hf.2 w hf'.1.1 hf'.1.2.1 hf'.1.2.2)
          exact ⟨C, by rw [hw, this], hC⟩
  obtain ⟨u, u0, hut, hu, hrep⟩ := hfirst
  have between : ∀ w, u ≤ w → w ≤ t → BallMeetsLine r c m a (b - a) v w := by
    intro w h1 h2
    have q1 := (meetsLine_iff hr.le hd u).mp hu
    have q2 := (meetsLine_iff hr.le hd t).mp hline
    rw [meetsLine_iff hr.le hd]
    have hA : 0 ≤ lineA m (unit (b - a)) v := Vec3.dot_self_nonneg _
    clear hrep hc
    generalize lineA m (unit (b - a)) v = A at *
    generalize lineB c m a (unit (b - a)) v = B at *
    generalize lineC r c a (unit (b - a)) = K at *
    rcases eq_or_lt_of_le (le_trans h1 h2) with e | hlt
    · have : w = t := le_antisymm h2 (by rw [← e]; exact h1)
      rw [this]; exact q2
    · have key : (t - u) * (A * w ^ 2 + B * w + K) = (t - w) * (A * u ^ 2 + B * u + K) + (w - u) * (A * t ^ 2 + B * t + K) - A * (t - u) * (w - u) * (t - w) := by ring
      have n1 : (t - w) * (A * u ^ 2 + B * u + K) ≤ 0 := mul_nonpos_of_nonneg_of_nonpos (by linarith) q1
      have n2 : (w - u) * (A * t ^ 2 + B * t + K) ≤ 0 := mul_nonpos_of_nonneg_of_nonpos (by linarith) q2
      have n3 : 0 ≤ A * (t - u) * (w - u) * (t - w) :=
        mul_nonneg (mul_nonneg (mul_nonneg hA (by linarith)) (by linarith)) (by linarith)
      by_contra hc
      push Not at hc
      have := mul_pos (sub_pos.mpr hlt) hc
      linarith
  by_cases hin : 0 ≤ footAt c m a (b - a) v u ∧ footAt c m a (b - a) v u ≤ 1
  · obtain ⟨C, h1, h2⟩ := hrep hin
    exact ⟨C, u, h1, hut, .inl h2⟩
  · -- the foot enters the edge through one of its ends
    set g := footAt c m a (b - a) v with hg
    have lin : ∀ w, g w = g 0 + (m - v).dot (b - a) / (b - a).dot (b - a) * w := fun w => footAt_linear w
    generalize (m - v).dot (b - a) / (b - a).dot (b - a) = s at lin
    rw [not_and_or, not_le, not_le] at hin
    rcases hin with hin | hin
    · have hs : 0 < s * (t - u) := by
        have h1 := lin u; have h2 := lin t
        nlinarith
      have hs0 : 0 < s := by
        rcases lt_or_ge 0 s with h | h
        · exact h
        · exact absurd hs (not_lt.mpr (mul_nonpos_of_nonpos_of_nonneg h (by linarith)))
      have hw : g (u - g u / s) = 0 := by rw [lin, lin u]; field_simp; ring
      have h1 : u ≤ u - g u / s := by
        have : g u / s ≤ 0 := (div_neg_of_neg_of_pos hin hs0).le
        linarith
      have h2 : u - g u / s ≤ t := by
        have : g t = g (u - g u / s) + s * (t - (u - g u / s)) := by rw [lin t, lin (u - g u / s)]; ring
        rw [hw] at this
        by_contra hlt
        push Not at hlt
        have : s * (t - (u - g u / s)) < 0 := mul_neg_of_pos_of_neg hs0 (by linarith)
        linarith
      have := reach _ (between _ h1 h2)
      rw [hw] at this
      have e : along a v (u - g u / s) + (b - a).scale 0 = along a v (u - g u / s) := by ext <;> simp
      rw [e] at this
      exact touch_a _ (le_trans u0 h1) h2 this
    · have hs : s * (t - u) < 0 := by
        have h1 := lin u; have h2 := lin t
        nlinarith
      have hs0 : s < 0 := by
        rcases lt_or_ge s 0 with h | h
        · exact h
        · exact absurd hs (not_lt.mpr (mul_nonneg h (by linarith)))
      have hw : g (u - (g u - 1) / s) = 1 := by
        have := hs0.ne
        rw [lin, lin u]; field_simp; ring
      have h1 : u ≤ u - (g u - 1) / s := by
        have : (g u - 1) / s ≤ 0 := (div_neg_of_pos_of_neg (by linarith) hs0).le
        linarith
      have h2 : u - (g u - 1) / s ≤ t := by
        have : g t = g (u - (g u - 1) / s) + s * (t - (u - (g u - 1) / s)) := by rw [lin t, lin (u - (g u - 1) / s)]; ring
        rw [hw] at this
        by_contra hlt
        push Not at hlt
        have : 0 < s * (t - (u - (g u - 1) / s)) := mul_pos_of_neg_of_neg hs0 (by linarith)
        linarith
      have := reach _ (between _ h1 h2)
      rw [hw] at this
      have e : along a v (u - (g u - 1) / s) + (b - a).scale 1 = along b v (u - (g u - 1) / s) := by unfold along; ext <;> simp <;> ring
      rw [e] at this
      exact touch_b _ (le_trans u0 h1) h2 this

/-- A ball falling onto the middle of an edge, for `C60_edge_partial` and `C60_complete_partial`. -/
example : (⟨2, 0, 0⟩ : Vec3 ℝ) - ⟨-2, 0, 0⟩ ≠ .o ∧
    CleanLine 1 ⟨0, 3, 0⟩ ⟨0, -4, 0⟩ ⟨-2, 0, 0⟩ (⟨2, 0, 0⟩ - ⟨-2, 0, 0⟩) .o ∧ CleanPoint 1 ⟨0, 3, 0⟩ ⟨0, -4, 0⟩ ⟨-2, 0, 0⟩ .o ∧
    CleanPoint 1 ⟨0, 3, 0⟩ ⟨0, -4, 0⟩ ⟨2, 0, 0⟩ .o ∧
    First (BallMeetsSegment 1 ⟨0, 3, 0⟩ ⟨0, -4, 0⟩ ⟨-2, 0, 0⟩ ⟨2, 0, 0⟩ .o) (1 / 2) := by
  have hl : ((⟨2, 0, 0⟩ : Vec3 ℝ) - ⟨-2, 0, 0⟩).len = 4 := by
    unfold Vec3.len
    rw [show ((⟨2, 0, 0⟩ : Vec3 ℝ) - ⟨-2, 0, 0⟩).dot (⟨2, 0, 0⟩ - ⟨-2, 0, 0⟩) = 4 * 4 by norm_num [Vec3.dot_def]]
    exact Real.sqrt_mul_self (by norm_num)
  have hu : unit ((⟨2, 0, 0⟩ : Vec3 ℝ) - ⟨-2, 0, 0⟩) = ⟨1, 0, 0⟩ := by
    unfold unit; rw [hl]; ext <;> simp <;> norm_num
  refine ⟨fun h => by have := congrArg Vec3.x h; norm_num at this, ⟨?_, ?_⟩, ⟨?_, ?_⟩, ⟨?_, ?_⟩, ⟨by norm_num, by norm_num, ?_⟩, ?_⟩
  · rw [hu]; unfold lineA eps; norm_num [Vec3.dot_def]
  · rw [hu]; right; unfold lineA lineB lineC eps; norm_num [Vec3.dot_def]
  · unfold eps; norm_num [Vec3.dot_def]
  · left; unfold discriminant eps; norm_num [Vec3.dot_def]
  · unfold eps; norm_num [Vec3.dot_def]
  · left; unfold discriminant eps; norm_num [Vec3.dot_def]
  · refine ⟨.o, ⟨1 / 2, by norm_num, by norm_num, by ext <;> simp [along] <;> norm_num⟩, ?_⟩
    rw [inBall_iff zero_le_one]; norm_num [along, Vec3.dot_def]
  · rintro u - - ⟨x, ⟨k, -, -, rfl⟩, hx⟩
    rw [inBall_iff zero_le_one] at hx
    simp [along, Vec3.dot_def] at hx
    nlinarith [sq_nonneg (-2 + (2 + 2) * k)]

end Fluffy.Props
