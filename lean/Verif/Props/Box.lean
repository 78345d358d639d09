import Verif.Props.Segment
import Verif.Props.Features
import Verif.Proofs.StepTotal
/-
C49, C61: collision detection between spheres and boxes, over exact numbers.
-/
set_option linter.unusedSectionVars false
set_option linter.unusedSimpArgs false
namespace Fluffy.Props
open Fluffy XReal

/-! ### The box and the ball -/

/-- The points of the box between two corners. -/
def InBox (a b x : Vec3 ℝ) : Prop := (a.x ≤ x.x ∧ x.x ≤ b.x) ∧ (a.y ≤ x.y ∧ x.y ≤ b.y) ∧ (a.z ≤ x.z ∧ x.z ≤ b.z)
/-- The ball of radius `r` whose centre moves from `c` by `m` has a point of the box at time `t`. -/
def BallMeetsBox (r : ℝ) (c m a b : Vec3 ℝ) (t : ℝ) : Prop := ∃ y, InBox a b y ∧ InBall (along c m t) r y

theorem len_le {v : Vec3 ℝ} {r : ℝ} (hr : 0 ≤ r) : v.len ≤ r ↔ v.dot v ≤ r * r := by
  have := inBall_iff (c := .o) (x := v) hr
  unfold InBall at this
  simpa using this
theorem len_triangle (u v : Vec3 ℝ) : (u + v).len ≤ u.len + v.len := by
  rw [len_le (add_nonneg (Vec3.len_nonneg _) (Vec3.len_nonneg _))]
  have := Vec3.dot_le u v
  have e : (u + v).dot (u + v) = u.dot u + 2 * u.dot v + v.dot v := by simp [Vec3.dot_def]; ring
  rw [e, ← Vec3.len_sq, ← Vec3.len_sq]
  linarith

/-- The times at which a moving ball meets a box are an interval. -/
theorem meetsBox_convex {r : ℝ} (hr : 0 ≤ r) {c m a b : Vec3 ℝ} {t1 t2 t : ℝ} (h1 : BallMeetsBox r c m a b t1) (h2 : BallMeetsBox r c m a b t2)
    (ht1 : t1 ≤ t) (ht2 : t ≤ t2) : BallMeetsBox r c m a b t := by
  rcases eq_or_lt_of_le (le_trans ht1 ht2) with e | hlt
  · have : t = t1 := le_antisymm (by rw [e]; exact ht2) ht1
    rw [this]; exact h1
  obtain ⟨y, hy, hy'⟩ := h1
  obtain ⟨z, hz, hz'⟩ := h2
  have hpos : 0 < t2 - t1 := by linarith
  set k := (t - t1) / (t2 - t1) with hk
  have k0 : 0 ≤ k := div_nonneg (by linarith) hpos.le
  have k1 : k ≤ 1 := by rw [hk, div_le_one hpos]; linarith
  have hkt : t = t1 * (1 - k) + t2 * k := by rw [hk]; field_simp; ring
  rw [inBall_iff hr] at hy' hz'
  refine ⟨y.scale (1 - k) + z.scale k, ?_, ?_⟩
  · obtain ⟨⟨a1, a2⟩, ⟨a3, a4⟩, a5, a6⟩ := hy
    obtain ⟨⟨b1, b2⟩, ⟨b3, b4⟩, b5, b6⟩ := hz
    refine ⟨⟨?_, ?_⟩, ⟨?_, ?_⟩, ?_, ?_⟩ <;> simp <;> nlinarith
  · rw [inBall_iff hr]
    have e : y.scale (1 - k) + z.scale k - along c m t = (y - along c m t1).scale (1 - k) + (z - along c m t2).scale k := by
      rw [hkt]; unfold along; ext <;> simp <;> ring
    rw [e]
    generalize y - along c m t1 = u at *
    generalize z - along c m t2 = w at *
    have huw : u.dot w ≤ r * r := le_trans (le_abs_self _) (dot_bound hr hr hy' hz')
    have e2 : (u.scale (1 - k) + w.scale k).dot (u.scale (1 - k) + w.scale k) =
        (1 - k) * (1 - k) * u.dot u + 2 * ((1 - k) * k) * u.dot w + k * k * w.dot w := by simp [Vec3.dot_def]; ring
    rw [e2]
    have n1 := mul_le_mul_of_nonneg_left hy' (mul_self_nonneg (1 - k))
    have n2 := mul_le_mul_of_nonneg_left hz' (mul_self_nonneg k)
    have n3 := mul_le_mul_of_nonneg_left huw (mul_nonneg (sub_nonneg.mpr k1) k0)
    nlinarith

/-! ### Ranges of times -/

/-- Empty, everything or a bounded interval. -/
def PlainRange (r : Range XReal) : Prop := r = Range.empty ∨ r = Range.everything ∨ ∃ a b : ℝ, a ≤ b ∧ r = ⟨fin a, fin b⟩

theorem PlainRange.built {r : Range XReal} (h : PlainRange r) : Built r := by
  rcases h with h | h | ⟨a, b, hab, h⟩
  · rw [h]; exact .empty
  · rw [h]; exact .everything
  · rw [h]
    have : (⟨fin a, fin b⟩ : Range XReal) = Range.range (fin a) (fin b) := by
      unfold Range.range
      by_cases hlt : a < b
      · simp [hlt]
      · have : a = b := le_antisymm hab (not_lt.mp hlt)
        simp [this]
    rw [this]; exact .range _ _

theorem range_of_le {a b : ℝ} (hab : a ≤ b) : Range.range (fin a) (fin b) = ⟨fin a, fin b⟩ := by
  unfold Range.range
  by_cases hlt : a < b
  · simp [hlt]
  · have : a = b := le_antisymm hab (not_lt.mp hlt)
    simp [this]

theorem PlainRange.range (a b : ℝ) : PlainRange (Range.range (fin a) (fin b)) := by
  rcases le_total a b with h | h
  · exact .inr (.inr ⟨a, b, h, range_of_le h⟩)
  · refine .inr (.inr ⟨b, a, h, ?_⟩)
    unfold Range.range
    rw [if_neg (by simpa using h)]

theorem PlainRange.contain {r s : Range XReal} (hr : PlainRange r) (hs : PlainRange s) : PlainRange (r.contain s) := by
  rcases hr with rfl | rfl | ⟨a, b, hab, rfl⟩
  · simpa [Range.contain, Range.empty, Range.isEmpty] using hs
  · rcases hs with rfl | rfl | ⟨c, d, hcd, rfl⟩
    · right; left; simp [Range.contain, Range.empty, Range.everything, Range.isEmpty]
    · right; left; simp [Range.contain, Range.empty, Range.everything, Range.isEmpty]
    · right; left; simp [Range.contain, Range.empty, Range.everything, Range.isEmpty]
  · rcases hs with rfl | rfl | ⟨c, d, hcd, rfl⟩
    · right; right; exact ⟨a, b, hab, by simp [Range.contain, Range.empty, Range.everything, Range.isEmpty]⟩
    · right; left; simp [Range.contain, Range.empty, Range.everything, Range.isEmpty]
    · right; right
      by_cases h1 : a < c <;> by_cases h2 : d < b <;> simp [Range.contain, Range.isEmpty, h1, h2] <;> linarith

theorem PlainRange.intersect {r s : Range XReal} (hr : PlainRange r) (hs : PlainRange s) : PlainRange (r.intersect s) := by
  rcases hr with rfl | rfl | ⟨a, b, hab, rfl⟩
  · left; simp [Range.intersect, Range.empty, Range.isEmpty]
  · rcases hs with rfl | rfl | ⟨c, d, hcd, rfl⟩
    · left; simp [Range.intersect, Range.empty, Range.everything, Range.isEmpty]
    · right; left; simp [Range.intersect, Range.empty, Range.everything, Range.isEmpty]
    · right; right; refine ⟨c, d, hcd, ?_⟩
      have : ¬ d < c := not_lt.mpr hcd
      simp [Range.intersect, Range.empty, Range.everything, Range.isEmpty, this]
  · rcases hs with rfl | rfl | ⟨c, d, hcd, rfl⟩
    · left; simp [Range.intersect, Range.empty, Range.everything, Range.isEmpty]
    · right; right; refine ⟨a, b, hab, ?_⟩
      have : ¬ b < a := not_lt.mpr hab
      simp [Range.intersect, Range.empty, Range.everything, Range.isEmpty, this]
    · have key : ∀ x y : ℝ, PlainRange (if Scalar.lt (fin y) (fin x) then Range.empty else ⟨fin x, fin y⟩) := by
        intro x y
        by_cases h : y < x
        · left; simp [h]
        · right; right; exact ⟨x, y, not_lt.mp h, by simp [h]⟩
      by_cases h1 : c < a <;> by_cases h2 : b < d <;> simp only [Range.intersect, Range.isEmpty, h1, h2, fin_lt, decide_true, decide_false, if_true, if_false, isNaN_fin, Bool.or_self, Bool.false_eq_true] <;> simpa using key _ _

/-- The hull of two sets of times with a convex property has the property. -/
theorem contain_within {r s : Range XReal} (hr : PlainRange r) (hs : PlainRange s) {P : ℝ → Prop}
    (hc : ∀ t1 t2 t, P t1 → P t2 → t1 ≤ t → t ≤ t2 → P t) (h1 : ∀ t, Holds r (fin t) → P t) (h2 : ∀ t, Holds s (fin t) → P t) :
    ∀ t, Holds (r.contain s) (fin t) → P t := by
  intro t ht
  rcases hr with rfl | rfl | ⟨a, b, hab, rfl⟩
  · refine h2 t ?_
    simpa [Range.contain, Range.empty, Range.isEmpty] using ht
  · exact h1 t ((C39_everything _).mpr rfl)
  · rcases hs with rfl | rfl | ⟨c, d, hcd, rfl⟩
    · refine h1 t ?_
      simpa [Range.contain, Range.empty, Range.isEmpty] using ht
    · exact h2 t ((C39_everything _).mpr rfl)
    · simp only [holds_fin] at h1 h2
      have pa := h1 a ⟨le_refl _, hab⟩
      have pb := h1 b ⟨hab, le_refl _⟩
      have pc := h2 c ⟨le_refl _, hcd⟩
      have pd := h2 d ⟨hcd, le_refl _⟩
      by_cases h3 : a < c <;> by_cases h4 : d < b <;>
        simp only [Range.contain, Range.isEmpty, h3, h4, fin_lt, decide_true, decide_false, if_true, if_false, isNaN_fin, Bool.or_self, Bool.false_eq_true, holds_fin] at ht
      · exact hc a b t pa pb ht.1 ht.2
      · exact hc a d t pa pd ht.1 ht.2
      · exact hc c b t pc pb ht.1 ht.2
      · exact hc c d t pc pd ht.1 ht.2

/-! ### One axis -/

/-- Movements below the cut-off count as none. -/
noncomputable def settle (v : ℝ) : ℝ := if |v| < eps then 0 else v
noncomputable def settled (m : Vec3 ℝ) : Vec3 ℝ := ⟨settle m.x, settle m.y, settle m.z⟩

theorem settle_near (v : ℝ) : |v - settle v| ≤ eps := by
  unfold settle
  split
  · rename_i h; rw [sub_zero]; exact h.le
  · rw [sub_self, abs_zero]; exact eps_pos.le

theorem axis_plain (lo hi p q v : ℝ) : PlainRange ((⟨fin lo, fin hi⟩ : Range XReal).linearOverlap ⟨fin p, fin q⟩ (fin v)) := by
  unfold Range.linearOverlap
  split
  · split
    · exact .inl rfl
    · exact .inr (.inl rfl)
  · rename_i h
    have hv : v ≠ 0 := by
      rintro rfl
      apply h
      simp
    simp only [Range.min, Range.max, Range.isEmpty, isNaN_fin, Bool.or_self, Bool.false_eq_true, if_false, fin_sub, fin_div hv]
    exact (PlainRange.range _ _).contain (PlainRange.range _ _)

theorem axis_times {lo hi p q v : ℝ} (h : lo ≤ hi) (h' : p ≤ q) (t : ℝ) :
    Holds ((⟨fin lo, fin hi⟩ : Range XReal).linearOverlap ⟨fin p, fin q⟩ (fin v)) (fin t) ↔ p + settle v * t ≤ hi ∧ lo ≤ q + settle v * t := by
  have b1 : PlainRange (⟨fin lo, fin hi⟩ : Range XReal) := .inr (.inr ⟨_, _, h, rfl⟩)
  have b2 : PlainRange (⟨fin p, fin q⟩ : Range XReal) := .inr (.inr ⟨_, _, h', rfl⟩)
  unfold settle
  split
  · rename_i hs
    unfold Range.linearOverlap
    rw [if_pos (by unfold eps at hs; simpa using hs), zero_mul, add_zero, add_zero]
    cases he : ((⟨fin lo, fin hi⟩ : Range XReal).intersect ⟨fin p, fin q⟩).isEmpty with
    | true =>
      rw [if_pos rfl]
      refine ⟨fun hh => absurd hh (C39_empty _), fun hh => ?_⟩
      have := (C39_isEmpty (b1.intersect b2).built).mp he (fin (max lo p))
      rw [C39_intersect, holds_fin, holds_fin] at this
      exact absurd ⟨⟨le_max_left _ _, max_le h hh.1⟩, le_max_right _ _, max_le hh.2 h'⟩ this
    | false =>
      rw [if_neg (by simp)]
      refine ⟨fun _ => ?_, fun _ => (C39_everything _).mpr rfl⟩
      by_contra hh
      have : ((⟨fin lo, fin hi⟩ : Range XReal).intersect ⟨fin p, fin q⟩).isEmpty = true := by
        rw [C39_isEmpty (b1.intersect b2).built]
        intro x hx
        rw [C39_intersect] at hx
        cases x <;> simp [holds_iff'] at hx
        exact hh ⟨by linarith [hx.1.2, hx.2.1], by linarith [hx.1.1, hx.2.2]⟩
      rw [he] at this; cases this
  · rename_i hs
    rw [C41_overlap_partial b1.built b2.built (by simp [Range.isEmpty]) (by simp [Range.isEmpty])
      (.inl ⟨lo, hi, by simp [Range.min, Range.isEmpty], by simp [Range.max, Range.isEmpty]⟩) (not_lt.mp hs)]
    simp only [holds_fin]
    constructor
    · rintro ⟨x, y, h1, h2, h3⟩
      exact ⟨by linarith [h1.2, h2.1], by linarith [h1.1, h2.2]⟩
    · rintro ⟨h1, h2⟩
      refine ⟨max lo (p + v * t), max lo (p + v * t) - v * t, ⟨le_max_left _ _, max_le h h1⟩, ⟨?_, ?_⟩, by ring⟩
      · linarith [le_max_right lo (p + v * t)]
      · linarith [max_le h2 (by linarith : p + v * t ≤ q + v * t)]

/-! ### The surfaces -/

/-- The centre is above (or in) one of the faces, within the radius of it. -/
def OverFace (r : ℝ) (a b x : Vec3 ℝ) : Prop :=
  ((a.x - r ≤ x.x ∧ x.x ≤ b.x + r) ∧ (a.y ≤ x.y ∧ x.y ≤ b.y) ∧ (a.z ≤ x.z ∧ x.z ≤ b.z)) ∨
  ((a.x ≤ x.x ∧ x.x ≤ b.x) ∧ (a.y - r ≤ x.y ∧ x.y ≤ b.y + r) ∧ (a.z ≤ x.z ∧ x.z ≤ b.z)) ∨
  ((a.x ≤ x.x ∧ x.x ≤ b.x) ∧ (a.y ≤ x.y ∧ x.y ≤ b.y) ∧ (a.z - r ≤ x.z ∧ x.z ≤ b.z + r))

theorem clamp_near {lo hi x r : ℝ} (h : lo ≤ hi) (hr : 0 ≤ r) (h1 : lo - r ≤ x) (h2 : x ≤ hi + r) :
    ∃ y, lo ≤ y ∧ y ≤ hi ∧ (y - x) * (y - x) ≤ r * r := by
  refine ⟨max lo (min hi x), le_max_left _ _, max_le h (min_le_left _ _), ?_⟩
  rcases le_total x lo with hx | hx
  · rw [min_eq_right (le_trans hx h), max_eq_left hx]; nlinarith
  · rcases le_total x hi with hx' | hx'
    · rw [min_eq_right hx', max_eq_right hx, sub_self]; nlinarith
    · rw [min_eq_left hx', max_eq_right h]; nlinarith

theorem OverFace.meets {r : ℝ} (hr : 0 ≤ r) {a b x : Vec3 ℝ} (hx : a.x ≤ b.x) (hy : a.y ≤ b.y) (hz : a.z ≤ b.z) (h : OverFace r a b x) :
    ∃ y, InBox a b y ∧ InBall x r y := by
  rcases h with ⟨h1, h2, h3⟩ | ⟨h1, h2, h3⟩ | ⟨h1, h2, h3⟩
  · obtain ⟨y, q1, q2, q3⟩ := clamp_near hx hr h1.1 h1.2
    refine ⟨⟨y, x.y, x.z⟩, ⟨⟨q1, q2⟩, h2, h3⟩, ?_⟩
    rw [inBall_iff hr]; simp [Vec3.dot_def]; exact q3
  · obtain ⟨y, q1, q2, q3⟩ := clamp_near hy hr h2.1 h2.2
    refine ⟨⟨x.x, y, x.z⟩, ⟨h1, ⟨q1, q2⟩, h3⟩, ?_⟩
    rw [inBall_iff hr]; simp [Vec3.dot_def]; exact q3
  · obtain ⟨y, q1, q2, q3⟩ := clamp_near hz hr h3.1 h3.2
    refine ⟨⟨x.x, x.y, y⟩, ⟨h1, h2, q1, q2⟩, ?_⟩
    rw [inBall_iff hr]; simp [Vec3.dot_def]; exact q3

section
variable {r : ℝ} (hr : 0 ≤ r) {c m a b : Vec3 ℝ} (hx : a.x ≤ b.x) (hy : a.y ≤ b.y) (hz : a.z ≤ b.z)
include hr hx hy hz

/-- The times of the surface test are the hull of the times over a face, for the settled movement: what holds over a face and in between holds at them. -/
theorem surface_times : ∃ R, boxSurfaceTimes (fin r) c.f m.f a.f b.f = R.intersect unitRange ∧ PlainRange R ∧
    (∀ t, OverFace r a b (along c (settled m) t) → Holds R (fin t)) ∧
    ∀ P : ℝ → Prop, (∀ t1 t2 t, P t1 → P t2 → t1 ≤ t → t ≤ t2 → P t) → (∀ t, OverFace r a b (along c (settled m) t) → P t) → ∀ t, Holds R (fin t) → P t := by
  unfold boxSurfaceTimes
  have pm : ∀ k : ℝ, k - r ≤ k + r := fun k => by linarith
  simp only [Vec3.f_x, Vec3.f_y, Vec3.f_z, fin_sub, fin_add, range_of_le hx, range_of_le hy, range_of_le hz, range_of_le (pm _), Range.single]
  refine ⟨_, rfl, ?_, ?_, ?_⟩
  · exact (((((axis_plain _ _ _ _ _).intersect (axis_plain _ _ _ _ _)).intersect (axis_plain _ _ _ _ _)).contain
      (((axis_plain _ _ _ _ _).intersect (axis_plain _ _ _ _ _)).intersect (axis_plain _ _ _ _ _))).contain
      (((axis_plain _ _ _ _ _).intersect (axis_plain _ _ _ _ _)).intersect (axis_plain _ _ _ _ _)))
  · intro t h
    have ex : (along c (settled m) t).x = c.x + settle m.x * t := rfl
    have ey : (along c (settled m) t).y = c.y + settle m.y * t := rfl
    have ez : (along c (settled m) t).z = c.z + settle m.z * t := rfl
    unfold OverFace at h
    rw [ex, ey, ez] at h
    rcases h with ⟨h1, h2, h3⟩ | ⟨h1, h2, h3⟩ | ⟨h1, h2, h3⟩
    · refine C39_contain_upper _ _ _ (.inl (C39_contain_upper _ _ _ (.inl ?_)))
      rw [C39_intersect, C39_intersect, axis_times hx (pm _), axis_times hy (le_refl _), axis_times hz (le_refl _)]
      exact ⟨⟨⟨by linarith, by linarith⟩, ⟨by linarith, by linarith⟩⟩, by linarith, by linarith⟩
    · refine C39_contain_upper _ _ _ (.inl (C39_contain_upper _ _ _ (.inr ?_)))
      rw [C39_intersect, C39_intersect, axis_times hy (pm _), axis_times hx (le_refl _), axis_times hz (le_refl _)]
      exact ⟨⟨⟨by linarith, by linarith⟩, ⟨by linarith, by linarith⟩⟩, by linarith, by linarith⟩
    · refine C39_contain_upper _ _ _ (.inr ?_)
      rw [C39_intersect, C39_intersect, axis_times hz (pm _), axis_times hx (le_refl _), axis_times hy (le_refl _)]
      exact ⟨⟨⟨by linarith, by linarith⟩, ⟨by linarith, by linarith⟩⟩, by linarith, by linarith⟩
  · intro P conv hP
    have ex : ∀ t, (along c (settled m) t).x = c.x + settle m.x * t := fun _ => rfl
    have ey : ∀ t, (along c (settled m) t).y = c.y + settle m.y * t := fun _ => rfl
    have ez : ∀ t, (along c (settled m) t).z = c.z + settle m.z * t := fun _ => rfl
    refine contain_within
      ((((axis_plain _ _ _ _ _).intersect (axis_plain _ _ _ _ _)).intersect (axis_plain _ _ _ _ _)).contain
        (((axis_plain _ _ _ _ _).intersect (axis_plain _ _ _ _ _)).intersect (axis_plain _ _ _ _ _)))
      (((axis_plain _ _ _ _ _).intersect (axis_plain _ _ _ _ _)).intersect (axis_plain _ _ _ _ _)) conv
      (contain_within (((axis_plain _ _ _ _ _).intersect (axis_plain _ _ _ _ _)).intersect (axis_plain _ _ _ _ _))
        (((axis_plain _ _ _ _ _).intersect (axis_plain _ _ _ _ _)).intersect (axis_plain _ _ _ _ _)) conv ?_ ?_) ?_
    · intro t h
      rw [C39_intersect, C39_intersect, axis_times hx (pm _), axis_times hy (le_refl _), axis_times hz (le_refl _)] at h
      obtain ⟨⟨⟨h1, h2⟩, h3, h4⟩, h5, h6⟩ := h
      exact hP t (.inl ⟨⟨by rw [ex]; linarith, by rw [ex]; linarith⟩, ⟨by rw [ey]; linarith, by rw [ey]; linarith⟩, by rw [ez]; linarith, by rw [ez]; linarith⟩)
    · intro t h
      rw [C39_intersect, C39_intersect, axis_times hy (pm _), axis_times hx (le_refl _), axis_times hz (le_refl _)] at h
      obtain ⟨⟨⟨h1, h2⟩, h3, h4⟩, h5, h6⟩ := h
      exact hP t (.inr (.inl ⟨⟨by rw [ex]; linarith, by rw [ex]; linarith⟩, ⟨by rw [ey]; linarith, by rw [ey]; linarith⟩, by rw [ez]; linarith, by rw [ez]; linarith⟩))
    · intro t h
      rw [C39_intersect, C39_intersect, axis_times hz (pm _), axis_times hx (le_refl _), axis_times hy (le_refl _)] at h
      obtain ⟨⟨⟨h1, h2⟩, h3, h4⟩, h5, h6⟩ := h
      exact hP t (.inr (.inr ⟨⟨by rw [ex]; linarith, by rw [ex]; linarith⟩, ⟨by rw [ey]; linarith, by rw [ey]; linarith⟩, by rw [ez]; linarith, by rw [ez]; linarith⟩))

/-- A hit on the surfaces is at a time at which the ball meets the box. -/
theorem surface_reported {C : Collision XReal} (h : boxSurfaceCollision (fin r) c.f m.f a.f b.f = some C) :
    ∃ t, C.times.min = fin t ∧ 0 ≤ t ∧ t ≤ 1 ∧ BallMeetsBox r c (settled m) a b t := by
  obtain ⟨R, hR, hp, -, hs⟩ := surface_times hr hx hy hz (c := c) (m := m)
  unfold boxSurfaceCollision at h
  simp only [hR] at h
  split at h
  · rename_i he
    obtain ⟨t, ht, hf⟩ := (unit_times hp.built).2 (by simpa using he)
    cases h
    exact ⟨t, ht, hf.1.1, hf.1.2.1, hs _ (fun _ _ _ => meetsBox_convex hr) (fun u hu => OverFace.meets hr hx hy hz hu) t hf.1.2.2⟩
  · cases h

/-- A centre over a face at some time of the step is reported by then. -/
theorem surface_by {t : ℝ} (t0 : 0 ≤ t) (t1 : t ≤ 1) (h : OverFace r a b (along c (settled m) t)) :
    ∃ C u, boxSurfaceCollision (fin r) c.f m.f a.f b.f = some C ∧ C.times.min = fin u ∧ u ≤ t := by
  obtain ⟨R, hR, hp, hs, -⟩ := surface_times hr hx hy hz (c := c) (m := m)
  unfold boxSurfaceCollision
  simp only [hR]
  cases he : (R.intersect unitRange).isEmpty with
  | true => exact absurd (hs t h) ((unit_times hp.built).1 he t t0 t1)
  | false =>
    obtain ⟨u, hu, hf⟩ := (unit_times hp.built).2 he
    refine ⟨_, u, if_pos (by simp), hu, hf.2 t t0 t1 (hs t h)⟩
end


/-! ### Edges and corners -/

/-- The corners of the box. -/
def BoxCorner (a b v : Vec3 ℝ) : Prop := (v.x = a.x ∨ v.x = b.x) ∧ (v.y = a.y ∨ v.y = b.y) ∧ (v.z = a.z ∨ v.z = b.z)
/-- The edges of the box: two corners that differ in one coordinate. -/
def BoxEdge (a b p q : Vec3 ℝ) : Prop :=
  (p.x = a.x ∧ q.x = b.x ∧ (p.y = a.y ∨ p.y = b.y) ∧ q.y = p.y ∧ (p.z = a.z ∨ p.z = b.z) ∧ q.z = p.z) ∨
  ((p.x = a.x ∨ p.x = b.x) ∧ q.x = p.x ∧ p.y = a.y ∧ q.y = b.y ∧ (p.z = a.z ∨ p.z = b.z) ∧ q.z = p.z) ∨
  ((p.x = a.x ∨ p.x = b.x) ∧ q.x = p.x ∧ (p.y = a.y ∨ p.y = b.y) ∧ q.y = p.y ∧ p.z = a.z ∧ q.z = b.z)

theorem corners_f (a b : Vec3 ℝ) : boxCorners a.f b.f = (boxCorners a b).map Vec3.f := rfl

theorem mem_corners {a b v : Vec3 ℝ} : v ∈ boxCorners a b ↔ BoxCorner a b v := by
  obtain ⟨x, y, z⟩ := v
  simp only [boxCorners, BoxCorner, List.mem_cons, List.not_mem_nil, or_false, Vec3.mk.injEq]
  tauto

theorem edge_listed {a b p q : Vec3 ℝ} : BoxEdge a b p q ↔ ∃ i j, (i, j) ∈ boxEdges ∧ (boxCorners a b)[i]? = some p ∧ (boxCorners a b)[j]? = some q := by
  constructor
  · obtain ⟨p1, p2, p3⟩ := p
    obtain ⟨q1, q2, q3⟩ := q
    rintro (⟨h1, h2, h3 | h3, h4, h5 | h5, h6⟩ | ⟨h1 | h1, h2, h3, h4, h5 | h5, h6⟩ | ⟨h1 | h1, h2, h3 | h3, h4, h5, h6⟩) <;>
      simp only at h1 h2 h3 h4 h5 h6 <;> subst_vars
    · exact ⟨0, 1, by decide, rfl, rfl⟩
    · exact ⟨4, 5, by decide, rfl, rfl⟩
    · exact ⟨2, 3, by decide, rfl, rfl⟩
    · exact ⟨6, 7, by decide, rfl, rfl⟩
    · exact ⟨0, 2, by decide, rfl, rfl⟩
    · exact ⟨4, 6, by decide, rfl, rfl⟩
    · exact ⟨1, 3, by decide, rfl, rfl⟩
    · exact ⟨5, 7, by decide, rfl, rfl⟩
    · exact ⟨0, 4, by decide, rfl, rfl⟩
    · exact ⟨2, 6, by decide, rfl, rfl⟩
    · exact ⟨1, 5, by decide, rfl, rfl⟩
    · exact ⟨3, 7, by decide, rfl, rfl⟩
  · rintro ⟨i, j, he, hi, hj⟩
    simp only [boxEdges, List.mem_cons, List.not_mem_nil, or_false, Prod.mk.injEq] at he
    rcases he with ⟨rfl, rfl⟩ | ⟨rfl, rfl⟩ | ⟨rfl, rfl⟩ | ⟨rfl, rfl⟩ | ⟨rfl, rfl⟩ | ⟨rfl, rfl⟩ | ⟨rfl, rfl⟩ | ⟨rfl, rfl⟩ | ⟨rfl, rfl⟩ | ⟨rfl, rfl⟩ | ⟨rfl, rfl⟩ | ⟨rfl, rfl⟩ <;>
      simp [boxCorners] at hi hj <;> subst hi <;> subst hj <;> simp [BoxEdge]

/-- The hits considered for a sphere and a box, with the box's edges and corners spelled out. -/
theorem boxHit_iff {r : ℝ} {c m a b : Vec3 ℝ} {C : Collision XReal} : BoxHit (fin r) c.f m.f a.f b.f C ↔
    boxSurfaceCollision (fin r) c.f m.f a.f b.f = some C ∨
    (∃ p q, BoxEdge a b p q ∧ collideSphereMidSegment (fin r) c.f m.f p.f q.f (Vec3.o).f = some C) ∨
    ∃ v, BoxCorner a b v ∧ collideSphereSphere (fin r) c.f m.f (fin 0) v.f (Vec3.o).f = some C := by
  constructor
  · rintro (h | ⟨i, j, p, q, he, hp, hq, h⟩ | ⟨v, hv, h⟩)
    · exact .inl h
    · rw [corners_f, List.getElem?_map] at hp hq
      obtain ⟨p', hp', rfl⟩ := Option.map_eq_some_iff.mp hp
      obtain ⟨q', hq', rfl⟩ := Option.map_eq_some_iff.mp hq
      rw [Vec3.f_zeros] at h
      exact .inr (.inl ⟨p', q', edge_listed.mpr ⟨i, j, he, hp', hq'⟩, h⟩)
    · rw [corners_f] at hv
      obtain ⟨v', hv', rfl⟩ := List.mem_map.mp hv
      rw [Vec3.f_zeros, zero_eq] at h
      exact .inr (.inr ⟨v', mem_corners.mp hv', h⟩)
  · rintro (h | ⟨p, q, he, h⟩ | ⟨v, hv, h⟩)
    · exact .surface h
    · obtain ⟨i, j, he, hp, hq⟩ := edge_listed.mp he
      exact .edge i j p.f q.f he (by rw [corners_f, List.getElem?_map, hp]; rfl) (by rw [corners_f, List.getElem?_map, hq]; rfl) (by rw [Vec3.f_zeros]; exact h)
    · exact .corner v.f (by rw [corners_f]; exact List.mem_map.mpr ⟨v, mem_corners.mpr hv, rfl⟩) (by rw [Vec3.f_zeros, zero_eq]; exact h)

theorem along_still (a : Vec3 ℝ) (t : ℝ) : along a .o t = a := by unfold along; simp

section
variable {a b : Vec3 ℝ} (hx : a.x < b.x) (hy : a.y < b.y) (hz : a.z < b.z)
include hx hy hz

theorem BoxCorner.inBox {v : Vec3 ℝ} (h : BoxCorner a b v) : InBox a b v := by
  obtain ⟨h1, h2, h3⟩ := h
  refine ⟨?_, ?_, ?_⟩
  · rcases h1 with h | h <;> rw [h] <;> constructor <;> linarith
  · rcases h2 with h | h <;> rw [h] <;> constructor <;> linarith
  · rcases h3 with h | h <;> rw [h] <;> constructor <;> linarith
theorem BoxEdge.ends {p q : Vec3 ℝ} (h : BoxEdge a b p q) : BoxCorner a b p ∧ BoxCorner a b q := by
  rcases h with ⟨h1, h2, h3, h4, h5, h6⟩ | ⟨h1, h2, h3, h4, h5, h6⟩ | ⟨h1, h2, h3, h4, h5, h6⟩
  · exact ⟨⟨.inl h1, h3, h5⟩, .inr h2, by rw [h4]; exact h3, by rw [h6]; exact h5⟩
  · exact ⟨⟨h1, .inl h3, h5⟩, by rw [h2]; exact h1, .inr h4, by rw [h6]; exact h5⟩
  · exact ⟨⟨h1, h3, .inl h5⟩, by rw [h2]; exact h1, by rw [h4]; exact h3, .inr h6⟩
theorem BoxEdge.ne {p q : Vec3 ℝ} (h : BoxEdge a b p q) : q - p ≠ .o := by
  intro e
  have ex := congrArg Vec3.x e; have ey := congrArg Vec3.y e; have ez := congrArg Vec3.z e
  simp at ex ey ez
  rcases h with ⟨h1, h2, -⟩ | ⟨-, -, h1, h2, -⟩ | ⟨-, -, -, -, h1, h2⟩
  · rw [h1, h2] at ex; linarith
  · rw [h1, h2] at ey; linarith
  · rw [h1, h2] at ez; linarith
theorem InBox.segment {p q x : Vec3 ℝ} (hp : InBox a b p) (hq : InBox a b q) (h : OnSegment p q x) : InBox a b x := by
  obtain ⟨k, k0, k1, rfl⟩ := h
  obtain ⟨⟨a1, a2⟩, ⟨a3, a4⟩, a5, a6⟩ := hp
  obtain ⟨⟨b1, b2⟩, ⟨b3, b4⟩, b5, b6⟩ := hq
  refine ⟨⟨?_, ?_⟩, ⟨?_, ?_⟩, ?_, ?_⟩ <;> simp <;> nlinarith

theorem settled_near (c m : Vec3 ℝ) {t : ℝ} (t0 : 0 ≤ t) (t1 : t ≤ 1) : (along c (settled m) t - along c m t).len ≤ 2 * eps := by
  have hp := eps_pos
  rw [len_le (by linarith)]
  have key : ∀ v : ℝ, (settle v * t - v * t) * (settle v * t - v * t) ≤ eps * eps := by
    intro v
    have h1 := settle_near v
    rw [abs_le] at h1
    have : (settle v * t - v * t) * (settle v * t - v * t) = ((v - settle v) * (v - settle v)) * (t * t) := by ring
    rw [this]
    have h2 : (v - settle v) * (v - settle v) ≤ eps * eps := by nlinarith
    have h3 : t * t ≤ 1 := by nlinarith
    nlinarith [mul_self_nonneg (v - settle v), mul_self_nonneg t]
  have e : (along c (settled m) t - along c m t).dot (along c (settled m) t - along c m t) =
      (settle m.x * t - m.x * t) * (settle m.x * t - m.x * t) + (settle m.y * t - m.y * t) * (settle m.y * t - m.y * t) +
      (settle m.z * t - m.z * t) * (settle m.z * t - m.z * t) := by
    simp [along, settled, Vec3.dot_def]
  rw [e]
  nlinarith [key m.x, key m.y, key m.z]

/-- **C49**, soundness in the box's own coordinates: whenever a contact of a sphere with a box is reported, the centre is at the reported time within
`sqrt (r² + 1/4) + 2 EPSILON` of a point of the box between the corners. -/
theorem C49_reported {r : ℝ} (hr : 0 < r) {c m : Vec3 ℝ} {C : Collision XReal} (h : collideSphereBox (fin r) c.f m.f a.f b.f = .ok (some C)) :
    ∃ t y, C.times.min = fin t ∧ 0 ≤ t ∧ t ≤ 1 ∧ InBox a b y ∧ (y - along c m t).len ≤ Real.sqrt (r * r + 1 / 4) + 2 * eps := by
  have hp := eps_pos
  have hs := (sphereBox_earliest h).1 C rfl
  rcases boxHit_iff.mp hs.1 with h | ⟨p, q, he, h⟩ | ⟨v, hv, h⟩
  · obtain ⟨t, ht, t0, t1, y, hy', hb⟩ := surface_reported hr.le hx.le hy.le hz.le h
    refine ⟨t, y, ht, t0, t1, hy', ?_⟩
    have e : y - along c m t = (y - along c (settled m) t) + (along c (settled m) t - along c m t) := by ext <;> simp
    rw [e]
    refine le_trans (len_triangle _ _) (add_le_add (le_trans hb ?_) (settled_near hx hy hz c m t0 t1))
    exact Real.le_sqrt_of_sq_le (by nlinarith)
  · obtain ⟨t, z, x, ht, t0, t1, -, -, hd, hseg, hl⟩ := C60_reported (he.ne hx hy hz) h
    rw [along_still, along_still] at hseg
    refine ⟨t, x, ht, t0, t1, InBox.segment hx hy hz ((he.ends hx hy hz).1.inBox hx hy hz) ((he.ends hx hy hz).2.inBox hx hy hz) hseg, ?_⟩
    have e : x - along c m t = (z - along c m t) + -(z - x) := by ext <;> simp
    rw [e]
    refine le_trans (len_triangle _ _) (add_le_add (Real.sqrt_le_sqrt hd) ?_)
    rw [Vec3.len_neg]; linarith
  · obtain ⟨t, ht, t0, t1, hd⟩ := C43_reported (by linarith) h
    rw [along_still, add_zero] at hd
    refine ⟨t, v, ht, t0, t1, hv.inBox hx hy hz, ?_⟩
    have e : v - along c m t = -(along c m t - v) := by ext <;> simp
    rw [e, Vec3.len_neg]
    have := Real.sqrt_le_sqrt hd
    have h3 : (along c m t - v).len ≤ Real.sqrt (r * r + 1 / 4) := this
    linarith
end

/-- The movement along each axis is zero or not below the cut-off. -/
def Crisp (m : Vec3 ℝ) : Prop := (m.x = 0 ∨ eps ≤ |m.x|) ∧ (m.y = 0 ∨ eps ≤ |m.y|) ∧ (m.z = 0 ∨ eps ≤ |m.z|)
theorem Crisp.settled {m : Vec3 ℝ} (h : Crisp m) : settled m = m := by
  have key : ∀ v : ℝ, v = 0 ∨ eps ≤ |v| → settle v = v := by
    intro v hv
    unfold settle
    rcases hv with rfl | hv
    · simp
    · rw [if_neg (not_lt.mpr hv)]
  obtain ⟨h1, h2, h3⟩ := h
  ext
  · exact key _ h1
  · exact key _ h2
  · exact key _ h3

/-- The movement is clear of the cut-offs for the axes, the edges and the corners. -/
structure SafeBox (r : ℝ) (c m a b : Vec3 ℝ) : Prop where
  axes : Crisp m
  edges : ∀ p q, BoxEdge a b p q → SafeLine r c m p (q - p) .o
  corners : ∀ v, BoxCorner a b v → SafePoint r c m v .o

theorem nearest_side {a b x : ℝ} (h : a ≤ b) : (a ≤ x ∧ x ≤ b) ∨ ∃ s, (s = a ∨ s = b) ∧ ∀ y, a ≤ y → y ≤ b → (s - x) * (s - x) ≤ (y - x) * (y - x) := by
  by_cases h1 : x < a
  · exact .inr ⟨a, .inl rfl, fun y y0 _ => by nlinarith⟩
  by_cases h2 : b < x
  · exact .inr ⟨b, .inr rfl, fun y _ y1 => by nlinarith⟩
  · exact .inl ⟨not_lt.mp h1, not_lt.mp h2⟩

section
variable {a b : Vec3 ℝ} (hx : a.x < b.x) (hy : a.y < b.y) (hz : a.z < b.z)
include hx hy hz

/-- A ball that meets the box is over a face, or meets an edge, or has a corner in it. -/
theorem meets_cases {r : ℝ} (hr : 0 ≤ r) {x : Vec3 ℝ} (h : ∃ y, InBox a b y ∧ InBall x r y) :
    OverFace r a b x ∨ (∃ p q z, BoxEdge a b p q ∧ OnSegment p q z ∧ InBall x r z) ∨ ∃ v, BoxCorner a b v ∧ InBall x r v := by
  obtain ⟨y, ⟨bx, by', bz⟩, hb⟩ := h
  rw [inBall_iff hr] at hb
  simp only [Vec3.dot_def, Vec3.sub_x, Vec3.sub_y, Vec3.sub_z] at hb
  have qx := mul_self_nonneg (y.x - x.x)
  have qy := mul_self_nonneg (y.y - x.y)
  have qz := mul_self_nonneg (y.z - x.z)
  have within : ∀ {lo hi u w : ℝ}, lo ≤ u → u ≤ hi → (u - w) * (u - w) ≤ r * r → lo - r ≤ w ∧ w ≤ hi + r := by
    intro lo hi u w h1 h2 h3
    have := sq_le_sq.mp (by nlinarith : (u - w) ^ 2 ≤ r ^ 2)
    rw [abs_of_nonneg hr, abs_le] at this
    constructor <;> linarith [this.1, this.2]
  rcases nearest_side hx.le (x := x.x) with cx | ⟨sx, hsx, nx⟩ <;> rcases nearest_side hy.le (x := x.y) with cy | ⟨sy, hsy, ny⟩ <;>
    rcases nearest_side hz.le (x := x.z) with cz | ⟨sz, hsz, nz⟩
  · exact .inl (.inl ⟨⟨by linarith [cx.1], by linarith [cx.2]⟩, cy, cz⟩)
  · exact .inl (.inr (.inr ⟨cx, cy, within bz.1 bz.2 (by linarith)⟩))
  · exact .inl (.inr (.inl ⟨cx, within by'.1 by'.2 (by linarith), cz⟩))
  · refine .inr (.inl ⟨⟨a.x, sy, sz⟩, ⟨b.x, sy, sz⟩, ⟨x.x, sy, sz⟩, .inl ⟨rfl, rfl, hsy, rfl, hsz, rfl⟩, ⟨(x.x - a.x) / (b.x - a.x), ?_, ?_, ?_⟩, ?_⟩)
    · exact div_nonneg (by linarith [cx.1]) (by linarith)
    · rw [div_le_one (by linarith)]; linarith [cx.2]
    · have : b.x - a.x ≠ 0 := by linarith
      ext <;> simp
      field_simp; ring
    · rw [inBall_iff hr]
      simp only [Vec3.dot_def, Vec3.sub_x, Vec3.sub_y, Vec3.sub_z]
      nlinarith [ny y.y by'.1 by'.2, nz y.z bz.1 bz.2]
  · exact .inl (.inl ⟨within bx.1 bx.2 (by linarith), cy, cz⟩)
  · refine .inr (.inl ⟨⟨sx, a.y, sz⟩, ⟨sx, b.y, sz⟩, ⟨sx, x.y, sz⟩, .inr (.inl ⟨hsx, rfl, rfl, rfl, hsz, rfl⟩), ⟨(x.y - a.y) / (b.y - a.y), ?_, ?_, ?_⟩, ?_⟩)
    · exact div_nonneg (by linarith [cy.1]) (by linarith)
    · rw [div_le_one (by linarith)]; linarith [cy.2]
    · have : b.y - a.y ≠ 0 := by linarith
      ext <;> simp
      field_simp; ring
    · rw [inBall_iff hr]
      simp only [Vec3.dot_def, Vec3.sub_x, Vec3.sub_y, Vec3.sub_z]
      nlinarith [nx y.x bx.1 bx.2, nz y.z bz.1 bz.2]
  · refine .inr (.inl ⟨⟨sx, sy, a.z⟩, ⟨sx, sy, b.z⟩, ⟨sx, sy, x.z⟩, .inr (.inr ⟨hsx, rfl, hsy, rfl, rfl, rfl⟩), ⟨(x.z - a.z) / (b.z - a.z), ?_, ?_, ?_⟩, ?_⟩)
    · exact div_nonneg (by linarith [cz.1]) (by linarith)
    · rw [div_le_one (by linarith)]; linarith [cz.2]
    · have : b.z - a.z ≠ 0 := by linarith
      ext <;> simp
      field_simp; ring
    · rw [inBall_iff hr]
      simp only [Vec3.dot_def, Vec3.sub_x, Vec3.sub_y, Vec3.sub_z]
      nlinarith [nx y.x bx.1 bx.2, ny y.y by'.1 by'.2]
  · refine .inr (.inr ⟨⟨sx, sy, sz⟩, ⟨hsx, hsy, hsz⟩, ?_⟩)
    rw [inBall_iff hr]
    simp only [Vec3.dot_def, Vec3.sub_x, Vec3.sub_y, Vec3.sub_z]
    nlinarith [nx y.x bx.1 bx.2, ny y.y by'.1 by'.2, nz y.z bz.1 bz.2]

/-- **C61**, completeness in the box's own coordinates, clear of the cut-offs: a ball that meets the box at some time of the step is reported, with a
time that is not later. -/
theorem C61_complete_partial {r : ℝ} (hr : 0 < r) {c m : Vec3 ℝ} (hs : SafeBox r c m a b) {t : ℝ} (t0 : 0 ≤ t) (t1 : t ≤ 1)
    (h : BallMeetsBox r c m a b t) : ∃ C u, collideSphereBox (fin r) c.f m.f a.f b.f = .ok (some C) ∧ C.times.min = fin u ∧ u ≤ t := by
  obtain ⟨o, ho⟩ := collideSphereBox_ok (r := fin r) (c := c.f) (m := m.f) (a := a.f) (b := b.f)
  have hE := sphereBox_earliest ho
  have hit : ∃ D w, BoxHit (fin r) c.f m.f a.f b.f D ∧ D.times.min = fin w ∧ w ≤ t := by
    rcases meets_cases hx hy hz hr.le h with h | ⟨p, q, z, he, hz', hb⟩ | ⟨v, hv, hb⟩
    · obtain ⟨D, w, hD, hw, hwt⟩ := surface_by hr.le hx.le hy.le hz.le (c := c) (m := m) t0 t1 (by rw [hs.axes.settled]; exact h)
      exact ⟨D, w, .surface hD, hw, hwt⟩
    · obtain ⟨D, w, hw, hwt, hD⟩ := edge_by hr (he.ne hx hy hz) (hs.edges p q he) (hs.corners p (he.ends hx hy hz).1) (hs.corners q (he.ends hx hy hz).2) t0 t1
        (by exact ⟨z, by rw [along_still, along_still]; exact hz', hb⟩)
      refine ⟨D, w, boxHit_iff.mpr ?_, hw, hwt⟩
      rcases hD with hD | hD | hD
      · exact .inr (.inl ⟨p, q, he, hD⟩)
      · exact .inr (.inr ⟨p, (he.ends hx hy hz).1, hD⟩)
      · exact .inr (.inr ⟨q, (he.ends hx hy hz).2, hD⟩)
    · obtain ⟨D, w, hD, hw, hwt⟩ := corner_by hr (hs.corners v hv) t0 t1 (by rw [along_still]; exact hb)
      exact ⟨D, w, boxHit_iff.mpr (.inr (.inr ⟨v, hv, hD⟩)), hw, hwt⟩
  obtain ⟨D, w, hD, hw, hwt⟩ := hit
  cases o with
  | none => exact absurd hD (hE.2.mp rfl D)
  | some C =>
    have hle := (hE.1 C rfl).2 D hD
    obtain ⟨u, -, hu, -⟩ := C49_reported hx hy hz hr ho
    rw [hu, hw] at hle
    exact ⟨C, u, ho, hu, le_trans (by simpa using hle) hwt⟩

/-- **C49**, soundness clear of the cut-offs: the centre is at the reported time within `sqrt (r² + EPSILON) + EPSILON` of a point of the box. -/
theorem C49_sharp_partial {r : ℝ} (hr : 0 < r) {c m : Vec3 ℝ} (hs : SafeBox r c m a b) {C : Collision XReal}
    (h : collideSphereBox (fin r) c.f m.f a.f b.f = .ok (some C)) :
    ∃ t, C.times.min = fin t ∧ 0 ≤ t ∧ t ≤ 1 ∧ BallMeetsBox (Real.sqrt (r * r + eps) + eps) c m a b t := by
  have hp := eps_pos
  have hrs : r ≤ Real.sqrt (r * r + eps) := Real.le_sqrt_of_sq_le (by nlinarith)
  rcases boxHit_iff.mp ((sphereBox_earliest h).1 C rfl).1 with h | ⟨p, q, he, h⟩ | ⟨v, hv, h⟩
  · obtain ⟨t, ht, t0, t1, y, hy', hb⟩ := surface_reported hr.le hx.le hy.le hz.le h
    rw [hs.axes.settled] at hb
    exact ⟨t, ht, t0, t1, y, hy', le_trans hb (by linarith)⟩
  · have hd := he.ne hx hy hz
    have hq : ∃ t x, C.times.min = fin t ∧ 0 ≤ t ∧ t ≤ 1 ∧ OnSegment (along p .o t) (along q .o t) x ∧
        (foot (along p .o t) (q - p) (along c m t) - x).len ≤ eps / 2 ∧
        lineA m (unit (q - p)) .o * t ^ 2 + lineB c m p (unit (q - p)) .o * t + lineC r c p (unit (q - p)) ≤ eps := by
      rcases hs.edges p q he with hc | hc
      · have hA : lineA m (unit (q - p)) .o = 0 := by unfold lineA; rw [hc]; exact (Vec3.dot_self_eq_zero _).mpr rfl
        have hB : lineB c m p (unit (q - p)) .o = 0 := by unfold lineB; rw [hc]; simp [Vec3.dot_def]
        rcases segment_first (r := r) (c := c) (m := m) (v := .o) hd (P := fun _ => lineC r c p (unit (q - p)) < eps) (fun t _ _ => by
          rw [hA, hB]
          exact (C40_degenerate 0 0 _ (by rw [abs_zero]; exact eps_pos)).1 (by rw [abs_zero]; exact eps_pos) t) with h' | ⟨D, t, hD, ht, hf, -, x, hx', hq'⟩
        · rw [h'.1] at h; cases h
        · rw [hD] at h; cases h
          exact ⟨t, x, ht, hf.1.1, hf.1.2.1, hx', hq', by rw [hA, hB]; linarith [hf.1.2.2]⟩
      · rcases C60_edge_partial hr.le hd hc with h' | ⟨D, t, hD, ht, hf, -, x, hx', hq'⟩
        · rw [h'.1] at h; cases h
        · rw [hD] at h; cases h
          exact ⟨t, x, ht, hf.1.1, hf.1.2.1, hx', hq', by have := (meetsLine_iff hr.le hd t).mp hf.1.2.2; linarith⟩
    obtain ⟨t, x, ht, t0, t1, hseg, hl, hquad⟩ := hq
    rw [along_still, along_still] at hseg
    refine ⟨t, ht, t0, t1, x, InBox.segment hx hy hz ((he.ends hx hy hz).1.inBox hx hy hz) ((he.ends hx hy hz).2.inBox hx hy hz) hseg, ?_⟩
    unfold InBall
    have e : x - along c m t = (foot (along p .o t) (q - p) (along c m t) - along c m t) + -(foot (along p .o t) (q - p) (along c m t) - x) := by ext <;> simp
    rw [e]
    refine le_trans (len_triangle _ _) (add_le_add ?_ (by rw [Vec3.len_neg]; linarith))
    refine Real.sqrt_le_sqrt ?_
    rw [line_quadratic (r := r) hd t]
    linarith
  · have hq : ∃ t, C.times.min = fin t ∧ 0 ≤ t ∧ t ≤ 1 ∧ (v - along c m t).dot (v - along c m t) ≤ r * r + eps := by
      rcases hs.corners v hv with hc | hc
      · rcases C43_resting (r1 := r) (r2 := 0) (c1 := c) (m1 := m) (c2 := v) (m2 := .o) (by linarith) (by rw [hc, (Vec3.dot_self_eq_zero _).mpr rfl]; exact eps_pos)
          (by rw [hc]; simp [Vec3.dot_def]; exact eps_pos) with ⟨h', -⟩ | ⟨D, hD, hu, hlt, -⟩
        · rw [h'] at h; cases h
        · rw [hD] at h; cases h
          refine ⟨0, hu, le_refl _, zero_le_one, ?_⟩
          have e : (v - along c m 0).dot (v - along c m 0) = (c - v).dot (c - v) := by simp [along, Vec3.dot_def]; ring
          rw [e]
          nlinarith
      · rcases corner_first hr hc with ⟨h', -⟩ | ⟨D, u, hD, hu, hf⟩
        · rw [h'] at h; cases h
        · rw [hD] at h; cases h
          have := (inBall_iff hr.le).mp hf.1.2.2
          rw [along_still] at this
          exact ⟨u, hu, hf.1.1, hf.1.2.1, by linarith⟩
    obtain ⟨t, ht, t0, t1, hd⟩ := hq
    refine ⟨t, ht, t0, t1, v, hv.inBox hx hy hz, ?_⟩
    unfold InBall
    have h3 : (v - along c m t).len ≤ Real.sqrt (r * r + eps) := Real.sqrt_le_sqrt hd
    linarith
end

/-! ### The dispatch -/

/-- **C49** for `collide`: the sphere's centre, in the local space of the box's entity, is at `p` at the start and at `q` at the end. -/
theorem C49_collide_partial {s : SphereCollider XReal} {bx : BoxCollider XReal} {o1 e1 o2 e2 : Orientation XReal} {r : ℝ} {p q a b : Vec3 ℝ}
    (hr1 : s.radius = fin r) (hr : 0 < r) (ha : bx.minCorner = a.f) (hb : bx.maxCorner = b.f) (hx : a.x < b.x) (hy : a.y < b.y) (hz : a.z < b.z)
    (hp : o2.positionIntoLocal (o1.positionIntoWorld s.center) = p.f) (hq : e2.positionIntoLocal (e1.positionIntoWorld s.center) = q.f) :
    (∀ C, collide (.sphere s) o1 e1 (.box bx) o2 e2 = .ok (some C) ∨ collide (.box bx) o2 e2 (.sphere s) o1 e1 = .ok (some C) →
      ∃ t y, C.times.min = fin t ∧ 0 ≤ t ∧ t ≤ 1 ∧ InBox a b y ∧ (y - along p (q - p) t).len ≤ Real.sqrt (r * r + 1 / 4) + 2 * eps) ∧
    (SafeBox r p (q - p) a b → ∀ t, 0 ≤ t → t ≤ 1 → BallMeetsBox r p (q - p) a b t →
      ∃ C D u, collide (.sphere s) o1 e1 (.box bx) o2 e2 = .ok (some C) ∧ collide (.box bx) o2 e2 (.sphere s) o1 e1 = .ok (some D) ∧
        C.times.min = fin u ∧ D.times.min = fin u ∧ u ≤ t ∧ BallMeetsBox (Real.sqrt (r * r + eps) + eps) p (q - p) a b u) := by
  unfold collide dispatchSphereBox
  simp only [hr1, hp, hq, Vec3.f_sub, ha, hb]
  constructor
  · intro C h
    obtain ⟨o, ho⟩ := collideSphereBox_ok (r := fin r) (c := p.f) (m := (q - p).f) (a := a.f) (b := b.f)
    rw [ho] at h
    simp only [Res.ok_bind, Except.ok.injEq] at h
    cases o with
    | none => simp at h
    | some D =>
      have hD := C49_reported hx hy hz hr ho
      simp only [Option.map_some, Option.some.injEq] at h
      rcases h with rfl | rfl
      · exact hD
      · exact hD
  · intro hs t t0 t1 ht
    obtain ⟨C, u, hC, hu, hut⟩ := C61_complete_partial hx hy hz hr hs t0 t1 ht
    rw [hC]
    obtain ⟨w, hw, -, -, hm⟩ := C49_sharp_partial hx hy hz hr hs hC
    have : w = u := by rw [hu] at hw; simpa using hw.symm
    subst this
    exact ⟨_, _, w, rfl, rfl, hu, hu, hut, hm⟩

namespace Crate
/-- At the origin, not turned. -/
noncomputable def here : Orientation ℝ := ⟨.o, Quat.e, .o⟩
theorem here_unit : here.Unit := by simp [Orientation.Unit, here, Quat.e, Quat.normSq]
/-- A valid box: the unit cube with its position ten units away along the x axis. -/
noncomputable def box : BoxCollider XReal := ⟨none, (⟨10, 0, 0⟩ : Vec3 ℝ).f, (Vec3.o).f, (⟨1, 1, 1⟩ : Vec3 ℝ).f, fin 0, .default⟩
theorem box_valid : Collider.newFrom (.box box) = some (.box box) := by
  have h : (⟨1, 1, 1⟩ : Vec3 ℝ) - .o = ⟨1, 1, 1⟩ := by ext <;> simp
  unfold Collider.newFrom BoxCollider.isValid
  simp only [box, Vec3.f_sub, h]
  simp [cornerMin, cornerMax, fmin, fmax, Vec3.f]
  norm_num
/-- A ball of radius 1 at the origin. -/
noncomputable def ball : SphereCollider XReal := ⟨none, (Vec3.o).f, fin 1, fin 0, .default⟩
theorem ball_valid : Collider.newFrom (.sphere ball) = some (.sphere ball) := by
  simp [Collider.newFrom, SphereCollider.isValid, ball, MINIMUM_RADIUS]
  norm_num
theorem here_world : here.f.positionIntoWorld (Vec3.o).f = (Vec3.o).f := by
  rw [Orientation.f_positionIntoWorld _ _ here_unit]; simp [Orientation.toWorld, here]
theorem here_local : here.f.positionIntoLocal (Vec3.o).f = (Vec3.o).f := by
  rw [Orientation.f_positionIntoLocal]; simp [Orientation.toLocal, here]

/-- A ball at rest is clear of the cut-offs. -/
theorem safe_rest (r : ℝ) (c a b : Vec3 ℝ) : SafeBox r c .o a b :=
  ⟨⟨.inl rfl, .inl rfl, .inl rfl⟩, fun p q _ => .inl (by simp), fun v _ => .inl (by simp)⟩
end Crate

/-- **C49 is false:** the position of a box is ignored. A ball of radius 1 resting at the origin collides with a cube placed ten units away: not even
a ball of radius 5 would touch the cube where it is. -/
theorem C49_false : ∃ (s : SphereCollider XReal) (bx : BoxCollider XReal) (o : Orientation ℝ) (p a b : Vec3 ℝ) (C : Collision XReal),
    Collider.newFrom (.sphere s) = some (.sphere s) ∧ Collider.newFrom (.box bx) = some (.box bx) ∧ o.Unit ∧ s.radius = fin 1 ∧
    bx.position = p.f ∧ bx.minCorner = a.f ∧ bx.maxCorner = b.f ∧
    collide (.sphere s) o.f o.f (.box bx) o.f o.f = .ok (some C) ∧
    ∀ c, o.f.positionIntoLocal (o.f.positionIntoWorld s.center) = c.f → ∀ t, ¬ BallMeetsBox 5 c .o (p + a) (p + b) t := by
  have hw : Crate.here.f.positionIntoLocal (Crate.here.f.positionIntoWorld Crate.ball.center) = (Vec3.o).f := by
    show Crate.here.f.positionIntoLocal (Crate.here.f.positionIntoWorld (Vec3.o).f) = _
    rw [Crate.here_world, Crate.here_local]
  have h := (C49_collide_partial (s := Crate.ball) (bx := Crate.box) (r := 1) (a := .o) (b := ⟨1, 1, 1⟩) rfl one_pos rfl rfl (by norm_num) (by norm_num) (by norm_num)
    hw hw).2 (by rw [Vec3.sub_self']; exact Crate.safe_rest _ _ _ _) 0 (le_refl _) zero_le_one
    ⟨.o, by simp [InBox], by rw [inBall_iff one_pos.le]; simp [along, Vec3.dot_def]⟩
  obtain ⟨C, -, -, hC, -⟩ := h
  refine ⟨Crate.ball, Crate.box, Crate.here, ⟨10, 0, 0⟩, .o, ⟨1, 1, 1⟩, C, Crate.ball_valid, Crate.box_valid, Crate.here_unit, rfl, rfl, rfl, rfl, hC, ?_⟩
  intro c hc t
  rw [hw, Vec3.f_inj] at hc
  subst hc
  rintro ⟨y, ⟨⟨h1, -⟩, -⟩, h⟩
  rw [inBall_iff (by norm_num), along_still] at h
  simp only [Vec3.dot_def, Vec3.sub_x, Vec3.sub_y, Vec3.sub_z, Vec3.o_x, Vec3.o_y, Vec3.o_z, Vec3.add_x] at h h1
  nlinarith [mul_self_nonneg (y.y - 0), mul_self_nonneg (y.z - 0)]

/-- A pose moved without turning. -/
def shifted (o : Orientation ℝ) (d : Vec3 ℝ) (t : ℝ) : Orientation ℝ := ⟨along o.position d t, o.rotation, o.internalOriginOffset⟩
theorem shifted_local {o : Orientation ℝ} (d p q : Vec3 ℝ) (t : ℝ) :
    along (o.toLocal p) ((shifted o d 1).toLocal q - o.toLocal p) t = (shifted o d t).toLocal (along p (q - p) t) := by
  unfold Orientation.toLocal shifted along
  ext <;> simp [Quat.rot, Quat.vec] <;> ring
theorem shifted_dist {o : Orientation ℝ} (ho : o.Unit) (x y : Vec3 ℝ) : (y - o.toLocal x).len = (o.toWorld y - x).len := by
  have : o.toWorld y - x = o.rotation.rot (y - o.toLocal x) := by
    have h := o.toWorld_toLocal x ho
    conv_lhs => rw [← h]
    unfold Orientation.toWorld
    rw [Quat.rot_add, Quat.rot_add, Quat.rot_sub]
    ext <;> simp <;> ring
  rw [this, Quat.rot_len _ ho]

/-- **C49** in the world, for a box collider at its entity's origin whose entity does not turn during the step: a reported contact is at a time at which
the ball's centre is within `sqrt (r² + 1/4) + 2 EPSILON` of a point of the moving box, and, clear of the cut-offs, a ball that meets the box is
reported by then. -/
theorem C49_world_partial {s : SphereCollider XReal} {bx : BoxCollider XReal} {o1 e1 : Orientation XReal} {o : Orientation ℝ} {r : ℝ} {d p q a b : Vec3 ℝ}
    (ho : o.Unit) (hr1 : s.radius = fin r) (hr : 0 < r) (ha : bx.minCorner = a.f) (hb : bx.maxCorner = b.f) (hx : a.x < b.x) (hy : a.y < b.y) (hz : a.z < b.z)
    (hp : o1.positionIntoWorld s.center = p.f) (hq : e1.positionIntoWorld s.center = q.f) :
    (∀ C, collide (.sphere s) o1 e1 (.box bx) o.f (shifted o d 1).f = .ok (some C) →
      ∃ t y, C.times.min = fin t ∧ 0 ≤ t ∧ t ≤ 1 ∧ InBox a b y ∧
        ((shifted o d t).toWorld y - along p (q - p) t).len ≤ Real.sqrt (r * r + 1 / 4) + 2 * eps) ∧
    (SafeBox r (o.toLocal p) ((shifted o d 1).toLocal q - o.toLocal p) a b → ∀ t y, 0 ≤ t → t ≤ 1 → InBox a b y →
      InBall (along p (q - p) t) r ((shifted o d t).toWorld y) →
      ∃ C u, collide (.sphere s) o1 e1 (.box bx) o.f (shifted o d 1).f = .ok (some C) ∧ C.times.min = fin u ∧ u ≤ t) := by
  have hl1 : o.f.positionIntoLocal (o1.positionIntoWorld s.center) = (o.toLocal p).f := by rw [hp, Orientation.f_positionIntoLocal]
  have hl2 : (shifted o d 1).f.positionIntoLocal (e1.positionIntoWorld s.center) = ((shifted o d 1).toLocal q).f := by
    rw [hq, Orientation.f_positionIntoLocal]
  obtain ⟨h1, h2⟩ := C49_collide_partial (s := s) (bx := bx) hr1 hr ha hb hx hy hz hl1 hl2
  have hu : ∀ t, (shifted o d t).Unit := fun t => ho
  constructor
  · intro C hC
    obtain ⟨t, y, ht, t0, t1, hy', hd⟩ := h1 C (.inl hC)
    refine ⟨t, y, ht, t0, t1, hy', ?_⟩
    rw [shifted_local, shifted_dist (hu t)] at hd
    exact hd
  · intro hs t y t0 t1 hy' hd
    obtain ⟨C, -, u, hC, -, hu', -, hut, -⟩ := h2 hs t t0 t1 ⟨y, hy', by
      unfold InBall
      rw [shifted_local, shifted_dist (hu t)]
      exact hd⟩
    exact ⟨C, u, hC, hu', hut⟩

/-- A ball falling onto the middle of the top of a cube, for `C61_complete_partial` and `C49_sharp_partial`: it is clear of the cut-offs and touches the
cube half way through the step. -/
example : SafeBox 1 ⟨1 / 2, 3, 1 / 2⟩ ⟨0, -2, 0⟩ .o ⟨1, 1, 1⟩ ∧ BallMeetsBox 1 ⟨1 / 2, 3, 1 / 2⟩ ⟨0, -2, 0⟩ .o ⟨1, 1, 1⟩ (1 / 2) := by
  have he : eps = 1 / 1000000 := rfl
  have hl : ∀ d : Vec3 ℝ, d.dot d = 1 → unit d = d := by
    intro d hd
    unfold unit
    have : d.len = 1 := by show Real.sqrt _ = 1; rw [hd, Real.sqrt_one]
    rw [this, inv_one, Vec3.scale_one]
  refine ⟨⟨⟨.inl rfl, .inr ?_, .inl rfl⟩, ?_, ?_⟩, ⟨⟨1 / 2, 1, 1 / 2⟩, ?_, ?_⟩⟩
  · rw [he]; norm_num [abs_of_neg]
  · rintro ⟨p1, p2, p3⟩ ⟨q1, q2, q3⟩ (⟨h1, h2, h3, h4, h5, h6⟩ | ⟨h1, h2, h3, h4, h5, h6⟩ | ⟨h1, h2, h3, h4, h5, h6⟩) <;> simp only [Vec3.o_x, Vec3.o_y, Vec3.o_z] at h1 h2 h3 h4 h5 h6
    · subst h1 h2 h4 h6
      right
      unfold CleanLine
      rw [hl _ (by norm_num [Vec3.dot_def])]
      refine ⟨?_, .inr ?_⟩
      · rw [he]; norm_num [lineA, Vec3.dot_def]
      · rw [he]
        rcases h3 with rfl | rfl <;> rcases h5 with rfl | rfl <;> norm_num [lineA, lineB, lineC, Vec3.dot_def]
    · subst h2 h3 h4 h6
      left
      rw [hl _ (by norm_num [Vec3.dot_def])]
      ext <;> norm_num
    · subst h2 h4 h5 h6
      right
      unfold CleanLine
      rw [hl _ (by norm_num [Vec3.dot_def])]
      refine ⟨?_, .inr ?_⟩
      · rw [he]; norm_num [lineA, Vec3.dot_def]
      · rw [he]
        rcases h1 with rfl | rfl <;> rcases h3 with rfl | rfl <;> norm_num [lineA, lineB, lineC, Vec3.dot_def]
  · rintro ⟨v1, v2, v3⟩ ⟨h1, h2, h3⟩
    right
    simp only [Vec3.o_x, Vec3.o_y, Vec3.o_z] at h1 h2 h3
    refine ⟨?_, .inr ?_⟩
    · rw [he]; norm_num [Vec3.dot_def]
    · rw [he]
      rcases h1 with rfl | rfl <;> rcases h2 with rfl | rfl <;> rcases h3 with rfl | rfl <;> norm_num [discriminant, Vec3.dot_def]
  · norm_num [InBox]
  · rw [inBall_iff one_pos.le]
    norm_num [along, Vec3.dot_def]

end Fluffy.Props
