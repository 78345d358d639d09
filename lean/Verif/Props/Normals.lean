import Verif.Props.SphereMesh
import Verif.Num.Rodrigues
set_option linter.unusedSectionVars false
set_option linter.unusedSimpArgs false

/-! What the contacts of a sphere with edges and boxes say about where and in which direction the contact is; and slow contacts that are missed. -/

namespace Fluffy.Props
open Fluffy XReal Scalar

/-! ### Edges -/

/-- The normal of a contact with an edge points from the centre at the start of the step to the contact point. -/
theorem edge_normal {r : ℝ} {c m a b v : Vec3 ℝ} (hd : b - a ≠ .o) {C : Collision XReal}
    (h : collideSphereMidSegment (fin r) c.f m.f a.f b.f v.f = some C) :
    ∃ (t : ℝ), C.times.min = fin t ∧ C.position = (foot (along a v t) (b - a) (along c m t)).f ∧
      C.normal = (foot (along a v t) (b - a) (along c m t) - c).f.normalize := by
  rcases sphereLine_first (r := r) (c := c) (s := a) (m := m) (v := v) hd (fun t _ _ => Iff.rfl) with ⟨h', -⟩ | ⟨D, t, hD, ht, -, hp, hn⟩
  · unfold collideSphereMidSegment at h
    simp only [Vec3.f_sub, h'] at h
    cases h
  · have e := midSegment_eq (k := footAt c m a (b - a) v t) hD ht (by rw [hp]; rfl)
    rw [h] at e
    split at e
    · cases e
      exact ⟨t, ht, hp, hn⟩
    · cases e

/-- **C64** for edges and a sphere that has not moved before the contact: the contact point is the point of the edge's line that is nearest to the centre, and the
normal is the unit vector from the centre to it. -/
theorem C64_edge_partial {r : ℝ} {c m a b v : Vec3 ℝ} (hd : b - a ≠ .o) {C : Collision XReal} {t : ℝ}
    (h : collideSphereMidSegment (fin r) c.f m.f a.f b.f v.f = some C) (ht : C.times.min = fin t) (hstill : along c m t = c) :
    ∃ q : Vec3 ℝ, C.position = q.f ∧ (q - along c m t).dot (b - a) = 0 ∧ (∃ k, q = along a v t + (b - a).scale k) ∧
      (q ≠ along c m t → ∃ n : Vec3 ℝ, C.normal = n.f ∧ Pointing (along c m t) q n) := by
  obtain ⟨u, hu, hp, hn⟩ := edge_normal hd h
  rw [ht] at hu
  cases hu
  refine ⟨_, hp, foot_perp hd, ⟨_, rfl⟩, fun hne => ?_⟩
  have hne' : foot (along a v t) (b - a) (along c m t) - along c m t ≠ .o := by
    intro h0
    apply hne
    have h1 := congrArg Vec3.x h0; have h2 := congrArg Vec3.y h0; have h3 := congrArg Vec3.z h0
    simp only [Vec3.sub_x, Vec3.sub_y, Vec3.sub_z, Vec3.o_x, Vec3.o_y, Vec3.o_z] at h1 h2 h3
    ext <;> linarith
  refine ⟨_, ?_, normalize_pointing hne'⟩
  rw [hn, ← Vec3.f_normalize hne', hstill]

/-- An upright edge and a sphere of radius 2 that run past each other. -/
theorem edge_glance {m v : Vec3 ℝ} (hmv : m - v = ⟨2, 0, 0⟩) : ∃ C, collideSphereMidSegment (fin 2) (Vec3.o).f m.f (⟨11 / 5, 8 / 5, -1⟩ : Vec3 ℝ).f
    (⟨11 / 5, 8 / 5, 1⟩ : Vec3 ℝ).f v.f = some C ∧ C.times.min = fin (1 / 2) := by
  have hd : (⟨11 / 5, 8 / 5, 1⟩ : Vec3 ℝ) - ⟨11 / 5, 8 / 5, -1⟩ = ⟨0, 0, 2⟩ := by ext <;> norm_num
  have hu : unit (⟨0, 0, 2⟩ : Vec3 ℝ) = ⟨0, 0, 1⟩ := by
    have : (⟨0, 0, 2⟩ : Vec3 ℝ).len = 2 := by
      show Real.sqrt _ = 2
      rw [Real.sqrt_eq_iff_mul_self_eq (by norm_num [Vec3.dot_def]) (by norm_num)]; norm_num [Vec3.dot_def]
    unfold unit
    rw [this]; ext <;> norm_num
  rcases segment_first (r := 2) (c := .o) (m := m) (a := ⟨11 / 5, 8 / 5, -1⟩) (b := ⟨11 / 5, 8 / 5, 1⟩) (v := v)
      (P := fun t => 4 * t ^ 2 + -44 / 5 * t + 17 / 5 ≤ 0) (by rw [hd]; intro h0; have := congrArg Vec3.z h0; norm_num at this) (fun t _ _ => by
        rw [hd, hu]
        have e1 : lineA m ⟨0, 0, 1⟩ v = 4 := by unfold lineA; rw [hmv]; norm_num [Vec3.dot_def]
        have e2 : lineB .o m ⟨11 / 5, 8 / 5, -1⟩ ⟨0, 0, 1⟩ v = -44 / 5 := by unfold lineB; rw [hmv]; norm_num [Vec3.dot_def]
        have e3 : lineC 2 .o ⟨11 / 5, 8 / 5, -1⟩ ⟨0, 0, 1⟩ = 17 / 5 := by norm_num [lineC, Vec3.dot_def]
        rw [e1, e2, e3]
        exact (C40_quadratic_partial _ _ _ (by unfold eps; norm_num)).1 (Or.inr (by unfold eps; norm_num)) t) with ⟨-, h⟩ | ⟨C, t, hC, ht, hf, -⟩
  · exfalso
    refine h (1 / 2) ⟨⟨by norm_num, by norm_num, by norm_num⟩, fun u _ _ hu => ?_⟩ ?_
    · by_contra hlt
      push Not at hlt
      simp only at hu
      nlinarith
    · rw [footAt_linear, hd, hmv]
      norm_num [footAt, along, Vec3.dot_def]
  · have hle := hf.2 (1 / 2) (by norm_num) (by norm_num) (by norm_num)
    have hP := hf.1.2.2
    have ht' : t = 1 / 2 := by
      apply le_antisymm hle
      by_contra hlt
      push Not at hlt
      simp only at hP
      nlinarith
    subst ht'
    exact ⟨C, hC, ht⟩

/-- For `C64_edge_partial`: the edge runs past a sphere that stays. -/
example : ∃ C t, collideSphereMidSegment (fin 2) (Vec3.o).f (Vec3.o).f (⟨11 / 5, 8 / 5, -1⟩ : Vec3 ℝ).f (⟨11 / 5, 8 / 5, 1⟩ : Vec3 ℝ).f (⟨-2, 0, 0⟩ : Vec3 ℝ).f = some C ∧
    C.times.min = fin t ∧ along (Vec3.o) .o t = .o := by
  obtain ⟨C, hC, ht⟩ := edge_glance (m := .o) (v := ⟨-2, 0, 0⟩) (by ext <;> simp)
  exact ⟨C, _, hC, ht, by unfold along; ext <;> simp⟩

/-- **C64 fails** for moving spheres and edges: the normal is a unit vector that is not along the line from the centre to the contact point. -/
theorem C64_false_edge : ∃ (c m a b : Vec3 ℝ) (C : Collision XReal) (t : ℝ) (q n : Vec3 ℝ),
    collideSphereMidSegment (fin 2) c.f m.f a.f b.f (Vec3.o).f = some C ∧ C.times.min = fin t ∧ C.position = q.f ∧ OnSegment a b q ∧
      (q - along c m t).len = 2 ∧ C.normal = n.f ∧ n.len = 1 ∧ ¬ ∃ k : ℝ, q - along c m t = n.scale k := by
  obtain ⟨C, hC, ht⟩ := edge_glance (m := ⟨2, 0, 0⟩) (v := .o) (by ext <;> simp)
  have hd : (⟨11 / 5, 8 / 5, 1⟩ : Vec3 ℝ) - ⟨11 / 5, 8 / 5, -1⟩ ≠ .o := by intro h0; have := congrArg Vec3.z h0; norm_num at this
  obtain ⟨u, hu, hp, hn⟩ := edge_normal hd hC
  rw [ht] at hu
  cases hu
  have hq : foot (along ⟨11 / 5, 8 / 5, -1⟩ .o (1 / 2)) (⟨11 / 5, 8 / 5, 1⟩ - ⟨11 / 5, 8 / 5, -1⟩) (along .o ⟨2, 0, 0⟩ (1 / 2)) = (⟨11 / 5, 8 / 5, 0⟩ : Vec3 ℝ) := by
    unfold foot along; ext <;> norm_num [Vec3.dot_def]
  rw [hq] at hp hn
  have hne : (⟨11 / 5, 8 / 5, 0⟩ : Vec3 ℝ) - .o ≠ .o := fun h => by have := congrArg Vec3.x h; norm_num at this
  obtain ⟨hl, k, hk, e⟩ := normalize_pointing hne
  have hd' : (⟨11 / 5, 8 / 5, 0⟩ : Vec3 ℝ) - along .o ⟨2, 0, 0⟩ (1 / 2) = ⟨6 / 5, 8 / 5, 0⟩ := by ext <;> simp [along] <;> norm_num
  refine ⟨.o, ⟨2, 0, 0⟩, ⟨11 / 5, 8 / 5, -1⟩, ⟨11 / 5, 8 / 5, 1⟩, C, 1 / 2, _, _, hC, ht, hp, ⟨1 / 2, by norm_num, by norm_num, by ext <;> norm_num⟩, ?_,
    by rw [hn, Vec3.f_normalize hne], hl, ?_⟩
  · rw [hd']
    show Real.sqrt _ = 2
    rw [Real.sqrt_eq_iff_mul_self_eq (by norm_num [Vec3.dot_def]) (by norm_num)]; norm_num [Vec3.dot_def]
  rintro ⟨j, hj⟩
  rw [hd'] at hj
  generalize ((⟨11 / 5, 8 / 5, 0⟩ : Vec3 ℝ) - .o).scale ((⟨11 / 5, 8 / 5, 0⟩ : Vec3 ℝ) - .o).len⁻¹ = n at *
  have x1 := congrArg Vec3.x e
  have y1 := congrArg Vec3.y e
  have x2 := congrArg Vec3.x hj
  have y2 := congrArg Vec3.y hj
  simp only [Vec3.sub_x, Vec3.sub_y, Vec3.o_x, Vec3.o_y, Vec3.scale_x, Vec3.scale_y, sub_zero] at x1 y1 x2 y2
  have hny : 8 * n.x = 11 * n.y := by
    have : k * (8 * n.x - 11 * n.y) = 0 := by linarith
    linarith [(mul_eq_zero.mp this).resolve_left hk.ne']
  have : j * (8 * n.x - 11 * n.y) = 8 * (6 / 5) - 11 * (8 / 5) := by rw [x2, y2]; ring
  rw [hny] at this
  norm_num at this


/-! ### Surfaces of boxes -/

/-- The unit vectors along the axes. -/
inductive Axial : Vec3 ℝ → Prop
  | x (s : ℝ) (h : s = 1 ∨ s = -1) : Axial ⟨s, 0, 0⟩
  | y (s : ℝ) (h : s = 1 ∨ s = -1) : Axial ⟨0, s, 0⟩
  | z (s : ℝ) (h : s = 1 ∨ s = -1) : Axial ⟨0, 0, s⟩

/-- `y` is a point of the box that is nearest to `x`. -/
def NearestInBox (a b x y : Vec3 ℝ) : Prop := InBox a b y ∧ ∀ z, InBox a b z → (y - x).dot (y - x) ≤ (z - x).dot (z - x)

/-- `x` is outside the box, on the outer side of one face only. -/
def BeyondOneFace (a b x : Vec3 ℝ) : Prop :=
  (¬ (a.x ≤ x.x ∧ x.x ≤ b.x) ∧ (a.y ≤ x.y ∧ x.y ≤ b.y) ∧ (a.z ≤ x.z ∧ x.z ≤ b.z)) ∨
  ((a.x ≤ x.x ∧ x.x ≤ b.x) ∧ ¬ (a.y ≤ x.y ∧ x.y ≤ b.y) ∧ (a.z ≤ x.z ∧ x.z ≤ b.z)) ∨
  ((a.x ≤ x.x ∧ x.x ≤ b.x) ∧ (a.y ≤ x.y ∧ x.y ≤ b.y) ∧ ¬ (a.z ≤ x.z ∧ x.z ≤ b.z))

/-- How far the middle of an interval is, in interval lengths. -/
noncomputable def offset (lo hi x : ℝ) : ℝ := ((lo + hi) / 2 - x) / (hi - lo)

theorem offset_in {lo hi x : ℝ} (h : lo < hi) : (lo ≤ x ∧ x ≤ hi) ↔ |offset lo hi x| ≤ 1 / 2 := by
  unfold offset
  rw [abs_div, abs_of_pos (by linarith : 0 < hi - lo), div_le_iff₀ (by linarith), abs_le]
  constructor
  · rintro ⟨h1, h2⟩; constructor <;> linarith
  · rintro ⟨h1, h2⟩; constructor <;> linarith

theorem offset_sign {lo hi x : ℝ} (h : lo < hi) : 0 ≤ offset lo hi x ↔ x ≤ (lo + hi) / 2 := by
  unfold offset
  rw [div_nonneg_iff]
  constructor
  · rintro (h | h) <;> linarith [h.1, h.2]
  · intro h; left; constructor <;> linarith

section
variable {a b x : Vec3 ℝ} (hx : a.x < b.x) (hy : a.y < b.y) (hz : a.z < b.z)
include hx hy hz

theorem boxNormal_eq : ∃ n : Vec3 ℝ, boxSurfaceNormal x.f a.f b.f = n.f ∧
    ((n = ⟨if 0 ≤ offset a.x b.x x.x then 1 else -1, 0, 0⟩ ∧ |offset a.y b.y x.y| ≤ |offset a.x b.x x.x| ∧ |offset a.z b.z x.z| ≤ |offset a.x b.x x.x|) ∨
     (n = ⟨0, if 0 ≤ offset a.y b.y x.y then 1 else -1, 0⟩ ∧ |offset a.x b.x x.x| < |offset a.y b.y x.y| ∧ |offset a.z b.z x.z| ≤ |offset a.y b.y x.y|) ∨
     (n = ⟨0, 0, if 0 ≤ offset a.z b.z x.z then 1 else -1⟩ ∧ |offset a.x b.x x.x| < |offset a.z b.z x.z| ∧ |offset a.y b.y x.y| < |offset a.z b.z x.z|)) := by
  have e : ∀ lo hi v : ℝ, lo < hi → ((fin lo + fin hi) / fin 2 - fin v) / (fin hi - fin lo) = fin (offset lo hi v) := by
    intro lo hi v h
    rw [fin_add, fin_div two_ne_zero, fin_sub, fin_sub, fin_div (by linarith)]
    rfl
  have ex : ((a.f + b.f).unscale two - x.f).x / (b.f - a.f).x = fin (offset a.x b.x x.x) := by rw [two_eq]; exact e _ _ x.x hx
  have ey : ((a.f + b.f).unscale two - x.f).y / (b.f - a.f).y = fin (offset a.y b.y x.y) := by rw [two_eq]; exact e _ _ x.y hy
  have ez : ((a.f + b.f).unscale two - x.f).z / (b.f - a.f).z = fin (offset a.z b.z x.z) := by rw [two_eq]; exact e _ _ x.z hz
  unfold boxSurfaceNormal
  simp only []
  rw [ex, ey, ez]
  simp only [fin_abs, fin_lt, decide_eq_true_eq, fin_signum, zero_eq]
  split
  · split
    · exact ⟨⟨0, 0, _⟩, rfl, .inr (.inr ⟨rfl, by linarith, by assumption⟩)⟩
    · exact ⟨⟨0, _, 0⟩, rfl, .inr (.inl ⟨rfl, by assumption, by linarith⟩)⟩
  · split
    · exact ⟨⟨0, 0, _⟩, rfl, .inr (.inr ⟨rfl, by assumption, by linarith⟩)⟩
    · exact ⟨⟨_, 0, 0⟩, rfl, .inl ⟨rfl, by linarith, by linarith⟩⟩

/-- The direction used for a centre at `x`: along an axis, never away from the middle of the box, and beyond one face it is towards the nearest point. -/
theorem boxNormal_spec : ∃ n : Vec3 ℝ, boxSurfaceNormal x.f a.f b.f = n.f ∧ Axial n ∧ 0 ≤ n.dot ((a + b).scale (1 / 2) - x) ∧
    (BeyondOneFace a b x → ∀ y, NearestInBox a b x y → Pointing x y n) := by
  obtain ⟨n, hn, hc⟩ := boxNormal_eq (x := x) hx hy hz
  have sgn : ∀ k : ℝ, (if 0 ≤ k then (1 : ℝ) else -1) = 1 ∨ (if 0 ≤ k then (1 : ℝ) else -1) = -1 := fun k => by split <;> simp
  have len1 : ∀ n : Vec3 ℝ, n.dot n = 1 → n.len = 1 := fun n h => by show Real.sqrt _ = 1; rw [h, Real.sqrt_one]
  refine ⟨n, hn, ?_, ?_, ?_⟩
  · rcases hc with ⟨rfl, -⟩ | ⟨rfl, -⟩ | ⟨rfl, -⟩
    · exact .x _ (sgn _)
    · exact .y _ (sgn _)
    · exact .z _ (sgn _)
  · have key : ∀ lo hi v : ℝ, lo < hi → 0 ≤ (if 0 ≤ offset lo hi v then (1 : ℝ) else -1) * ((lo + hi) * (1 / 2) - v) := by
      intro lo hi v h
      split
      · rename_i h0; rw [offset_sign h] at h0; linarith
      · rename_i h0; rw [offset_sign h] at h0; linarith
    rcases hc with ⟨rfl, -⟩ | ⟨rfl, -⟩ | ⟨rfl, -⟩
    · have := key _ _ x.x hx; simpa [Vec3.dot_def] using this
    · have := key _ _ x.y hy; simpa [Vec3.dot_def] using this
    · have := key _ _ x.z hz; simpa [Vec3.dot_def] using this
  · intro hb y hy'
    have near : ∀ z, InBox a b z → (y - x).dot (y - x) ≤ (z - x).dot (z - x) := hy'.2
    have hin := hy'.1
    unfold InBox at hin
    unfold BeyondOneFace at hb
    rw [offset_in hx, offset_in hy, offset_in hz] at hb
    have out : ∀ lo hi v : ℝ, lo < hi → ¬ |offset lo hi v| ≤ 1 / 2 → (0 ≤ offset lo hi v ∧ v < lo) ∨ (¬ 0 ≤ offset lo hi v ∧ hi < v) := by
      intro lo hi v h ho
      rw [← offset_in h] at ho
      rw [offset_sign h]
      by_cases h1 : lo ≤ v
      · right; have h2 : hi < v := by by_contra h2; exact ho ⟨h1, not_lt.mp h2⟩
        exact ⟨by linarith, h2⟩
      · left; push Not at h1; exact ⟨by linarith, h1⟩
    have one : ∀ (lo hi v w p q : ℝ), lo < hi → ¬ |offset lo hi v| ≤ 1 / 2 → lo ≤ w → w ≤ hi →
        (∀ u, lo ≤ u → u ≤ hi → (w - v) * (w - v) + p * p + q * q ≤ (u - v) * (u - v)) →
        p = 0 ∧ q = 0 ∧ ∃ k, 0 < k ∧ w - v = (if 0 ≤ offset lo hi v then (1 : ℝ) else -1) * k := by
      intro lo hi v w p q h ho h1 h2 hu
      rcases out lo hi v h ho with ⟨s, hv⟩ | ⟨s, hv⟩
      · have := hu lo (le_refl _) h.le
        rw [if_pos s]
        have hw : (lo - v) * (lo - v) ≤ (w - v) * (w - v) := by nlinarith
        exact ⟨by nlinarith, by nlinarith, w - v, by linarith, by ring⟩
      · have := hu hi h.le (le_refl _)
        rw [if_neg s]
        have hw : (hi - v) * (hi - v) ≤ (w - v) * (w - v) := by nlinarith
        exact ⟨by nlinarith, by nlinarith, v - w, by linarith, by ring⟩
    obtain ⟨⟨y1, y2⟩, ⟨y3, y4⟩, y5, y6⟩ := hin
    rcases hb with ⟨h1, h2, h3⟩ | ⟨h1, h2, h3⟩ | ⟨h1, h2, h3⟩
    · have hn' : n = ⟨if 0 ≤ offset a.x b.x x.x then 1 else -1, 0, 0⟩ := by
        rcases hc with ⟨e, -⟩ | ⟨-, e, -⟩ | ⟨-, e, -⟩
        · exact e
        · exact absurd (le_trans e.le h2) h1
        · exact absurd (le_trans e.le h3) h1
      obtain ⟨p0, q0, k, k0, hk⟩ := one _ _ x.x y.x (y.y - x.y) (y.z - x.z) hx h1 y1 y2 (fun u u1 u2 => by
        have := near ⟨u, x.y, x.z⟩ ⟨⟨u1, u2⟩, (offset_in hy).mpr h2, (offset_in hz).mpr h3⟩
        simpa [Vec3.dot_def] using this)
      subst hn'
      refine ⟨len1 _ ?_, k, k0, ?_⟩
      · rcases sgn (offset a.x b.x x.x) with e | e <;> rw [e] <;> norm_num [Vec3.dot_def]
      · ext <;> simp [hk, p0, q0]
    · have hn' : n = ⟨0, if 0 ≤ offset a.y b.y x.y then 1 else -1, 0⟩ := by
        rcases hc with ⟨-, e, -⟩ | ⟨e, -⟩ | ⟨-, -, e⟩
        · exact absurd (le_trans e h1) h2
        · exact e
        · exact absurd (le_trans e.le h3) h2
      obtain ⟨p0, q0, k, k0, hk⟩ := one _ _ x.y y.y (y.x - x.x) (y.z - x.z) hy h2 y3 y4 (fun u u1 u2 => by
        have := near ⟨x.x, u, x.z⟩ ⟨(offset_in hx).mpr h1, ⟨u1, u2⟩, (offset_in hz).mpr h3⟩
        simp [Vec3.dot_def] at this
        linarith)
      subst hn'
      refine ⟨len1 _ ?_, k, k0, ?_⟩
      · rcases sgn (offset a.y b.y x.y) with e | e <;> rw [e] <;> norm_num [Vec3.dot_def]
      · ext <;> simp [hk, p0, q0]
    · have hn' : n = ⟨0, 0, if 0 ≤ offset a.z b.z x.z then 1 else -1⟩ := by
        rcases hc with ⟨-, -, e⟩ | ⟨-, -, e⟩ | ⟨e, -⟩
        · exact absurd (le_trans e h1) h3
        · exact absurd (le_trans e h2) h3
        · exact e
      obtain ⟨p0, q0, k, k0, hk⟩ := one _ _ x.z y.z (y.x - x.x) (y.y - x.y) hz h3 y5 y6 (fun u u1 u2 => by
        have := near ⟨x.x, x.y, u⟩ ⟨(offset_in hx).mpr h1, (offset_in hy).mpr h2, u1, u2⟩
        simp [Vec3.dot_def] at this
        linarith)
      subst hn'
      refine ⟨len1 _ ?_, k, k0, ?_⟩
      · rcases sgn (offset a.z b.z x.z) with e | e <;> rw [e] <;> norm_num [Vec3.dot_def]
      · ext <;> simp [hk, p0, q0]

/-- **C64** for the surfaces of boxes: the normal is along an axis and not away from the middle of the box, the contact point is the radius along it; and if the centre is
then beyond one face of the box, the normal points to the nearest point of the box, which is the contact point if the ball just touches it. -/
theorem C64_surface_partial {r : ℝ} {c m : Vec3 ℝ} {C : Collision XReal} {t : ℝ} (h : boxSurfaceCollision (fin r) c.f m.f a.f b.f = some C) (ht : C.times.min = fin t) :
    ∃ n q : Vec3 ℝ, C.normal = n.f ∧ C.position = q.f ∧ Axial n ∧ 0 ≤ n.dot ((a + b).scale (1 / 2) - along c m t) ∧ q = along c m t + n.scale r ∧
      (BeyondOneFace a b (along c m t) → ∀ y, NearestInBox a b (along c m t) y → Pointing (along c m t) y n ∧ ((y - along c m t).len = r → q = y)) := by
  unfold boxSurfaceCollision at h
  simp only at h
  split at h
  · simp only [Option.some.injEq] at h
    subst h
    simp only at ht ⊢
    rw [ht]
    have e : c.f + m.f.scale (fin t) = (along c m t).f := by rw [Vec3.f_scale, Vec3.f_add]; rfl
    rw [e]
    obtain ⟨n, hn, h1, h2, h3⟩ := boxNormal_spec (x := along c m t) hx hy hz
    rw [hn]
    refine ⟨n, along c m t + n.scale r, rfl, by rw [Vec3.f_scale, Vec3.f_add], h1, h2, rfl, fun hb y hy' => ⟨h3 hb y hy', fun hr => ?_⟩⟩
    obtain ⟨hl, k, hk, ey⟩ := h3 hb y hy'
    have : k = r := by rw [ey, Vec3.len_scale, hl, abs_of_pos hk, one_mul] at hr; exact hr
    subst this
    rw [← ey]
    ext <;> simp
  · cases h
end


/-- For `C64_surface_partial`: a ball falls onto the top of a cube. -/
example : ∃ C t, boxSurfaceCollision (fin 1) (⟨1 / 2, 3, 1 / 2⟩ : Vec3 ℝ).f (⟨0, -2, 0⟩ : Vec3 ℝ).f (Vec3.o).f (⟨1, 1, 1⟩ : Vec3 ℝ).f = some C ∧ C.times.min = fin t ∧
    BeyondOneFace .o ⟨1, 1, 1⟩ (along ⟨1 / 2, 3, 1 / 2⟩ ⟨0, -2, 0⟩ t) := by
  have hs : settled (⟨0, -2, 0⟩ : Vec3 ℝ) = ⟨0, -2, 0⟩ := by
    unfold settled settle eps
    ext <;> norm_num [abs_of_neg]
  obtain ⟨C, u, hC, hu, hle⟩ := surface_by (r := 1) zero_le_one (c := ⟨1 / 2, 3, 1 / 2⟩) (m := ⟨0, -2, 0⟩) (a := .o) (b := ⟨1, 1, 1⟩) (by norm_num) (by norm_num) (by norm_num)
    (t := 1 / 2) (by norm_num) (by norm_num) (by rw [hs]; unfold OverFace; norm_num [along])
  refine ⟨C, u, hC, hu, .inr (.inl ?_)⟩
  norm_num [along]
  intro _
  linarith

/-! ### Boxes: the surface is asked first -/

theorem consider_stays {acc : Earliest XReal} (h0 : acc.earliestTime = fin 0) {o : Option (Collision XReal)} (ho : ∀ x, o = some x → InStep x) : acc.consider o = acc := by
  cases o with
  | none => rfl
  | some x =>
    obtain ⟨t, ht, t0, -⟩ := inStep_time (ho x rfl)
    simp only [Earliest.consider, h0, ht, fin_lt, decide_eq_true_eq]
    rw [if_neg (not_lt.mpr t0)]

theorem edges_stay {r : XReal} {c m v : Vec3 XReal} {vs : List (Vec3 XReal)} : ∀ (es : List (Nat × Nat)) {acc acc' : Earliest XReal}, acc.earliestTime = fin 0 →
    considerEdges r c m vs v es acc = .ok acc' → acc' = acc
  | [], acc, acc', _, h => by simp only [considerEdges, Except.ok.injEq] at h; exact h.symm
  | (i, j) :: es, acc, acc', h0, h => by
    unfold considerEdges at h
    obtain ⟨a, -, h⟩ := Res.bind_eq_ok.mp h
    obtain ⟨b, -, h⟩ := Res.bind_eq_ok.mp h
    rw [consider_stays h0 in_sphereSegment] at h
    exact edges_stay es h0 h

theorem vertices_stay {r : XReal} {c m v : Vec3 XReal} : ∀ (vs : List (Vec3 XReal)) {acc : Earliest XReal}, acc.earliestTime = fin 0 →
    considerVertices r c m v vs acc = acc
  | [], acc, _ => rfl
  | p :: vs, acc, h0 => by
    unfold considerVertices
    rw [consider_stays h0 in_sphereSphere]
    exact vertices_stay vs h0

/-- A hit on the surfaces at the start of the step is what is reported. -/
theorem surface_first {r : XReal} {c m a b : Vec3 XReal} {C : Collision XReal} (h : boxSurfaceCollision r c m a b = some C) (h0 : C.times.min = fin 0) :
    collideSphereBox r c m a b = .ok (some C) := by
  obtain ⟨o, ho⟩ := collideSphereBox_ok (r := r) (c := c) (m := m) (a := a) (b := b)
  rw [ho]
  unfold collideSphereBox at ho
  obtain ⟨acc, h1, ho⟩ := Res.bind_eq_ok.mp ho
  have e : (Earliest.new).consider (boxSurfaceCollision r c m a b) = ⟨some C, fin 0⟩ := by
    rw [h]
    simp [Earliest.consider, h0, Earliest.new, inf_eq]
  rw [e] at h1
  have := edges_stay _ (acc := ⟨some C, fin 0⟩) rfl h1
  subst this
  rw [vertices_stay _ rfl] at ho
  exact ho.symm

theorem holds_between {R : Range XReal} (hR : PlainRange R) {p q t : ℝ} (hp : Holds R (fin p)) (hq : Holds R (fin q)) (h1 : p ≤ t) (h2 : t ≤ q) : Holds R (fin t) := by
  rcases hR with rfl | rfl | ⟨a, b, -, rfl⟩
  · exact absurd hp ((C39_empty _))
  · exact (C39_everything _).mpr rfl
  · rw [holds_fin] at *
    exact ⟨by linarith [hp.1], by linarith [hq.2]⟩

/-- **C64 fails** for boxes: a ball of radius 2 passes over the rim of a box; the contact reported at the start of the step has a normal along an axis, though the nearest point of
the box is in another direction, and the reported contact point is outside the box. -/
theorem C64_false_box : ∃ (c m a b : Vec3 ℝ) (C : Collision XReal) (n q y : Vec3 ℝ), a.x < b.x ∧ a.y < b.y ∧ a.z < b.z ∧
    collideSphereBox (fin 2) c.f m.f a.f b.f = .ok (some C) ∧ C.times.min = fin 0 ∧ C.normal = n.f ∧ C.position = q.f ∧
      NearestInBox a b c y ∧ (y - c).len < 2 ∧ c ≠ y ∧ ¬ Pointing c y n ∧ ¬ InBox a b q := by
  have hc : along (⟨21 / 2, 21 / 2, 1 / 2⟩ : Vec3 ℝ) ⟨3 / 2, -3 / 2, 0⟩ 0 = ⟨21 / 2, 21 / 2, 1 / 2⟩ := by unfold along; ext <;> simp
  have hs : settled (⟨3 / 2, -3 / 2, 0⟩ : Vec3 ℝ) = ⟨3 / 2, -3 / 2, 0⟩ := by
    unfold settled settle eps
    ext <;> simp <;> intro h <;> rw [abs_lt] at h <;> norm_num at h
  obtain ⟨R, hR, hp, hs1, -⟩ := surface_times (r := 2) (by norm_num) (c := ⟨21 / 2, 21 / 2, 1 / 2⟩) (m := ⟨3 / 2, -3 / 2, 0⟩) (a := .o) (b := ⟨10, 10, 1⟩)
    (by norm_num) (by norm_num) (by norm_num)
  rw [hs] at hs1
  have hm := hs1 (-1) (.inr (.inl (by norm_num [along])))
  have hq := hs1 1 (.inl (by norm_num [along]))
  have h0 := holds_between hp hm hq (by norm_num : (-1 : ℝ) ≤ 0) zero_le_one
  have hne : (R.intersect unitRange).isEmpty = false := by
    cases he : (R.intersect unitRange).isEmpty with
    | true => exact absurd h0 ((unit_times hp.built).1 he 0 (le_refl _) zero_le_one)
    | false => rfl
  obtain ⟨t, ht, hf⟩ := (unit_times hp.built).2 hne
  have t0 : t = 0 := le_antisymm (hf.2 0 (le_refl _) zero_le_one h0) hf.1.1
  subst t0
  obtain ⟨C, hC, hCt⟩ : ∃ C, boxSurfaceCollision (fin 2) (⟨21 / 2, 21 / 2, 1 / 2⟩ : Vec3 ℝ).f (⟨3 / 2, -3 / 2, 0⟩ : Vec3 ℝ).f (Vec3.o).f (⟨10, 10, 1⟩ : Vec3 ℝ).f = some C ∧
      C.times.min = fin 0 := by
    unfold boxSurfaceCollision
    simp only [hR]
    exact ⟨_, if_pos (by simp [hne]), ht⟩
  obtain ⟨n, q, hn, hq', hax, -, eq, -⟩ := C64_surface_partial (a := .o) (b := ⟨10, 10, 1⟩) (by norm_num) (by norm_num) (by norm_num) hC hCt
  rw [hc] at eq
  have hnear : NearestInBox .o ⟨10, 10, 1⟩ ⟨21 / 2, 21 / 2, 1 / 2⟩ ⟨10, 10, 1 / 2⟩ := by
    refine ⟨by norm_num [InBox], fun z hz => ?_⟩
    obtain ⟨⟨-, z1⟩, ⟨-, z2⟩, -⟩ := hz
    simp only at z1 z2
    norm_num [Vec3.dot_def]
    nlinarith [sq_nonneg (z.z - 1 / 2)]
  refine ⟨⟨21 / 2, 21 / 2, 1 / 2⟩, ⟨3 / 2, -3 / 2, 0⟩, .o, ⟨10, 10, 1⟩, C, n, q, ⟨10, 10, 1 / 2⟩, by norm_num, by norm_num, by norm_num, surface_first hC hCt, hCt, hn, hq', hnear, ?_, ?_, ?_, ?_⟩
  · show Real.sqrt _ < 2
    rw [Real.sqrt_lt' (by norm_num)]
    norm_num [Vec3.dot_def]
  · intro h; have := congrArg Vec3.x h; norm_num at this
  · rintro ⟨-, k, hk, e⟩
    have h1 := congrArg Vec3.x e; have h2 := congrArg Vec3.y e
    rcases hax with ⟨s, -⟩ | ⟨s, -⟩ | ⟨s, -⟩ <;> first | (norm_num at h1; done) | (norm_num at h2; done)
  · rintro ⟨⟨-, h1⟩, ⟨-, h2⟩, -⟩
    rw [eq] at h1 h2
    rcases hax with ⟨s, -⟩ | ⟨s, -⟩ | ⟨s, -⟩ <;> first | (norm_num at h1; done) | (norm_num at h2; done)

/-! ### Slow contacts that are missed -/

/-- **C60 fails** for slow movement: a ball that overlaps an edge throughout the step and slowly leaves it is not reported, neither with the edge nor with its ends. -/
theorem C60_false : ∃ (c m a b : Vec3 ℝ), (∀ t, 0 ≤ t → t ≤ 1 → BallMeetsSegment 1 c m a b .o t) ∧
    collideSphereMidSegment (fin 1) c.f m.f a.f b.f (Vec3.o).f = none ∧ collideSphereSphere (fin 1) c.f m.f (fin 0) a.f (Vec3.o).f = none ∧
    collideSphereSphere (fin 1) c.f m.f (fin 0) b.f (Vec3.o).f = none := by
  have hd : (⟨0, 0, 1⟩ : Vec3 ℝ) - ⟨0, 0, -1⟩ = ⟨0, 0, 2⟩ := by ext <;> norm_num
  have hu : unit (⟨0, 0, 2⟩ : Vec3 ℝ) = ⟨0, 0, 1⟩ := by
    have : (⟨0, 0, 2⟩ : Vec3 ℝ).len = 2 := by
      show Real.sqrt _ = 2
      rw [Real.sqrt_eq_iff_mul_self_eq (by norm_num [Vec3.dot_def]) (by norm_num)]; norm_num [Vec3.dot_def]
    unfold unit
    rw [this]; ext <;> norm_num
  have ends : ∀ p : Vec3 ℝ, p = ⟨0, 0, -1⟩ ∨ p = ⟨0, 0, 1⟩ →
      collideSphereSphere (fin 1) (⟨1 / 2, 0, 0⟩ : Vec3 ℝ).f (⟨1 / 10000, 0, 0⟩ : Vec3 ℝ).f (fin 0) p.f (Vec3.o).f = none := by
    intro p hp
    have e1 : ((⟨1 / 10000, 0, 0⟩ : Vec3 ℝ) - .o).dot (⟨1 / 10000, 0, 0⟩ - .o) = 1 / 100000000 := by norm_num [Vec3.dot_def]
    have e2 : 2 * ((⟨1 / 10000, 0, 0⟩ : Vec3 ℝ) - .o).dot (⟨1 / 2, 0, 0⟩ - p) = 1 / 10000 := by rcases hp with rfl | rfl <;> norm_num [Vec3.dot_def]
    have e3 : ((⟨1 / 2, 0, 0⟩ : Vec3 ℝ) - p).dot (⟨1 / 2, 0, 0⟩ - p) - (1 + 0) * (1 + 0) = 1 / 4 := by rcases hp with rfl | rfl <;> norm_num [Vec3.dot_def]
    rcases sphereSphere_first (r1 := 1) (r2 := 0) (c1 := ⟨1 / 2, 0, 0⟩) (m1 := ⟨1 / 10000, 0, 0⟩) (c2 := p) (m2 := .o) (by norm_num)
      (P := fun t => 1 / 10000 * t + 1 / 4 = 0) (fun t _ _ => by
        rw [e1, e2, e3]
        exact (C40_degenerate _ _ _ (by unfold eps; rw [abs_of_pos (by norm_num)]; norm_num)).2 (by unfold eps; rw [abs_of_pos (by norm_num)]; norm_num) t)
      with h | ⟨_, t, _, _, _, hf, _⟩
    · exact h.1
    · exfalso
      have := hf.1.2.2
      have := hf.1.1
      linarith
  refine ⟨⟨1 / 2, 0, 0⟩, ⟨1 / 10000, 0, 0⟩, ⟨0, 0, -1⟩, ⟨0, 0, 1⟩, ?_, ?_, ?_, ?_⟩
  · intro t t0 t1
    refine ⟨.o, ⟨1 / 2, by norm_num, by norm_num, by ext <;> norm_num [along]⟩, ?_⟩
    rw [inBall_iff zero_le_one]
    norm_num [along, Vec3.dot_def]
    nlinarith
  · rcases segment_first (r := 1) (c := ⟨1 / 2, 0, 0⟩) (m := ⟨1 / 10000, 0, 0⟩) (a := ⟨0, 0, -1⟩) (b := ⟨0, 0, 1⟩) (v := .o)
      (P := fun t => 1 / 10000 * t + -3 / 4 = 0) (by rw [hd]; intro h0; have := congrArg Vec3.z h0; norm_num at this) (fun t _ _ => by
        rw [hd, hu]
        have e1 : lineA ⟨1 / 10000, 0, 0⟩ ⟨0, 0, 1⟩ .o = 1 / 100000000 := by norm_num [lineA, Vec3.dot_def]
        have e2 : lineB ⟨1 / 2, 0, 0⟩ ⟨1 / 10000, 0, 0⟩ ⟨0, 0, -1⟩ ⟨0, 0, 1⟩ .o = 1 / 10000 := by norm_num [lineB, Vec3.dot_def]
        have e3 : lineC 1 ⟨1 / 2, 0, 0⟩ ⟨0, 0, -1⟩ ⟨0, 0, 1⟩ = -3 / 4 := by norm_num [lineC, Vec3.dot_def]
        rw [e1, e2, e3]
        exact (C40_degenerate _ _ _ (by unfold eps; rw [abs_of_pos (by norm_num)]; norm_num)).2 (by unfold eps; rw [abs_of_pos (by norm_num)]; norm_num) t)
      with ⟨h, -⟩ | ⟨C, t, -, -, hf, -⟩
    · exact h
    · exfalso
      have := hf.1.2.2
      have := hf.1.2.1
      linarith
  all_goals
    refine ends _ ?_
    simp

/-! ### Box surfaces in the world -/

theorem Axial.len {n : Vec3 ℝ} (h : Axial n) : n.len = 1 := by
  show Real.sqrt _ = 1
  rw [show n.dot n = 1 by cases h <;> (rename_i h; rcases h with rfl | rfl <;> simp [Vec3.dot_def]), Real.sqrt_one]

/-- Between two poses with the same rotation the interpolated pose is the one in between. -/
theorem lerp_shifted {o : Orientation ℝ} (ho : o.Unit) (hr : o.rotation = Quat.e ∨ 2 * Quat.meps < (Quat.log o.rotation).len) (d : Vec3 ℝ) (t : ℝ) :
    ∃ q : Quat ℝ, Orientation.lerp (fin t) o.f (shifted o d 1).f = (⟨along o.position d t, q, o.internalOriginOffset⟩ : Orientation ℝ).f ∧ q.normSq = 1 ∧
      ∀ v, q.rot v = o.rotation.rot v := by
  refine ⟨Quat.exp (Quat.log o.rotation), ?_, Quat.exp_normSq _, ?_⟩
  · unfold Orientation.lerp
    rw [Orientation.f_rotationVec, Orientation.f_rotationVec]
    have e1 : (Quat.log o.rotation).scale (1 - t) + (Quat.log (shifted o d 1).rotation).scale t = Quat.log o.rotation := by
      show (Quat.log o.rotation).scale (1 - t) + (Quat.log o.rotation).scale t = Quat.log o.rotation
      ext <;> simp <;> ring
    have e2 : o.position.scale (1 - t) + (shifted o d 1).position.scale t = along o.position d t := by
      unfold shifted along; ext <;> simp <;> ring
    simp only [one_eq, fin_sub, Vec3.f_scale, Vec3.f_add, e1, Quat.f_fromScaledAxis]
    show (⟨o.position.f.scale (fin (1 - t)) + (shifted o d 1).position.f.scale (fin t), _, _⟩ : Orientation XReal) = _
    rw [Vec3.f_scale, Vec3.f_scale, Vec3.f_add, e2]
    rfl
  · intro v
    rcases hr with h | h
    · rw [h, Quat.log_e, Quat.exp_o]
    · exact Quat.exp_log_rot ho h v

/-- **C64** for the surfaces of boxes, in the world: the box's entity, which may be turned any way, does not turn during the step, and the contact with a surface of the
box is the one that is reported. The contact point is the radius along the reported normal from where the ball is at the reported time; and if the centre is then
beyond one face of the box only, the normal points from there to the point of the box, where the box is at that time, that is nearest. -/
theorem C64_world_partial {s : SphereCollider XReal} {bx : BoxCollider XReal} {o1 e1 : Orientation XReal} {o : Orientation ℝ} {r : ℝ} {d p q a b : Vec3 ℝ}
    (hax0 : a.x < b.x) (hay0 : a.y < b.y) (haz0 : a.z < b.z) (ho : o.Unit) (hrot : o.rotation = Quat.e ∨ 2 * Quat.meps < (Quat.log o.rotation).len) (hr1 : s.radius = fin r) (ha : bx.minCorner = a.f)
    (hb : bx.maxCorner = b.f) (hp : o1.positionIntoWorld s.center = p.f) (hq : e1.positionIntoWorld s.center = q.f) {D : Collision XReal} {t : ℝ}
    (hD : boxSurfaceCollision (fin r) (o.toLocal p).f ((shifted o d 1).toLocal q - o.toLocal p).f a.f b.f = some D) (ht : D.times.min = fin t)
    (hsel : collideSphereBox (fin r) (o.toLocal p).f ((shifted o d 1).toLocal q - o.toLocal p).f a.f b.f = .ok (some D)) :
    ∃ C F n, collide (.sphere s) o1 e1 (.box bx) o.f (shifted o d 1).f = .ok (some C) ∧ collide (.box bx) o.f (shifted o d 1).f (.sphere s) o1 e1 = .ok (some F) ∧
      C.times.min = fin t ∧ F.times.min = fin t ∧ C.normal = n.f ∧ F.normal = (-n).f ∧ n.len = 1 ∧ C.position = (along p (q - p) t + n.scale r).f ∧ F.position = C.position ∧
      0 ≤ n.dot ((shifted o d t).toWorld ((a + b).scale (1 / 2)) - along p (q - p) t) ∧
      (BeyondOneFace a b ((shifted o d t).toLocal (along p (q - p) t)) → ∀ y, NearestInBox a b ((shifted o d t).toLocal (along p (q - p) t)) y →
        Pointing (along p (q - p) t) ((shifted o d t).toWorld y) n) := by
  have hl1 : o.f.positionIntoLocal (o1.positionIntoWorld s.center) = (o.toLocal p).f := by rw [hp, Orientation.f_positionIntoLocal]
  have hl2 : (shifted o d 1).f.positionIntoLocal (e1.positionIntoWorld s.center) = ((shifted o d 1).toLocal q).f := by
    rw [hq, Orientation.f_positionIntoLocal]
  obtain ⟨n, x, hn, hx, hax, hin, hxe, hface⟩ := C64_surface_partial hax0 hay0 haz0 hD ht
  rw [shifted_local] at hin hxe hface
  obtain ⟨g, hg, hgu, hgr⟩ := lerp_shifted ho hrot d t
  have hto : ∀ y, (⟨along o.position d t, g, o.internalOriginOffset⟩ : Orientation ℝ).toWorld y = (shifted o d t).toWorld y := by
    intro y; unfold Orientation.toWorld shifted; simp only; rw [hgr]
  have hdiff : ∀ y, (shifted o d t).toWorld y - along p (q - p) t = o.rotation.rot (y - (shifted o d t).toLocal (along p (q - p) t)) := by
    intro y
    have h := (shifted o d t).toWorld_toLocal (along p (q - p) t) ho
    conv_lhs => rw [← h]
    unfold Orientation.toWorld shifted
    simp only
    rw [Quat.rot_add, Quat.rot_add, Quat.rot_sub]
    ext <;> simp <;> ring
  have hnl : n.len = 1 := hax.len
  unfold collide dispatchSphereBox
  simp only [hr1, hl1, hl2, Vec3.f_sub, ha, hb, hsel, Res.ok_bind, Option.map_some]
  refine ⟨_, _, o.rotation.rot n, rfl, rfl, ht, ht, ?_, ?_, ?_, ?_, rfl, ?_, ?_⟩
  · unfold Collision.transformOutOf
    simp only [ht, hg, hn]
    rw [Orientation.f_directionIntoWorld]
    simp only [hgr]
  · unfold Collision.flip Collision.transformOutOf
    simp only [ht, hg, hn]
    rw [Orientation.f_directionIntoWorld]
    simp only [hgr, lit_eq, Vec3.f_scale]
    rw [Vec3.f_inj]; ext <;> simp
  · rw [Quat.rot_len _ ho, hnl]
  · unfold Collision.transformOutOf
    simp only [ht, hg, hx]
    rw [Orientation.f_positionIntoWorld _ _ (by exact hgu), hto, Vec3.f_inj]
    have := hdiff x
    rw [hxe] at this
    have e : (shifted o d t).toLocal (along p (q - p) t) + n.scale r - (shifted o d t).toLocal (along p (q - p) t) = n.scale r := by ext <;> simp
    rw [e, Quat.rot_scale] at this
    rw [← this, hxe]; ext <;> simp
  · rw [hdiff, Quat.rot_dot _ _ ho]; exact hin
  · intro hbf y hy
    obtain ⟨⟨h1, k, hk, h2⟩, -⟩ := hface hbf y hy
    refine ⟨by rw [Quat.rot_len _ ho, hnl], k, hk, ?_⟩
    rw [hdiff, h2, Quat.rot_scale]

/-- For `C64_world_partial`: a cube that has been turned half a turn, and a ball in front of one of its faces. -/
example : ∃ (o : Orientation ℝ) (p q : Vec3 ℝ) (D : Collision XReal), o.Unit ∧ o.rotation ≠ Quat.e ∧ 2 * Quat.meps < (Quat.log o.rotation).len ∧
    boxSurfaceCollision (fin 1) (o.toLocal p).f ((shifted o .o 1).toLocal q - o.toLocal p).f (Vec3.o).f (⟨1, 1, 1⟩ : Vec3 ℝ).f = some D ∧ D.times.min = fin 0 ∧
    collideSphereBox (fin 1) (o.toLocal p).f ((shifted o .o 1).toLocal q - o.toLocal p).f (Vec3.o).f (⟨1, 1, 1⟩ : Vec3 ℝ).f = .ok (some D) ∧
    BeyondOneFace .o ⟨1, 1, 1⟩ ((shifted o .o 0).toLocal (along p (q - p) 0)) := by
  let o : Orientation ℝ := ⟨.o, ⟨0, 0, 0, 1⟩, .o⟩
  have e1 : o.toLocal ⟨-1 / 2, -3 / 2, 1 / 2⟩ = ⟨1 / 2, 3 / 2, 1 / 2⟩ := by
    unfold Orientation.toLocal Quat.rot Quat.conj
    ext <;> norm_num [o, Quat.vec]
  have e2 : (shifted o .o 1).toLocal ⟨-1 / 2, 1 / 2, 1 / 2⟩ = ⟨1 / 2, -1 / 2, 1 / 2⟩ := by
    unfold Orientation.toLocal Quat.rot Quat.conj shifted along
    ext <;> norm_num [o, Quat.vec]
  have em : (⟨1 / 2, -1 / 2, 1 / 2⟩ : Vec3 ℝ) - ⟨1 / 2, 3 / 2, 1 / 2⟩ = ⟨0, -2, 0⟩ := by ext <;> norm_num
  have hs : settled (⟨0, -2, 0⟩ : Vec3 ℝ) = ⟨0, -2, 0⟩ := by
    unfold settled settle eps
    ext <;> norm_num [abs_of_neg]
  obtain ⟨D, u, hD, hu, hle⟩ := surface_by (r := 1) zero_le_one (c := ⟨1 / 2, 3 / 2, 1 / 2⟩) (m := ⟨0, -2, 0⟩) (a := .o) (b := ⟨1, 1, 1⟩) (by norm_num) (by norm_num) (by norm_num)
    (t := 0) le_rfl zero_le_one (by rw [hs]; unfold OverFace; norm_num [along])
  have hu0 : D.times.min = fin 0 := by
    obtain ⟨v, hv, v0, -⟩ := inStep_time (in_boxSurface _ hD)
    rw [hu, fin_inj] at hv
    rw [hu, fin_inj]; linarith
  refine ⟨o, ⟨-1 / 2, -3 / 2, 1 / 2⟩, ⟨-1 / 2, 1 / 2, 1 / 2⟩, D, ?_, ?_, ?_, ?_, hu0, ?_, ?_⟩
  · unfold Orientation.Unit; norm_num [o, Quat.normSq]
  · intro h; have := congrArg Quat.w h; norm_num [o, Quat.e] at this
  · have : (Quat.log o.rotation) = ⟨0, 0, Real.pi⟩ := by
      unfold Quat.log
      ext <;> simp [o, Quat.vec, Vec3.dot_def, Vec3.len]
    rw [this]
    have : (⟨0, 0, Real.pi⟩ : Vec3 ℝ).len = Real.pi := by
      show Real.sqrt _ = _
      rw [show (⟨0, 0, Real.pi⟩ : Vec3 ℝ).dot ⟨0, 0, Real.pi⟩ = Real.pi * Real.pi by simp [Vec3.dot_def], Real.sqrt_mul_self Real.pi_pos.le]
    rw [this]
    have := Real.two_le_pi
    unfold Quat.meps; norm_num; linarith
  · rw [e1, e2, em]; exact hD
  · rw [e1, e2, em]; exact surface_first hD hu0
  · have e : (shifted o .o 0).toLocal (along ⟨-1 / 2, -3 / 2, 1 / 2⟩ ((⟨-1 / 2, 1 / 2, 1 / 2⟩ : Vec3 ℝ) - ⟨-1 / 2, -3 / 2, 1 / 2⟩) 0) = ⟨1 / 2, 3 / 2, 1 / 2⟩ := by
      unfold Orientation.toLocal Quat.rot Quat.conj shifted along
      ext <;> norm_num [o, Quat.vec]
    rw [e]
    unfold BeyondOneFace
    norm_num

/-- **C61 fails** for slow movement: a ball that overlaps a corner of a box throughout the step and slowly leaves it is not reported. -/
theorem C61_false : ∃ (c m a b : Vec3 ℝ), a.x < b.x ∧ a.y < b.y ∧ a.z < b.z ∧ (∀ t, 0 ≤ t → t ≤ 1 → BallMeetsBox 1 c m a b t) ∧
    collideSphereBox (fin 1) c.f m.f a.f b.f = .ok none := by
  refine ⟨⟨3 / 2, 3 / 2, 3 / 2⟩, ⟨1 / 10000, 0, 0⟩, .o, ⟨1, 1, 1⟩, by norm_num, by norm_num, by norm_num, ?_, ?_⟩
  · intro t t0 t1
    refine ⟨⟨1, 1, 1⟩, by norm_num [InBox], ?_⟩
    rw [inBall_iff zero_le_one]
    norm_num [along, Vec3.dot_def]
    nlinarith
  · obtain ⟨o, ho⟩ := collideSphereBox_ok (r := fin 1) (c := (⟨3 / 2, 3 / 2, 3 / 2⟩ : Vec3 ℝ).f) (m := (⟨1 / 10000, 0, 0⟩ : Vec3 ℝ).f) (a := (Vec3.o).f) (b := (⟨1, 1, 1⟩ : Vec3 ℝ).f)
    cases o with
    | none => exact ho
    | some C =>
      exfalso
      have hs : settled (⟨1 / 10000, 0, 0⟩ : Vec3 ℝ) = ⟨1 / 10000, 0, 0⟩ := by
        unfold settled settle eps
        ext <;> norm_num [abs_of_pos]
      rcases boxHit_iff.mp ((sphereBox_earliest ho).1 C rfl).1 with h | ⟨p, q, he, h⟩ | ⟨v, hv, h⟩
      · obtain ⟨R, hR, hp, -, hP⟩ := surface_times (r := 1) zero_le_one (c := ⟨3 / 2, 3 / 2, 3 / 2⟩) (m := ⟨1 / 10000, 0, 0⟩) (a := .o) (b := ⟨1, 1, 1⟩)
          (by norm_num) (by norm_num) (by norm_num)
        rw [hs] at hP
        unfold boxSurfaceCollision at h
        simp only [hR] at h
        split at h
        · rename_i he
          obtain ⟨t, -, hf⟩ := (unit_times hp.built).2 (by simpa using he)
          refine hP (fun _ => False) (fun _ _ _ h _ _ _ => h) (fun u hu => ?_) t hf.1.2.2
          unfold OverFace at hu
          norm_num [along] at hu
        · cases h
      · have hd : q - p ≠ .o := BoxEdge.ne (a := .o) (b := ⟨1, 1, 1⟩) (by norm_num) (by norm_num) (by norm_num) he
        obtain ⟨t, z, x, -, t0, t1, -, hz, -, ⟨k, k0, k1, hx⟩, hl⟩ := C60_reported hd h
        have hfar : ∀ e : ℝ, 1 / 2 ≤ e → e * e ≤ (z - x).dot (z - x) → False := by
          intro e he1 he2
          have : (1 : ℝ) / 2 ≤ (z - x).len := Real.le_sqrt_of_sq_le (by nlinarith)
          unfold eps at hl
          linarith
        obtain ⟨p1, p2, p3⟩ := p
        obtain ⟨q1, q2, q3⟩ := q
        subst hx
        rcases he with ⟨h1, h2, h3, h4, h5, h6⟩ | ⟨h1, h2, h3, h4, h5, h6⟩ | ⟨h1, h2, h3, h4, h5, h6⟩ <;> simp only [Vec3.o_x, Vec3.o_y, Vec3.o_z] at h1 h2 h3 h4 h5 h6
        · subst h1 h2 h4 h6
          simp [Vec3.dot_def, along] at hz
          refine hfar (z.x - k) (by linarith) ?_
          simp [Vec3.dot_def, along]
          nlinarith [sq_nonneg (z.y - q2), sq_nonneg (z.z - q3)]
        · subst h2 h3 h4 h6
          simp [Vec3.dot_def, along] at hz
          refine hfar (z.y - k) (by linarith) ?_
          simp [Vec3.dot_def, along]
          nlinarith [sq_nonneg (z.x - q1), sq_nonneg (z.z - q3)]
        · subst h2 h4 h5 h6
          simp [Vec3.dot_def, along] at hz
          refine hfar (z.z - k) (by linarith) ?_
          simp [Vec3.dot_def, along]
          nlinarith [sq_nonneg (z.x - q1), sq_nonneg (z.y - q2)]
      · obtain ⟨v1, v2, v3⟩ := v
        have lin : ∀ (b c t : ℝ), 1 / 10000 ≤ b → (Holds (Range.quadraticZeros (fin (1 / 100000000)) (fin b) (fin c)) (fin t) ↔ b * t + c = 0) := fun b c t hb =>
          (C40_degenerate _ _ _ (by unfold eps; rw [abs_of_pos (by norm_num)]; norm_num)).2 (by unfold eps; rw [abs_of_pos (by linarith)]; linarith) t
        have e1 : ((⟨1 / 10000, 0, 0⟩ : Vec3 ℝ) - .o).dot (⟨1 / 10000, 0, 0⟩ - .o) = 1 / 100000000 := by norm_num [Vec3.dot_def]
        obtain ⟨w1, w2, w3⟩ := hv
        simp only [Vec3.o_x, Vec3.o_y, Vec3.o_z] at w1 w2 w3
        rcases sphereSphere_first (r1 := 1) (r2 := 0) (c1 := ⟨3 / 2, 3 / 2, 3 / 2⟩) (m1 := ⟨1 / 10000, 0, 0⟩) (c2 := ⟨v1, v2, v3⟩) (m2 := .o) (by norm_num) (P := fun t => 2 * ((⟨1 / 10000, 0, 0⟩ : Vec3 ℝ) - .o).dot (⟨3 / 2, 3 / 2, 3 / 2⟩ - ⟨v1, v2, v3⟩) * t +
            ((⟨3 / 2, 3 / 2, 3 / 2⟩ - ⟨v1, v2, v3⟩ : Vec3 ℝ).dot (⟨3 / 2, 3 / 2, 3 / 2⟩ - ⟨v1, v2, v3⟩) - (1 + 0) * (1 + 0)) = 0) (fun t _ _ => by
            rw [e1]
            exact lin _ _ t (by rcases w1 with rfl | rfl <;> norm_num [Vec3.dot_def])) with h' | ⟨_, t, _, _, _, hf, _⟩
        · rw [h'.1] at h; cases h
        · have a0 := hf.1.1
          have a1 := hf.1.2.1
          have a2 := hf.1.2.2
          rcases w1 with rfl | rfl <;> rcases w2 with rfl | rfl <;> rcases w3 with rfl | rfl <;> norm_num [Vec3.dot_def] at a2 <;> linarith

end Fluffy.Props
