import Verif.Props.Detect
import Verif.Num.Pose
import Mathlib.Data.Set.Basic
import Mathlib.Order.Bounds.Basic
/-
C48: collision detection between meshes and planes, over exact numbers.
-/
set_option linter.unusedSectionVars false
set_option linter.unusedSimpArgs false
namespace Fluffy.Props
open Fluffy XReal

/-! ### Specification -/

/-- The signed distance, over the plane through `p` with normal `n`, of the mesh vertex `v` if the entity is posed as `o`. -/
noncomputable def height (o : Orientation ℝ) (at' p n v : Vec3 ℝ) : ℝ := (o.toWorld (at' + v) - p).dot n
/-- The signed distances of all vertices. -/
def heights (o : Orientation ℝ) (at' p n : Vec3 ℝ) (vs : List (Vec3 ℝ)) : Set ℝ := {h | ∃ v ∈ vs, h = height o at' p n v}

/-! ### Hulls and averages -/

theorem hull_from (xs : List ℝ) : ∀ {a b : ℝ}, a ≤ b →
    (xs.map fin).foldl (fun r d => r.contain (Range.single d)) (⟨fin a, fin b⟩ : Range XReal) = ⟨fin (xs.foldl min a), fin (xs.foldl max b)⟩ := by
  induction xs with
  | nil => intro a b h; rfl
  | cons x xs ih =>
    intro a b h
    simp only [List.map_cons, List.foldl_cons]
    have : (⟨fin a, fin b⟩ : Range XReal).contain (Range.single (fin x)) = ⟨fin (min a x), fin (max b x)⟩ := by
      unfold Range.contain Range.single Range.isEmpty
      simp only [isNaN_fin, Bool.or_self, Bool.false_eq_true, if_false, fin_lt, decide_eq_true_eq, Range.mk.injEq]
      constructor
      · split
        · rename_i h; rw [min_eq_left h.le]
        · rename_i h; rw [min_eq_right (not_lt.mp h)]
      · split
        · rename_i h; rw [max_eq_left h.le]
        · rename_i h; rw [max_eq_right (not_lt.mp h)]
    rw [this]
    exact ih (le_trans (min_le_left _ _) (le_trans h (le_max_left _ _)))

theorem foldl_min_least (xs : List ℝ) : ∀ a : ℝ, IsLeast {h | h = a ∨ h ∈ xs} (xs.foldl min a) := by
  induction xs with
  | nil => intro a; exact ⟨Or.inl rfl, fun x hx => by simpa using (le_of_eq (by simpa using hx : x = a).symm)⟩
  | cons x xs ih =>
    intro a
    simp only [List.foldl_cons]
    obtain ⟨h1, h2⟩ := ih (min a x)
    constructor
    · rcases h1 with h1 | h1
      · rw [h1]
        rcases min_choice a x with h | h <;> rw [h] <;> simp
      · simp [h1]
    · rintro y (rfl | hy)
      · exact le_trans (h2 (Or.inl rfl)) (min_le_left _ _)
      · rcases List.mem_cons.mp hy with rfl | hy
        · exact le_trans (h2 (Or.inl rfl)) (min_le_right _ _)
        · exact h2 (Or.inr hy)

theorem foldl_max_greatest (xs : List ℝ) : ∀ a : ℝ, IsGreatest {h | h = a ∨ h ∈ xs} (xs.foldl max a) := by
  induction xs with
  | nil => intro a; exact ⟨Or.inl rfl, fun x hx => by simpa using (le_of_eq (by simpa using hx : x = a))⟩
  | cons x xs ih =>
    intro a
    simp only [List.foldl_cons]
    obtain ⟨h1, h2⟩ := ih (max a x)
    constructor
    · rcases h1 with h1 | h1
      · rw [h1]
        rcases max_choice a x with h | h <;> rw [h] <;> simp
      · simp [h1]
    · rintro y (rfl | hy)
      · exact le_trans (le_max_left _ _) (h2 (Or.inl rfl))
      · rcases List.mem_cons.mp hy with rfl | hy
        · exact le_trans (le_max_right _ _) (h2 (Or.inl rfl))
        · exact h2 (Or.inr hy)

/-- The hull of finitely many numbers. -/
theorem hull_real {xs : List ℝ} (hne : xs ≠ []) : ∃ a b : ℝ, hull (xs.map fin) = ⟨fin a, fin b⟩ ∧
    IsLeast {h | h ∈ xs} a ∧ IsGreatest {h | h ∈ xs} b := by
  cases xs with
  | nil => exact absurd rfl hne
  | cons x xs =>
    refine ⟨xs.foldl min x, xs.foldl max x, ?_, ?_, ?_⟩
    · unfold hull
      simp only [List.map_cons, List.foldl_cons]
      rw [← hull_from xs (le_refl x)]
      rfl
    · simpa [List.mem_cons] using foldl_min_least xs x
    · simpa [List.mem_cons] using foldl_max_greatest xs x

/-- The vertices whose distance is within `ε` of `l`. -/
noncomputable def within (ε l : ℝ) (ps : List (Vec3 ℝ × ℝ)) : List (Vec3 ℝ × ℝ) := ps.filter (fun p => decide (|p.2 - l| < ε))
/-- The sum of the points. -/
def pointSum (ps : List (Vec3 ℝ × ℝ)) : Vec3 ℝ := ps.foldr (fun p s => p.1 + s) .o

theorem closestAverage_eq {ε l : ℝ} (ps : List (Vec3 ℝ × ℝ)) : ∀ (sum : Vec3 ℝ) (k : ℝ),
    closestAverage (fin ε) (fin l) (ps.map (fun p => (p.1.f, fin p.2))) sum.f (fin k) =
      (sum + pointSum (within ε l ps)).f.unscale (fin (k + (within ε l ps).length)) := by
  induction ps with
  | nil =>
    intro sum k
    simp only [List.map_nil, closestAverage, within, List.filter_nil, pointSum, List.foldr_nil, List.length_nil]
    have : sum + Vec3.o = sum := by ext <;> simp
    rw [this]; simp
  | cons p ps ih =>
    intro sum k
    simp only [List.map_cons, closestAverage, fin_sub, fin_abs, fin_lt, decide_eq_true_eq]
    by_cases h : |p.2 - l| < ε
    · rw [if_pos h, Vec3.f_add, one_eq, fin_add, ih]
      have hw : within ε l (p :: ps) = p :: within ε l ps := by unfold within; rw [List.filter_cons_of_pos (by simpa using h)]
      rw [hw]
      have e1 : sum + p.1 + pointSum (within ε l ps) = sum + pointSum (p :: within ε l ps) := by
        simp only [pointSum, List.foldr_cons]; ext <;> simp <;> ring
      rw [e1, List.length_cons]
      congr 2
      push_cast; ring
    · rw [if_neg h, ih]
      have hw : within ε l (p :: ps) = within ε l ps := by unfold within; rw [List.filter_cons_of_neg (by simpa using h)]
      rw [hw]

/-- The height of a sum of points. -/
theorem pointSum_bounds {n p : Vec3 ℝ} {lo hi : ℝ} : ∀ (ps : List (Vec3 ℝ × ℝ)), (∀ x ∈ ps, lo ≤ (x.1 - p).dot n ∧ (x.1 - p).dot n ≤ hi) →
    lo * ps.length ≤ (pointSum ps).dot n - p.dot n * ps.length ∧ (pointSum ps).dot n - p.dot n * ps.length ≤ hi * ps.length
  | [], _ => by simp [pointSum, Vec3.dot_def]
  | x :: ps, h => by
    have ih := pointSum_bounds ps (fun y hy => h y (by simp [hy]))
    have hx := h x (by simp)
    have e : (x.1 - p).dot n = x.1.dot n - p.dot n := by simp [Vec3.dot_def]; ring
    have e2 : (pointSum (x :: ps)).dot n = x.1.dot n + (pointSum ps).dot n := by
      simp only [pointSum, List.foldr_cons]; simp [Vec3.dot_def]; ring
    rw [e] at hx
    rw [e2, List.length_cons]
    push_cast
    constructor <;> nlinarith [ih.1, ih.2, hx.1, hx.2]

/-- The averages the code takes are finite if the vertices do not all have the same distance, and they are nearly as deep as the
deepest vertex. -/
theorem average_near {l g : ℝ} {n p : Vec3 ℝ} (ps : List (Vec3 ℝ × ℝ)) (hp : ∀ x ∈ ps, x.2 = (x.1 - p).dot n)
    (hl : IsLeast {h | ∃ x ∈ ps, h = x.2} l) (hlg : l < g) :
    ∃ a : Vec3 ℝ, closestAverage (fin ((g - l) / 100)) (fin l) (ps.map (fun p => (p.1.f, fin p.2))) Vec3.zeros zero = a.f ∧
      l ≤ (a - p).dot n ∧ (a - p).dot n ≤ l + (g - l) / 100 := by
  have hε : 0 < (g - l) / 100 := by linarith
  obtain ⟨⟨x, hx, hxl⟩, hmin⟩ := hl
  have hmem : x ∈ within ((g - l) / 100) l ps := by
    unfold within
    rw [List.mem_filter]
    refine ⟨hx, ?_⟩
    rw [← hxl]; simpa using hε
  have hpos : 0 < (within ((g - l) / 100) l ps).length := List.length_pos_of_mem hmem
  have hb := pointSum_bounds (n := n) (p := p) (lo := l) (hi := l + (g - l) / 100) (within ((g - l) / 100) l ps) (fun y hy => by
    unfold within at hy
    rw [List.mem_filter] at hy
    have h1 := hmin ⟨y, hy.1, rfl⟩
    have h2 : |y.2 - l| < (g - l) / 100 := by simpa using hy.2
    rw [← hp y hy.1]
    have := (abs_lt.mp h2).2
    exact ⟨h1, by linarith⟩)
  set k := (within ((g - l) / 100) l ps).length with hk
  have hk0 : (0 : ℝ) < k := by exact_mod_cast hpos
  have e := closestAverage_eq (ε := (g - l) / 100) (l := l) ps .o 0
  rw [Vec3.f_zeros, zero_eq]
  rw [e]
  have hoo : Vec3.o + pointSum (within ((g - l) / 100) l ps) = pointSum (within ((g - l) / 100) l ps) := by ext <;> simp
  rw [hoo, zero_add, ← hk, Vec3.f_unscale _ hk0.ne']
  refine ⟨_, rfl, ?_⟩
  have e2 : ((pointSum (within ((g - l) / 100) l ps)).scale (k : ℝ)⁻¹ - p).dot n =
      ((pointSum (within ((g - l) / 100) l ps)).dot n - p.dot n * k) / k := by
    field_simp
    simp [Vec3.dot_def]; field_simp; ring
  rw [e2]
  constructor
  · rw [le_div_iff₀ hk0]; exact hb.1
  · rw [div_le_iff₀ hk0]; exact hb.2

theorem average_flat (l : ℝ) (ps : List (Vec3 ℝ × ℝ)) :
    closestAverage (fin 0) (fin l) (ps.map (fun p => (p.1.f, fin p.2))) Vec3.zeros zero = ⟨nan, nan, nan⟩ := by
  have e := closestAverage_eq (ε := 0) (l := l) ps .o 0
  rw [Vec3.f_zeros, zero_eq, e]
  have hw : within 0 l ps = [] := by
    unfold within
    rw [List.filter_eq_nil_iff]
    intro a _; simp
  rw [hw]
  simp [pointSum, Vec3.unscale, Vec3.f, fin_div', infSign]
theorem scale_nan (k : XReal) : (⟨nan, nan, nan⟩ : Vec3 XReal).scale k = ⟨nan, nan, nan⟩ := rfl
theorem nan_add3 (a : Vec3 XReal) : (⟨nan, nan, nan⟩ : Vec3 XReal) + a = ⟨nan, nan, nan⟩ := rfl
theorem add_nan3 (a : Vec3 XReal) : a + (⟨nan, nan, nan⟩ : Vec3 XReal) = ⟨nan, nan, nan⟩ := by
  obtain ⟨x, y, z⟩ := a
  show (⟨x + nan, y + nan, z + nan⟩ : Vec3 XReal) = _
  cases x <;> cases y <;> cases z <;> rfl

/-! ### The times -/

theorem hull_built (xs : List XReal) : Built (hull xs) := by
  have : ∀ (xs : List XReal) (r : Range XReal), Built r → Built (xs.foldl (fun r d => r.contain (Range.single d)) r) := by
    intro xs
    induction xs with
    | nil => exact fun r h => h
    | cons x xs ih => exact fun r h => ih _ (.contain h (.single x))
  exact this xs _ .empty

/-- The times at which the numbers from `a` to `b`, moving at speed `v`, reach down to zero. -/
theorem reach_times {R : Range XReal} (hR : Built R) {a b v : ℝ} (he : R = ⟨fin a, fin b⟩) (hab : a ≤ b) (hv : eps ≤ |v|) (t : ℝ) :
    Holds ((Range.range (-Scalar.inf) zero).linearOverlap R (fin v)) (fin t) ↔ a + v * t ≤ 0 := by
  have hRn : R.isEmpty = false := by rw [he]; simp [Range.isEmpty]
  have hb : Bounded R := ⟨a, b, by simp [Range.min, he, Range.isEmpty], by simp [Range.max, he, Range.isEmpty]⟩
  rw [inf_eq, neg_posInf, zero_eq,
    C41_overlap_partial (.range _ _) hR (by simp [Range.range, Range.isEmpty]) hRn (Or.inr hb) hv]
  constructor
  · rintro ⟨x, y, hx, hy, e⟩
    rw [C39_range] at hx
    rw [holds_iff', he] at hy
    simp at hx hy
    linarith [hy.1]
  · intro h
    refine ⟨a + v * t, a, ?_, ?_, rfl⟩
    · rw [C39_range]; simpa using h
    · rw [holds_iff', he]; simpa using hab

/-- ... and if the speed is below the cut-off. -/
theorem reach_times_slow {R : Range XReal} (hR : Built R) {a b v : ℝ} (he : R = ⟨fin a, fin b⟩) (hab : a ≤ b) (hv : |v| < eps) (t : ℝ) :
    Holds ((Range.range (-Scalar.inf) zero).linearOverlap R (fin v)) (fin t) ↔ a ≤ 0 := by
  unfold Range.linearOverlap
  rw [if_pos (by unfold eps at hv; simpa using hv), inf_eq, neg_posInf, zero_eq]
  have hbu : Built ((Range.range negInf (fin 0)).intersect R) := .intersect (.range _ _) hR
  cases hx : ((Range.range negInf (fin 0)).intersect R).isEmpty with
  | true =>
    simp only [if_true]
    refine iff_of_false (C39_empty _) (fun h => ?_)
    refine (C39_isEmpty hbu).mp hx (fin a) ((C39_intersect _ _ _).mpr ⟨?_, ?_⟩)
    · rw [C39_range]; simpa using h
    · rw [holds_iff', he]; simpa using hab
  | false =>
    simp only [Bool.false_eq_true, if_false]
    refine iff_of_true ((C39_everything _).mpr rfl) ?_
    by_contra hlt
    push Not at hlt
    have : ((Range.range negInf (fin 0)).intersect R).isEmpty = true := by
      rw [C39_isEmpty hbu]
      intro x hx
      rw [C39_intersect, C39_range, holds_iff', he] at hx
      cases x <;> simp at hx
      linarith [hx.1, hx.2.1]
    rw [hx] at this
    cases this

/-! ### C48 -/

section
variable {o e : Orientation ℝ} (ho : o.Unit) (he : e.Unit) {at' p q n : Vec3 ℝ} {vs : List (Vec3 ℝ)} (hne : vs ≠ [])
include ho he hne

/-- The reported contact: time, normal, and a point nearly as deep as the deepest vertices. -/
structure MeshContact (o e : Orientation ℝ) (at' p q n : Vec3 ℝ) (vs : List (Vec3 ℝ)) (d g : ℝ) (t : ℝ) (C : Collision XReal) : Prop where
  time : C.times.min = fin t
  normal : C.normal = (-n).f
  position : (∃ v ∈ vs, height o at' p n v ≠ d) → (∃ v ∈ vs, height e at' q n v ≠ g) →
    ∃ a b : Vec3 ℝ, C.position = (a.scale (1 - t) + b.scale t).f ∧
      (d ≤ (a - p).dot n ∧ ∃ v ∈ vs, (a - p).dot n ≤ d + (height o at' p n v - d) / 100) ∧
      (g ≤ (b - q).dot n ∧ ∃ v ∈ vs, (b - q).dot n ≤ g + (height e at' q n v - g) / 100)
  /-- If all distances are the same at the start or at the end, the contact point is not a number. -/
  flat : (∀ v ∈ vs, height o at' p n v = d) ∨ (∀ v ∈ vs, height e at' q n v = g) → C.position = ⟨nan, nan, nan⟩

theorem meshPlane_first {d g : ℝ} (hd : IsLeast (heights o at' p n vs) d) (hg : IsLeast (heights e at' q n vs) g) {P : ℝ → Prop}
    (hP : ∀ R : Range XReal, Built R → ∀ b, R = ⟨fin d, fin b⟩ → d ≤ b → ∀ t,
      (Holds ((Range.range (-Scalar.inf) zero).linearOverlap R (fin (g - d))) (fin t) ↔ P t)) :
    (collideMeshPlane (vs.map Vec3.f) at'.f o.f e.f p.f q.f n.f = none ∧ ∀ t, 0 ≤ t → t ≤ 1 → ¬ P t) ∨
    ∃ C t, collideMeshPlane (vs.map Vec3.f) at'.f o.f e.f p.f q.f n.f = some C ∧ First P t ∧ MeshContact o e at' p q n vs d g t C := by
  have hi : ∀ v : Vec3 ℝ, meshInfo at'.f o.f e.f p.f q.f n.f v.f =
      ⟨(o.toWorld (at' + v)).f, (e.toWorld (at' + v)).f, fin (height o at' p n v), fin (height e at' q n v)⟩ := by
    intro v
    unfold meshInfo height
    simp only [Vec3.f_add, Orientation.f_positionIntoWorld _ _ ho, Orientation.f_positionIntoWorld _ _ he, Vec3.f_sub, Vec3.f_dot]
  have h1 : ((vs.map Vec3.f).map (meshInfo at'.f o.f e.f p.f q.f n.f)).map (·.startDistance) = (vs.map (height o at' p n)).map fin := by
    simp only [List.map_map]
    apply List.map_congr_left
    intro v _; simp [hi]
  have h2 : ((vs.map Vec3.f).map (meshInfo at'.f o.f e.f p.f q.f n.f)).map (·.endDistance) = (vs.map (height e at' q n)).map fin := by
    simp only [List.map_map]
    apply List.map_congr_left
    intro v _; simp [hi]
  have h3 : ((vs.map Vec3.f).map (meshInfo at'.f o.f e.f p.f q.f n.f)).map (fun i => (i.startPosition, i.startDistance)) =
      (vs.map (fun v => (o.toWorld (at' + v), height o at' p n v))).map (fun x => (x.1.f, fin x.2)) := by
    simp only [List.map_map]
    apply List.map_congr_left
    intro v _; simp [hi]
  have h4 : ((vs.map Vec3.f).map (meshInfo at'.f o.f e.f p.f q.f n.f)).map (fun i => (i.endPosition, i.endDistance)) =
      (vs.map (fun v => (e.toWorld (at' + v), height e at' q n v))).map (fun x => (x.1.f, fin x.2)) := by
    simp only [List.map_map]
    apply List.map_congr_left
    intro v _; simp [hi]
  obtain ⟨a, b, hab, hmin, hmax⟩ := hull_real (xs := vs.map (height o at' p n)) (by simpa using hne)
  obtain ⟨c, k, hck, hmin', hmax'⟩ := hull_real (xs := vs.map (height e at' q n)) (by simpa using hne)
  have hset : ∀ (o : Orientation ℝ) (p : Vec3 ℝ), {h | h ∈ vs.map (height o at' p n)} = heights o at' p n vs := by
    intro o p; ext x; simp only [heights, List.mem_map, Set.mem_setOf_eq]
    exact ⟨fun ⟨v, h, e⟩ => ⟨v, h, e.symm⟩, fun ⟨v, h, e⟩ => ⟨v, h, e.symm⟩⟩
  rw [hset] at hmin hmax hmin' hmax'
  have had : a = d := hmin.unique hd
  have hcg : c = g := hmin'.unique hg
  subst had hcg
  have hable : a ≤ b := hmax.2 hmin.1
  have hckle : c ≤ k := hmax'.2 hmin'.1
  unfold collideMeshPlane
  simp only [h1, h2, h3, h4]
  have hbu := hull_built ((vs.map (height o at' p n)).map fin)
  have e1 : (hull ((vs.map (height o at' p n)).map fin)).min = fin a := by rw [hab]; simp [Range.min, Range.isEmpty]
  have e2 : (hull ((vs.map (height e at' q n)).map fin)).min = fin c := by rw [hck]; simp [Range.min, Range.isEmpty]
  have e3 : (hull ((vs.map (height o at' p n)).map fin)).size * lit 1 100 = fin ((b - a) / 100) := by
    rw [hab]; simp [Range.size, Range.isEmpty, div_eq_mul_inv]
  have e4 : (hull ((vs.map (height e at' q n)).map fin)).size * lit 1 100 = fin ((k - c) / 100) := by
    rw [hck]; simp [Range.size, Range.isEmpty, div_eq_mul_inv]
  rw [e1, e2, e3, e4, fin_sub]
  rcases unit_first (R := (Range.range (-Scalar.inf) zero).linearOverlap (hull ((vs.map (height o at' p n)).map fin)) (fin (c - a)))
    (.overlap _ (.range _ _) hbu) (fun t _ _ => hP _ hbu b hab hable t) with ⟨hx, h⟩ | ⟨hx, t, ht, hf⟩
  · left; rw [hx]; exact ⟨rfl, h⟩
  · right
    rw [hx]
    refine ⟨_, t, rfl, hf, ht, rfl, ?_, ?_⟩
    rotate_left
    · rintro (hfl | hfl)
      · have : b = a := by obtain ⟨v, hv, e⟩ := hmax.1; rw [e]; exact hfl v hv
        rw [this, sub_self, zero_div, average_flat, scale_nan, nan_add3]
      · have : k = c := by obtain ⟨v, hv, e⟩ := hmax'.1; rw [e]; exact hfl v hv
        rw [this, sub_self, zero_div, average_flat, scale_nan, add_nan3]
    rintro ⟨v, hv, hva⟩ ⟨w, hw, hwc⟩
    have hlt : a < b := lt_of_lt_of_le (lt_of_le_of_ne (hmin.2 ⟨v, hv, rfl⟩) (Ne.symm hva)) (hmax.2 ⟨v, hv, rfl⟩)
    have hlt' : c < k := lt_of_lt_of_le (lt_of_le_of_ne (hmin'.2 ⟨w, hw, rfl⟩) (Ne.symm hwc)) (hmax'.2 ⟨w, hw, rfl⟩)
    obtain ⟨x, hx1, hx2, hx3⟩ := average_near (n := n) (p := p) (vs.map (fun v => (o.toWorld (at' + v), height o at' p n v)))
      (by intro x hx; obtain ⟨v, _, rfl⟩ := List.mem_map.mp hx; rfl) (l := a) (g := b)
      (by
        convert hmin using 1
        ext y; simp [heights])
      hlt
    obtain ⟨y, hy1, hy2, hy3⟩ := average_near (n := n) (p := q) (vs.map (fun v => (e.toWorld (at' + v), height e at' q n v)))
      (by intro x hx; obtain ⟨v, _, rfl⟩ := List.mem_map.mp hx; rfl) (l := c) (g := k)
      (by
        convert hmin' using 1
        ext y; simp [heights])
      hlt'
    refine ⟨x, y, ?_, ⟨hx2, ?_⟩, ⟨hy2, ?_⟩⟩
    · simp only [ht, hx1, hy1, one_eq, fin_sub, Vec3.f_scale, Vec3.f_add]
    · obtain ⟨v, hv, e⟩ := hmax.1
      exact ⟨v, hv, by rw [← e]; exact hx3⟩
    · obtain ⟨v, hv, e⟩ := hmax'.1
      exact ⟨v, hv, by rw [← e]; exact hy3⟩

/-- **C48**, unless the deepest distance changes by less than the cut-off: a collision of a mesh and a plane is reported exactly when the
distance of the deepest vertex, interpolated over the step, is not positive at some time, with the earliest such time and minus the
plane's normal; the contact point is finite and nearly as deep as the deepest vertices, unless all vertices have the same distance. -/
theorem C48_meshPlane_partial {d g : ℝ} (hd : IsLeast (heights o at' p n vs) d) (hg : IsLeast (heights e at' q n vs) g) (hv : eps ≤ |g - d|) :
    (collideMeshPlane (vs.map Vec3.f) at'.f o.f e.f p.f q.f n.f = none ∧ ∀ t, 0 ≤ t → t ≤ 1 → ¬ d * (1 - t) + g * t ≤ 0) ∨
    ∃ C t, collideMeshPlane (vs.map Vec3.f) at'.f o.f e.f p.f q.f n.f = some C ∧ First (fun t => d * (1 - t) + g * t ≤ 0) t ∧
      MeshContact o e at' p q n vs d g t C :=
  meshPlane_first ho he hne hd hg (fun R hR b e1 h t => by
    rw [reach_times hR e1 h hv, show d + (g - d) * t = d * (1 - t) + g * t by ring])

/-- **C48**, slow approach: the collision is reported exactly if the deepest vertex is not above the plane at the start. -/
theorem C48_meshPlane_slow {d g : ℝ} (hd : IsLeast (heights o at' p n vs) d) (hg : IsLeast (heights e at' q n vs) g) (hv : |g - d| < eps) :
    (collideMeshPlane (vs.map Vec3.f) at'.f o.f e.f p.f q.f n.f = none ∧ 0 < d) ∨
    ∃ C, collideMeshPlane (vs.map Vec3.f) at'.f o.f e.f p.f q.f n.f = some C ∧ d ≤ 0 ∧ MeshContact o e at' p q n vs d g 0 C := by
  rcases meshPlane_first ho he hne hd hg (P := fun _ => d ≤ 0) (fun R hR b e1 h t => reach_times_slow hR e1 h hv t) with ⟨h, h'⟩ | ⟨C, t, hC, hf, hm⟩
  · exact .inl ⟨h, not_le.mp (h' 0 (le_refl _) zero_le_one)⟩
  · have ht0 : t = 0 := le_antisymm (hf.2 0 (le_refl _) zero_le_one hf.1.2.2) hf.1.1
    subst ht0
    exact .inr ⟨C, hC, hf.1.2.2, hm⟩
end

namespace Slab
/-- A triangle lying flat. -/
def corners : List (Vec3 ℝ) := [⟨0, 0, 0⟩, ⟨0, 0, 1⟩, ⟨1, 0, 0⟩]
/-- A triangle standing on its tip. -/
def tipped : List (Vec3 ℝ) := [⟨0, 0, 0⟩, ⟨0, 1, 0⟩, ⟨1, 1, 0⟩]
/-- At the given height, not turned. -/
noncomputable def level (y : ℝ) : Orientation ℝ := ⟨⟨0, y, 0⟩, Quat.e, .o⟩
theorem level_unit (y : ℝ) : (level y).Unit := by simp [Orientation.Unit, level, Quat.e, Quat.normSq]
theorem level_height (y : ℝ) (v : Vec3 ℝ) : height (level y) .o .o ⟨0, 1, 0⟩ v = y + v.y := by
  unfold height
  simp [level, Orientation.toWorld, Vec3.dot_def]
theorem corners_least (y : ℝ) : IsLeast (heights (level y) .o .o ⟨0, 1, 0⟩ corners) y := by
  constructor
  · exact ⟨⟨0, 0, 0⟩, by simp [corners], by rw [level_height]; simp⟩
  · rintro h ⟨v, hv, rfl⟩
    rw [level_height]
    simp only [corners, List.mem_cons, List.not_mem_nil, or_false] at hv
    rcases hv with rfl | rfl | rfl <;> simp
theorem tipped_least (y : ℝ) : IsLeast (heights (level y) .o .o ⟨0, 1, 0⟩ tipped) y := by
  constructor
  · exact ⟨⟨0, 0, 0⟩, by simp [tipped], by rw [level_height]; simp⟩
  · rintro h ⟨v, hv, rfl⟩
    rw [level_height]
    simp only [tipped, List.mem_cons, List.not_mem_nil, or_false] at hv
    rcases hv with rfl | rfl | rfl <;> simp
end Slab

/-- **C48 is false:** the contact point of a triangle that falls flat onto a plane is not a number. -/
theorem C48_false : ∃ (o e : Orientation ℝ) (p n : Vec3 ℝ) (vs : List (Vec3 ℝ)) (C : Collision XReal), o.Unit ∧ e.Unit ∧ n.dot n = 1 ∧
    collideMeshPlane (vs.map Vec3.f) (Vec3.o).f o.f e.f p.f p.f n.f = some C ∧ C.times.min = fin (1 / 2) ∧ C.position = ⟨nan, nan, nan⟩ := by
  refine ⟨Slab.level 1, Slab.level (-1), .o, ⟨0, 1, 0⟩, Slab.corners, ?_⟩
  rcases C48_meshPlane_partial (Slab.level_unit 1) (Slab.level_unit (-1)) (by simp [Slab.corners]) (Slab.corners_least 1) (Slab.corners_least (-1))
    (by unfold eps; norm_num) with ⟨-, h⟩ | ⟨C, t, hC, hf, hm⟩
  · exact absurd (by norm_num) (h 1 (by norm_num) (le_refl _))
  · refine ⟨C, Slab.level_unit 1, Slab.level_unit (-1), by norm_num [Vec3.dot_def], hC, ?_, ?_⟩
    · rw [hm.time]
      have h1 := hf.1.2.2
      have h2 := hf.2 (1 / 2) (by norm_num) (by norm_num) (by norm_num)
      congr 1
      apply le_antisymm h2
      simp only at h1
      linarith
    · refine hm.flat (.inl (fun v hv => ?_))
      rw [Slab.level_height]
      simp only [Slab.corners, List.mem_cons, List.not_mem_nil, or_false] at hv
      rcases hv with rfl | rfl | rfl <;> simp

/-- A triangle on its tip for `C48_meshPlane_partial`: the contact point is finite. -/
theorem tipped_hits : ∃ C, collideMeshPlane (Slab.tipped.map Vec3.f) (Vec3.o).f (Slab.level 1).f (Slab.level (-1)).f (Vec3.o).f (Vec3.o).f
      (⟨0, 1, 0⟩ : Vec3 ℝ).f = some C ∧ C.times.min = fin (1 / 2) ∧ ∃ a : Vec3 ℝ, C.position = a.f := by
  rcases C48_meshPlane_partial (Slab.level_unit 1) (Slab.level_unit (-1)) (by simp [Slab.tipped]) (Slab.tipped_least 1) (Slab.tipped_least (-1))
    (by unfold eps; norm_num) with ⟨-, h⟩ | ⟨C, t, hC, hf, hm⟩
  · exact absurd (by norm_num) (h 1 (by norm_num) (le_refl _))
  · refine ⟨C, hC, ?_, ?_⟩
    · rw [hm.time]
      have h1 := hf.1.2.2
      have h2 := hf.2 (1 / 2) (by norm_num) (by norm_num) (by norm_num)
      congr 1
      apply le_antisymm h2
      simp only at h1
      linarith
    · obtain ⟨a, b, h, -⟩ := hm.position ⟨⟨0, 1, 0⟩, by simp [Slab.tipped], by rw [Slab.level_height]; simp⟩
        ⟨⟨0, 1, 0⟩, by simp [Slab.tipped], by rw [Slab.level_height]; simp⟩
      exact ⟨_, h⟩

end Fluffy.Props
