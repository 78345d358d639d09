import Verif.Props.Build
import Verif.Props.Box
import Verif.Props.Features
/-
C62: collision detection between spheres and convex faces, over exact numbers.
-/
set_option linter.unusedSectionVars false
set_option linter.unusedSimpArgs false
namespace Fluffy.Props
open Fluffy XReal

/-! ### Specification -/

/-- The points of a face: its corners and everything between two of its points, that is the convex hull of the corners. -/
inductive InFace (cs : List (Vec3 ℝ)) : Vec3 ℝ → Prop
  | corner {c : Vec3 ℝ} (h : c ∈ cs) : InFace cs c
  | between {x y : Vec3 ℝ} {k : ℝ} (hx : InFace cs x) (hy : InFace cs y) (k0 : 0 ≤ k) (k1 : k ≤ 1) : InFace cs (x + (y - x).scale k)

/-- On which side of the line from `a` to `b` the point is, looking against the normal: positive on the left. -/
def side (n a b x : Vec3 ℝ) : ℝ := ((b - a).cross (x - a)).dot n

/-- The corners go around a flat, strictly convex polygon, anticlockwise for a viewer the normal points to. -/
structure ConvexFace (cs : List (Vec3 ℝ)) (n : Vec3 ℝ) : Prop where
  three : 3 ≤ cs.length
  distinct : cs.Nodup
  unit : n.dot n = 1
  flat : ∀ a ∈ cs, ∀ b ∈ cs, (b - a).dot n = 0
  turn : ∀ a b, Follows cs a b → ∀ c ∈ cs, c ≠ a → c ≠ b → 0 < side n a b c

/-- The moving ball and the moving face share a point at time `t`. -/
def BallMeetsFace (r : ℝ) (c m : Vec3 ℝ) (cs : List (Vec3 ℝ)) (v : Vec3 ℝ) (t : ℝ) : Prop :=
  ∃ x, InFace (cs.map (fun p => along p v t)) x ∧ InBall (along c m t) r x

/-- The foot of the perpendicular from `x` to the plane through `p` with unit normal `n`. -/
def plumb (p n x : Vec3 ℝ) : Vec3 ℝ := x - n.scale ((x - p).dot n)

/-- The centre of the moving ball is within the radius of the moving plane. -/
def NearPlane (r : ℝ) (c m p n v : Vec3 ℝ) (t : ℝ) : Prop := |(along c m t - along p v t).dot n| ≤ r

/-! ### Geometry of a face -/

theorem side_between (n a b x y : Vec3 ℝ) (k : ℝ) : side n a b (x + (y - x).scale k) = side n a b x + (side n a b y - side n a b x) * k := by
  simp [side, Vec3.dot_def]; ring
theorem side_swap (n a b x : Vec3 ℝ) : side n b a x = -side n a b x := by simp [side, Vec3.dot_def]; ring
theorem side_start (n a b : Vec3 ℝ) : side n a b a = 0 := by simp [side, Vec3.dot_def]
theorem side_stop (n a b : Vec3 ℝ) : side n a b b = 0 := by simp [side, Vec3.dot_def]; ring
theorem side_sum (n a b c x : Vec3 ℝ) : side n a b x + side n b c x + side n c a x = side n a b c := by simp [side, Vec3.dot_def]; ring
theorem side_shift (n a b x d : Vec3 ℝ) : side n (a + d) (b + d) (x + d) = side n a b x := by simp [side, Vec3.dot_def]

section
variable {cs : List (Vec3 ℝ)} {n : Vec3 ℝ}

theorem follows_mem {a b : Vec3 ℝ} (h : Follows cs a b) : a ∈ cs ∧ b ∈ cs := by
  obtain ⟨k, -, h1, h2⟩ := h
  exact ⟨List.mem_of_getElem? h1, List.mem_of_getElem? h2⟩

theorem ConvexFace.corner_side (hc : ConvexFace cs n) {a b c : Vec3 ℝ} (hf : Follows cs a b) (h : c ∈ cs) : 0 ≤ side n a b c := by
  by_cases h1 : c = a
  · rw [h1, side_start]
  by_cases h2 : c = b
  · rw [h2, side_stop]
  exact (hc.turn a b hf c h h1 h2).le

/-- A face is on the left of all its edges. -/
theorem ConvexFace.side_nonneg (hc : ConvexFace cs n) {a b x : Vec3 ℝ} (hf : Follows cs a b) (h : InFace cs x) : 0 ≤ side n a b x := by
  induction h with
  | corner h => exact hc.corner_side hf h
  | between _ _ k0 k1 h1 h2 =>
    rw [side_between]
    nlinarith [mul_nonneg h1 (sub_nonneg.mpr k1), mul_nonneg h2 k0]

theorem ConvexFace.flat_face (hc : ConvexFace cs n) {p x : Vec3 ℝ} (hp : p ∈ cs) (h : InFace cs x) : (x - p).dot n = 0 := by
  induction h with
  | corner h => exact hc.flat p hp _ h
  | @between x y k _ _ k0 k1 h1 h2 =>
    have : (x + (y - x).scale k - p).dot n = (x - p).dot n + ((y - p).dot n - (x - p).dot n) * k := by simp [Vec3.dot_def]; ring
    rw [this, h1, h2]; ring

theorem onSegment_between {a b x y : Vec3 ℝ} {k : ℝ} (hx : OnSegment a b x) (hy : OnSegment a b y) (k0 : 0 ≤ k) (k1 : k ≤ 1) :
    OnSegment a b (x + (y - x).scale k) := by
  obtain ⟨s, s0, s1, rfl⟩ := hx
  obtain ⟨t, t0, t1, rfl⟩ := hy
  refine ⟨s + (t - s) * k, by nlinarith [mul_nonneg s0 (sub_nonneg.mpr k1), mul_nonneg t0 k0], ?_, by ext <;> simp <;> ring⟩
  nlinarith [mul_nonneg (sub_nonneg.mpr s1) (sub_nonneg.mpr k1), mul_nonneg (sub_nonneg.mpr t1) k0]

/-- The points of a face that are not strictly on the left of an edge are on that edge. -/
theorem ConvexFace.on_edge (hc : ConvexFace cs n) {a b x : Vec3 ℝ} (hf : Follows cs a b) (h : InFace cs x) (h0 : side n a b x = 0) : OnSegment a b x := by
  induction h with
  | @corner c h =>
    by_cases h1 : c = a
    · exact ⟨0, le_refl _, zero_le_one, by rw [h1]; ext <;> simp⟩
    by_cases h2 : c = b
    · exact ⟨1, zero_le_one, le_refl _, by rw [h2]; ext <;> simp⟩
    exact absurd h0 (hc.turn a b hf c h h1 h2).ne'
  | @between x y k hx hy k0 k1 h1 h2 =>
    rw [side_between] at h0
    have q1 := hc.side_nonneg hf hx
    have q2 := hc.side_nonneg hf hy
    have e1 : side n a b x * (1 - k) = 0 := by nlinarith [mul_nonneg q1 (sub_nonneg.mpr k1), mul_nonneg q2 k0]
    have e2 : side n a b y * k = 0 := by nlinarith [mul_nonneg q1 (sub_nonneg.mpr k1), mul_nonneg q2 k0]
    rcases mul_eq_zero.mp e1 with e1 | e1
    · rcases mul_eq_zero.mp e2 with e2 | e2
      · exact onSegment_between (h1 e1) (h2 e2) k0 k1
      · rw [e2]
        have : x + (y - x).scale 0 = x := by ext <;> simp
        rw [this]; exact h1 e1
    · have hk : k = 1 := by linarith
      subst hk
      have : x + (y - x).scale 1 = y := by ext <;> simp
      rw [this]
      rcases mul_eq_zero.mp e2 with e2 | e2
      · exact h2 e2
      · norm_num at e2

/-- Two vectors in a plane have a cross product along its normal. -/
theorem cross_along {u w n : Vec3 ℝ} (hn : n.dot n = 1) (hu : u.dot n = 0) (hw : w.dot n = 0) : u.cross w = n.scale ((u.cross w).dot n) := by
  simp only [Vec3.dot_def] at hn hu hw
  ext <;> simp [Vec3.dot_def]
  · linear_combination (-(u.y * w.z - u.z * w.y)) * hn + (u.y * n.z - u.z * n.y) * hw - (w.y * n.z - w.z * n.y) * hu
  · linear_combination (-(u.z * w.x - u.x * w.z)) * hn + (u.z * n.x - u.x * n.z) * hw - (w.z * n.x - w.x * n.z) * hu
  · linear_combination (-(u.x * w.y - u.y * w.x)) * hn + (u.x * n.y - u.y * n.x) * hw - (w.x * n.y - w.y * n.x) * hu

/-- A point of the plane on the left of the sides of a triangle is in it. -/
theorem in_triangle {a b c x : Vec3 ℝ} (hn : n.dot n = 1) (ha : a ∈ cs) (hb : b ∈ cs) (hc : c ∈ cs) (h1 : (b - a).dot n = 0) (h2 : (c - a).dot n = 0)
    (h3 : (x - a).dot n = 0) (ht : 0 < side n a b c) (s1 : 0 ≤ side n a b x) (s2 : 0 ≤ side n b c x) (s3 : 0 ≤ side n c a x) : InFace cs x := by
  have hsum := side_sum n a b c x
  have hx : x.scale (side n a b c) = a.scale (side n b c x) + b.scale (side n c a x) + c.scale (side n a b x) := by
    have hz : ((b - a).cross (c - a)).dot (x - a) = 0 := by
      rw [cross_along hn h1 h2]
      have : (n.scale (((b - a).cross (c - a)).dot n)).dot (x - a) = ((b - a).cross (c - a)).dot n * ((x - a).dot n) := by simp [Vec3.dot_def]; ring
      rw [this, h3, mul_zero]
    simp only [side, Vec3.dot_def, Vec3.cross_x, Vec3.cross_y, Vec3.cross_z, Vec3.sub_x, Vec3.sub_y, Vec3.sub_z] at hz ⊢
    ext <;> simp
    · linear_combination n.x * hz
    · linear_combination n.y * hz
    · linear_combination n.z * hz
  set A := side n b c x
  set B := side n c a x
  set G := side n a b x
  set T := side n a b c
  have hx' : x = (a.scale A + b.scale B + c.scale G).scale T⁻¹ := by
    rw [← hx]; ext <;> simp <;> field_simp
  by_cases hAB : A + B = 0
  · have hA : A = 0 := by linarith
    have hB : B = 0 := by linarith
    have hG : G = T := by linarith
    have : x = c := by rw [hx', hA, hB, hG]; ext <;> simp <;> field_simp
    rw [this]; exact .corner hc
  · have hp : 0 < A + B := lt_of_le_of_ne (by linarith) (Ne.symm hAB)
    have e : x = (a + (b - a).scale (B / (A + B))) + (c - (a + (b - a).scale (B / (A + B)))).scale (G / T) := by
      rw [hx']
      have hT : T ≠ 0 := ht.ne'
      have hg : G = T - A - B := by linarith
      rw [hg]
      ext <;> simp <;> field_simp <;> ring
    rw [e]
    refine .between (.between (.corner ha) (.corner hb) (div_nonneg s3 hp.le) ?_) (.corner hc) (div_nonneg s1 ht.le) ?_
    · rw [div_le_one hp]; linarith
    · rw [div_le_one ht]; linarith

/-- A sequence that starts nonnegative and ends nonpositive changes sign somewhere. -/
theorem sign_change {f : ℕ → ℝ} : ∀ {N : ℕ}, 0 ≤ f 1 → f (N + 2) ≤ 0 → ∃ i, 1 ≤ i ∧ i + 1 ≤ N + 2 ∧ 0 ≤ f i ∧ f (i + 1) ≤ 0
  | 0, h1, h2 => ⟨1, le_refl _, by omega, h1, h2⟩
  | N + 1, h1, h2 => by
    rcases le_or_gt (f (N + 2)) 0 with h | h
    · obtain ⟨i, q1, q2, q3⟩ := sign_change (N := N) h1 h
      exact ⟨i, q1, by omega, q3⟩
    · exact ⟨N + 2, by omega, by omega, h.le, h2⟩

/-- A point of the plane that is on the left of all edges is in the face. -/
theorem ConvexFace.inside (hc : ConvexFace cs n) {p x : Vec3 ℝ} (hp : p ∈ cs) (hx : (x - p).dot n = 0) (h : ∀ a b, Follows cs a b → 0 ≤ side n a b x) :
    InFace cs x := by
  obtain ⟨N, hN⟩ : ∃ N, cs.length = N + 3 := ⟨cs.length - 3, by have := hc.three; omega⟩
  set q : ℕ → Vec3 ℝ := fun i => cs.getD i .o with hq
  have get : ∀ i < cs.length, cs[i]? = some (q i) := by
    intro i hi
    simp [hq, List.getD, List.getElem?_eq_getElem hi]
  have mem : ∀ i < cs.length, q i ∈ cs := fun i hi => List.mem_of_getElem? (get i hi)
  have step : ∀ i, i + 1 < cs.length → Follows cs (q i) (q (i + 1)) := fun i hi =>
    ⟨i, by omega, get i (by omega), by rw [Nat.mod_eq_of_lt hi]; exact get _ hi⟩
  have last : Follows cs (q (N + 2)) (q 0) := ⟨N + 2, by omega, get _ (by omega), by rw [hN, Nat.mod_self]; exact get 0 (by omega)⟩
  have ne : ∀ i j, i < cs.length → j < cs.length → i ≠ j → q i ≠ q j := by
    intro i j hi hj hij he
    have h1 := get i hi
    rw [he, ← get j hj] at h1
    exact hij ((List.getElem?_inj hi hc.distinct).mp h1)
  obtain ⟨i, i1, i2, f1, f2⟩ := sign_change (f := fun i => side n (q 0) (q i) x) (N := N) (h _ _ (step 0 (by omega)))
    (by have := h _ _ last; rw [side_swap] at this; linarith)
  have hfl : ∀ i < cs.length, (q i - q 0).dot n = 0 := fun i hi => hc.flat _ (mem 0 (by omega)) _ (mem i hi)
  refine in_triangle hc.unit (mem 0 (by omega)) (mem i (by omega)) (mem (i + 1) (by omega)) (hfl i (by omega)) (hfl (i + 1) (by omega)) ?_ ?_ f1
    (h _ _ (step i (by omega))) (by rw [side_swap]; linarith)
  · have := hc.flat _ (mem 0 (by omega)) _ hp
    have e : (x - q 0).dot n = (x - p).dot n + (p - q 0).dot n := by simp [Vec3.dot_def]; ring
    rw [e, hx, this, add_zero]
  · have := hc.turn _ _ (step i (by omega)) (q 0) (mem 0 (by omega)) (ne _ _ (by omega) (by omega) (by omega)) (ne _ _ (by omega) (by omega) (by omega))
    have e := side_sum n (q 0) (q i) (q (i + 1)) (q 0)
    rw [side_start, side_stop] at e
    linarith

/-- Going from outside to inside of finitely many half-lines, the last border crossed. -/
theorem last_border {ι : Type} (p q : ι → ℝ) : ∀ (l : List ι), (∀ i ∈ l, 0 ≤ q i) →
    ∃ k, 0 ≤ k ∧ k ≤ 1 ∧ (∀ i ∈ l, 0 ≤ p i + (q i - p i) * k) ∧ (k = 0 ∨ ∃ i ∈ l, p i + (q i - p i) * k = 0)
  | [], _ => ⟨0, le_refl _, zero_le_one, by simp, .inl rfl⟩
  | i :: l, h => by
    obtain ⟨k, k0, k1, hk, ho⟩ := last_border p q l (fun j hj => h j (by simp [hj]))
    have hi := h i (by simp)
    rcases le_or_gt 0 (p i + (q i - p i) * k) with hg | hg
    · refine ⟨k, k0, k1, fun j hj => ?_, ho.imp_right (fun ⟨j, hj, e⟩ => ⟨j, by simp [hj], e⟩)⟩
      rcases List.mem_cons.mp hj with rfl | hj
      · exact hg
      · exact hk j hj
    · -- the new border is crossed later
      have hd : 0 < q i - p i := by
        by_contra hd
        push Not at hd
        nlinarith
      have e : p i + (q i - p i) * (-p i / (q i - p i)) = 0 := by field_simp; ring
      have hk1 : k < -p i / (q i - p i) := by rw [lt_div_iff₀ hd]; linarith
      have hk2 : -p i / (q i - p i) ≤ 1 := by rw [div_le_one hd]; linarith
      refine ⟨-p i / (q i - p i), by linarith, hk2, fun j hj => ?_, .inr ⟨i, by simp, e⟩⟩
      rcases List.mem_cons.mp hj with rfl | hj
      · exact e.ge
      · have h1 := hk j hj
        have h2 := h j (by simp [hj])
        generalize -p i / (q i - p i) = s at *
        by_contra hlt
        push Not at hlt
        nlinarith

/-- On the way from a point of the plane outside the face to a point of the face an edge is crossed. -/
theorem ConvexFace.crossing (hc : ConvexFace cs n) {p x y : Vec3 ℝ} (hp : p ∈ cs) (hx : InFace cs x) (hy : (y - p).dot n = 0) (ho : ¬ InFace cs y) :
    ∃ k a b, 0 ≤ k ∧ k ≤ 1 ∧ Follows cs a b ∧ OnSegment a b (y + (x - y).scale k) := by
  obtain ⟨k, k0, k1, hk, h⟩ := last_border (fun e : Vec3 ℝ × Vec3 ℝ => side n e.1 e.2 y) (fun e => side n e.1 e.2 x) (cyclicPairs cs)
    (fun e he => hc.side_nonneg (mem_cyclicPairs.mp he) hx)
  have hfx := hc.flat_face hp hx
  have hin : InFace cs (y + (x - y).scale k) := by
    refine hc.inside hp ?_ (fun a b hab => ?_)
    · have : (y + (x - y).scale k - p).dot n = (y - p).dot n + ((x - p).dot n - (y - p).dot n) * k := by simp [Vec3.dot_def]; ring
      rw [this, hfx, hy]; ring
    · rw [side_between]; exact hk (a, b) (mem_cyclicPairs.mpr hab)
  rcases h with h | ⟨e, he, h⟩
  · exfalso
    rw [h] at hin
    have : y + (x - y).scale 0 = y := by ext <;> simp
    rw [this] at hin
    exact ho hin
  · exact ⟨k, e.1, e.2, k0, k1, mem_cyclicPairs.mp he, hc.on_edge (mem_cyclicPairs.mp he) hin (by rw [side_between]; exact h)⟩

theorem inFace_shift {d x : Vec3 ℝ} (h : InFace cs x) : InFace (cs.map (fun p => p + d)) (x + d) := by
  induction h with
  | corner h => exact .corner (List.mem_map.mpr ⟨_, h, rfl⟩)
  | @between x y k _ _ k0 k1 h1 h2 =>
    have : x + (y - x).scale k + d = (x + d) + ((y + d) - (x + d)).scale k := by ext <;> simp <;> ring
    rw [this]; exact .between h1 h2 k0 k1

/-- The points of the moved face are the moved points of the face. -/
theorem inFace_moved {v : Vec3 ℝ} {t : ℝ} {x : Vec3 ℝ} : InFace (cs.map (fun p => along p v t)) x ↔ InFace cs (x - v.scale t) := by
  constructor
  · intro h
    have := inFace_shift (d := (v.scale t).scale (-1)) h
    have e1 : x + (v.scale t).scale (-1) = x - v.scale t := by ext <;> simp <;> ring
    have e2 : (cs.map (fun p => along p v t)).map (fun p => p + (v.scale t).scale (-1)) = cs := by
      rw [List.map_map]
      conv_rhs => rw [← List.map_id cs]
      congr 1
      funext p
      simp only [Function.comp, along, id]
      ext <;> simp
    rw [e1, e2] at this
    exact this
  · intro h
    have := inFace_shift (d := v.scale t) h
    have e1 : x - v.scale t + v.scale t = x := by ext <;> simp
    rw [e1] at this
    exact this
end

/-! ### The plane of the face -/

/-- The speed towards the plane is zero or not below the cut-off. -/
def CrispPlane (m n v : Vec3 ℝ) : Prop := (m - v).dot n = 0 ∨ eps ≤ |(m - v).dot n|

theorem settle_crisp {w : ℝ} (h : w = 0 ∨ eps ≤ |w|) : settle w = w := by
  unfold settle
  rcases h with rfl | h
  · simp
  · rw [if_neg (not_lt.mpr h)]
theorem settle_neg (w : ℝ) : settle (-w) = -settle w := by
  unfold settle
  rw [abs_neg]
  split <;> simp

theorem plane_dot (c m p n v : Vec3 ℝ) (t : ℝ) : (along c m t - along p v t).dot n = (c - p).dot n + (m - v).dot n * t := by
  simp [along, Vec3.dot_def]; ring

/-- The times `sphere_plane_overlap_time` computes for the two sides of a plane. -/
theorem plane_times {r : ℝ} (hr : 0 ≤ r) {c m p n v : Vec3 ℝ} (hn : n.dot n = 1) (t : ℝ) :
    Holds (spherePlaneOverlapTime (fin r) c.f m.f p.f n.f v.f false) (fin t) ↔ |(c - p).dot n + settle ((m - v).dot n) * t| ≤ r := by
  unfold spherePlaneOverlapTime
  simp only [fin_neg, Vec3.f_scale, Vec3.f_add, Vec3.f_dot, Bool.false_eq_true, if_false, fin_sub]
  have e1 : (c + n.scale (-r)).dot n = c.dot n - r := by
    have : (c + n.scale (-r)).dot n = c.dot n - r * n.dot n := by simp [Vec3.dot_def]; ring
    rw [this, hn, mul_one]
  have e2 : (c + n.scale r).dot n = c.dot n + r := by
    have : (c + n.scale r).dot n = c.dot n + r * n.dot n := by simp [Vec3.dot_def]; ring
    rw [this, hn, mul_one]
  have e3 : v.dot n - m.dot n = -((m - v).dot n) := by simp [Vec3.dot_def]; ring
  have e4 : (c - p).dot n = c.dot n - p.dot n := by simp [Vec3.dot_def]; ring
  rw [e1, e2, e3, e4, range_of_le (by linarith), range_of_le (le_refl _), axis_times (by linarith) (le_refl _), settle_neg, abs_le]
  constructor <;> rintro ⟨h1, h2⟩ <;> constructor <;> linarith

/-- Within the step: the first time the plane is reached, if it is. -/
theorem plane_first {r : ℝ} (hr : 0 ≤ r) {c m p n v : Vec3 ℝ} (hn : n.dot n = 1) (hv : CrispPlane m n v) :
    (((spherePlaneOverlapTime (fin r) c.f m.f p.f n.f v.f false).intersect unitRange).isEmpty = true ∧
      ∀ t, 0 ≤ t → t ≤ 1 → ¬ NearPlane r c m p n v t) ∨
    (((spherePlaneOverlapTime (fin r) c.f m.f p.f n.f v.f false).intersect unitRange).isEmpty = false ∧
      ∃ t, ((spherePlaneOverlapTime (fin r) c.f m.f p.f n.f v.f false).intersect unitRange).min = fin t ∧ First (NearPlane r c m p n v) t) := by
  refine unit_first overlap_built (fun t _ _ => ?_)
  unfold NearPlane
  rw [plane_times hr hn, plane_dot, settle_crisp hv]

/-! ### Inside the face -/

/-- What the loop over the edges accepts, for the sign it expects: zero for none yet. -/
theorem loop_iff {x n d : Vec3 ℝ} : ∀ (l : List (Vec3 ℝ × Vec3 ℝ)),
    (insideLoop (x + d).f n.f d.f (l.map (fun e => (e.1.f, e.2.f))) (fin 1) = true ↔ ∀ e ∈ l, side n e.1 e.2 x < eps) ∧
    (insideLoop (x + d).f n.f d.f (l.map (fun e => (e.1.f, e.2.f))) (fin (-1)) = true ↔ ∀ e ∈ l, -eps < side n e.1 e.2 x) ∧
    (insideLoop (x + d).f n.f d.f (l.map (fun e => (e.1.f, e.2.f))) (fin 0) = true ↔
      (∀ e ∈ l, side n e.1 e.2 x < eps) ∨ ∀ e ∈ l, -eps < side n e.1 e.2 x)
  | [] => by simp [insideLoop]
  | e :: l => by
    obtain ⟨i1, i2, i3⟩ := loop_iff l (x := x) (n := n) (d := d)
    have hs : ((x + d - (e.1 + d)).cross (e.2 + d - (e.1 + d))).dot n = -side n e.1 e.2 x := by simp [side, Vec3.dot_def]; ring
    have hp := eps_pos
    have hE : (EPSILON : XReal) = fin eps := by rw [EPSILON_eq]; rfl
    simp only [List.map_cons, insideLoop, Vec3.f_add, Vec3.f_sub, Vec3.f_cross, Vec3.f_dot, hs, fin_abs, abs_neg, hE, fin_lt, decide_eq_true_eq, zero_eq, fin_eq,
      fin_signum, List.forall_mem_cons]
    generalize side n e.1 e.2 x = s
    by_cases h : |s| < eps
    · have h' := abs_lt.mp h
      simp only [h, if_true]
      rw [i1, i2, i3]
      simp [h'.1, h'.2]
    · simp only [h, if_false]
      rcases le_or_gt 0 s with h0 | h0
      · rw [abs_of_nonneg h0] at h
        have hs1 : ¬ (0 ≤ -s) := by linarith
        have hs2 : -eps < s := by linarith
        simp only [hs1, if_false]
        norm_num
        refine ⟨?_, ?_, ?_⟩
        · intro h; linarith
        · rw [i2]; simp [hs2]
        · rw [i2]; simp [hs2, h]
      · rw [abs_of_neg h0] at h
        have hs1 : 0 ≤ -s := by linarith
        have hs2 : s < eps := by linarith
        have hs3 : ¬ (-eps < s) := by linarith
        simp only [hs1, if_true]
        norm_num
        refine ⟨?_, ?_, ?_⟩
        · rw [i1]; simp [hs2]
        · intro h; exact absurd h hs3
        · rw [i1]; simp [hs2, hs3]


/-- What the loop accepts: the point is on one side of all edges, up to the cut-off. -/
def Accepts (cs : List (Vec3 ℝ)) (n x : Vec3 ℝ) : Prop :=
  (∀ a b, Follows cs a b → side n a b x < eps) ∨ ∀ a b, Follows cs a b → -eps < side n a b x

theorem accepts_neg {cs : List (Vec3 ℝ)} {n x : Vec3 ℝ} : Accepts cs (-n) x ↔ Accepts cs n x := by
  have e : ∀ a b, side (-n) a b x = -side n a b x := fun a b => by simp [side, Vec3.dot_def]; ring
  unfold Accepts
  simp only [e]
  constructor
  · rintro (h | h)
    · exact .inr (fun a b hf => by linarith [h a b hf])
    · exact .inl (fun a b hf => by linarith [h a b hf])
  · rintro (h | h)
    · exact .inr (fun a b hf => by linarith [h a b hf])
    · exact .inl (fun a b hf => by linarith [h a b hf])

theorem cyclicPairs_map {τ ρ : Type} (f : τ → ρ) (l : List τ) : cyclicPairs (l.map f) = (cyclicPairs l).map (fun e => (f e.1, f e.2)) := by
  unfold cyclicPairs
  rw [← List.map_drop, ← List.map_take, ← List.map_append, List.zip_map]
  rfl

theorem inside_iff {cs : List (Vec3 ℝ)} {n x d : Vec3 ℝ} :
    insideLoop (x + d).f n.f d.f (cyclicPairs (cs.map Vec3.f)) (fin 0) = true ↔ Accepts cs n x := by
  rw [cyclicPairs_map, (loop_iff _).2.2]
  unfold Accepts
  simp only [← mem_cyclicPairs, Prod.forall]

theorem f_normalize_zero : (Vec3.o).f.normalize = (⟨nan, nan, nan⟩ : Vec3 XReal) := by
  have h : (Vec3.o).len = 0 := (Vec3.len_eq_zero _).mpr rfl
  simp only [Vec3.normalize, Vec3.f_magnitude, h]
  have e : (fin 0 : XReal) / fin 0 = nan := by show XReal.div (fin 0) (fin 0) = nan; simp [XReal.div, infSign]
  simp [Vec3.unscale, Vec3.f, Vec3.o, e]

/-- With a centre on the plane the direction to the contact is not a number, and no point passes for inside. -/
theorem loop_nan {x d : Vec3 XReal} (e1 e2 : Vec3 XReal × Vec3 XReal) (l : List (Vec3 XReal × Vec3 XReal)) :
    insideLoop x ⟨nan, nan, nan⟩ d (e1 :: e2 :: l) (fin 0) = false := by
  have h : ∀ u : Vec3 XReal, u.dot ⟨nan, nan, nan⟩ = nan := fun u => by simp [Vec3.dot]
  have hs : Scalar.signum (nan : XReal) = nan := rfl
  simp [insideLoop, h, hs]

theorem plumb_sub {p n x : Vec3 ℝ} : plumb p n x - x = n.scale (-((x - p).dot n)) := by unfold plumb; ext <;> simp <;> ring
theorem plumb_flat {p n x : Vec3 ℝ} (hn : n.dot n = 1) : (plumb p n x - p).dot n = 0 := by
  have : (plumb p n x - p).dot n = (x - p).dot n - (x - p).dot n * n.dot n := by unfold plumb; simp [Vec3.dot_def]; ring
  rw [this, hn]; ring
/-- The foot does not depend on the point of the plane. -/
theorem plumb_eq {p q n x : Vec3 ℝ} (h : (q - p).dot n = 0) : plumb q n x = plumb p n x := by
  have : (x - q).dot n = (x - p).dot n - (q - p).dot n := by simp [Vec3.dot_def]; ring
  unfold plumb; rw [this, h, sub_zero]

section
variable {cs : List (Vec3 ℝ)} {n : Vec3 ℝ} {r : ℝ} {c m p v : Vec3 ℝ}

/-- The answer of `collide_sphere_with_polygon_surface` for a convex face. -/
theorem polygon_first (hr : 0 ≤ r) (hc : ConvexFace cs n) (hp : p ∈ cs) (hv : CrispPlane m n v) :
    (collideSpherePolygon (fin r) c.f m.f (cs.map Vec3.f) v.f = .ok none ∧ ∀ t, 0 ≤ t → t ≤ 1 → ¬ NearPlane r c m p n v t) ∨
    ∃ t, First (NearPlane r c m p n v) t ∧
      ((collideSpherePolygon (fin r) c.f m.f (cs.map Vec3.f) v.f = .ok none ∧
        ((along c m t - along p v t).dot n = 0 ∨ ¬ Accepts cs n (plumb (along p v t) n (along c m t) - v.scale t))) ∨
      ∃ C, collideSpherePolygon (fin r) c.f m.f (cs.map Vec3.f) v.f = .ok (some C) ∧ C.times.min = fin t ∧
        (along c m t - along p v t).dot n ≠ 0 ∧ Accepts cs n (plumb (along p v t) n (along c m t) - v.scale t) ∧
        C.position = (plumb (along p v t) n (along c m t)).f ∧ C.normal = (unit (plumb (along p v t) n (along c m t) - along c m t)).f) := by
  obtain ⟨a, b, d, l, rfl⟩ : ∃ a b d l, cs = a :: b :: d :: l := by
    have := hc.three
    match cs, this with
    | a :: b :: d :: l, _ => exact ⟨a, b, d, l, rfl⟩
  have hab : Follows (a :: b :: d :: l) a b := ⟨0, by simp, rfl, by
    rw [Nat.mod_eq_of_lt (by simp)]; rfl⟩
  have nd := hc.distinct
  have hnormal : ((b.f - a.f).cross (d.f - a.f)).normalize = n.f := by
    have hpos : 0 < side n a b d := hc.turn a b hab d (by simp) (by rintro rfl; simp at nd) (by rintro rfl; simp at nd)
    have e := cross_along hc.unit (hc.flat a (by simp) b (by simp)) (hc.flat a (by simp) d (by simp))
    have hl : ((b - a).cross (d - a)).len = side n a b d := by
      rw [e, Vec3.len_scale]
      have : n.len = 1 := by unfold Vec3.len; rw [hc.unit, Real.sqrt_one]
      rw [this, one_mul]
      exact abs_of_pos hpos
    rw [Vec3.f_sub, Vec3.f_sub, Vec3.f_cross, Vec3.f_normalize (fun h0 => by
      rw [h0, (Vec3.len_eq_zero _).mpr rfl] at hl; exact hpos.ne hl), hl, e]
    congr 1
    show (n.scale (side n a b d)).scale (side n a b d)⁻¹ = n
    ext <;> simp <;> field_simp
  have hpa : (p - a).dot n = 0 := hc.flat a (by simp) p hp
  have hsame : ∀ t, (along c m t - along a v t).dot n = (along c m t - along p v t).dot n := by
    intro t
    have : (along c m t - along a v t).dot n = (along c m t - along p v t).dot n + (p - a).dot n := by simp [along, Vec3.dot_def]; ring
    rw [this, hpa, add_zero]
  have hnear : ∀ t, NearPlane r c m a n v t ↔ NearPlane r c m p n v t := fun t => by unfold NearPlane; rw [hsame]
  have hplumb : ∀ t, plumb (along a v t) n (along c m t) = plumb (along p v t) n (along c m t) := fun t =>
    (plumb_eq (by
      have : (along p v t - along a v t).dot n = (p - a).dot n := by simp [along, Vec3.dot_def]
      rw [this, hpa])).symm
  unfold collideSpherePolygon
  simp only [List.map_cons, hnormal]
  rcases plane_first (c := c) (m := m) (p := a) (v := v) hr hc.unit hv with ⟨he, h⟩ | ⟨he, t, ht, hf⟩
  · left
    rw [he]
    exact ⟨rfl, fun t t0 t1 h' => h t t0 t1 ((hnear t).mpr h')⟩
  · right
    have hf' : First (NearPlane r c m p n v) t := ⟨⟨hf.1.1, hf.1.2.1, (hnear t).mp hf.1.2.2⟩, fun u u0 u1 h => hf.2 u u0 u1 ((hnear u).mpr h)⟩
    refine ⟨t, hf', ?_⟩
    rw [he]
    simp only [Bool.not_false, if_true, ht, Vec3.f_scale, Vec3.f_add, Vec3.f_sub, Vec3.f_dot]
    have e1 : c + m.scale t = along c m t := rfl
    have e2 : a + v.scale t = along a v t := rfl
    have e3 : along c m t - n.scale ((along c m t - along a v t).dot n) = plumb (along p v t) n (along c m t) := hplumb t
    rw [e1, e2, e3, zero_eq]
    have hD := hsame t
    set D := (along c m t - along p v t).dot n with hDdef
    have hsub : plumb (along p v t) n (along c m t) - along c m t = n.scale (-D) := plumb_sub
    have hshift : plumb (along p v t) n (along c m t) = (plumb (along p v t) n (along c m t) - v.scale t) + v.scale t := by ext <;> simp
    have hmap : a.f :: b.f :: d.f :: l.map Vec3.f = (a :: b :: d :: l).map Vec3.f := rfl
    rw [hmap]
    by_cases hD0 : D = 0
    · left
      have hz : n.scale (-D) = Vec3.o := by rw [hD0]; ext <;> simp
      rw [hsub, hz, f_normalize_zero]
      have hl : insideLoop (plumb (along p v t) n (along c m t)).f ⟨nan, nan, nan⟩ (v.scale t).f (cyclicPairs ((a :: b :: d :: l).map Vec3.f)) (fin 0) = false := by
        simp only [List.map_cons, cyclicPairs, List.drop, List.take, List.cons_append, List.zip_cons_cons]
        exact loop_nan _ _ _
      rw [hl]
      exact ⟨rfl, .inl hD0⟩
    · have hlen : n.len = 1 := by unfold Vec3.len; rw [hc.unit, Real.sqrt_one]
      have hne : n.scale (-D) ≠ Vec3.o := by
        intro h0
        have := congrArg Vec3.len h0
        rw [Vec3.len_scale, hlen, one_mul, (Vec3.len_eq_zero _).mpr rfl, abs_neg, abs_eq_zero] at this
        exact hD0 this
      have hun : (plumb (along p v t) n (along c m t) - along c m t).f.normalize = (unit (plumb (along p v t) n (along c m t) - along c m t)).f := by
        rw [Vec3.f_normalize (by rw [hsub]; exact hne)]; rfl
      have hunit : unit (plumb (along p v t) n (along c m t) - along c m t) = n ∨ unit (plumb (along p v t) n (along c m t) - along c m t) = -n := by
        rw [hsub]
        unfold unit
        rw [Vec3.len_scale, hlen, one_mul, abs_neg]
        rcases lt_or_gt_of_ne hD0 with h | h
        · left; rw [abs_of_neg h]; ext <;> simp <;> field_simp
        · right; rw [abs_of_pos h]; ext <;> simp <;> field_simp
      have hin : insideLoop (plumb (along p v t) n (along c m t)).f (unit (plumb (along p v t) n (along c m t) - along c m t)).f (v.scale t).f
          (cyclicPairs ((a :: b :: d :: l).map Vec3.f)) (fin 0) = true ↔ Accepts (a :: b :: d :: l) n (plumb (along p v t) n (along c m t) - v.scale t) := by
        conv_lhs => rw [show (plumb (along p v t) n (along c m t)).f = ((plumb (along p v t) n (along c m t) - v.scale t) + v.scale t).f from congrArg Vec3.f hshift]
        rw [inside_iff]
        rcases hunit with h | h
        · rw [h]
        · rw [h, accepts_neg]
      rw [hun]
      by_cases hacc : Accepts (a :: b :: d :: l) n (plumb (along p v t) n (along c m t) - v.scale t)
      · right
        rw [if_pos (hin.mpr hacc)]
        exact ⟨_, rfl, ht, hD0, hacc, rfl, rfl⟩
      · left
        rw [if_neg (fun h => hacc (hin.mp h))]
        exact ⟨rfl, .inr hacc⟩

theorem nearPlane_of_meets (hr : 0 ≤ r) (hc : ConvexFace cs n) (hp : p ∈ cs) {t : ℝ} (h : BallMeetsFace r c m cs v t) : NearPlane r c m p n v t := by
  obtain ⟨x, hx, hb⟩ := h
  rw [inFace_moved] at hx
  have hfl := hc.flat_face hp hx
  rw [inBall_iff hr] at hb
  have := dot_bound (a := x - along c m t) (b := n) hr zero_le_one hb (by rw [hc.unit]; norm_num)
  unfold NearPlane
  have e : (along c m t - along p v t).dot n = (x - v.scale t - p).dot n - (x - along c m t).dot n := by simp [along, Vec3.dot_def]; ring
  rw [e, hfl, zero_sub, abs_neg]
  linarith

theorem plumb_len (hn : n.dot n = 1) (q x : Vec3 ℝ) : (plumb q n x - x).len = |(x - q).dot n| := by
  have hlen : n.len = 1 := by unfold Vec3.len; rw [hn, Real.sqrt_one]
  rw [plumb_sub, Vec3.len_scale, hlen, one_mul, abs_neg]

/-- **C62**, completeness and the reported values: if at the first time the plane is within the radius the foot of the perpendicular is in the face (and the
centre is not on the plane), a contact is reported with that time, that foot and the direction from the centre to it; this is the first time
the ball meets the face. -/
theorem C62_complete_partial (hr : 0 ≤ r) (hc : ConvexFace cs n) (hp : p ∈ cs) (hv : CrispPlane m n v) {t : ℝ} (ht : First (NearPlane r c m p n v) t)
    (hoff : (along c m t - along p v t).dot n ≠ 0) (hin : InFace (cs.map (fun p => along p v t)) (plumb (along p v t) n (along c m t))) :
    (∃ C, collideSpherePolygon (fin r) c.f m.f (cs.map Vec3.f) v.f = .ok (some C) ∧ C.times.min = fin t ∧
      C.position = (plumb (along p v t) n (along c m t)).f ∧ C.normal = (unit (plumb (along p v t) n (along c m t) - along c m t)).f) ∧
    First (BallMeetsFace r c m cs v) t := by
  constructor
  · rcases polygon_first (c := c) hr hc hp hv with ⟨-, hno⟩ | ⟨u, hu, h⟩
    · exact absurd ht.1.2.2 (hno t ht.1.1 ht.1.2.1)
    · have : u = t := le_antisymm (hu.2 t ht.1.1 ht.1.2.1 ht.1.2.2) (ht.2 u hu.1.1 hu.1.2.1 hu.1.2.2)
      subst this
      rcases h with ⟨-, h | h⟩ | ⟨C, h1, h2, -, -, h3, h4⟩
      · exact absurd h hoff
      · refine absurd (.inr (fun a b hf => ?_)) h
        have := hc.side_nonneg hf (inFace_moved.mp hin)
        linarith [eps_pos]
      · exact ⟨C, h1, h2, h3, h4⟩
  · refine ⟨⟨ht.1.1, ht.1.2.1, _, hin, ?_⟩, fun u u0 u1 h => ht.2 u u0 u1 (nearPlane_of_meets hr hc hp h)⟩
    unfold InBall
    rw [plumb_len hc.unit]
    exact ht.1.2.2

/-! ### How far outside the face a contact can be -/

theorem telescope {τ : Type} (φ : τ → ℝ) : ∀ (l : List τ) (a z : τ), (((a :: l).zip (l ++ [z])).map (fun e => φ e.2 - φ e.1)).sum = φ z - φ a
  | [], a, z => by simp
  | b :: l, a, z => by
    have := telescope φ l b z
    simp only [List.cons_append, List.zip_cons_cons, List.map_cons, List.sum_cons] at this ⊢
    rw [this]; ring

theorem around {τ : Type} (φ : τ → ℝ) (l : List τ) : ((cyclicPairs l).map (fun e => φ e.2 - φ e.1)).sum = 0 := by
  cases l with
  | nil => simp [cyclicPairs]
  | cons a l =>
    have := telescope φ l a a
    simp only [cyclicPairs, List.drop_succ_cons, List.drop_zero, List.take_succ_cons, List.take_zero]
    rw [this, sub_self]

/-- The sum over the edges of the side values does not depend on the point: it is twice the area of the face. -/
theorem side_total (n x z : Vec3 ℝ) (cs : List (Vec3 ℝ)) :
    ((cyclicPairs cs).map (fun e => side n e.1 e.2 x)).sum = ((cyclicPairs cs).map (fun e => side n e.1 e.2 z)).sum := by
  have h := around (fun a => (a.cross (x - z)).dot n) cs
  have e : (fun e : Vec3 ℝ × Vec3 ℝ => (e.2.cross (x - z)).dot n - (e.1.cross (x - z)).dot n) = fun e => side n e.1 e.2 x - side n e.1 e.2 z := by
    funext e; simp [side, Vec3.dot_def]; ring
  rw [e] at h
  have : ∀ l : List (Vec3 ℝ × Vec3 ℝ), (l.map (fun e => side n e.1 e.2 x - side n e.1 e.2 z)).sum =
      (l.map (fun e => side n e.1 e.2 x)).sum - (l.map (fun e => side n e.1 e.2 z)).sum := by
    intro l
    induction l with
    | nil => simp
    | cons a l ih => simp only [List.map_cons, List.sum_cons, ih]; ring
  rw [this] at h
  linarith

/-- In a face that is not too thin a point that is accepted is left of all edges up to the cut-off. -/
theorem accepts_left (hc : ConvexFace cs n) {z x : Vec3 ℝ} {ρ : ℝ} (hρ : eps ≤ ρ) (hz : ∀ a b, Follows cs a b → ρ ≤ side n a b z) (h : Accepts cs n x) :
    ∀ a b, Follows cs a b → -eps < side n a b x := by
  rcases h with h | h
  · exfalso
    have hne : cyclicPairs cs ≠ [] := by
      have := hc.three
      match cs, this with
      | a :: b :: d :: l, _ => simp [cyclicPairs]
    have hlt : ((cyclicPairs cs).map (fun e => side n e.1 e.2 x)).sum < ((cyclicPairs cs).map (fun e => side n e.1 e.2 z)).sum := by
      refine List.sum_lt_sum_of_ne_nil hne _ _ (fun e he => ?_)
      have he' := mem_cyclicPairs.mp (show (e.1, e.2) ∈ cyclicPairs cs from he)
      linarith [h _ _ he', hz _ _ he']
    rw [side_total n x z] at hlt
    exact lt_irrefl _ hlt
  · exact h

/-- ... and near the face. -/
theorem accepts_near (hc : ConvexFace cs n) (hp : p ∈ cs) {z x : Vec3 ℝ} {ρ : ℝ} (hρ : eps ≤ ρ) (hz : ∀ a b, Follows cs a b → ρ ≤ side n a b z)
    (hzp : (z - p).dot n = 0) (hxp : (x - p).dot n = 0) (h : Accepts cs n x) : ∃ y, InFace cs y ∧ (x - y).len ≤ eps / (eps + ρ) * (x - z).len := by
  have hp' := eps_pos
  have hs := accepts_left hc hρ hz h
  have hk : 0 < eps + ρ := by linarith
  have k0 : 0 ≤ eps / (eps + ρ) := div_nonneg hp'.le hk.le
  refine ⟨x + (z - x).scale (eps / (eps + ρ)), hc.inside hp ?_ (fun a b hf => ?_), ?_⟩
  · have : (x + (z - x).scale (eps / (eps + ρ)) - p).dot n = (x - p).dot n + ((z - p).dot n - (x - p).dot n) * (eps / (eps + ρ)) := by
      simp [Vec3.dot_def]; ring
    rw [this, hxp, hzp]; ring
  · rw [side_between]
    have h1 := hs a b hf
    have h2 := hz a b hf
    have e : side n a b x + (side n a b z - side n a b x) * (eps / (eps + ρ)) = (side n a b x * ρ + side n a b z * eps) / (eps + ρ) := by field_simp; ring
    rw [e]
    refine div_nonneg ?_ hk.le
    nlinarith
  · have : x - (x + (z - x).scale (eps / (eps + ρ))) = (x - z).scale (eps / (eps + ρ)) := by ext <;> simp <;> ring
    rw [this, Vec3.len_scale, abs_of_nonneg k0, mul_comm]

/-- **C62**, soundness for a face with a point `z` that is `ρ` inside all edges: a reported contact is at the first time the plane is within the radius, at the foot
of the perpendicular, which is within a fraction `eps / (eps + ρ)` of its distance to `z` of a point of the face; the ball did not meet the face earlier. -/
theorem C62_reported_partial (hr : 0 ≤ r) (hc : ConvexFace cs n) (hp : p ∈ cs) (hv : CrispPlane m n v) {z : Vec3 ℝ} {ρ : ℝ} (hρ : eps ≤ ρ)
    (hz : ∀ a b, Follows cs a b → ρ ≤ side n a b z) (hzp : (z - p).dot n = 0) {C : Collision XReal}
    (h : collideSpherePolygon (fin r) c.f m.f (cs.map Vec3.f) v.f = .ok (some C)) :
    ∃ t y, C.times.min = fin t ∧ First (NearPlane r c m p n v) t ∧ C.position = (plumb (along p v t) n (along c m t)).f ∧
      C.normal = (unit (plumb (along p v t) n (along c m t) - along c m t)).f ∧ InFace (cs.map (fun p => along p v t)) y ∧
      (plumb (along p v t) n (along c m t) - y).len ≤ eps / (eps + ρ) * (plumb (along p v t) n (along c m t) - along z v t).len ∧
      (∀ u, 0 ≤ u → u ≤ 1 → BallMeetsFace r c m cs v u → t ≤ u) := by
  rcases polygon_first (c := c) hr hc hp hv with ⟨h', -⟩ | ⟨t, ht, ⟨h', -⟩ | ⟨D, h1, h2, -, h3, h4, h5⟩⟩
  · rw [h'] at h; cases h
  · rw [h'] at h; cases h
  · rw [h1] at h; cases h
    obtain ⟨y, hy, hl⟩ := accepts_near hc hp hρ hz hzp (x := plumb (along p v t) n (along c m t) - v.scale t) (by
      have := plumb_flat (p := along p v t) (x := along c m t) hc.unit
      have e : (plumb (along p v t) n (along c m t) - v.scale t - p).dot n = (plumb (along p v t) n (along c m t) - along p v t).dot n := by
        generalize plumb (along p v t) n (along c m t) = q; simp [along, Vec3.dot_def]; ring
      rw [e, this]) h3
    refine ⟨t, y + v.scale t, h2, ht, h4, h5, ?_, ?_, fun u u0 u1 hu => ht.2 u u0 u1 (nearPlane_of_meets hr hc hp hu)⟩
    · rw [inFace_moved]
      have : y + v.scale t - v.scale t = y := by ext <;> simp
      rw [this]; exact hy
    · have e1 : plumb (along p v t) n (along c m t) - (y + v.scale t) = plumb (along p v t) n (along c m t) - v.scale t - y := by ext <;> simp; ring_nf; ring_nf; ring_nf
      have e2 : plumb (along p v t) n (along c m t) - along z v t = plumb (along p v t) n (along c m t) - v.scale t - z := by
        generalize plumb (along p v t) n (along c m t) = q; unfold along; ext <;> simp <;> ring
      rw [e1, e2]; exact hl
end


/-! ### Triangles -/

theorem follows_triangle {a b c p q : Vec3 ℝ} : Follows [a, b, c] p q ↔ (p = a ∧ q = b) ∨ (p = b ∧ q = c) ∨ (p = c ∧ q = a) := by
  rw [← mem_cyclicPairs]; simp [cyclicPairs]

theorem ConvexFace.triangle {a b c n : Vec3 ℝ} (hn : n.dot n = 1) (h1 : (b - a).dot n = 0) (h2 : (c - a).dot n = 0) (h : 0 < side n a b c) :
    ConvexFace [a, b, c] n := by
  have hab : a ≠ b := by rintro rfl; simp [side, Vec3.dot_def] at h
  have hac : a ≠ c := by rintro rfl; rw [side_start] at h; exact lt_irrefl _ h
  have hbc : b ≠ c := by rintro rfl; rw [side_stop] at h; exact lt_irrefl _ h
  refine ⟨by simp, by simp [hab, hac, hbc], hn, ?_, ?_⟩
  · have key : ∀ p ∈ [a, b, c], (p - a).dot n = 0 := by
      intro p hp
      simp only [List.mem_cons, List.not_mem_nil, or_false] at hp
      rcases hp with rfl | rfl | rfl
      · rw [Vec3.sub_self']; simp [Vec3.dot_def]
      · exact h1
      · exact h2
    intro p hp q hq
    have e : (q - p).dot n = (q - a).dot n - (p - a).dot n := by simp [Vec3.dot_def]; ring
    rw [e, key p hp, key q hq, sub_zero]
  · intro p q hf d hd hdp hdq
    have r1 : side n b c a = side n a b c := by simp [side, Vec3.dot_def]; ring
    have r2 : side n c a b = side n a b c := by simp [side, Vec3.dot_def]; ring
    simp only [List.mem_cons, List.not_mem_nil, or_false] at hd
    rcases follows_triangle.mp hf with ⟨rfl, rfl⟩ | ⟨rfl, rfl⟩ | ⟨rfl, rfl⟩ <;> rcases hd with rfl | rfl | rfl
    all_goals first
      | exact absurd rfl hdp
      | exact absurd rfl hdq
      | exact h
      | (rw [r1]; exact h)
      | (rw [r2]; exact h)

/-- A bound on a direction for the corners holds for the face. -/
theorem InFace.atMost {cs : List (Vec3 ℝ)} {d x : Vec3 ℝ} {b : ℝ} (h : InFace cs x) (hb : ∀ c ∈ cs, c.dot d ≤ b) : x.dot d ≤ b := by
  induction h with
  | corner h => exact hb _ h
  | @between x y k _ _ k0 k1 h1 h2 =>
    have : (x + (y - x).scale k).dot d = x.dot d * (1 - k) + y.dot d * k := by simp [Vec3.dot_def]; ring
    rw [this]
    nlinarith [mul_nonneg (sub_nonneg.mpr h1) (sub_nonneg.mpr k1), mul_nonneg (sub_nonneg.mpr h2) k0]

namespace Face
/-- A triangle with legs of 2 micrometres. -/
noncomputable def speck : List (Vec3 ℝ) := [⟨0, 0, 0⟩, ⟨1 / 500000, 0, 0⟩, ⟨0, 1 / 500000, 0⟩]
theorem speck_convex : ConvexFace speck ⟨0, 0, 1⟩ :=
  .triangle (by norm_num [Vec3.dot_def]) (by norm_num [Vec3.dot_def]) (by norm_num [Vec3.dot_def]) (by norm_num [side, Vec3.dot_def])
/-- A triangle with legs of 4. -/
noncomputable def sheet : List (Vec3 ℝ) := [⟨0, 0, 0⟩, ⟨4, 0, 0⟩, ⟨0, 4, 0⟩]
theorem sheet_convex : ConvexFace sheet ⟨0, 0, 1⟩ :=
  .triangle (by norm_num [Vec3.dot_def]) (by norm_num [Vec3.dot_def]) (by norm_num [Vec3.dot_def]) (by norm_num [side, Vec3.dot_def])
theorem sheet_middle : InFace sheet ⟨1, 1, 0⟩ := by
  have := InFace.between (InFace.between (cs := sheet) (x := ⟨0, 0, 0⟩) (y := ⟨4, 0, 0⟩) (k := 1 / 3) (.corner (by simp [sheet])) (.corner (by simp [sheet]))
    (by norm_num) (by norm_num)) (.corner (c := ⟨0, 4, 0⟩) (by simp [sheet])) (k := 1 / 4) (by norm_num) (by norm_num)
  have e : (⟨1, 1, 0⟩ : Vec3 ℝ) = ⟨0, 0, 0⟩ + ((⟨4, 0, 0⟩ : Vec3 ℝ) - ⟨0, 0, 0⟩).scale (1 / 3) +
      ((⟨0, 4, 0⟩ : Vec3 ℝ) - (⟨0, 0, 0⟩ + ((⟨4, 0, 0⟩ : Vec3 ℝ) - ⟨0, 0, 0⟩).scale (1 / 3))).scale (1 / 4) := by
    ext <;> simp <;> norm_num
  rw [e]; exact this
end Face

/-- **C62 fails** on tiny faces: the ball of radius 1/4 stays clear of a triangle with corners two cut-offs apart, and a contact is reported 2/5 away from it. -/
theorem C62_false_outside : ∃ (c m : Vec3 ℝ) (C : Collision XReal), ConvexFace Face.speck ⟨0, 0, 1⟩ ∧ (∀ a ∈ Face.speck, ∀ b ∈ Face.speck, a ≠ b → eps < (a - b).len) ∧
    collideSpherePolygon (fin (1 / 4)) c.f m.f (Face.speck.map Vec3.f) (Vec3.o).f = .ok (some C) ∧ ∀ t, ¬ BallMeetsFace (1 / 4) c m Face.speck .o t := by
  have hcr : CrispPlane ⟨0, 0, -1⟩ ⟨0, 0, 1⟩ .o := .inr (by unfold eps; norm_num [Vec3.dot_def])
  refine ⟨⟨2 / 5, 0, 1⟩, ⟨0, 0, -1⟩, ?_⟩
  have hp : (⟨0, 0, 0⟩ : Vec3 ℝ) ∈ Face.speck := by simp [Face.speck]
  rcases polygon_first (r := 1 / 4) (c := ⟨2 / 5, 0, 1⟩) (by norm_num) Face.speck_convex hp hcr with ⟨-, h⟩ | ⟨t, ht, ⟨-, h⟩ | ⟨C, hC, -⟩⟩
  · exact absurd (by unfold NearPlane; norm_num [along, Vec3.dot_def]) (h 1 zero_le_one (le_refl _))
  · exfalso
    have hd : (along ⟨2 / 5, 0, 1⟩ ⟨0, 0, -1⟩ t - along (⟨0, 0, 0⟩ : Vec3 ℝ) .o t).dot ⟨0, 0, 1⟩ = 1 - t := by simp [along, Vec3.dot_def]; ring
    rcases h with h | h
    · rw [hd] at h
      have := ht.2 (3 / 4) (by norm_num) (by norm_num) (by unfold NearPlane; norm_num [along, Vec3.dot_def])
      linarith
    · refine h (.inl (fun a b hf => ?_))
      have e : plumb (along (⟨0, 0, 0⟩ : Vec3 ℝ) .o t) ⟨0, 0, 1⟩ (along ⟨2 / 5, 0, 1⟩ ⟨0, 0, -1⟩ t) - (Vec3.o).scale t = ⟨2 / 5, 0, 0⟩ := by
        unfold plumb; rw [hd]; ext <;> simp [along]
      rw [e]
      rcases follows_triangle.mp hf with ⟨rfl, rfl⟩ | ⟨rfl, rfl⟩ | ⟨rfl, rfl⟩ <;> unfold eps <;> norm_num [side, Vec3.dot_def]
  · refine ⟨C, Face.speck_convex, ?_, hC, ?_⟩
    · intro a ha b hb hab
      rw [Vec3.len, ← Real.sqrt_sq eps_pos.le]
      refine Real.sqrt_lt_sqrt (sq_nonneg _) ?_
      simp only [Face.speck, List.mem_cons, List.not_mem_nil, or_false] at ha hb
      rcases ha with rfl | rfl | rfl <;> rcases hb with rfl | rfl | rfl
      all_goals first
        | exact absurd rfl hab
        | (unfold eps; norm_num [Vec3.dot_def])
    · rintro t ⟨x, hx, hb⟩
      rw [inFace_moved] at hx
      have h1 := hx.atMost (d := ⟨1, 0, 0⟩) (b := 1 / 500000) (by simp [Face.speck, Vec3.dot_def])
      rw [inBall_iff (by norm_num)] at hb
      simp [along, Vec3.dot_def] at h1 hb
      nlinarith [sq_nonneg x.y, sq_nonneg (x.z - (1 + -t)), sq_nonneg (x.x - 2 / 5)]

/-- **C62 fails** for a centre that starts on the face: the ball is half in the face from the start and no contact is reported. -/
theorem C62_false_centre : ∃ (c m : Vec3 ℝ), InFace Face.sheet c ∧ BallMeetsFace (1 / 2) c m Face.sheet .o 0 ∧
    collideSpherePolygon (fin (1 / 2)) c.f m.f (Face.sheet.map Vec3.f) (Vec3.o).f = .ok none := by
  have hcr : CrispPlane ⟨0, 0, 1⟩ ⟨0, 0, 1⟩ .o := .inr (by unfold eps; norm_num [Vec3.dot_def])
  have hp : (⟨0, 0, 0⟩ : Vec3 ℝ) ∈ Face.sheet := by simp [Face.sheet]
  refine ⟨⟨1, 1, 0⟩, ⟨0, 0, 1⟩, Face.sheet_middle, ⟨⟨1, 1, 0⟩, ?_, ?_⟩, ?_⟩
  · rw [inFace_moved]
    have : (⟨1, 1, 0⟩ : Vec3 ℝ) - (Vec3.o).scale 0 = ⟨1, 1, 0⟩ := by ext <;> simp
    rw [this]; exact Face.sheet_middle
  · rw [inBall_iff (by norm_num)]; norm_num [along, Vec3.dot_def]
  · rcases polygon_first (r := 1 / 2) (c := ⟨1, 1, 0⟩) (by norm_num) Face.sheet_convex hp hcr with ⟨h, -⟩ | ⟨t, ht, ⟨h, -⟩ | ⟨C, -, -, h, -⟩⟩
    · exact h
    · exact h
    · exfalso
      have : t = 0 := le_antisymm (ht.2 0 (le_refl _) zero_le_one (by unfold NearPlane; norm_num [along, Vec3.dot_def])) ht.1.1
      subst this
      apply h
      norm_num [along, Vec3.dot_def]

/-- A ball falling onto the middle of a triangle, for `C62_complete_partial` and `C62_reported_partial`. -/
example : ConvexFace Face.sheet ⟨0, 0, 1⟩ ∧ CrispPlane ⟨0, 0, -2⟩ ⟨0, 0, 1⟩ .o ∧ First (NearPlane 1 ⟨1, 1, 2⟩ ⟨0, 0, -2⟩ ⟨0, 0, 0⟩ ⟨0, 0, 1⟩ .o) (1 / 2) ∧
    InFace (Face.sheet.map (fun p => along p .o (1 / 2))) (plumb (along ⟨0, 0, 0⟩ .o (1 / 2)) ⟨0, 0, 1⟩ (along ⟨1, 1, 2⟩ ⟨0, 0, -2⟩ (1 / 2))) ∧
    (∀ a b, Follows Face.sheet a b → 4 ≤ side ⟨0, 0, 1⟩ a b ⟨1, 1, 0⟩) := by
  refine ⟨Face.sheet_convex, .inr (by unfold eps; norm_num [Vec3.dot_def]), ⟨⟨by norm_num, by norm_num, by unfold NearPlane; norm_num [along, Vec3.dot_def]⟩, ?_⟩, ?_, ?_⟩
  · intro u _ _ h
    unfold NearPlane at h
    have e : (along ⟨1, 1, 2⟩ ⟨0, 0, -2⟩ u - along (⟨0, 0, 0⟩ : Vec3 ℝ) .o u).dot ⟨0, 0, 1⟩ = 2 - 2 * u := by simp [along, Vec3.dot_def]; ring
    rw [e] at h
    linarith [(abs_le.mp h).2]
  · rw [inFace_moved]
    have : plumb (along ⟨0, 0, 0⟩ .o (1 / 2)) ⟨0, 0, 1⟩ (along ⟨1, 1, 2⟩ ⟨0, 0, -2⟩ (1 / 2)) - (Vec3.o).scale (1 / 2) = ⟨1, 1, 0⟩ := by
      unfold plumb along; ext <;> simp [Vec3.dot_def]
    rw [this]; exact Face.sheet_middle
  · intro a b hf
    rcases follows_triangle.mp hf with ⟨rfl, rfl⟩ | ⟨rfl, rfl⟩ | ⟨rfl, rfl⟩ <;> norm_num [side, Vec3.dot_def]

end Fluffy.Props
