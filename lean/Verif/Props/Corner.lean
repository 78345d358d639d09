import Verif.Props.SphereMesh
import Verif.Props.Pairs
/-
C70: collision detection between two meshes, over exact numbers: corners of one mesh against the faces of the other.
-/
set_option linter.unusedSectionVars false
set_option linter.unusedSimpArgs false
namespace Fluffy.Props
open Fluffy XReal

/-! ### Specification -/

/-- A face with a corner that is not too flat: some corner's triangle has more than half the cut-off as its area. -/
def HasCorner (cs : List (Vec3 ℝ)) (n : Vec3 ℝ) : Prop := ∃ a b c, Follows cs a b ∧ Follows cs b c ∧ eps < side n a b c

/-- The way from `p` to `q` stays within the cut-off of the plane. -/
def Skims (p q a n : Vec3 ℝ) : Prop := |(p - a).dot n| < eps ∧ |(q - a).dot n| < eps

/-- A face has room around the point `z` of its plane: `z` is at least `ρ` inside all edges, and the corners are within `R` of `z`. -/
structure Room (cs : List (Vec3 ℝ)) (n z : Vec3 ℝ) (ρ R : ℝ) : Prop where
  flat : ∀ c ∈ cs, (z - c).dot n = 0
  inside : ∀ a b, Follows cs a b → ρ ≤ side n a b z
  within : ∀ c ∈ cs, (c - z).len ≤ R

/-- The points of the plane that the walk around the face accepts: on one side of all edges up to the cut-off, or within the cut-off of a corner. -/
def Passes (cs : List (Vec3 ℝ)) (n x : Vec3 ℝ) : Prop := Accepts cs n x ∨ ∃ c ∈ cs, (x - c).len < eps

/-! ### The normal of a face -/

section
variable {cs : List (Vec3 ℝ)} {n : Vec3 ℝ}

theorem corner_cross (hc : ConvexFace cs n) {a b c : Vec3 ℝ} (h1 : Follows cs a b) (h2 : Follows cs b c) :
    (a - b).cross (c - b) = n.scale (-side n a b c) := by
  have ha := (follows_mem h1).1; have hb := (follows_mem h1).2; have hc' := (follows_mem h2).2
  rw [cross_along hc.unit (hc.flat b hb a ha) (hc.flat b hb c hc')]
  congr 1
  simp [side, Vec3.dot_def]; ring

theorem scale_unit_len (hn : n.dot n = 1) (k : ℝ) : (n.scale k).len = |k| := by
  have hlen : n.len = 1 := by unfold Vec3.len; rw [hn, Real.sqrt_one]
  rw [Vec3.len_scale, hlen, one_mul]

/-- The walk around the corners finds the normal, seen from behind. -/
theorem normalLoop (hc : ConvexFace cs n) : ∀ l : List (Vec3 ℝ × Vec3 ℝ × Vec3 ℝ), (∀ e ∈ l, Follows cs e.1 e.2.1 ∧ Follows cs e.2.1 e.2.2) →
    (∀ m, polygonNormalLoop (l.map (fun e => (e.1.f, e.2.1.f, e.2.2.f))) = .ok m → m = (-n).f) ∧
    ((∃ e ∈ l, eps < side n e.1 e.2.1 e.2.2) → polygonNormalLoop (l.map (fun e => (e.1.f, e.2.1.f, e.2.2.f))) = .ok (-n).f)
  | [], _ => ⟨fun m h => by simp [polygonNormalLoop] at h, fun ⟨e, h, _⟩ => by simp at h⟩
  | e :: l, hl => by
    obtain ⟨ih1, ih2⟩ := normalLoop hc l (fun e he => hl e (by simp [he]))
    obtain ⟨f1, f2⟩ := hl e (by simp)
    have hx := corner_cross hc f1 f2
    have hs : 0 ≤ side n e.1 e.2.1 e.2.2 := hc.corner_side f1 (follows_mem f2).2
    have hE : (EPSILON : XReal) = fin eps := by rw [EPSILON_eq]; rfl
    simp only [List.map_cons, polygonNormalLoop, Vec3.f_sub, Vec3.f_cross, Vec3.f_magnitude, hx, scale_unit_len hc.unit, abs_neg, abs_of_nonneg hs, hE, fin_lt]
    by_cases hb : eps < side n e.1 e.2.1 e.2.2
    · rw [if_pos (by simp [hb])]
      have hne : side n e.1 e.2.1 e.2.2 ≠ 0 := by have := eps_pos; linarith
      have : ((n.scale (-side n e.1 e.2.1 e.2.2)).f).unscale (fin (side n e.1 e.2.1 e.2.2)) = (-n).f := by
        rw [Vec3.f_unscale _ hne]
        congr 1
        ext <;> simp <;> field_simp
      rw [this]
      exact ⟨fun m h => by cases h; rfl, fun _ => rfl⟩
    · rw [if_neg (by simp [hb])]
      refine ⟨ih1, fun ⟨e', he', h⟩ => ih2 ?_⟩
      rcases List.mem_cons.mp he' with rfl | he'
      · exact absurd h hb
      · exact ⟨e', he', h⟩

/-- The triples (previous, current, next) of `get_polygon_normal`. -/
def triples {τ : Type} (l : List τ) : List (τ × τ × τ) :=
  (l.drop (l.length - 1) ++ l.take (l.length - 1)).zip (l.zip (l.drop 1 ++ l.take 1))

theorem triples_map {τ σ : Type} (g : τ → σ) (l : List τ) : triples (l.map g) = (triples l).map (fun e => (g e.1, g e.2.1, g e.2.2)) := by
  unfold triples
  rw [List.length_map, ← List.map_drop, ← List.map_take, ← List.map_append, ← List.map_drop, ← List.map_take, ← List.map_append, List.zip_map, List.zip_map]
  congr 1

theorem triples_getElem? {τ : Type} (l : List τ) (k : ℕ) (hk : k < l.length) {a b c : τ} (ha : l[(k + (l.length - 1)) % l.length]? = some a) (hb : l[k]? = some b)
    (hc : l[(k + 1) % l.length]? = some c) : (triples l)[k]? = some (a, b, c) := by
  have h0 : 0 < l.length := by omega
  unfold triples
  rw [List.getElem?_zip_eq_some, List.getElem?_zip_eq_some]
  refine ⟨?_, hb, ?_⟩
  · rcases Nat.eq_zero_or_pos k with rfl | hp
    · rw [List.getElem?_append_left (by simp; omega), List.getElem?_drop]
      rw [Nat.zero_add, Nat.mod_eq_of_lt (by omega)] at ha
      exact ha
    · rw [List.getElem?_append_right (by simp; omega), List.length_drop, List.getElem?_take_of_lt (by omega)]
      have : k + (l.length - 1) = (k - 1) + l.length := by omega
      rw [this, Nat.add_mod_right, Nat.mod_eq_of_lt (by omega)] at ha
      have e : k - (l.length - (l.length - 1)) = k - 1 := by omega
      rw [e]; exact ha
  · by_cases hl : k + 1 < l.length
    · rw [Nat.mod_eq_of_lt hl] at hc
      rw [List.getElem?_append_left (by simp; omega), List.getElem?_drop, Nat.add_comm]
      exact hc
    · have : k + 1 = l.length := by omega
      rw [this, Nat.mod_self] at hc
      rw [List.getElem?_append_right (by simp; omega), List.getElem?_take_of_lt (by simp; omega), List.length_drop]
      have e : k - (l.length - 1) = 0 := by omega
      rw [e]; exact hc

theorem triples_length {τ : Type} (l : List τ) : (triples l).length = l.length := by
  unfold triples
  simp
  omega

/-- The triples are the pairs of edges that share a corner. -/
theorem triples_follow {τ : Type} {l : List τ} {e : τ × τ × τ} (h : e ∈ triples l) : Follows l e.1 e.2.1 ∧ Follows l e.2.1 e.2.2 := by
  obtain ⟨k, hk, he⟩ := List.mem_iff_getElem.mp h
  rw [triples_length] at hk
  have h0 : 0 < l.length := by omega
  have i1 : (k + (l.length - 1)) % l.length < l.length := Nat.mod_lt _ h0
  have i2 : (k + 1) % l.length < l.length := Nat.mod_lt _ h0
  have := triples_getElem? l k hk (List.getElem?_eq_getElem i1) (List.getElem?_eq_getElem hk) (List.getElem?_eq_getElem i2)
  rw [List.getElem?_eq_getElem (by rw [triples_length]; exact hk), he, Option.some.injEq] at this
  subst this
  refine ⟨⟨(k + (l.length - 1)) % l.length, i1, List.getElem?_eq_getElem i1, ?_⟩, ⟨k, hk, List.getElem?_eq_getElem hk, List.getElem?_eq_getElem i2⟩⟩
  have : ((k + (l.length - 1)) % l.length + 1) % l.length = k := by
    rw [Nat.mod_add_mod, show k + (l.length - 1) + 1 = k + l.length by omega, Nat.add_mod_right, Nat.mod_eq_of_lt hk]
  rw [this]; exact List.getElem?_eq_getElem hk

theorem follow_triples {τ : Type} {l : List τ} (hn : l.Nodup) {a b c : τ} (h1 : Follows l a b) (h2 : Follows l b c) : (a, b, c) ∈ triples l := by
  obtain ⟨k, hk, ha, hb⟩ := h1
  obtain ⟨j, hj, hb', hc⟩ := h2
  have h0 : 0 < l.length := by omega
  have i : (k + 1) % l.length < l.length := Nat.mod_lt _ h0
  have hkj : (k + 1) % l.length = j := by
    rw [List.getElem?_eq_getElem i, Option.some.injEq] at hb
    rw [List.getElem?_eq_getElem hj, Option.some.injEq] at hb'
    exact (List.Nodup.getElem_inj_iff hn).mp (hb.trans hb'.symm)
  refine List.mem_of_getElem? (triples_getElem? l j hj ?_ hb' hc)
  have : (j + (l.length - 1)) % l.length = k := by
    rw [← hkj, Nat.mod_add_mod, show k + 1 + (l.length - 1) = k + l.length by omega, Nat.add_mod_right, Nat.mod_eq_of_lt hk]
  rw [this]; exact ha

theorem polygonNormal_eq (hc : ConvexFace cs n) : (∀ m, polygonNormal (cs.map Vec3.f) = .ok m → m = (-n).f) ∧ (HasCorner cs n → polygonNormal (cs.map Vec3.f) = .ok (-n).f) := by
  have e : polygonNormal (cs.map Vec3.f) = polygonNormalLoop ((triples cs).map (fun e => (e.1.f, e.2.1.f, e.2.2.f))) := by
    rw [← triples_map]; rfl
  rw [e]
  obtain ⟨h1, h2⟩ := normalLoop hc (triples cs) (fun e he => triples_follow he)
  exact ⟨h1, fun ⟨a, b, c, f1, f2, h⟩ => h2 ⟨(a, b, c), follow_triples hc.distinct f1 f2, h⟩⟩

/-! ### The walk around a face -/

theorem walk_sound {x : Vec3 ℝ} : ∀ (l : List (Vec3 ℝ × Vec3 ℝ)),
    (pointInsideLoop x.f n.f (l.map (fun e => (e.1.f, e.2.f))) (fin 1) = true → (∃ e ∈ l, (x - e.1).len < eps) ∨ ∀ e ∈ l, -eps < side n e.1 e.2 x) ∧
    (pointInsideLoop x.f n.f (l.map (fun e => (e.1.f, e.2.f))) (fin (-1)) = true → (∃ e ∈ l, (x - e.1).len < eps) ∨ ∀ e ∈ l, side n e.1 e.2 x < eps) ∧
    (pointInsideLoop x.f n.f (l.map (fun e => (e.1.f, e.2.f))) (fin 0) = true →
      (∃ e ∈ l, (x - e.1).len < eps) ∨ (∀ e ∈ l, side n e.1 e.2 x < eps) ∨ ∀ e ∈ l, -eps < side n e.1 e.2 x)
  | [] => by simp
  | e :: l => by
    obtain ⟨i1, i2, i3⟩ := walk_sound l (x := x)
    have hp := eps_pos
    have hE : (EPSILON : XReal) = fin eps := by rw [EPSILON_eq]; rfl
    have hs : ((e.2 - e.1).cross (x - e.1)).dot n = side n e.1 e.2 x := rfl
    simp only [List.map_cons, pointInsideLoop, Vec3.f_sub, Vec3.f_magnitude, Vec3.f_cross, Vec3.f_dot, hs, fin_abs, hE, fin_lt, decide_eq_true_eq, zero_eq, fin_eq,
      fin_signum, List.forall_mem_cons, List.exists_mem_cons_iff]
    by_cases hn : (x - e.1).len < eps
    · simp [hn]
    simp only [hn, if_false, false_or]
    generalize side n e.1 e.2 x = s
    by_cases h : |s| < eps
    · have h' := abs_lt.mp h
      simp only [h, if_true, h'.1, h'.2, true_and]
      exact ⟨i1, i2, i3⟩
    · simp only [h, if_false]
      rcases le_or_gt 0 s with h0 | h0
      · rw [abs_of_nonneg h0] at h
        have hs2 : -eps < s := by linarith
        simp only [h0, if_true, hs2, true_and, h, false_and, false_or]
        norm_num
        simpa using i1
      · rw [abs_of_neg h0] at h
        have hs1 : ¬ (0 ≤ s) := by linarith
        have hs2 : s < eps := by linarith
        have hs3 : ¬ (-eps < s) := by linarith
        simp only [hs1, if_false, hs2, true_and, hs3, false_and, or_false]
        norm_num
        simpa using i2

theorem walk_left {x : Vec3 ℝ} : ∀ (l : List (Vec3 ℝ × Vec3 ℝ)), (∀ e ∈ l, -eps < side n e.1 e.2 x) →
    pointInsideLoop x.f n.f (l.map (fun e => (e.1.f, e.2.f))) (fin 1) = true ∧ pointInsideLoop x.f n.f (l.map (fun e => (e.1.f, e.2.f))) (fin 0) = true
  | [], _ => by simp [pointInsideLoop]
  | e :: l, hl => by
    obtain ⟨i1, i2⟩ := walk_left l (fun e he => hl e (by simp [he]))
    have hp := eps_pos
    have hE : (EPSILON : XReal) = fin eps := by rw [EPSILON_eq]; rfl
    have hs : ((e.2 - e.1).cross (x - e.1)).dot n = side n e.1 e.2 x := rfl
    simp only [List.map_cons, pointInsideLoop, Vec3.f_sub, Vec3.f_magnitude, Vec3.f_cross, Vec3.f_dot, hs, fin_abs, hE, fin_lt, decide_eq_true_eq, zero_eq, fin_eq,
      fin_signum]
    have h0 := hl e (by simp)
    generalize side n e.1 e.2 x = s at h0
    by_cases hn : (x - e.1).len < eps
    · simp [hn]
    simp only [hn, if_false]
    by_cases h : |s| < eps
    · simp only [h, if_true]; exact ⟨i1, i2⟩
    · simp only [h, if_false]
      have : 0 ≤ s := by
        by_contra hneg
        rw [abs_of_neg (by linarith)] at h
        linarith
      simp only [this, if_true]
      norm_num
      exact i1

theorem walk_right {x : Vec3 ℝ} : ∀ (l : List (Vec3 ℝ × Vec3 ℝ)), (∀ e ∈ l, side n e.1 e.2 x < eps) →
    pointInsideLoop x.f n.f (l.map (fun e => (e.1.f, e.2.f))) (fin (-1)) = true ∧ pointInsideLoop x.f n.f (l.map (fun e => (e.1.f, e.2.f))) (fin 0) = true
  | [], _ => by simp [pointInsideLoop]
  | e :: l, hl => by
    obtain ⟨i1, i2⟩ := walk_right l (fun e he => hl e (by simp [he]))
    have hp := eps_pos
    have hE : (EPSILON : XReal) = fin eps := by rw [EPSILON_eq]; rfl
    have hs : ((e.2 - e.1).cross (x - e.1)).dot n = side n e.1 e.2 x := rfl
    simp only [List.map_cons, pointInsideLoop, Vec3.f_sub, Vec3.f_magnitude, Vec3.f_cross, Vec3.f_dot, hs, fin_abs, hE, fin_lt, decide_eq_true_eq, zero_eq, fin_eq,
      fin_signum]
    have h0 := hl e (by simp)
    generalize side n e.1 e.2 x = s at h0
    by_cases hn : (x - e.1).len < eps
    · simp [hn]
    simp only [hn, if_false]
    by_cases h : |s| < eps
    · simp only [h, if_true]; exact ⟨i1, i2⟩
    · simp only [h, if_false]
      have : ¬ 0 ≤ s := by
        intro hpos
        rw [abs_of_nonneg hpos] at h
        exact h h0
      simp only [this, if_false]
      norm_num
      exact i1

/-- A walk that accepts the point, for either sense of the normal. -/
theorem walk_passes {x m : Vec3 ℝ} (hm : m = n ∨ m = -n) (h : pointInsideLoop x.f m.f (cyclicPairs (cs.map Vec3.f)) (fin 0) = true) : Passes cs n x := by
  rw [cyclicPairs_map] at h
  have key : Passes cs m x := by
    rcases (walk_sound _).2.2 h with ⟨e, he, h⟩ | h
    · exact .inr ⟨e.1, (follows_mem (mem_cyclicPairs.mp (show (e.1, e.2) ∈ _ from he))).1, h⟩
    · refine .inl ?_
      unfold Accepts
      simp only [← mem_cyclicPairs, Prod.forall] at h ⊢
      exact h
  rcases hm with rfl | rfl
  · exact key
  · exact key.imp accepts_neg.mp id

theorem walk_inside (hc : ConvexFace cs n) {x m : Vec3 ℝ} (hm : m = n ∨ m = -n) (h : InFace cs x) :
    pointInsideLoop x.f m.f (cyclicPairs (cs.map Vec3.f)) (fin 0) = true := by
  have hp := eps_pos
  rw [cyclicPairs_map]
  rcases hm with rfl | rfl
  · exact (walk_left _ (fun e he => by linarith [hc.side_nonneg (mem_cyclicPairs.mp (show (e.1, e.2) ∈ _ from he)) h])).2
  · refine (walk_right _ (fun e he => ?_)).2
    have := hc.side_nonneg (mem_cyclicPairs.mp (show (e.1, e.2) ∈ _ from he)) h
    have e' : side (-n) e.1 e.2 x = -side n e.1 e.2 x := by simp [side, Vec3.dot_def]; ring
    rw [e']; linarith

theorem InFace.within {z y : Vec3 ℝ} {R : ℝ} (h : InFace cs y) (hR : ∀ c ∈ cs, (c - z).len ≤ R) : (y - z).len ≤ R := by
  induction h with
  | corner h => exact hR _ h
  | @between x y k _ _ k0 k1 h1 h2 =>
    have e : x + (y - x).scale k - z = (x - z).scale (1 - k) + (y - z).scale k := by ext <;> simp <;> ring
    rw [e]
    calc ((x - z).scale (1 - k) + (y - z).scale k).len ≤ ((x - z).scale (1 - k)).len + ((y - z).scale k).len := len_triangle _ _
      _ = (x - z).len * (1 - k) + (y - z).len * k := by rw [Vec3.len_scale, Vec3.len_scale, abs_of_nonneg k0, abs_of_nonneg (by linarith)]
      _ ≤ R := by nlinarith

/-- A point that passes is near the face, in proportion to the face's room. -/
theorem passes_near (hc : ConvexFace cs n) {p z x : Vec3 ℝ} {ρ R : ℝ} (hp : p ∈ cs) (hρ : eps ≤ ρ) (hr : Room cs n z ρ R) (hx : (x - p).dot n = 0) (h : Passes cs n x) :
    ∃ y, InFace cs y ∧ (x - y).len ≤ eps * max 1 (R / ρ) := by
  have he := eps_pos
  rcases h with h | ⟨c, hcs, h⟩
  · obtain ⟨y, hy, hl⟩ := accepts_near hc hp hρ hr.inside (hr.flat p hp) hx h
    refine ⟨y, hy, ?_⟩
    have hyz := hy.within hr.within
    have htri : (x - z).len ≤ (x - y).len + (y - z).len := by
      have : x - z = (x - y) + (y - z) := by ext <;> simp
      rw [this]; exact len_triangle _ _
    have hk : 0 < eps + ρ := by linarith
    have hρ0 : 0 < ρ := by linarith
    have h1 : (x - y).len * (eps + ρ) ≤ eps * (x - z).len := by
      have := mul_le_mul_of_nonneg_right hl hk.le
      rw [div_mul_eq_mul_div, div_mul_cancel₀ _ hk.ne'] at this
      exact this
    have h2 : (x - y).len * ρ ≤ eps * R := by nlinarith
    have h3 : (x - y).len ≤ eps * (R / ρ) := by
      rw [← mul_div_assoc, le_div_iff₀ hρ0]; exact h2
    exact h3.trans (mul_le_mul_of_nonneg_left (le_max_right _ _) he.le)
  · refine ⟨c, .corner hcs, h.le.trans ?_⟩
    calc eps = eps * 1 := (mul_one _).symm
      _ ≤ _ := mul_le_mul_of_nonneg_left (le_max_left _ _) he.le

/-! ### One point against one face -/

/-- A quotient of finite numbers is finite and in the unit interval, or out of the question. -/
theorem time_cases (x y : ℝ) :
    ((!Scalar.isFinite (fin x / fin y) || Scalar.lt (fin x / fin y) zero || Scalar.lt one (fin x / fin y)) = true ∧ ∀ t, 0 ≤ t → t ≤ 1 → y ≠ 0 → x ≠ y * t) ∨
    ((!Scalar.isFinite (fin x / fin y) || Scalar.lt (fin x / fin y) zero || Scalar.lt one (fin x / fin y)) = false ∧ y ≠ 0 ∧
      ∃ t, fin x / fin y = fin t ∧ 0 ≤ t ∧ t ≤ 1 ∧ x = y * t) := by
  rw [fin_div']
  by_cases hy : y = 0
  · left
    rw [if_pos hy]
    refine ⟨?_, fun t _ _ h => absurd hy h⟩
    unfold infSign
    split
    · rfl
    · split <;> rfl
  · rw [if_neg hy]
    have hfin : Scalar.isFinite (fin (x / y)) = true := rfl
    simp only [hfin, zero_eq, one_eq, fin_lt, Bool.not_true, Bool.false_or]
    by_cases h : 0 ≤ x / y ∧ x / y ≤ 1
    · right
      refine ⟨by simp [h.1, h.2], hy, x / y, rfl, h.1, h.2, by field_simp⟩
    · left
      refine ⟨?_, fun t t0 t1 _ he => h ?_⟩
      · by_cases h0 : 0 ≤ x / y
        · have : 1 < x / y := by by_contra hc; exact h ⟨h0, not_lt.mp hc⟩
          simp [this]
        · simp [not_le.mp h0]
      · rw [he, mul_div_cancel_left₀ _ hy]; exact ⟨t0, t1⟩

theorem along_sub_dot (p d a n : Vec3 ℝ) (t : ℝ) : (along p d t - a).dot n = (p - a).dot n + d.dot n * t := by
  simp [along, Vec3.dot_def]; ring

/-- What the loop over the edges keeps: the start values, or a time at which the point is on the line of an edge, between its ends. -/
theorem skim_loop {p q m : Vec3 ℝ} : ∀ (l : List (Vec3 ℝ × Vec3 ℝ)) (T : XReal) (P : Vec3 XReal), (∀ e ∈ l, m.cross (e.2 - e.1) ≠ .o) →
    alongPlaneLoop p.f q.f m.f (l.map (fun e => (e.1.f, e.2.f))) T P = (T, P) ∨ p ≠ q ∧ ∃ e ∈ l, ∃ t, 0 ≤ t ∧ t ≤ 1 ∧
      alongPlaneLoop p.f q.f m.f (l.map (fun e => (e.1.f, e.2.f))) T P = (fin t, (along p (q - p) t).f) ∧
      (along p (q - p) t - e.1).dot (m.cross (e.2 - e.1)) = 0 ∧ 0 ≤ (along p (q - p) t - e.1).dot (e.2 - e.1) ∧
      (along p (q - p) t - e.1).dot (e.2 - e.1) ≤ (e.2 - e.1).dot (e.2 - e.1)
  | [], T, P, _ => .inl rfl
  | e :: l, T, P, hl => by
    have hne := hl e (by simp)
    have ih := fun T P => skim_loop l T P (fun e he => hl e (by simp [he])) (p := p) (q := q)
    have keep : ∀ T P, alongPlaneLoop p.f q.f m.f (l.map (fun e => (e.1.f, e.2.f))) T P = (T, P) ∨ _ := ih
    have lift : ∀ r, (∃ e ∈ l, ∃ t, 0 ≤ t ∧ t ≤ 1 ∧ r = (fin t, (along p (q - p) t).f) ∧
      (along p (q - p) t - e.1).dot (m.cross (e.2 - e.1)) = 0 ∧ 0 ≤ (along p (q - p) t - e.1).dot (e.2 - e.1) ∧
      (along p (q - p) t - e.1).dot (e.2 - e.1) ≤ (e.2 - e.1).dot (e.2 - e.1)) → ∃ e' ∈ e :: l, ∃ t, 0 ≤ t ∧ t ≤ 1 ∧ r = (fin t, (along p (q - p) t).f) ∧
      (along p (q - p) t - e'.1).dot (m.cross (e'.2 - e'.1)) = 0 ∧ 0 ≤ (along p (q - p) t - e'.1).dot (e'.2 - e'.1) ∧
      (along p (q - p) t - e'.1).dot (e'.2 - e'.1) ≤ (e'.2 - e'.1).dot (e'.2 - e'.1) := fun r ⟨e', he', h⟩ => ⟨e', by simp [he'], h⟩
    simp only [List.map_cons, alongPlaneLoop, Vec3.f_sub, Vec3.f_cross, Vec3.f_normalize hne, Vec3.f_dot, fin_sub, fin_neg]
    generalize hx : (p - e.1).dot ((m.cross (e.2 - e.1)).scale (m.cross (e.2 - e.1)).len⁻¹) = x
    generalize hy : -((q - e.1).dot ((m.cross (e.2 - e.1)).scale (m.cross (e.2 - e.1)).len⁻¹) - x) = y
    rcases time_cases x y with ⟨h, -⟩ | ⟨h, hy0, t, ht, t0, t1, hxy⟩
    · rw [if_pos h]
      exact (ih T P).imp id (fun h => ⟨h.1, lift _ h.2⟩)
    · rw [if_neg (by rw [h]; exact Bool.false_ne_true), ht]
      have hpq : p ≠ q := by
        rintro rfl
        rw [hx] at hy
        simp at hy
        exact hy0 hy.symm
      have hpos : p.f + (q - p).f.scale (fin t) = (along p (q - p) t).f := by rw [Vec3.f_scale, Vec3.f_add]; rfl
      have hzero : (along p (q - p) t - e.1).dot (m.cross (e.2 - e.1)) = 0 := by
        have hlen : (m.cross (e.2 - e.1)).len⁻¹ ≠ 0 := inv_ne_zero (Vec3.len_pos hne).ne'
        have hs : ∀ u : Vec3 ℝ, u.dot ((m.cross (e.2 - e.1)).scale (m.cross (e.2 - e.1)).len⁻¹) = u.dot (m.cross (e.2 - e.1)) * (m.cross (e.2 - e.1)).len⁻¹ := by
          intro u; generalize m.cross (e.2 - e.1) = w; generalize w.len⁻¹ = k; simp [Vec3.dot_def]; ring
        have hA : (along p (q - p) t - e.1).dot ((m.cross (e.2 - e.1)).scale (m.cross (e.2 - e.1)).len⁻¹) = 0 := by
          rw [along_sub_dot, hx]
          have e2 : (q - p).dot ((m.cross (e.2 - e.1)).scale (m.cross (e.2 - e.1)).len⁻¹) = -y := by
            rw [← hy, ← hx]; generalize (m.cross (e.2 - e.1)).scale (m.cross (e.2 - e.1)).len⁻¹ = w; simp [Vec3.dot_def]; ring
          rw [e2]; linarith
        rw [hs] at hA
        exact (mul_eq_zero.mp hA).resolve_right hlen
      rw [hpos]
      simp only [Vec3.f_sub, Vec3.f_dot, zero_eq, fin_lt, Bool.or_eq_true, decide_eq_true_eq]
      by_cases hal : (along p (q - p) t - e.1).dot (e.2 - e.1) < 0 ∨ (e.2 - e.1).dot (e.2 - e.1) < (along p (q - p) t - e.1).dot (e.2 - e.1)
      · rw [if_pos hal]
        exact (ih T P).imp id (fun h => ⟨h.1, lift _ h.2⟩)
      · rw [if_neg hal]
        have hal1 : 0 ≤ (along p (q - p) t - e.1).dot (e.2 - e.1) := not_lt.mp (fun h => hal (.inl h))
        have hal2 : (along p (q - p) t - e.1).dot (e.2 - e.1) ≤ (e.2 - e.1).dot (e.2 - e.1) := not_lt.mp (fun h => hal (.inr h))
        split
        · right
          refine ⟨hpq, ?_⟩
          rcases ih (fin t) (along p (q - p) t).f with h | ⟨-, h⟩
          · exact ⟨e, by simp, t, t0, t1, h, hzero, hal1, hal2⟩
          · exact lift _ h
        · exact (ih T P).imp id (fun h => ⟨h.1, lift _ h.2⟩)

/-- A vector that is perpendicular to a direction of the plane and to its perpendicular in the plane is along the normal. -/
theorem only_normal {w d : Vec3 ℝ} (hn : n.dot n = 1) (hd : d.dot n = 0) (hd0 : d ≠ .o) (h1 : w.dot d = 0) (h2 : w.dot (n.cross d) = 0) : w = n.scale (w.dot n) := by
  have e1 : (w - n.scale (w.dot n)).dot n = 0 := by
    have : (w - n.scale (w.dot n)).dot n = w.dot n - w.dot n * n.dot n := by simp [Vec3.dot_def]; ring
    rw [this, hn]; ring
  have hx := cross_along hn e1 hd
  have e2 : ((w - n.scale (w.dot n)).cross d).dot n = -w.dot (n.cross d) := by
    generalize w.dot n = k
    simp [Vec3.dot_def]; ring
  rw [e2, h2, neg_zero] at hx
  have e3 : (w - n.scale (w.dot n)).dot d = 0 := by
    have : (w - n.scale (w.dot n)).dot d = w.dot d - w.dot n * d.dot n := by simp [Vec3.dot_def]; ring
    rw [this, h1, hd]; ring
  have lag : ∀ u v : Vec3 ℝ, (u.cross v).dot (u.cross v) + u.dot v * u.dot v = u.dot u * v.dot v := fun u v => by simp [Vec3.dot_def]; ring
  have := lag (w - n.scale (w.dot n)) d
  rw [hx, e3] at this
  have hz : (n.scale 0).dot (n.scale 0) = 0 := by simp [Vec3.dot_def]
  rw [hz] at this
  have hdd : d.dot d ≠ 0 := fun h => hd0 ((Vec3.dot_self_eq_zero _).mp h)
  have hw : (w - n.scale (w.dot n)).dot (w - n.scale (w.dot n)) = 0 := by
    rcases mul_eq_zero.mp (show (w - n.scale (w.dot n)).dot (w - n.scale (w.dot n)) * d.dot d = 0 by linarith) with h | h
    · exact h
    · exact absurd h hdd
  have := (Vec3.dot_self_eq_zero _).mp hw
  generalize w.dot n = k at this ⊢
  have hx := congrArg Vec3.x this; have hy := congrArg Vec3.y this; have hz := congrArg Vec3.z this
  simp at hx hy hz
  ext <;> simp <;> linarith

/-- The normal points back to where the point comes from; if it starts within the cut-off of the plane, away from where it goes. -/
def Back (p q a m : Vec3 ℝ) : Prop := (eps ≤ |(p - a).dot m| ∧ 0 < (p - a).dot m) ∨ (|(p - a).dot m| ≤ eps ∧ (q - a).dot m ≤ 0)

theorem orient_back (p q a n : Vec3 ℝ) : ∃ m, orientNormal p.f q.f a.f (-n).f = m.f ∧ (m = n ∨ m = -n) ∧ Back p q a m := by
  have hE : (EPSILON : XReal) = fin eps := by rw [EPSILON_eq]; rfl
  have hm : (-n).f.scale (lit (-1) 1 : XReal) = n.f := by
    rw [lit_eq, Vec3.f_scale]; congr 1; ext <;> simp
  have he := eps_pos
  have hd : ∀ u : Vec3 ℝ, u.dot (-n) = -u.dot n := fun u => by simp [Vec3.dot_def]; ring
  unfold orientNormal
  simp only [Vec3.f_sub, Vec3.f_dot, hE, fin_neg, fin_lt, hm, zero_eq, decide_eq_true_eq, hd]
  by_cases h1 : -(p - a).dot n < -eps
  · rw [if_pos h1]
    exact ⟨n, rfl, .inl rfl, .inl ⟨(by linarith : eps ≤ (p - a).dot n).trans (le_abs_self _), by linarith⟩⟩
  · rw [if_neg h1]
    by_cases h2 : -(p - a).dot n < eps
    · rw [if_pos h2]
      have hab : |(p - a).dot n| ≤ eps := abs_le.mpr ⟨by linarith, by linarith⟩
      by_cases h3 : 0 < -(q - a).dot n
      · rw [if_pos h3]
        exact ⟨n, rfl, .inl rfl, .inr ⟨hab, by linarith⟩⟩
      · rw [if_neg h3]
        refine ⟨-n, rfl, .inr rfl, .inr ⟨by rw [hd, abs_neg]; exact hab, by rw [hd]; linarith⟩⟩
    · rw [if_neg h2]
      refine ⟨-n, rfl, .inr rfl, .inl ⟨?_, by rw [hd]; linarith⟩⟩
      rw [hd]; exact (by linarith : eps ≤ -(p - a).dot n).trans (le_abs_self _)

theorem f_onPlane (p a n : Vec3 ℝ) : pointIsOnPlane p.f (-n).f a.f = decide (|(p - a).dot n| < eps) := by
  have hE : (EPSILON : XReal) = fin eps := by rw [EPSILON_eq]; rfl
  have hd : (p - a).dot (-n) = -(p - a).dot n := by simp [Vec3.dot_def]; ring
  unfold pointIsOnPlane
  simp only [Vec3.f_sub, Vec3.f_dot, fin_abs, hE, fin_lt, hd, abs_neg]

theorem first_corner {a : Vec3 ℝ} (ha : cs[0]? = some a) : index (cs.map Vec3.f) 0 = .ok a.f := by
  rw [index_ok]; simp [ha]

/-- **C70**, one corner against one face, completeness: a point that passes through a convex face, not staying within the cut-off of its plane, is reported with the time,
the place and the normal of the face that points back. -/
theorem C70_point_complete (hc : ConvexFace cs n) (hk : HasCorner cs n) {a p q : Vec3 ℝ} (ha : cs[0]? = some a) (hs : ¬ Skims p q a n) {t : ℝ} (t0 : 0 ≤ t) (t1 : t ≤ 1)
    (h : InFace cs (along p (q - p) t)) : ∃ m, collidePointPolygon p.f q.f (cs.map Vec3.f) = .ok (some ⟨Range.single (fin t), (along p (q - p) t).f, m.f⟩) ∧
      (m = n ∨ m = -n) ∧ Back p q a m := by
  have hN := (polygonNormal_eq hc).2 hk
  have hflat := hc.flat_face (List.mem_of_getElem? ha) h
  rw [along_sub_dot] at hflat
  have hne : (q - p).dot n ≠ 0 := by
    intro h0
    rw [h0] at hflat
    have e : (q - a).dot n = (p - a).dot n + (q - p).dot n := by simp [Vec3.dot_def]; ring
    have hp : (p - a).dot n = 0 := by linarith
    refine hs ⟨?_, ?_⟩
    · rw [hp, abs_zero]; exact eps_pos
    · rw [e, hp, h0, add_zero, abs_zero]; exact eps_pos
  obtain ⟨m, hm, hmn, hb⟩ := orient_back p q a n
  refine ⟨m, ?_, hmn, hb⟩
  rw [pointPolygon_through (t := fin t) hN (first_corner ha)]
  · have hpos : p.f + (q.f - p.f).scale (fin t) = (along p (q - p) t).f := by rw [Vec3.f_sub, Vec3.f_scale, Vec3.f_add]; rfl
    rw [hpos, hm, zero_eq, walk_inside hc hmn h, if_pos rfl]
  · rw [f_onPlane, f_onPlane, Bool.and_eq_false_iff]
    by_contra hcon
    simp only [decide_eq_false_iff_not, not_or, not_not] at hcon
    exact hs hcon
  · have hd : ∀ u : Vec3 ℝ, u.dot (-n) = -u.dot n := fun u => by simp [Vec3.dot_def]; ring
    rw [Vec3.f_sub, Vec3.f_sub, Vec3.f_dot, Vec3.f_dot, fin_neg, hd, hd, neg_neg, fin_div hne]
    congr 1
    rw [div_eq_iff hne]; linarith
  · simp [t0, t1]

/-- **C70**, one corner against one face, soundness: a reported point is on the way of the corner, which moves; it is on the plane and passes the walk, or the way stays within
the cut-off of the plane and the point is within the cut-off of an edge. -/
theorem C70_point_reported (hc : ConvexFace cs n) {a p q : Vec3 ℝ} (ha : cs[0]? = some a) {C : Collision XReal}
    (h : collidePointPolygon p.f q.f (cs.map Vec3.f) = .ok (some C)) :
    p ≠ q ∧ ∃ t m, 0 ≤ t ∧ t ≤ 1 ∧ C = ⟨Range.single (fin t), (along p (q - p) t).f, m.f⟩ ∧ (m = n ∨ m = -n) ∧
      (¬ Skims p q a n ∧ Back p q a m ∧ (along p (q - p) t - a).dot n = 0 ∧ Passes cs n (along p (q - p) t) ∨
        Skims p q a n ∧ ∃ y, InFace cs y ∧ (along p (q - p) t - y).len < eps) := by
  have ham := List.mem_of_getElem? ha
  unfold collidePointPolygon at h
  obtain ⟨N, hN, h⟩ := Res.bind_eq_ok.mp h
  rw [first_corner ha, Res.ok_bind] at h
  have hN := (polygonNormal_eq hc).1 N hN
  subst hN
  rw [f_onPlane, f_onPlane] at h
  by_cases hs : Skims p q a n
  · rw [if_pos (by simp [hs.1, hs.2])] at h
    have hnd : ∀ e ∈ cyclicPairs cs, (-n).cross (e.2 - e.1) ≠ .o ∧ e.1 ∈ cs ∧ e.2 ∈ cs ∧ e.2 - e.1 ≠ .o := by
      intro e he
      have hf := mem_cyclicPairs.mp (show (e.1, e.2) ∈ _ from he)
      have hm := follows_mem hf
      have hd0 : e.2 - e.1 ≠ .o := by
        obtain ⟨c, hcs, hc1, hc2⟩ : ∃ c ∈ cs, c ≠ e.1 ∧ c ≠ e.2 := by
          by_contra hcon
          have hsub : cs ⊆ [e.1, e.2] := fun c hcs => by
            by_contra hx
            simp at hx
            exact hcon ⟨c, hcs, hx.1, hx.2⟩
          have := (List.Nodup.subperm hc.distinct hsub).length_le
          have := hc.three
          simp at *; omega
        intro h0
        have := hc.turn e.1 e.2 hf c hcs hc1 hc2
        unfold side at this
        rw [h0] at this
        simp [Vec3.dot_def] at this
      refine ⟨fun h0 => hd0 ?_, hm.1, hm.2, hd0⟩
      have lag : ∀ u v : Vec3 ℝ, (u.cross v).dot (u.cross v) + u.dot v * u.dot v = u.dot u * v.dot v := fun u v => by simp [Vec3.dot_def]; ring
      have := lag (-n) (e.2 - e.1)
      have e1 : (-n).dot (e.2 - e.1) = -(e.2 - e.1).dot n := by simp [Vec3.dot_def]; ring
      have e2 : (-n).dot (-n) = n.dot n := by simp [Vec3.dot_def]
      rw [h0, e1, e2, hc.flat e.1 hm.1 e.2 hm.2, hc.unit] at this
      simp [Vec3.dot_def] at this
      refine (Vec3.dot_self_eq_zero _).mp ?_
      simp [Vec3.dot_def]; linarith
    rw [cyclicPairs_map] at h
    rcases skim_loop (p := p) (q := q) (m := -n) (cyclicPairs cs) two Vec3.zeros (fun e he => (hnd e he).1) with h' | ⟨hpq, e, he, t, t0, t1, h', z1, z2, z3⟩
    · rw [h'] at h
      simp only [two_eq, one_eq, fin_le] at h
      rw [if_neg (by norm_num)] at h
      cases h
    · rw [h'] at h
      simp only [one_eq, fin_le] at h
      rw [if_pos (by simp [t1])] at h
      cases h
      refine ⟨hpq, t, -n, t0, t1, rfl, .inr rfl, .inr ⟨hs, ?_⟩⟩
      obtain ⟨-, m1, m2, hd0⟩ := hnd e he
      have hdd : (e.2 - e.1).dot (e.2 - e.1) ≠ 0 := fun h => hd0 ((Vec3.dot_self_eq_zero _).mp h)
      have hdp : 0 < (e.2 - e.1).dot (e.2 - e.1) := lt_of_le_of_ne (Vec3.dot_self_nonneg _) (Ne.symm hdd)
      let x := along p (q - p) t
      let k := (x - e.1).dot (e.2 - e.1) / (e.2 - e.1).dot (e.2 - e.1)
      refine ⟨e.1 + (e.2 - e.1).scale k, .between (.corner m1) (.corner m2) (div_nonneg z2 hdp.le) ((div_le_one hdp).mpr z3), ?_⟩
      have hw : x - (e.1 + (e.2 - e.1).scale k) = n.scale ((x - (e.1 + (e.2 - e.1).scale k)).dot n) := by
        refine only_normal hc.unit (hc.flat e.1 m1 e.2 m2) hd0 ?_ ?_
        · have : (x - (e.1 + (e.2 - e.1).scale k)).dot (e.2 - e.1) = (x - e.1).dot (e.2 - e.1) - k * (e.2 - e.1).dot (e.2 - e.1) := by
            generalize k = k; simp [Vec3.dot_def]; ring
          rw [this, div_mul_cancel₀ _ hdd, sub_self]
        · have : (x - (e.1 + (e.2 - e.1).scale k)).dot (n.cross (e.2 - e.1)) = -(x - e.1).dot ((-n).cross (e.2 - e.1)) := by
            generalize k = k; simp [Vec3.dot_def]; ring
          rw [this, z1, neg_zero]
      have hx : (x - (e.1 + (e.2 - e.1).scale k)).dot n = (x - a).dot n := by
        have : (x - (e.1 + (e.2 - e.1).scale k)).dot n = (x - a).dot n - (e.1 - a).dot n - k * (e.2 - e.1).dot n := by
          generalize k = k; simp [Vec3.dot_def]; ring
        rw [this, hc.flat a ham e.1 m1, hc.flat e.1 m1 e.2 m2]; ring
      show (x - (e.1 + (e.2 - e.1).scale k)).len < eps
      rw [hw, scale_unit_len hc.unit, hx]
      show |(along p (q - p) t - a).dot n| < eps
      rw [along_sub_dot]
      have e5 : (p - a).dot n + (q - p).dot n * t = (p - a).dot n * (1 - t) + (q - a).dot n * t := by simp [Vec3.dot_def]; ring
      rw [e5]
      have h1 := abs_lt.mp hs.1
      have h2 := abs_lt.mp hs.2
      rw [abs_lt]
      constructor <;> rcases t0.eq_or_lt with rfl | tp <;> nlinarith
  · have hoff : ¬ (decide (|(p - a).dot n| < eps) && decide (|(q - a).dot n| < eps)) = true := by
      simp only [Bool.and_eq_true, decide_eq_true_eq]; exact hs
    rw [if_neg hoff] at h
    have hd : ∀ u : Vec3 ℝ, u.dot (-n) = -u.dot n := fun u => by simp [Vec3.dot_def]; ring
    simp only [Vec3.f_sub, Vec3.f_dot, fin_neg, hd, neg_neg] at h
    rcases time_cases (-(p - a).dot n) ((q - p).dot n) with ⟨ht, -⟩ | ⟨ht, hy, t, htt, t0, t1, he⟩
    · rw [if_pos ht] at h; cases h
    · rw [if_neg (by rw [ht]; exact Bool.false_ne_true), htt] at h
      obtain ⟨m, hm, hmn, hb⟩ := orient_back p q a n
      have hpos : p.f + (q - p).f.scale (fin t) = (along p (q - p) t).f := by rw [Vec3.f_scale, Vec3.f_add]; rfl
      rw [hpos, hm] at h
      split at h
      case isTrue hw =>
        cases h
        refine ⟨?_, t, m, t0, t1, rfl, hmn, .inl ⟨hs, hb, ?_, walk_passes hmn (by rw [← zero_eq]; exact hw)⟩⟩
        · rintro rfl; apply hy; simp [Vec3.dot_def]
        · rw [along_sub_dot]; linarith
      case isFalse => cases h

end

/-! ### Two meshes, one of them at rest -/

/-- Every face is convex and has a corner that is not too flat. -/
def Solid (vs : List (Vec3 ℝ)) (fs : List (List Nat)) : Prop := ∀ f ∈ fs, ∃ cs n, Corners vs f cs ∧ ConvexFace cs n ∧ HasCorner cs n

section
variable {o : Orientation ℝ} (ho : o.Unit) (q : Vec3 ℝ) {cs : List (Vec3 ℝ)} {n : Vec3 ℝ}

theorem world_diff (a b : Vec3 ℝ) : o.toWorld (q + b) - o.toWorld (q + a) = o.rotation.rot (b - a) := by
  unfold Orientation.toWorld
  simp only [Quat.rot_add, Quat.rot_sub]
  ext <;> simp

theorem follows_world {τ ρ : Type} (g : τ → ρ) {l : List τ} {a b : τ} (h : Follows l a b) : Follows (l.map g) (g a) (g b) := by
  obtain ⟨k, hk, h1, h2⟩ := h
  exact ⟨k, by simpa using hk, by simp [h1], by simp [h2]⟩

include ho in
theorem world_side (n a b x : Vec3 ℝ) : side (o.rotation.rot n) (o.toWorld (q + a)) (o.toWorld (q + b)) (o.toWorld (q + x)) = side n a b x := by
  rw [side_world ho]
  simp [side, Vec3.dot_def]

include ho in
theorem HasCorner.world (h : HasCorner cs n) : HasCorner (cs.map (fun p => o.toWorld (q + p))) (o.rotation.rot n) := by
  obtain ⟨a, b, c, h1, h2, h3⟩ := h
  exact ⟨_, _, _, follows_world _ h1, follows_world _ h2, by rw [world_side ho]; exact h3⟩

include ho in
theorem Room.world {z : Vec3 ℝ} {ρ R : ℝ} (h : Room cs n z ρ R) : Room (cs.map (fun p => o.toWorld (q + p))) (o.rotation.rot n) (o.toWorld (q + z)) ρ R := by
  refine ⟨fun c hc => ?_, fun a b hf => ?_, fun c hc => ?_⟩
  · obtain ⟨c, hc', rfl⟩ := List.mem_map.mp hc
    rw [world_diff, Quat.rot_dot _ _ ho]; exact h.flat c hc'
  · obtain ⟨a, b, hf', rfl, rfl⟩ := follows_map hf
    rw [world_side ho]; exact h.inside a b hf'
  · obtain ⟨c, hc', rfl⟩ := List.mem_map.mp hc
    rw [world_diff]
    have := h.within c hc'
    unfold Vec3.len at this ⊢
    rw [Quat.rot_dot _ _ ho]; exact this

theorem world_inFace {x : Vec3 ℝ} (h : InFace (cs.map (fun p => o.toWorld (q + p))) x) : ∃ y, InFace cs y ∧ x = o.toWorld (q + y) := by
  induction h with
  | corner h =>
    obtain ⟨c, hc, rfl⟩ := List.mem_map.mp h
    exact ⟨c, .corner hc, rfl⟩
  | @between _ _ k _ _ k0 k1 h1 h2 =>
    obtain ⟨x, hx, rfl⟩ := h1
    obtain ⟨y, hy, rfl⟩ := h2
    refine ⟨_, .between hx hy k0 k1, ?_⟩
    unfold Orientation.toWorld
    simp only [Quat.rot_add, Quat.rot_sub, Quat.rot_scale]
    ext <;> simp <;> ring

theorem shifted_rest : shifted o .o 1 = o := by
  unfold shifted along
  have : o.position + (Vec3.o).scale 1 = o.position := by ext <;> simp
  rw [this]

theorem shifted_unit {d : Vec3 ℝ} {t : ℝ} (ho : o.Unit) : (shifted o d t).Unit := ho
end

section
variable {M : MeshCollider XReal} {vs : List (Vec3 ℝ)} {q : Vec3 ℝ} {o : Orientation ℝ}

theorem pairs_world (ho : o.Unit) (d : Vec3 ℝ) (hM : M.vertices = vs.map Vec3.f) (hq : M.position = q.f) : meshPointPairs M o.f (shifted o d 1).f =
    vs.map (fun x => ((o.toWorld (q + x)).f, (along (o.toWorld (q + x)) d 1).f)) := by
  unfold meshPointPairs
  rw [hM, hq, List.map_map]
  refine List.map_congr_left (fun x _ => ?_)
  simp only [Function.comp, Vec3.f_add]
  rw [Orientation.f_positionIntoWorld _ _ ho, Orientation.f_positionIntoWorld _ _ (shifted_unit ho), shifted_world]

/-- The corners of a face half way. -/
theorem mid_world (ho : o.Unit) (d : Vec3 ℝ) (hM : M.vertices = vs.map Vec3.f) (hq : M.position = q.f) {f : List Nat} {cs : List (Vec3 ℝ)} (h : Corners vs f cs) :
    midFace (meshPointPairs M o.f (shifted o d 1).f) f = .ok ((cs.map (fun p => (shifted o d (1 / 2)).toWorld (q + p))).map Vec3.f) := by
  rw [pairs_world ho d hM hq]
  unfold Corners at h
  induction h with
  | nil => rfl
  | @cons i p f cs hi _ ih =>
    have hidx : index (vs.map (fun x => ((o.toWorld (q + x)).f, (along (o.toWorld (q + x)) d 1).f))) i = .ok ((o.toWorld (q + p)).f, (along (o.toWorld (q + p)) d 1).f) := by
      rw [index_ok]; simp [hi]
    simp only [midFace, hidx, ih, Res.ok_bind, List.map_cons]
    have : ((o.toWorld (q + p)).f + (along (o.toWorld (q + p)) d 1).f).unscale (two : XReal) = ((shifted o d (1 / 2)).toWorld (q + p)).f := by
      rw [two_eq, Vec3.f_add, Vec3.f_unscale_two, shifted_world]
      congr 1
      unfold along
      ext <;> simp <;> ring
    rw [this]

theorem solid_normals (ho : o.Unit) (d : Vec3 ℝ) (hM : M.vertices = vs.map Vec3.f) (hq : M.position = q.f) (hs : Solid vs M.faces) :
    MidNormal (meshPointPairs M o.f (shifted o d 1).f) M.faces := by
  intro f hf
  obtain ⟨cs, n, h1, h2, h3⟩ := hs f hf
  have hu : (shifted o d (1 / 2)).Unit := ho
  have h0 := (h2.world hu q).three
  obtain ⟨a, ha⟩ : ∃ a, (cs.map (fun p => (shifted o d (1 / 2)).toWorld (q + p)))[0]? = some a := ⟨_, List.getElem?_eq_getElem (by omega)⟩
  exact ⟨_, _, a.f, mid_world ho d hM hq h1, (polygonNormal_eq (h2.world hu q)).2 (h3.world hu q), first_corner ha⟩
end

section
variable {m1 m2 : MeshCollider XReal} {vs1 vs2 : List (Vec3 ℝ)} {q1 q2 d : Vec3 ℝ} {o1 o2 : Orientation ℝ}

/-- The corners of a mesh at rest hit nothing. -/
theorem rest_corners {M N : MeshCollider XReal} {vs ws : List (Vec3 ℝ)} {q r d : Vec3 ℝ} {o u : Orientation ℝ} (ho : o.Unit) (hu : u.Unit)
    (hM : M.vertices = vs.map Vec3.f) (hq : M.position = q.f) (hN : N.vertices = ws.map Vec3.f) (hr : N.position = r.f) (hs : Solid vs M.faces) (C : Collision XReal) :
    ¬ PointHit (meshPointPairs N u.f u.f) (meshPointPairs M o.f (shifted o d 1).f) M.faces C := by
  rintro ⟨p, hp, f, hf, poly, hm, h⟩
  obtain ⟨cs, n, h1, h2, -⟩ := hs f hf
  rw [midPolygon_unique hm (midFace_ok (mid_world ho d hM hq h1))] at h
  have : meshPointPairs N u.f u.f = meshPointPairs N u.f (shifted u .o 1).f := by rw [shifted_rest]
  rw [this, pairs_world hu .o hN hr] at hp
  obtain ⟨v, -, rfl⟩ := List.mem_map.mp hp
  have h3 := (h2.world (shifted_unit (d := d) (t := 1 / 2) ho) q).three
  obtain ⟨a, ha⟩ : ∃ a, (cs.map (fun p => (shifted o d (1 / 2)).toWorld (q + p)))[0]? = some a := ⟨_, List.getElem?_eq_getElem (by omega)⟩
  refine (C70_point_reported (h2.world (shifted_unit (d := d) (t := 1 / 2) ho) q) ha h).1 ?_
  unfold along
  ext <;> simp

/-- The hits of the corners of a moving mesh on the faces of a mesh at rest. -/
theorem moving_corners (ho1 : o1.Unit) (ho2 : o2.Unit) (h1 : m1.vertices = vs1.map Vec3.f) (hq1 : m1.position = q1.f) (h2 : m2.vertices = vs2.map Vec3.f)
    (hq2 : m2.position = q2.f) (C : Collision XReal) :
    PointHit (meshPointPairs m1 o1.f (shifted o1 d 1).f) (meshPointPairs m2 o2.f o2.f) m2.faces C ↔
      ∃ v ∈ vs1, ∃ f ∈ m2.faces, ∃ poly, MidPolygon (meshPointPairs m2 o2.f o2.f) f poly ∧
        collidePointPolygon (o1.toWorld (q1 + v)).f ((shifted o1 d 1).toWorld (q1 + v)).f poly = .ok (some C) := by
  rw [pairs_world ho1 d h1 hq1]
  constructor
  · rintro ⟨p, hp, f, hf, poly, hm, h⟩
    obtain ⟨v, hv, rfl⟩ := List.mem_map.mp hp
    refine ⟨v, hv, f, hf, poly, hm, ?_⟩
    rw [shifted_world]; exact h
  · rintro ⟨v, hv, f, hf, poly, hm, h⟩
    refine ⟨_, List.mem_map.mpr ⟨v, hv, rfl⟩, f, hf, poly, hm, ?_⟩
    rw [shifted_world] at h; exact h

theorem rest_mid (ho2 : o2.Unit) (h2 : m2.vertices = vs2.map Vec3.f) (hq2 : m2.position = q2.f) {f : List Nat} {cs : List (Vec3 ℝ)} (h : Corners vs2 f cs) :
    MidPolygon (meshPointPairs m2 o2.f o2.f) f ((cs.map (fun p => o2.toWorld (q2 + p))).map Vec3.f) := by
  have := midFace_ok (mid_world ho2 .o h2 hq2 h)
  rw [shifted_rest] at this
  have e : shifted o2 .o (1 / 2) = o2 := by
    unfold shifted along
    have : o2.position + (Vec3.o).scale (1 / 2) = o2.position := by ext <;> simp
    rw [this]
  rw [e] at this
  exact this

/-- A corner of the moving mesh is at a point of a face of the mesh at rest at time `t`, and its way does not stay within the cut-off of the plane of the face. -/
def CornerMeets (q1 : Vec3 ℝ) (vs1 : List (Vec3 ℝ)) (o1 : Orientation ℝ) (d : Vec3 ℝ) (q2 : Vec3 ℝ) (vs2 : List (Vec3 ℝ)) (fs2 : List (List Nat)) (o2 : Orientation ℝ)
    (t : ℝ) : Prop :=
  ∃ v ∈ vs1, ∃ f ∈ fs2, ∃ cs n y, Corners vs2 f cs ∧ ConvexFace cs n ∧ InFace cs y ∧ (shifted o1 d t).toWorld (q1 + v) = o2.toWorld (q2 + y) ∧
    ∀ c ∈ cs, ¬ Skims (o1.toWorld (q1 + v)) ((shifted o1 d 1).toWorld (q1 + v)) (o2.toWorld (q2 + c)) (o2.rotation.rot n)

theorem along_chord (x d : Vec3 ℝ) (t : ℝ) : along x (along x d 1 - x) t = along x d t := by
  unfold along
  ext <;> simp

theorem square_one {k : ℝ} (h : k ^ 2 = 1) : k = 1 ∨ k = -1 := by
  have : (k - 1) * (k + 1) = 0 := by ring_nf; linarith
  rcases mul_eq_zero.mp this with h | h
  · left; linarith
  · right; linarith

theorem cornerMeets_hit (ho1 : o1.Unit) (ho2 : o2.Unit) (h1 : m1.vertices = vs1.map Vec3.f) (hq1 : m1.position = q1.f) (h2 : m2.vertices = vs2.map Vec3.f)
    (hq2 : m2.position = q2.f) (s2 : Solid vs2 m2.faces) {t : ℝ} (t0 : 0 ≤ t) (t1 : t ≤ 1) (h : CornerMeets q1 vs1 o1 d q2 vs2 m2.faces o2 t) :
    ∃ C, PointHit (meshPointPairs m1 o1.f (shifted o1 d 1).f) (meshPointPairs m2 o2.f o2.f) m2.faces C ∧ C.times.min = fin t := by
  obtain ⟨v, hv, f, hf, cs, n, y, hcs, hc, hy, he, hs⟩ := h
  obtain ⟨cs', n', hcs', hc', hk⟩ := s2 f hf
  have := hcs.unique hcs'
  subst this
  have hw := hc'.world ho2 q2
  have h3 := hc.three
  obtain ⟨a, ha⟩ : ∃ a, cs[0]? = some a := ⟨_, List.getElem?_eq_getElem (by omega)⟩
  have ha' : (cs.map (fun p => o2.toWorld (q2 + p)))[0]? = some (o2.toWorld (q2 + a)) := by simp [ha]
  have hnn : n' = n ∨ n' = -n := by
    obtain ⟨c, e, b, f1, f2, hlt⟩ := hk
    have k1 := corner_cross hc f1 f2
    have k2 := corner_cross hc' f1 f2
    have hp := eps_pos
    have hne : side n' c e b ≠ 0 := by linarith
    have heq : n'.scale (-side n' c e b) = n.scale (-side n c e b) := k2.symm.trans k1
    have e1 : n' = n.scale (side n c e b / side n' c e b) := by
      have hx := congrArg Vec3.x heq; have hy := congrArg Vec3.y heq; have hz := congrArg Vec3.z heq
      simp at hx hy hz
      ext <;> simp <;> field_simp <;> linarith
    have hu := hc'.unit
    rw [e1] at hu
    have : (n.scale (side n c e b / side n' c e b)).dot (n.scale (side n c e b / side n' c e b)) = n.dot n * (side n c e b / side n' c e b) ^ 2 := by
      generalize side n c e b / side n' c e b = k; simp [Vec3.dot_def]; ring
    rw [this, hc.unit, one_mul] at hu
    rcases square_one hu with h | h <;> rw [h] at e1
    · left; rw [e1]; ext <;> simp
    · right; rw [e1]; ext <;> simp
  have hs' : ¬ Skims (o1.toWorld (q1 + v)) ((shifted o1 d 1).toWorld (q1 + v)) (o2.toWorld (q2 + a)) (o2.rotation.rot n') := by
    rcases hnn with rfl | rfl
    · exact hs a (List.mem_of_getElem? ha)
    · have e : o2.rotation.rot (-n) = -o2.rotation.rot n := by
        have := Quat.rot_scale o2.rotation n (-1)
        have e1 : n.scale (-1) = -n := by ext <;> simp
        have e2 : (o2.rotation.rot n).scale (-1) = -o2.rotation.rot n := by ext <;> simp
        rw [← e1, this, e2]
      have hd : ∀ u m : Vec3 ℝ, u.dot (-m) = -u.dot m := fun u m => by simp [Vec3.dot_def]; ring
      unfold Skims
      rw [e, hd, hd, abs_neg, abs_neg]
      exact hs a (List.mem_of_getElem? ha)
  have hy' := inFace_world (o := o2) q2 hy
  rw [← he, shifted_world] at hy'
  obtain ⟨m, hm, -, -⟩ := C70_point_complete hw (hk.world ho2 q2) ha' hs' t0 t1 (by
    rw [shifted_world, along_chord]; exact hy')
  refine ⟨_, (moving_corners ho1 ho2 h1 hq1 h2 hq2 _).mpr ⟨v, hv, f, hf, _, rest_mid ho2 h2 hq2 hcs, hm⟩, ?_⟩
  rfl

/-- The hits that decide whether two meshes collide are those of the moving corners, for either order of the meshes. -/
theorem meshes_report (ho1 : o1.Unit) (ho2 : o2.Unit) (h1 : m1.vertices = vs1.map Vec3.f) (hq1 : m1.position = q1.f) (h2 : m2.vertices = vs2.map Vec3.f)
    (hq2 : m2.position = q2.f) (s1 : Solid vs1 m1.faces) (s2 : Solid vs2 m2.faces) (swap : Bool) :
    ∃ r, (if swap then collide (.mesh m2) o2.f o2.f (.mesh m1) o1.f (shifted o1 d 1).f else collide (.mesh m1) o1.f (shifted o1 d 1).f (.mesh m2) o2.f o2.f) = .ok r ∧
      (∀ C, r = some C → (∃ D k, PointHit (meshPointPairs m1 o1.f (shifted o1 d 1).f) (meshPointPairs m2 o2.f o2.f) m2.faces D ∧
          Turned (meshPointPairs m1 o1.f (shifted o1 d 1).f) k D C ∧ (k = lit (-1) 1 ∨ k = one)) ∧
        ∀ D, PointHit (meshPointPairs m1 o1.f (shifted o1 d 1).f) (meshPointPairs m2 o2.f o2.f) m2.faces D → Scalar.le C.times.min D.times.min = true) ∧
      (r = none → ∀ D, ¬ PointHit (meshPointPairs m1 o1.f (shifted o1 d 1).f) (meshPointPairs m2 o2.f o2.f) m2.faces D) := by
  have n1 := solid_normals ho1 d h1 hq1 s1
  have n2 : MidNormal (meshPointPairs m2 o2.f o2.f) m2.faces := by
    have := solid_normals ho2 .o h2 hq2 s2
    rw [shifted_rest] at this; exact this
  have hno := rest_corners (d := d) ho1 ho2 h1 hq1 h2 hq2 s1
  cases swap with
  | false =>
    obtain ⟨r, hr⟩ := meshMesh_ok n1 n2
    refine ⟨r, hr, ?_⟩
    obtain ⟨a, b⟩ := C47_meshMesh hr
    refine ⟨fun C hC => ?_, fun h D hD => b.mp h D (.inl hD)⟩
    obtain ⟨c1, c2⟩ := a C hC
    refine ⟨?_, fun D hD => c2 D (.inl hD)⟩
    rcases c1 with ⟨D, e1, e2⟩ | ⟨D, e1, -⟩
    · exact ⟨D, _, e1, e2, .inl rfl⟩
    · exact absurd e1 (hno D)
  | true =>
    obtain ⟨r, hr⟩ := meshMesh_ok n2 n1
    refine ⟨r, hr, ?_⟩
    obtain ⟨a, b⟩ := C47_meshMesh hr
    refine ⟨fun C hC => ?_, fun h D hD => b.mp h D (.inr hD)⟩
    obtain ⟨c1, c2⟩ := a C hC
    refine ⟨?_, fun D hD => c2 D (.inr hD)⟩
    rcases c1 with ⟨D, e1, -⟩ | ⟨D, e1, e2⟩
    · exact absurd e1 (hno D)
    · exact ⟨D, _, e1, e2, .inr rfl⟩

/-- **C70 (partial)**, completeness. A mesh that moves without turning and a mesh at rest, both of convex faces: if a corner of the moving mesh is at a point of a face of the
other at time `t`, a contact is reported with a time that is not later, whichever mesh comes first. -/
theorem C70_corner_partial (ho1 : o1.Unit) (ho2 : o2.Unit) (h1 : m1.vertices = vs1.map Vec3.f) (hq1 : m1.position = q1.f) (h2 : m2.vertices = vs2.map Vec3.f)
    (hq2 : m2.position = q2.f) (s1 : Solid vs1 m1.faces) (s2 : Solid vs2 m2.faces) {t : ℝ} (t0 : 0 ≤ t) (t1 : t ≤ 1) (h : CornerMeets q1 vs1 o1 d q2 vs2 m2.faces o2 t) :
    (∃ C u, collide (.mesh m1) o1.f (shifted o1 d 1).f (.mesh m2) o2.f o2.f = .ok (some C) ∧ C.times.min = fin u ∧ 0 ≤ u ∧ u ≤ t) ∧
    (∃ C u, collide (.mesh m2) o2.f o2.f (.mesh m1) o1.f (shifted o1 d 1).f = .ok (some C) ∧ C.times.min = fin u ∧ 0 ≤ u ∧ u ≤ t) := by
  obtain ⟨D, hD, hDt⟩ := cornerMeets_hit ho1 ho2 h1 hq1 h2 hq2 s2 t0 t1 h
  have key : ∀ swap : Bool, ∃ C u, (if swap then collide (.mesh m2) o2.f o2.f (.mesh m1) o1.f (shifted o1 d 1).f
      else collide (.mesh m1) o1.f (shifted o1 d 1).f (.mesh m2) o2.f o2.f) = .ok (some C) ∧ C.times.min = fin u ∧ 0 ≤ u ∧ u ≤ t := by
    intro swap
    obtain ⟨r, hr, a, b⟩ := meshes_report (d := d) ho1 ho2 h1 hq1 h2 hq2 s1 s2 swap
    cases r with
    | none => exact absurd hD (b rfl D)
    | some C =>
      obtain ⟨⟨E, k, hE, hT, -⟩, hmin⟩ := a C rfl
      obtain ⟨v, -, f, hf, poly, hp, hh⟩ := (moving_corners ho1 ho2 h1 hq1 h2 hq2 _).mp hE
      obtain ⟨cs, n, hcs, hc, -⟩ := s2 f hf
      rw [midPolygon_unique hp (rest_mid ho2 h2 hq2 hcs)] at hh
      have h3 := (hc.world ho2 q2).three
      obtain ⟨a, ha⟩ : ∃ a, (cs.map (fun p => o2.toWorld (q2 + p)))[0]? = some a := ⟨_, List.getElem?_eq_getElem (by omega)⟩
      obtain ⟨-, u, m, u0, u1, hEq, -⟩ := C70_point_reported (hc.world ho2 q2) ha hh
      have hCt : C.times.min = fin u := by rw [hT.1, hEq]; rfl
      refine ⟨C, u, hr, hCt, u0, ?_⟩
      have := hmin D hD
      rw [hCt, hDt] at this
      simpa using this
  exact ⟨key false, key true⟩

/-- **C70 (partial)**, soundness. A mesh that moves without turning and a mesh at rest, both of convex faces: what is reported is where a corner of the moving mesh is at the reported
time; that point is near a face of the other mesh, within the cut-off in proportion to the face's room; and the normal is the face's, in one of its two senses. -/
theorem C70_reported_partial (ho1 : o1.Unit) (ho2 : o2.Unit) (h1 : m1.vertices = vs1.map Vec3.f) (hq1 : m1.position = q1.f) (h2 : m2.vertices = vs2.map Vec3.f)
    (hq2 : m2.position = q2.f) (s1 : Solid vs1 m1.faces) (s2 : Solid vs2 m2.faces) {C : Collision XReal}
    (h : collide (.mesh m1) o1.f (shifted o1 d 1).f (.mesh m2) o2.f o2.f = .ok (some C) ∨ collide (.mesh m2) o2.f o2.f (.mesh m1) o1.f (shifted o1 d 1).f = .ok (some C)) :
    ∃ v ∈ vs1, ∃ f ∈ m2.faces, ∃ cs n t, Corners vs2 f cs ∧ ConvexFace cs n ∧ 0 ≤ t ∧ t ≤ 1 ∧ C.times.min = fin t ∧
      C.position = ((shifted o1 d t).toWorld (q1 + v)).f ∧ (C.normal = (o2.rotation.rot n).f ∨ C.normal = (-o2.rotation.rot n).f) ∧
      ∀ z ρ R, eps ≤ ρ → Room cs n z ρ R → ∃ y, InFace cs y ∧ ((shifted o1 d t).toWorld (q1 + v) - o2.toWorld (q2 + y)).len ≤ eps * max 1 (R / ρ) := by
  obtain ⟨swap, hsw⟩ : ∃ swap : Bool, (if swap then collide (.mesh m2) o2.f o2.f (.mesh m1) o1.f (shifted o1 d 1).f
      else collide (.mesh m1) o1.f (shifted o1 d 1).f (.mesh m2) o2.f o2.f) = .ok (some C) := by
    rcases h with h | h
    · exact ⟨false, h⟩
    · exact ⟨true, h⟩
  obtain ⟨r, hr, a, -⟩ := meshes_report (d := d) ho1 ho2 h1 hq1 h2 hq2 s1 s2 swap
  rw [hsw] at hr
  cases hr
  obtain ⟨⟨E, k, hE, hT, hk⟩, -⟩ := a C rfl
  obtain ⟨v, hv, f, hf, poly, hp, hh⟩ := (moving_corners ho1 ho2 h1 hq1 h2 hq2 _).mp hE
  obtain ⟨cs, n, hcs, hc, -⟩ := s2 f hf
  rw [midPolygon_unique hp (rest_mid ho2 h2 hq2 hcs)] at hh
  have hw := hc.world ho2 q2
  have h3 := hc.three
  obtain ⟨c, hc0⟩ : ∃ c, cs[0]? = some c := ⟨_, List.getElem?_eq_getElem (by omega)⟩
  have ha' : (cs.map (fun p => o2.toWorld (q2 + p)))[0]? = some (o2.toWorld (q2 + c)) := by simp [hc0]
  obtain ⟨-, t, m, t0, t1, rfl, hm, hcase⟩ := C70_point_reported hw ha' hh
  rw [shifted_world, along_chord, ← shifted_world] at hcase
  refine ⟨v, hv, f, hf, cs, n, t, hcs, hc, t0, t1, by rw [hT.1]; rfl, by rw [hT.2.1]; simp only [shifted_world, along_chord], ?_, ?_⟩
  · have hneg : ∀ w : Vec3 ℝ, w.f.scale (lit (-1) 1 : XReal) = (-w).f := fun w => by
      rw [lit_eq, Vec3.f_scale]; congr 1; ext <;> simp
    have hone : ∀ w : Vec3 ℝ, w.f.scale (one : XReal) = w.f := fun w => by
      rw [one_eq, Vec3.f_scale]; congr 1; ext <;> simp
    have hnn : ∀ w : Vec3 ℝ, - -w = w := fun w => by ext <;> simp
    have hN := hT.2.2
    simp only at hN
    rcases Nat.lt_or_ge (meshPointPairs m1 o1.f (shifted o1 d 1).f).length (2 * (meshPointPairs m1 o1.f (shifted o1 d 1).f).countP
        (fun p => Scalar.lt ((pointAt (Range.single (fin t)).min p - (along (o1.toWorld (q1 + v)) ((shifted o1 d 1).toWorld (q1 + v) - o1.toWorld (q1 + v)) t).f).dot m.f) zero)) with hl | hl
    · rw [hN.2 hl, hneg]
      rcases hk with rfl | rfl <;> rcases hm with rfl | rfl <;> simp only [hneg, hone, hnn, true_or, or_true]
    · rw [hN.1 hl]
      rcases hk with rfl | rfl <;> rcases hm with rfl | rfl <;> simp only [hneg, hone, hnn, true_or, or_true]
  · intro z ρ R hρ hR
    simp only [shifted_world] at hcase ⊢
    rcases hcase with ⟨-, -, hflat, hpass⟩ | ⟨-, y, hy, hl⟩
    · obtain ⟨y, hy, hl⟩ := passes_near hw (List.mem_of_getElem? ha') hρ (hR.world ho2 q2) hflat hpass
      obtain ⟨y, hy', rfl⟩ := world_inFace q2 hy
      exact ⟨y, hy', hl⟩
    · obtain ⟨y, hy', rfl⟩ := world_inFace q2 hy
      refine ⟨y, hy', hl.le.trans ?_⟩
      calc eps = eps * 1 := (mul_one _).symm
        _ ≤ _ := mul_le_mul_of_nonneg_left (le_max_left _ _) eps_pos.le
end

/-! ### Examples, and where the claim fails -/

/-- Two meshes that move without turning share a point at time `t`. -/
def MeshesMeet (q1 : Vec3 ℝ) (vs1 : List (Vec3 ℝ)) (fs1 : List (List Nat)) (o1 : Orientation ℝ) (d1 : Vec3 ℝ) (q2 : Vec3 ℝ) (vs2 : List (Vec3 ℝ)) (fs2 : List (List Nat))
    (o2 : Orientation ℝ) (d2 : Vec3 ℝ) (t : ℝ) : Prop :=
  ∃ x y, InMesh q1 vs1 fs1 x ∧ InMesh q2 vs2 fs2 y ∧ (shifted o1 d1 t).toWorld x = (shifted o2 d2 t).toWorld y

namespace Slab
theorem triangle_solid {a b c n : Vec3 ℝ} (hn : n.dot n = 1) (h1 : (b - a).dot n = 0) (h2 : (c - a).dot n = 0) (h : eps < side n a b c) :
    Solid [a, b, c] (triangle [a, b, c]).faces := by
  intro f hf
  have hf : f = [0, 1, 2] := by simpa [triangle] using hf
  subst hf
  refine ⟨[a, b, c], n, ?_, .triangle hn h1 h2 (eps_pos.trans h), a, b, c, ?_, ?_, h⟩
  · exact .cons rfl (.cons rfl (.cons rfl .nil))
  · rw [follows_triangle]; exact .inl ⟨rfl, rfl⟩
  · rw [follows_triangle]; exact .inr (.inl ⟨rfl, rfl⟩)

theorem put_shift (p d : Vec3 ℝ) (t : ℝ) : shifted (Crate.put p) d t = Crate.put (p + d.scale t) := rfl
theorem put_toWorld (p x : Vec3 ℝ) : (Crate.put p).toWorld x = p + x := by
  unfold Orientation.toWorld Crate.put
  ext <;> simp [Quat.e, Quat.rot, Quat.vec] <;> ring

/-- A triangle of the plane z = 0 and another whose corners keep a distance of 1 from that plane: nothing is reported. -/
theorem aside {a b c : Vec3 ℝ} {ws : List (Vec3 ℝ)} (ha : a.z = 0) (hb : b.z = 0) (hc : c.z = 0) (hs : eps < side ⟨0, 0, 1⟩ a b c)
    (hw : ∀ v ∈ ws, |v.z| = 1) {x y z : Vec3 ℝ} (hws : ws = [x, y, z]) (hso : Solid ws (triangle ws).faces) {p d : Vec3 ℝ} (hp : p.z = 0) (hd : d.z = 0) :
    collide (.mesh (triangle ws)) (Crate.put p).f (Crate.put (p + d)).f (.mesh (triangle [a, b, c])) (Crate.put .o).f (Crate.put .o).f = .ok none ∧
    collide (.mesh (triangle [a, b, c])) (Crate.put .o).f (Crate.put .o).f (.mesh (triangle ws)) (Crate.put p).f (Crate.put (p + d)).f = .ok none := by
  have hsol : Solid [a, b, c] (triangle [a, b, c]).faces :=
    triangle_solid (n := ⟨0, 0, 1⟩) (by norm_num [Vec3.dot_def]) (by simp [Vec3.dot_def, ha, hb]) (by simp [Vec3.dot_def, ha, hc]) hs
  have hsh : shifted (Crate.put p) d 1 = Crate.put (p + d) := by
    rw [put_shift]; congr 1; ext <;> simp
  have key : ∀ swap : Bool, (if swap then collide (.mesh (triangle [a, b, c])) (Crate.put .o).f (Crate.put .o).f (.mesh (triangle ws)) (Crate.put p).f (shifted (Crate.put p) d 1).f
      else collide (.mesh (triangle ws)) (Crate.put p).f (shifted (Crate.put p) d 1).f (.mesh (triangle [a, b, c])) (Crate.put .o).f (Crate.put .o).f) = .ok none := by
    intro swap
    obtain ⟨r, hr, h, -⟩ := meshes_report (m1 := triangle ws) (m2 := triangle [a, b, c]) (vs1 := ws) (vs2 := [a, b, c]) (q1 := .o) (q2 := .o) (d := d) (Crate.put_unit p) (Crate.put_unit .o)
      rfl rfl rfl rfl hso hsol swap
    cases r with
    | none => exact hr
    | some C =>
      exfalso
      obtain ⟨⟨D, -, hD, -⟩, -⟩ := h C rfl
      obtain ⟨v, hv, f, hf, poly, hm, hh⟩ := (moving_corners (m1 := triangle ws) (m2 := triangle [a, b, c]) (vs1 := ws) (vs2 := [a, b, c]) (q1 := .o) (q2 := .o) (d := d)
        (Crate.put_unit p) (Crate.put_unit .o) rfl rfl rfl rfl D).mp hD
      have hf : f = [0, 1, 2] := by simpa [triangle] using hf
      subst hf
      have hcs : Corners [a, b, c] [0, 1, 2] [a, b, c] := .cons rfl (.cons rfl (.cons rfl .nil))
      rw [midPolygon_unique hm (rest_mid (m2 := triangle [a, b, c]) (q2 := .o) (Crate.put_unit .o) rfl rfl hcs)] at hh
      have e : [a, b, c].map (fun p => (Crate.put .o).toWorld (.o + p)) = [a, b, c] := by
        have : ∀ p : Vec3 ℝ, (Crate.put .o).toWorld (.o + p) = p := fun p => by rw [put_toWorld]; ext <;> simp
        simp only [List.map, this]
      rw [e, put_shift, put_toWorld, put_toWorld] at hh
      obtain ⟨-, t, m, -, -, -, -, h⟩ := C70_point_reported (n := ⟨0, 0, 1⟩) (.triangle (by norm_num [Vec3.dot_def]) (by simp [Vec3.dot_def, ha, hb]) (by simp [Vec3.dot_def, ha, hc])
        (eps_pos.trans hs)) (a := a) rfl hh
      have hv := hw v hv
      rcases h with ⟨-, -, h, -⟩ | ⟨h, -⟩
      · simp [along, Vec3.dot_def, ha, hp, hd] at h
        rw [h] at hv; norm_num at hv
      · have := h.1
        simp [Vec3.dot_def, ha, hp, hv] at this
        unfold eps at this; norm_num at this
  have h1 := key false
  have h2 := key true
  rw [hsh] at h1 h2
  exact ⟨h1, h2⟩

theorem inMesh_triangle {a b c x : Vec3 ℝ} : InMesh .o [a, b, c] (triangle [a, b, c]).faces x ↔ InFace [a, b, c] x := by
  have hcs : Corners [a, b, c] [0, 1, 2] [a, b, c] := .cons rfl (.cons rfl (.cons rfl .nil))
  have z : ∀ y : Vec3 ℝ, .o + y = y := fun y => by ext <;> simp
  constructor
  · rintro ⟨f, hf, cs, hc, y, hy, rfl⟩
    have hf : f = [0, 1, 2] := by simpa [triangle] using hf
    subst hf
    rw [hc.unique hcs] at hy
    rw [z]; exact hy
  · intro h
    exact ⟨[0, 1, 2], by simp [triangle], _, hcs, x, h, (z x).symm⟩

theorem middle_of {cs : List (Vec3 ℝ)} {a b x : Vec3 ℝ} (ha : InFace cs a) (hb : InFace cs b) (hx : x = (a + b).scale (1 / 2)) : InFace cs x := by
  have := InFace.between ha hb (k := 1 / 2) (by norm_num) (by norm_num)
  have e : x = a + (b - a).scale (1 / 2) := by rw [hx]; ext <;> simp <;> ring
  rw [e]; exact this
end Slab

/-- **C70 fails** for a face that moves onto a corner: a triangle falls flat on the tip of a triangle at rest, the tip goes through its middle, and nothing is reported. -/
theorem C70_false : ∃ (m1 m2 : MeshCollider XReal) (vs1 vs2 : List (Vec3 ℝ)) (o1 o2 : Orientation ℝ) (d : Vec3 ℝ),
    Collider.newFrom (.mesh m1) = some (.mesh m1) ∧ Collider.newFrom (.mesh m2) = some (.mesh m2) ∧ o1.Unit ∧ o2.Unit ∧ m1.vertices = vs1.map Vec3.f ∧ m1.position = (Vec3.o).f ∧
    m2.vertices = vs2.map Vec3.f ∧ m2.position = (Vec3.o).f ∧ MeshesMeet .o vs1 m1.faces o1 d .o vs2 m2.faces o2 .o (1 / 2) ∧
    collide (.mesh m1) o1.f (shifted o1 d 1).f (.mesh m2) o2.f o2.f = .ok none ∧ collide (.mesh m2) o2.f o2.f (.mesh m1) o1.f (shifted o1 d 1).f = .ok none := by
  have h := Slab.aside (a := ⟨0, 0, 0⟩) (b := ⟨-1, -1, 0⟩) (c := ⟨1, -1, 0⟩) (ws := [⟨-1, 0, -1⟩, ⟨0, 0, 1⟩, ⟨1, 0, -1⟩]) rfl rfl rfl
    (by unfold eps side; norm_num [Vec3.dot_def]) (by simp) rfl
    (Slab.triangle_solid (n := ⟨0, 1, 0⟩) (by norm_num [Vec3.dot_def]) (by simp [Vec3.dot_def]) (by simp [Vec3.dot_def]) (by unfold eps side; norm_num [Vec3.dot_def]))
    (p := ⟨0, 1, 0⟩) (d := ⟨0, -2, 0⟩) rfl rfl
  have hsh : shifted (Crate.put ⟨0, 1, 0⟩) ⟨0, -2, 0⟩ 1 = Crate.put (⟨0, 1, 0⟩ + ⟨0, -2, 0⟩) := by
    rw [Slab.put_shift]; congr 1; ext <;> simp
  refine ⟨_, _, _, _, Crate.put ⟨0, 1, 0⟩, Crate.put .o, ⟨0, -2, 0⟩, Slab.triangle_valid rfl, Slab.triangle_valid rfl, Crate.put_unit _, Crate.put_unit _, rfl, rfl, rfl, rfl, ?_,
    by rw [hsh]; exact h.1, by rw [hsh]; exact h.2⟩
  refine ⟨⟨0, 0, 0⟩, ⟨0, 0, 0⟩, Slab.inMesh_triangle.mpr ?_, Slab.inMesh_triangle.mpr (.corner (by simp)), ?_⟩
  · refine Slab.middle_of (a := ⟨0, 0, -1⟩) (b := ⟨0, 0, 1⟩) ?_ (.corner (by simp)) (by ext <;> simp)
    exact Slab.middle_of (a := ⟨-1, 0, -1⟩) (b := ⟨1, 0, -1⟩) (.corner (by simp)) (.corner (by simp)) (by ext <;> simp <;> norm_num)
  · rw [Slab.put_shift, Slab.put_shift, Slab.put_toWorld, Slab.put_toWorld]
    ext <;> simp

/-- **C70 fails** for two edges that cross: an upright triangle falls with its lower edge across the upper edge of a triangle at rest, and nothing is reported. -/
theorem C70_false_edges : ∃ (m1 m2 : MeshCollider XReal) (vs1 vs2 : List (Vec3 ℝ)) (o1 o2 : Orientation ℝ) (d : Vec3 ℝ),
    Collider.newFrom (.mesh m1) = some (.mesh m1) ∧ Collider.newFrom (.mesh m2) = some (.mesh m2) ∧ o1.Unit ∧ o2.Unit ∧ m1.vertices = vs1.map Vec3.f ∧ m1.position = (Vec3.o).f ∧
    m2.vertices = vs2.map Vec3.f ∧ m2.position = (Vec3.o).f ∧ MeshesMeet .o vs1 m1.faces o1 d .o vs2 m2.faces o2 .o (1 / 2) ∧
    (∀ v ∈ vs1, ∀ t, 0 ≤ t → t ≤ 1 → ∀ y, InMesh .o vs2 m2.faces y → (shifted o1 d t).toWorld v ≠ o2.toWorld y) ∧
    (∀ v ∈ vs2, ∀ t, 0 ≤ t → t ≤ 1 → ∀ y, InMesh .o vs1 m1.faces y → o2.toWorld v ≠ (shifted o1 d t).toWorld y) ∧
    collide (.mesh m1) o1.f (shifted o1 d 1).f (.mesh m2) o2.f o2.f = .ok none ∧ collide (.mesh m2) o2.f o2.f (.mesh m1) o1.f (shifted o1 d 1).f = .ok none := by
  have h := Slab.aside (a := ⟨-1, 0, 0⟩) (b := ⟨1, -1, 0⟩) (c := ⟨1, 0, 0⟩) (ws := [⟨0, 0, -1⟩, ⟨0, 3, 1⟩, ⟨0, 0, 1⟩]) rfl rfl rfl
    (by unfold eps side; norm_num [Vec3.dot_def]) (by simp) rfl
    (Slab.triangle_solid (n := ⟨1, 0, 0⟩) (by norm_num [Vec3.dot_def]) (by simp [Vec3.dot_def]) (by simp [Vec3.dot_def]) (by unfold eps side; norm_num [Vec3.dot_def]))
    (p := ⟨0, 1, 0⟩) (d := ⟨0, -2, 0⟩) rfl rfl
  have hsh : shifted (Crate.put ⟨0, 1, 0⟩) ⟨0, -2, 0⟩ 1 = Crate.put (⟨0, 1, 0⟩ + ⟨0, -2, 0⟩) := by
    rw [Slab.put_shift]; congr 1; ext <;> simp
  refine ⟨_, _, _, _, Crate.put ⟨0, 1, 0⟩, Crate.put .o, ⟨0, -2, 0⟩, Slab.triangle_valid rfl, Slab.triangle_valid rfl, Crate.put_unit _, Crate.put_unit _, rfl, rfl, rfl, rfl, ?_, ?_, ?_,
    by rw [hsh]; exact h.1, by rw [hsh]; exact h.2⟩
  · refine ⟨⟨0, 0, 0⟩, ⟨0, 0, 0⟩, Slab.inMesh_triangle.mpr ?_, Slab.inMesh_triangle.mpr ?_, ?_⟩
    · exact Slab.middle_of (a := ⟨0, 0, -1⟩) (b := ⟨0, 0, 1⟩) (.corner (by simp)) (.corner (by simp)) (by ext <;> simp)
    · exact Slab.middle_of (a := ⟨-1, 0, 0⟩) (b := ⟨1, 0, 0⟩) (.corner (by simp)) (.corner (by simp)) (by ext <;> simp)
    · rw [Slab.put_shift, Slab.put_shift, Slab.put_toWorld, Slab.put_toWorld]
      ext <;> simp
  · intro v hv t _ _ y hy he
    have hy := Slab.inMesh_triangle.mp hy
    have h1 := hy.atMost (d := ⟨0, 0, 1⟩) (b := 0) (by simp [Vec3.dot_def])
    have h2 := hy.atMost (d := ⟨0, 0, -1⟩) (b := 0) (by simp [Vec3.dot_def])
    rw [Slab.put_shift, Slab.put_toWorld, Slab.put_toWorld] at he
    have := congrArg Vec3.z he
    simp [Vec3.dot_def] at h1 h2 this
    simp at hv
    rcases hv with rfl | rfl | rfl <;> simp at this <;> linarith
  · intro v hv t _ _ y hy he
    have hy := Slab.inMesh_triangle.mp hy
    have h1 := hy.atMost (d := ⟨1, 0, 0⟩) (b := 0) (by simp [Vec3.dot_def])
    have h2 := hy.atMost (d := ⟨-1, 0, 0⟩) (b := 0) (by simp [Vec3.dot_def])
    rw [Slab.put_shift, Slab.put_toWorld, Slab.put_toWorld] at he
    have := congrArg Vec3.x he
    simp [Vec3.dot_def] at h1 h2 this
    simp at hv
    rcases hv with rfl | rfl | rfl <;> simp at this <;> linarith

/-- **C70 fails** the other way when both meshes move: a triangle on its tip and a flat triangle half a unit below it fall together, never touch, and a contact is reported. -/
theorem C70_false_chase : ∃ (m1 m2 : MeshCollider XReal) (vs1 vs2 : List (Vec3 ℝ)) (o1 o2 : Orientation ℝ) (d : Vec3 ℝ) (C : Collision XReal),
    Collider.newFrom (.mesh m1) = some (.mesh m1) ∧ Collider.newFrom (.mesh m2) = some (.mesh m2) ∧ o1.Unit ∧ o2.Unit ∧ m1.vertices = vs1.map Vec3.f ∧ m1.position = (Vec3.o).f ∧
    m2.vertices = vs2.map Vec3.f ∧ m2.position = (Vec3.o).f ∧ (∀ t, ¬ MeshesMeet .o vs1 m1.faces o1 d .o vs2 m2.faces o2 d t) ∧
    collide (.mesh m1) o1.f (shifted o1 d 1).f (.mesh m2) o2.f (shifted o2 d 1).f = .ok (some C) := by
  have s1 : Solid Slab.tipped (Slab.triangle Slab.tipped).faces :=
    Slab.triangle_solid (n := ⟨0, 0, -1⟩) (by norm_num [Vec3.dot_def]) (by simp [Vec3.dot_def]) (by simp [Vec3.dot_def]) (by unfold eps side; norm_num [Vec3.dot_def])
  have s2 : Solid Slab.corners (Slab.triangle Slab.corners).faces :=
    Slab.triangle_solid (n := ⟨0, 1, 0⟩) (by norm_num [Vec3.dot_def]) (by simp [Vec3.dot_def]) (by simp [Vec3.dot_def]) (by unfold eps side; norm_num [Vec3.dot_def])
  have n1 := solid_normals (M := Slab.triangle Slab.tipped) (q := .o) (Crate.put_unit ⟨0, 1 / 2, 0⟩) ⟨0, -2, 0⟩ rfl rfl s1
  have n2 := solid_normals (M := Slab.triangle Slab.corners) (q := .o) (Crate.put_unit .o) ⟨0, -2, 0⟩ rfl rfl s2
  obtain ⟨r, hr⟩ := meshMesh_ok n1 n2
  have hcs : Corners Slab.corners [0, 1, 2] Slab.corners := .cons rfl (.cons rfl (.cons rfl .nil))
  have hmid := midFace_ok (mid_world (M := Slab.triangle Slab.corners) (q := .o) (Crate.put_unit .o) ⟨0, -2, 0⟩ rfl rfl hcs)
  have e : Slab.corners.map (fun p => (shifted (Crate.put .o) ⟨0, -2, 0⟩ (1 / 2)).toWorld (.o + p)) = [⟨0, -1, 0⟩, ⟨0, -1, 1⟩, ⟨1, -1, 0⟩] := by
    simp only [Slab.corners, List.map, Slab.put_shift, Slab.put_toWorld]
    congr 1
    · ext <;> simp
    · congr 1
      · ext <;> simp
      · congr 1
        ext <;> simp
  rw [e] at hmid
  obtain ⟨m, hhit, -⟩ := C70_point_complete (cs := [⟨0, -1, 0⟩, ⟨0, -1, 1⟩, ⟨1, -1, 0⟩]) (n := ⟨0, 1, 0⟩) (p := ⟨0, 1 / 2, 0⟩) (q := ⟨0, -3 / 2, 0⟩) (a := ⟨0, -1, 0⟩) (t := 3 / 4)
    (.triangle (by norm_num [Vec3.dot_def]) (by simp [Vec3.dot_def]) (by simp [Vec3.dot_def]) (by unfold side; norm_num [Vec3.dot_def]))
    ⟨⟨0, -1, 0⟩, ⟨0, -1, 1⟩, ⟨1, -1, 0⟩, follows_triangle.mpr (.inl ⟨rfl, rfl⟩), follows_triangle.mpr (.inr (.inl ⟨rfl, rfl⟩)), by unfold eps side; norm_num [Vec3.dot_def]⟩
    rfl (by unfold Skims eps; norm_num [Vec3.dot_def]) (by norm_num) (by norm_num) (by
      have : along (⟨0, 1 / 2, 0⟩ : Vec3 ℝ) (⟨0, -3 / 2, 0⟩ - ⟨0, 1 / 2, 0⟩) (3 / 4) = ⟨0, -1, 0⟩ := by unfold along; ext <;> norm_num
      rw [this]; exact .corner (by simp))
  obtain ⟨D, hp⟩ : ∃ D, PointHit (meshPointPairs (Slab.triangle Slab.tipped) (Crate.put ⟨0, 1 / 2, 0⟩).f (shifted (Crate.put ⟨0, 1 / 2, 0⟩) ⟨0, -2, 0⟩ 1).f)
      (meshPointPairs (Slab.triangle Slab.corners) (Crate.put .o).f (shifted (Crate.put .o) ⟨0, -2, 0⟩ 1).f) (Slab.triangle Slab.corners).faces D := by
    refine ⟨_, ((⟨0, 1 / 2, 0⟩ : Vec3 ℝ).f, (⟨0, -3 / 2, 0⟩ : Vec3 ℝ).f), ?_, [0, 1, 2], by simp [Slab.triangle], _, hmid, hhit⟩
    rw [pairs_world (vs := Slab.tipped) (q := .o) (Crate.put_unit _) _ rfl rfl]
    refine List.mem_map.mpr ⟨⟨0, 0, 0⟩, by simp [Slab.tipped], ?_⟩
    rw [Slab.put_toWorld, Prod.mk.injEq, Vec3.f_inj, Vec3.f_inj]
    constructor
    · ext <;> simp
    · unfold along; ext <;> norm_num
  cases r with
  | none => exact absurd (.inl hp) ((C47_meshMesh hr).2.mp rfl _)
  | some C =>
    refine ⟨Slab.triangle Slab.tipped, Slab.triangle Slab.corners, Slab.tipped, Slab.corners, Crate.put ⟨0, 1 / 2, 0⟩, Crate.put .o, ⟨0, -2, 0⟩, C, Slab.triangle_valid rfl,
      Slab.triangle_valid rfl, Crate.put_unit _, Crate.put_unit _, rfl, rfl, rfl, rfl, ?_, hr⟩
    rintro t ⟨x, y, hx, hy, he⟩
    have hx := Slab.inMesh_triangle.mp hx
    have hy := Slab.inMesh_triangle.mp hy
    have h1 := hx.atMost (d := ⟨0, -1, 0⟩) (b := 0) (by simp [Vec3.dot_def])
    have h2 := hy.atMost (d := ⟨0, 1, 0⟩) (b := 0) (by simp [Vec3.dot_def])
    rw [Slab.put_shift, Slab.put_shift, Slab.put_toWorld, Slab.put_toWorld] at he
    have := congrArg Vec3.y he
    simp [Vec3.dot_def] at h1 h2 this
    linarith

/-- A triangle on its tip falls on the middle of a flat triangle: for `C70_corner_partial` and `C70_reported_partial`. -/
example : ∃ C, collide (.mesh (Slab.triangle Slab.tipped)) (Crate.put ⟨1 / 4, 1, 1 / 4⟩).f (shifted (Crate.put ⟨1 / 4, 1, 1 / 4⟩) ⟨0, -2, 0⟩ 1).f
      (.mesh (Slab.triangle Slab.corners)) (Crate.put .o).f (Crate.put .o).f = .ok (some C) ∧
    (∃ t ≤ 1 / 2, 0 ≤ t ∧ C.times.min = fin t) ∧
    ∃ v ∈ Slab.tipped, ∃ t y, C.position = ((shifted (Crate.put ⟨1 / 4, 1, 1 / 4⟩) ⟨0, -2, 0⟩ t).toWorld (.o + v)).f ∧ InFace Slab.corners y ∧
      ((shifted (Crate.put ⟨1 / 4, 1, 1 / 4⟩) ⟨0, -2, 0⟩ t).toWorld (.o + v) - (Crate.put .o).toWorld (.o + y)).len ≤ 4 * eps := by
  have s1 : Solid Slab.tipped (Slab.triangle Slab.tipped).faces :=
    Slab.triangle_solid (n := ⟨0, 0, -1⟩) (by norm_num [Vec3.dot_def]) (by simp [Vec3.dot_def]) (by simp [Vec3.dot_def]) (by unfold eps side; norm_num [Vec3.dot_def])
  have s2 : Solid Slab.corners (Slab.triangle Slab.corners).faces :=
    Slab.triangle_solid (n := ⟨0, 1, 0⟩) (by norm_num [Vec3.dot_def]) (by simp [Vec3.dot_def]) (by simp [Vec3.dot_def]) (by unfold eps side; norm_num [Vec3.dot_def])
  have hcs : Corners Slab.corners [0, 1, 2] Slab.corners := .cons rfl (.cons rfl (.cons rfl .nil))
  have hcf : ConvexFace Slab.corners ⟨0, 1, 0⟩ :=
    .triangle (by norm_num [Vec3.dot_def]) (by simp [Vec3.dot_def]) (by simp [Vec3.dot_def]) (by unfold side; norm_num [Vec3.dot_def])
  have hrot : ∀ w : Vec3 ℝ, (Crate.put .o).rotation.rot w = w := fun w => by
    unfold Crate.put; ext <;> simp [Quat.e, Quat.rot, Quat.vec] <;> ring
  have hmeet : CornerMeets .o Slab.tipped (Crate.put ⟨1 / 4, 1, 1 / 4⟩) ⟨0, -2, 0⟩ .o Slab.corners (Slab.triangle Slab.corners).faces (Crate.put .o) (1 / 2) := by
    refine ⟨⟨0, 0, 0⟩, by simp [Slab.tipped], [0, 1, 2], by simp [Slab.triangle], Slab.corners, ⟨0, 1, 0⟩, ⟨1 / 4, 0, 1 / 4⟩, hcs, hcf, ?_, ?_, ?_⟩
    · refine Slab.middle_of (a := ⟨0, 0, 0⟩) (b := ⟨1 / 2, 0, 1 / 2⟩) (.corner (by simp [Slab.corners])) ?_ (by ext <;> norm_num)
      exact Slab.middle_of (a := ⟨0, 0, 1⟩) (b := ⟨1, 0, 0⟩) (.corner (by simp [Slab.corners])) (.corner (by simp [Slab.corners])) (by ext <;> norm_num)
    · rw [Slab.put_shift, Slab.put_toWorld, Slab.put_toWorld]; ext <;> norm_num
    · intro c hc
      have hy : c.y = 0 := by simp [Slab.corners] at hc; rcases hc with rfl | rfl | rfl <;> rfl
      rw [Slab.put_toWorld, Slab.put_toWorld, hrot]
      intro h
      have := h.1
      simp [Vec3.dot_def, hy] at this
      unfold eps at this; norm_num at this
  obtain ⟨⟨C, u, hC, hu, u0, u1⟩, -⟩ := C70_corner_partial (m1 := Slab.triangle Slab.tipped) (m2 := Slab.triangle Slab.corners) (Crate.put_unit _) (Crate.put_unit _) rfl rfl rfl rfl s1 s2
    (by norm_num) (by norm_num) hmeet
  refine ⟨C, hC, ⟨u, u1, u0, hu⟩, ?_⟩
  obtain ⟨v, hv, f, hf, cs, n, t, hc1, hc2, -, -, -, hpos, -, hroom⟩ := C70_reported_partial (m1 := Slab.triangle Slab.tipped) (m2 := Slab.triangle Slab.corners) (Crate.put_unit _)
    (Crate.put_unit _) rfl rfl rfl rfl s1 s2 (.inl hC)
  have hf : f = [0, 1, 2] := by simpa [Slab.triangle] using hf
  subst hf
  have := hc1.unique hcs
  subst this
  have hn : n = ⟨0, 1, 0⟩ := by
    have h1 := hc2.flat ⟨0, 0, 0⟩ (by simp [Slab.corners]) ⟨0, 0, 1⟩ (by simp [Slab.corners])
    have h2 := hc2.flat ⟨0, 0, 0⟩ (by simp [Slab.corners]) ⟨1, 0, 0⟩ (by simp [Slab.corners])
    have h3 := hc2.unit
    have h4 := hc2.turn ⟨0, 0, 0⟩ ⟨0, 0, 1⟩ (follows_triangle.mpr (.inl ⟨rfl, rfl⟩)) ⟨1, 0, 0⟩ (by simp [Slab.corners]) (by simp) (by simp)
    simp [Vec3.dot_def, side] at h1 h2 h3 h4
    rw [h1, h2] at h3
    have : n.y = 1 := by nlinarith
    ext <;> simp [h1, h2, this]
  subst hn
  have hl : ∀ c : Vec3 ℝ, c.dot c ≤ 1 → c.len ≤ 1 := fun c h => by rw [len_le zero_le_one]; linarith
  obtain ⟨y, hy, hlen⟩ := hroom ⟨1 / 4, 0, 1 / 4⟩ (1 / 4) 1 (by unfold eps; norm_num) ⟨by simp [Slab.corners, Vec3.dot_def], by
      intro a b hf
      rcases follows_triangle.mp hf with ⟨rfl, rfl⟩ | ⟨rfl, rfl⟩ | ⟨rfl, rfl⟩ <;> unfold side <;> norm_num [Vec3.dot_def], by
      intro c hc
      refine hl _ ?_
      simp [Slab.corners] at hc
      rcases hc with rfl | rfl | rfl <;> norm_num [Vec3.dot_def]⟩
  refine ⟨v, hv, t, y, hpos, hy, hlen.trans ?_⟩
  have := eps_pos
  norm_num
  linarith
end Fluffy.Props
