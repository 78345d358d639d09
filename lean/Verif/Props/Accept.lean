import Verif.Props.Corner
import Mathlib.Tactic.IntervalCases
/-
C87: which faces `add_face` accepts.
-/
set_option linter.unusedSectionVars false
set_option linter.unusedSimpArgs false
namespace Fluffy.Props
open Fluffy XReal

/-! ### Specification -/

/-- Going around the list, `a`, `b` and `c` come one after the other. -/
def InARow {τ : Type} (l : List τ) (a b c : τ) : Prop :=
  ∃ k < l.length, l[k]? = some a ∧ l[(k + 1) % l.length]? = some b ∧ l[(k + 2) % l.length]? = some c

/-- The unit normal of the triangle with the given corners, as the floating-point operations yield it. -/
def facing {α : Type} [Scalar α] (a b c : Vec3 α) : Vec3 α := ((b - a).cross (c - a)).normalize

/-- Twice the area of the triangle times its unit normal. -/
def areaVec (a b c : Vec3 ℝ) : Vec3 ℝ := (b - a).cross (c - a)

/-- All points lie in one plane that is perpendicular to the unit vector `n`. -/
structure FlatFace (cs : List (Vec3 ℝ)) (n : Vec3 ℝ) : Prop where
  unit : n.dot n = 1
  flat : ∀ a ∈ cs, ∀ b ∈ cs, (b - a).dot n = 0

/-! ### The triples that the loop visits -/

theorem wrapped {τ : Type} (l : List τ) (d k : Nat) (hd : d ≤ l.length) (hk : k < l.length) : (l.drop d ++ l.take d)[k]? = l[(k + d) % l.length]? := by
  by_cases h : k + d < l.length
  · rw [List.getElem?_append_left (by simp; omega), List.getElem?_drop, Nat.mod_eq_of_lt h, Nat.add_comm]
  · rw [List.getElem?_append_right (by simp; omega), List.length_drop, List.getElem?_take_of_lt (by omega)]
    have : (k + d) % l.length = k + d - l.length := by
      rw [Nat.mod_eq_sub_mod (by omega), Nat.mod_eq_of_lt (by omega)]
    rw [this]
    congr 1
    omega

/-- The loop visits exactly the triples that come one after the other. -/
theorem mem_cyclicTriples {τ : Type} {l : List τ} (h : 2 ≤ l.length) (a b c : τ) : (a, b, c) ∈ cyclicTriples l ↔ InARow l a b c := by
  rw [List.mem_iff_getElem?]
  unfold cyclicTriples InARow
  have key : ∀ k, k < l.length → ((l.zip ((l.drop 1 ++ l.take 1).zip (l.drop 2 ++ l.take 2)))[k]? = some (a, b, c) ↔
      l[k]? = some a ∧ l[(k + 1) % l.length]? = some b ∧ l[(k + 2) % l.length]? = some c) := by
    intro k hk
    rw [List.getElem?_zip_eq_some, List.getElem?_zip_eq_some, wrapped l 1 k (by omega) hk, wrapped l 2 k h hk]
  constructor
  · rintro ⟨k, hk⟩
    have hl : k < l.length := by
      have := (List.getElem?_zip_eq_some.mp hk).1
      exact (List.getElem?_eq_some_iff.mp this).1
    exact ⟨k, hl, (key k hl).mp hk⟩
  · rintro ⟨k, hl, hk⟩
    exact ⟨k, (key k hl).mpr hk⟩

/-! ### Any arithmetic -/
section
variable {α : Type} [Scalar α]

theorem cornerOk_eq (n a b c : Vec3 α) : MeshCollider.cornerOk n (a, b, c) = Scalar.lt (Scalar.abs ((facing a b c).dot n - one)) EPSILON := rfl

/-- `add_face` accepts the points exactly if there are at least three and, all around, the unit normal of every three consecutive points has with
that of the first three a scalar product that is less than `EPSILON` from one; otherwise it panics. -/
theorem C87_accepts (m : MeshCollider α) (points : List (Vec3 α)) :
    ((∃ m', m.addFace points = .ok m') ↔ ∃ p q r rest, points = p :: q :: r :: rest ∧
      ∀ a b c, InARow points a b c → Scalar.lt (Scalar.abs ((facing a b c).dot (facing p q r) - one)) EPSILON = true) ∧
    ((∃ m', m.addFace points = .ok m') ∨ m.addFace points = .error .assert) := by
  rcases points with _ | ⟨p, _ | ⟨q, _ | ⟨r, rest⟩⟩⟩
  · simp [MeshCollider.addFace]
  · simp [MeshCollider.addFace]
  · simp [MeshCollider.addFace]
  · have hl : 2 ≤ (p :: q :: r :: rest).length := by simp
    have hall : (cyclicTriples (p :: q :: r :: rest)).all (MeshCollider.cornerOk (facing p q r)) = true ↔
        ∀ a b c, InARow (p :: q :: r :: rest) a b c → Scalar.lt (Scalar.abs ((facing a b c).dot (facing p q r) - one)) EPSILON = true := by
      rw [List.all_eq_true]
      constructor
      · intro h a b c hr
        rw [← cornerOk_eq]
        exact h _ ((mem_cyclicTriples hl a b c).mpr hr)
      · rintro h ⟨a, b, c⟩ hm
        rw [cornerOk_eq]
        exact h a b c ((mem_cyclicTriples hl a b c).mp hm)
    have hf : m.addFace (p :: q :: r :: rest) = if (cyclicTriples (p :: q :: r :: rest)).all (MeshCollider.cornerOk (facing p q r)) = true then
        .ok { m with vertices := (MeshCollider.addPoints m.vertices (p :: q :: r :: rest)).1,
                     edges := (cyclicPairs (MeshCollider.addPoints m.vertices (p :: q :: r :: rest)).2).foldl
                       (fun es e => MeshCollider.addEdge es e.1 e.2) m.edges,
                     faces := m.faces ++ [(MeshCollider.addPoints m.vertices (p :: q :: r :: rest)).2] }
        else .error .assert := rfl
    rw [hf]
    by_cases hc : (cyclicTriples (p :: q :: r :: rest)).all (MeshCollider.cornerOk (facing p q r)) = true
    · rw [if_pos hc]
      refine ⟨⟨fun _ => ⟨p, q, r, rest, rfl, hall.mp hc⟩, fun _ => ⟨_, rfl⟩⟩, .inl ⟨_, rfl⟩⟩
    · rw [if_neg hc]
      refine ⟨⟨fun ⟨_, h⟩ => (nomatch h), ?_⟩, .inr rfl⟩
      rintro ⟨p', q', r', rest', he, h⟩
      simp only [List.cons.injEq] at he
      obtain ⟨rfl, rfl, rfl, rfl⟩ := he
      exact absurd (hall.mpr h) hc
end

/-! ### Exact numbers -/

theorem facing_f (a b c : Vec3 ℝ) (h : areaVec a b c ≠ .o) : facing a.f b.f c.f = ((areaVec a b c).scale (areaVec a b c).len⁻¹).f := by
  unfold facing
  rw [show (b.f - a.f).cross (c.f - a.f) = (areaVec a b c).f from by simp [areaVec]]
  exact Vec3.f_normalize h

theorem facing_nan (a b c : Vec3 ℝ) (h : areaVec a b c = .o) : facing a.f b.f c.f = ⟨nan, nan, nan⟩ := by
  unfold facing
  rw [show (b.f - a.f).cross (c.f - a.f) = (areaVec a b c).f from by simp [areaVec], h]
  have h0 : (Vec3.o).len = 0 := (Vec3.len_eq_zero _).mpr rfl
  have : fin 0 / fin 0 = nan := by rw [fin_div', if_pos rfl]; simp [infSign]
  simp only [Vec3.normalize, Vec3.f_magnitude, h0]
  ext <;> simp [Vec3.f, Vec3.o, Vec3.unscale, this]

theorem len_pos {a : Vec3 ℝ} (h : a ≠ .o) : 0 < a.len := lt_of_le_of_ne a.len_nonneg fun hc => h ((Vec3.len_eq_zero a).mp hc.symm)

theorem dot_le_len (a b : Vec3 ℝ) : a.dot b ≤ a.len * b.len := by
  have h1 := Vec3.len_sq a
  have h2 := Vec3.len_sq b
  have h : (a.dot b) ^ 2 ≤ (a.len * b.len) ^ 2 := by
    have : (a.len * b.len) ^ 2 = a.dot a * b.dot b := by rw [← h1, ← h2]; ring
    rw [this]
    simp only [Vec3.dot_def]
    nlinarith [sq_nonneg (a.x * b.y - a.y * b.x), sq_nonneg (a.x * b.z - a.z * b.x), sq_nonneg (a.y * b.z - a.z * b.y)]
  exact le_of_sq_le_sq h (mul_nonneg a.len_nonneg b.len_nonneg)

/-- The test of one corner, over exact numbers: the cosine of the angle between the two normals is above `1 - 1e-6`. -/
theorem corner_test (a b c p q r : Vec3 ℝ) : Scalar.lt (Scalar.abs ((facing a.f b.f c.f).dot (facing p.f q.f r.f) - one)) EPSILON = true ↔
    (1 - 1 / 1000000) * ((areaVec a b c).len * (areaVec p q r).len) < (areaVec a b c).dot (areaVec p q r) := by
  by_cases h1 : areaVec a b c = .o
  · rw [facing_nan _ _ _ h1, h1]
    have : (⟨nan, nan, nan⟩ : Vec3 XReal).dot (facing p.f q.f r.f) = nan := by
      simp only [Vec3.dot]; rfl
    rw [this]
    have h0 : (Vec3.o).len = 0 := (Vec3.len_eq_zero _).mpr rfl
    rw [h0]
    constructor
    · intro h; exact absurd h (by simp [show Scalar.abs (nan - one : XReal) = nan from rfl, show ∀ x, Scalar.lt nan x = false from fun _ => rfl])
    · intro h; simp [Vec3.dot_def, Vec3.o] at h
  by_cases h2 : areaVec p q r = .o
  · rw [facing_nan _ _ _ h2, h2, facing_f _ _ _ h1]
    have : ∀ v : Vec3 ℝ, v.f.dot (⟨nan, nan, nan⟩ : Vec3 XReal) = nan := fun v => by
      simp only [Vec3.dot]; rfl
    rw [this]
    have h0 : (Vec3.o).len = 0 := (Vec3.len_eq_zero _).mpr rfl
    rw [h0]
    constructor
    · intro h; exact absurd h (by simp [show Scalar.abs (nan - one : XReal) = nan from rfl, show ∀ x, Scalar.lt nan x = false from fun _ => rfl])
    · intro h; simp [Vec3.dot_def, Vec3.o] at h
  rw [facing_f _ _ _ h1, facing_f _ _ _ h2]
  have l1 := len_pos h1
  have l2 := len_pos h2
  generalize areaVec a b c = u at *
  generalize areaVec p q r = v at *
  have hd : (u.scale u.len⁻¹).dot (v.scale v.len⁻¹) = u.dot v / (u.len * v.len) := by
    simp only [Vec3.dot_def, Vec3.scale_x, Vec3.scale_y, Vec3.scale_z]; field_simp
  rw [Vec3.f_dot, hd, one_eq, fin_sub, fin_abs, EPSILON_eq, fin_lt, decide_eq_true_iff]
  have lp : 0 < u.len * v.len := mul_pos l1 l2
  have hle : u.dot v / (u.len * v.len) ≤ 1 := by rw [div_le_one lp]; exact dot_le_len u v
  rw [abs_of_nonpos (by linarith), ← lt_div_iff₀ lp]
  constructor <;> intro h <;> linarith

theorem inARow_map {cs : List (Vec3 ℝ)} {a b c : Vec3 XReal} (h : InARow (cs.map Vec3.f) a b c) :
    ∃ a' b' c', a = a'.f ∧ b = b'.f ∧ c = c'.f ∧ InARow cs a' b' c' := by
  obtain ⟨k, hk, h1, h2, h3⟩ := h
  rw [List.length_map] at hk h2 h3
  rw [List.getElem?_map] at h1 h2 h3
  obtain ⟨a', ha, rfl⟩ := Option.map_eq_some_iff.mp h1
  obtain ⟨b', hb, rfl⟩ := Option.map_eq_some_iff.mp h2
  obtain ⟨c', hc, rfl⟩ := Option.map_eq_some_iff.mp h3
  exact ⟨a', b', c', rfl, rfl, rfl, k, hk, ha, hb, hc⟩

theorem inARow_f {cs : List (Vec3 ℝ)} {a b c : Vec3 ℝ} (h : InARow cs a b c) : InARow (cs.map Vec3.f) a.f b.f c.f := by
  obtain ⟨k, hk, h1, h2, h3⟩ := h
  exact ⟨k, by simpa using hk, by simp [h1], by simp [h2], by simp [h3]⟩

/-- Over exact numbers: finite points are accepted exactly if the cosine of the angle between the normal of any three consecutive points and that of
the first three is above `1 - 1e-6`.  (The inequality is strict, so that it also says that no three consecutive points lie on a line.) -/
theorem C87_exact (m : MeshCollider XReal) (p q r : Vec3 ℝ) (rest : List (Vec3 ℝ)) :
    (∃ m', m.addFace ((p :: q :: r :: rest).map Vec3.f) = .ok m') ↔
      ∀ a b c, InARow (p :: q :: r :: rest) a b c →
        (1 - 1 / 1000000) * ((areaVec a b c).len * (areaVec p q r).len) < (areaVec a b c).dot (areaVec p q r) := by
  rw [(C87_accepts m _).1]
  constructor
  · rintro ⟨p', q', r', rest', he, h⟩ a b c hr
    simp only [List.map_cons, List.cons.injEq] at he
    obtain ⟨rfl, rfl, rfl, -⟩ := he
    exact (corner_test _ _ _ _ _ _).mp (h _ _ _ (inARow_f hr))
  · intro h
    refine ⟨p.f, q.f, r.f, rest.map Vec3.f, rfl, ?_⟩
    intro a b c hr
    obtain ⟨a', b', c', rfl, rfl, rfl, hr'⟩ := inARow_map hr
    exact (corner_test _ _ _ _ _ _).mpr (h _ _ _ hr')

/-! ### Flat faces -/

theorem InARow.mem {τ : Type} {l : List τ} {a b c : τ} (h : InARow l a b c) : a ∈ l ∧ b ∈ l ∧ c ∈ l := by
  obtain ⟨k, -, h1, h2, h3⟩ := h
  exact ⟨List.mem_of_getElem? h1, List.mem_of_getElem? h2, List.mem_of_getElem? h3⟩

theorem first_in_a_row {τ : Type} (p q r : τ) (rest : List τ) : InARow (p :: q :: r :: rest) p q r := by
  refine ⟨0, by simp, by simp, ?_, ?_⟩
  · rw [Nat.mod_eq_of_lt (by simp)]; simp
  · rw [Nat.mod_eq_of_lt (by simp)]; simp

/-- In a plane, the area vector is along the normal. -/
theorem FlatFace.area {cs : List (Vec3 ℝ)} {n a b c : Vec3 ℝ} (h : FlatFace cs n) (ha : a ∈ cs) (hb : b ∈ cs) (hc : c ∈ cs) :
    areaVec a b c = n.scale (side n a b c) := by
  have h1 := h.flat a ha b hb
  have h2 := h.flat a ha c hc
  have hu := h.unit
  unfold areaVec side
  generalize b - a = u at *
  generalize c - a = v at *
  simp only [Vec3.dot_def] at h1 h2 hu
  simp only [Vec3.dot_def]
  ext <;> simp only [Vec3.cross_x, Vec3.cross_y, Vec3.cross_z, Vec3.scale_x, Vec3.scale_y, Vec3.scale_z]
  · linear_combination (-(u.y * v.z - u.z * v.y)) * hu - (-v.z * n.y + v.y * n.z) * h1 - (u.z * n.y - u.y * n.z) * h2
  · linear_combination (-(u.z * v.x - u.x * v.z)) * hu - (-v.x * n.z + v.z * n.x) * h1 - (u.x * n.z - u.z * n.x) * h2
  · linear_combination (-(u.x * v.y - u.y * v.x)) * hu - (-v.y * n.x + v.x * n.y) * h1 - (u.y * n.x - u.x * n.y) * h2

theorem along_normal {n : Vec3 ℝ} (hu : n.dot n = 1) (s t : ℝ) :
    (1 - 1 / 1000000) * ((n.scale s).len * (n.scale t).len) < (n.scale s).dot (n.scale t) ↔ 0 < s * t := by
  have hl : ∀ s, (n.scale s).len = |s| := by
    intro s
    rw [Vec3.len, show (n.scale s).dot (n.scale s) = s * s from ?_, Real.sqrt_mul_self_eq_abs]
    simp only [Vec3.dot_def, Vec3.scale_x, Vec3.scale_y, Vec3.scale_z] at *
    linear_combination s * s * hu
  have hd : (n.scale s).dot (n.scale t) = s * t := by
    simp only [Vec3.dot_def, Vec3.scale_x, Vec3.scale_y, Vec3.scale_z] at *
    linear_combination s * t * hu
  rw [hl, hl, hd, ← abs_mul]
  constructor
  · intro h
    by_contra hc
    rw [abs_of_nonpos (not_lt.mp hc)] at h
    nlinarith [abs_nonneg (s * t)]
  · intro h
    rw [abs_of_pos h]
    linarith

/-- Points in a plane are accepted exactly if the way around them turns at every corner, always to the same side. -/
theorem C87_flat (m : MeshCollider XReal) {p q r n : Vec3 ℝ} {rest : List (Vec3 ℝ)} (hf : FlatFace (p :: q :: r :: rest) n) :
    (∃ m', m.addFace ((p :: q :: r :: rest).map Vec3.f) = .ok m') ↔
      (∀ a b c, InARow (p :: q :: r :: rest) a b c → 0 < side n a b c) ∨ (∀ a b c, InARow (p :: q :: r :: rest) a b c → side n a b c < 0) := by
  rw [C87_exact]
  have hp := first_in_a_row p q r rest
  have key : ∀ a b c, InARow (p :: q :: r :: rest) a b c →
      ((1 - 1 / 1000000) * ((areaVec a b c).len * (areaVec p q r).len) < (areaVec a b c).dot (areaVec p q r) ↔ 0 < side n a b c * side n p q r) := by
    intro a b c hr
    rw [hf.area hr.mem.1 hr.mem.2.1 hr.mem.2.2, hf.area hp.mem.1 hp.mem.2.1 hp.mem.2.2]
    exact along_normal hf.unit _ _
  constructor
  · intro h
    have h0 := (key _ _ _ hp).mp (h _ _ _ hp)
    rcases lt_or_gt_of_ne (show side n p q r ≠ 0 from fun hc => by rw [hc] at h0; simp at h0) with hs | hs
    · right
      intro a b c hr
      have := (key _ _ _ hr).mp (h _ _ _ hr)
      by_contra hc
      nlinarith
    · left
      intro a b c hr
      have := (key _ _ _ hr).mp (h _ _ _ hr)
      by_contra hc
      nlinarith
  · rintro (h | h) a b c hr
    · exact (key _ _ _ hr).mpr (mul_pos (h _ _ _ hr) (h _ _ _ hp))
    · exact (key _ _ _ hr).mpr (mul_pos_of_neg_of_neg (h _ _ _ hr) (h _ _ _ hp))

theorem ConvexFace.flatFace {cs : List (Vec3 ℝ)} {n : Vec3 ℝ} (h : ConvexFace cs n) : FlatFace cs n := ⟨h.unit, h.flat⟩

theorem InARow.follows {τ : Type} {l : List τ} {a b c : τ} (h : InARow l a b c) : Follows l a b := by
  obtain ⟨k, hk, h1, h2, -⟩ := h
  exact ⟨k, hk, h1, h2⟩

/-- Different places of the list hold different points. -/
theorem InARow.ne {τ : Type} {l : List τ} {a b c : τ} (hn : l.Nodup) (h3 : 3 ≤ l.length) (h : InARow l a b c) : c ≠ a ∧ c ≠ b := by
  obtain ⟨k, hk, ha, hb, hc⟩ := h
  have i2 : (k + 2) % l.length < l.length := Nat.mod_lt _ (by omega)
  have i1 : (k + 1) % l.length < l.length := Nat.mod_lt _ (by omega)
  have e2 : (k + 2) % l.length = if k + 2 < l.length then k + 2 else k + 2 - l.length := by
    split
    · exact Nat.mod_eq_of_lt ‹_›
    · rw [Nat.mod_eq_sub_mod (by omega), Nat.mod_eq_of_lt (by omega)]
  have e1 : (k + 1) % l.length = if k + 1 < l.length then k + 1 else k + 1 - l.length := by
    split
    · exact Nat.mod_eq_of_lt ‹_›
    · rw [Nat.mod_eq_sub_mod (by omega), Nat.mod_eq_of_lt (by omega)]
  constructor
  · rintro rfl
    have := (List.getElem?_inj i2 hn).mp (hc.trans ha.symm)
    split at e2 <;> omega
  · rintro rfl
    have := (List.getElem?_inj i2 hn).mp (hc.trans hb.symm)
    split at e2 <;> split at e1 <;> omega

/-- Every flat, strictly convex polygon is accepted, whichever way around its corners are listed. -/
theorem C87_convex_accepted (m : MeshCollider XReal) {cs : List (Vec3 ℝ)} {n : Vec3 ℝ} (h : ConvexFace cs n) :
    ∃ m', m.addFace (cs.map Vec3.f) = .ok m' := by
  rcases cs with _ | ⟨p, _ | ⟨q, _ | ⟨r, rest⟩⟩⟩
  · exact absurd h.three (by simp)
  · exact absurd h.three (by simp)
  · exact absurd h.three (by simp)
  · refine (C87_flat m h.flatFace).mpr (.inl ?_)
    intro a b c hr
    have := hr.ne h.distinct h.three
    exact h.turn a b hr.follows c hr.mem.2.2 this.1 this.2

theorem FlatFace.neg {cs : List (Vec3 ℝ)} {n : Vec3 ℝ} (h : FlatFace cs n) : FlatFace cs (n.scale (-1)) := by
  refine ⟨?_, fun a ha b hb => ?_⟩
  · have := h.unit
    simp only [Vec3.dot_def, Vec3.scale_x, Vec3.scale_y, Vec3.scale_z] at *
    linarith
  · have := h.flat a ha b hb
    simp only [Vec3.dot_def, Vec3.scale_x, Vec3.scale_y, Vec3.scale_z] at *
    linarith

theorem side_neg (n a b c : Vec3 ℝ) : side (n.scale (-1)) a b c = -side n a b c := by simp [side, Vec3.dot_def]; ring

theorem side_same (n a c : Vec3 ℝ) : side n a a c = 0 := by simp [side, Vec3.dot_def]

theorem side_ne {n a b c : Vec3 ℝ} (h : 0 < side n a b c) : a ≠ b ∧ b ≠ c ∧ a ≠ c := by
  refine ⟨?_, ?_, ?_⟩ <;> rintro rfl
  · rw [side_same] at h; exact lt_irrefl _ h
  · rw [side_stop] at h; exact lt_irrefl _ h
  · rw [side_start] at h; exact lt_irrefl _ h

theorem convex_three {n p q r : Vec3 ℝ} (hf : FlatFace [p, q, r] n) (h : ∀ a b c, InARow [p, q, r] a b c → 0 < side n a b c) :
    ConvexFace [p, q, r] n := by
  have h0 := h p q r ⟨0, by simp, by simp, by simp, by simp⟩
  have h1 := h q r p ⟨1, by simp, by simp, by simp, by simp⟩
  have h2 := h r p q ⟨2, by simp, by simp, by simp, by simp⟩
  obtain ⟨n1, n2, n3⟩ := side_ne h0
  refine ⟨by simp, by simp [n1, n2, n3], hf.unit, hf.flat, ?_⟩
  rintro a b ⟨k, hk, ha, hb⟩ c hc ca cb
  simp only [List.length_cons, List.length_nil] at hk hb
  interval_cases k <;> simp at ha hb <;> subst ha hb <;> simp at hc <;> rcases hc with rfl | rfl | rfl <;> first | assumption | exact absurd rfl ‹_›

theorem convex_four {n p q r s : Vec3 ℝ} (hf : FlatFace [p, q, r, s] n) (h : ∀ a b c, InARow [p, q, r, s] a b c → 0 < side n a b c) :
    ConvexFace [p, q, r, s] n := by
  have h0 := h p q r ⟨0, by simp, by simp, by simp, by simp⟩
  have h1 := h q r s ⟨1, by simp, by simp, by simp, by simp⟩
  have h2 := h r s p ⟨2, by simp, by simp, by simp, by simp⟩
  have h3 := h s p q ⟨3, by simp, by simp, by simp, by simp⟩
  obtain ⟨n1, n2, n3⟩ := side_ne h0
  obtain ⟨n4, n5, n6⟩ := side_ne h2
  have h0' : 0 < side n q r p := by have : side n q r p = side n p q r := by simp only [side, Vec3.dot_def]; simp; ring
                                    rw [this]; exact h0
  have h1' : 0 < side n r s q := by have : side n r s q = side n q r s := by simp only [side, Vec3.dot_def]; simp; ring
                                    rw [this]; exact h1
  have h2' : 0 < side n s p r := by have : side n s p r = side n r s p := by simp only [side, Vec3.dot_def]; simp; ring
                                    rw [this]; exact h2
  have h3' : 0 < side n p q s := by have : side n p q s = side n s p q := by simp only [side, Vec3.dot_def]; simp; ring
                                    rw [this]; exact h3
  obtain ⟨n7, n8, n9⟩ := side_ne h1
  refine ⟨by simp, by simp [n1, n2, n3, n4, n5.symm, n6, n7, n8, n9], hf.unit, hf.flat, ?_⟩
  rintro a b ⟨k, hk, ha, hb⟩ c hc ca cb
  simp only [List.length_cons, List.length_nil] at hk hb
  interval_cases k <;> simp at ha hb <;> subst ha hb <;> simp at hc <;> rcases hc with rfl | rfl | rfl | rfl <;> first | assumption | exact absurd rfl ‹_›

/-- Triangles and quadrilaterals: what is accepted among points in a plane is exactly the strictly convex, seen from one of the two sides.
Missing: five or more corners, for which `C87_false` shows a star that is accepted. -/
theorem C87_convex_partial (m : MeshCollider XReal) {cs : List (Vec3 ℝ)} {n : Vec3 ℝ} (hf : FlatFace cs n) (h4 : cs.length ≤ 4) :
    (∃ m', m.addFace (cs.map Vec3.f) = .ok m') ↔ ConvexFace cs n ∨ ConvexFace cs (n.scale (-1)) := by
  constructor
  swap
  · rintro (h | h)
    · exact C87_convex_accepted m h
    · exact C87_convex_accepted m h
  · intro h
    rcases cs with _ | ⟨p, _ | ⟨q, _ | ⟨r, rest⟩⟩⟩
    · obtain ⟨_, h⟩ := h; exact nomatch h
    · obtain ⟨_, h⟩ := h; exact nomatch h
    · obtain ⟨_, h⟩ := h; exact nomatch h
    · rcases (C87_flat m hf).mp h with hs | hs
      · left
        rcases rest with _ | ⟨s, _ | ⟨t, rest⟩⟩
        · exact convex_three hf hs
        · exact convex_four hf hs
        · simp only [List.length_cons] at h4; omega
      · right
        have hs' : ∀ a b c, InARow (p :: q :: r :: rest) a b c → 0 < side (n.scale (-1)) a b c := fun a b c hr => by
          rw [side_neg]; linarith [hs a b c hr]
        rcases rest with _ | ⟨s, _ | ⟨t, rest⟩⟩
        · exact convex_three hf.neg hs'
        · exact convex_four hf.neg hs'
        · simp only [List.length_cons] at h4; omega

/-! ### A star -/

/-- A five-pointed star: every second corner of a convex pentagon. -/
def starFace : List (Vec3 ℝ) := [⟨0, 4, 0⟩, ⟨-2, -3, 0⟩, ⟨4, 1, 0⟩, ⟨-4, 1, 0⟩, ⟨2, -3, 0⟩]

theorem star_flat : FlatFace starFace ⟨0, 0, 1⟩ := by
  refine ⟨by simp [Vec3.dot_def], ?_⟩
  intro a ha b hb
  simp only [starFace, List.mem_cons, List.not_mem_nil, or_false] at ha hb
  rcases ha with rfl | rfl | rfl | rfl | rfl <;> rcases hb with rfl | rfl | rfl | rfl | rfl <;> simp [Vec3.dot_def]

/-- Not only convex polygons are accepted: a five-pointed star is, though its edges cross. -/
theorem C87_false (m : MeshCollider XReal) : (∃ m', m.addFace (starFace.map Vec3.f) = .ok m') ∧ FlatFace starFace ⟨0, 0, 1⟩ ∧
    ∀ n, ¬ConvexFace starFace n := by
  refine ⟨(C87_flat m star_flat).mpr (.inl ?_), star_flat, ?_⟩
  · rintro a b c ⟨k, hk, ha, hb, hc⟩
    simp only [List.length_cons, List.length_nil] at hk hb hc
    interval_cases k <;> simp at ha hb hc <;> subst ha hb hc <;> norm_num [side, Vec3.dot_def]
  · intro n h
    have h1 := h.turn ⟨0, 4, 0⟩ ⟨-2, -3, 0⟩ ⟨0, by simp [starFace], by simp [starFace], by simp [starFace]⟩ ⟨4, 1, 0⟩ (by simp [starFace]) (by norm_num) (by norm_num)
    have h2 := h.turn ⟨0, 4, 0⟩ ⟨-2, -3, 0⟩ ⟨0, by simp [starFace], by simp [starFace], by simp [starFace]⟩ ⟨-4, 1, 0⟩ (by simp [starFace]) (by norm_num) (by norm_num)
    norm_num [side, Vec3.dot_def] at h1 h2
    linarith

/-! ### The hypotheses are met -/

/-- A square, an arrowhead, and the corners of a triangle with the middle of a side: the first is accepted, the other two are not. -/
theorem C87_applies (m : MeshCollider XReal) :
    ConvexFace [⟨0, 0, 0⟩, ⟨1, 0, 0⟩, ⟨1, 1, 0⟩, ⟨0, 1, 0⟩] ⟨0, 0, 1⟩ ∧
    FlatFace [⟨0, 0, 0⟩, ⟨4, 0, 0⟩, ⟨1, 1, 0⟩, ⟨0, 4, 0⟩] ⟨0, 0, 1⟩ ∧
    m.addFace ([⟨0, 0, 0⟩, ⟨4, 0, 0⟩, ⟨1, 1, 0⟩, ⟨0, 4, 0⟩].map Vec3.f) = .error .assert ∧
    m.addFace ([⟨0, 0, 0⟩, ⟨1, 0, 0⟩, ⟨2, 0, 0⟩, ⟨0, 1, 0⟩].map Vec3.f) = .error .assert := by
  have flat : ∀ cs : List (Vec3 ℝ), (∀ a ∈ cs, a.z = 0) → FlatFace cs ⟨0, 0, 1⟩ := fun cs h =>
    ⟨by simp [Vec3.dot_def], fun a ha b hb => by simp [Vec3.dot_def, h a ha, h b hb]⟩
  refine ⟨?_, flat _ (by simp), ?_, ?_⟩
  · refine convex_four (flat _ (by simp)) ?_
    rintro a b c ⟨k, hk, ha, hb, hc⟩
    simp only [List.length_cons, List.length_nil] at hk hb hc
    interval_cases k <;> simp at ha hb hc <;> subst ha hb hc <;> norm_num [side, Vec3.dot_def]
  · refine ((C87_accepts m _).2).resolve_left fun h => ?_
    rcases (C87_flat m (flat _ (by simp))).mp h with h | h
    · have := h ⟨4, 0, 0⟩ ⟨1, 1, 0⟩ ⟨0, 4, 0⟩ ⟨1, by simp, by simp, by simp, by simp⟩
      norm_num [side, Vec3.dot_def] at this
    · have := h ⟨0, 0, 0⟩ ⟨4, 0, 0⟩ ⟨1, 1, 0⟩ ⟨0, by simp, by simp, by simp, by simp⟩
      norm_num [side, Vec3.dot_def] at this
  · refine ((C87_accepts m _).2).resolve_left fun h => ?_
    rcases (C87_flat m (flat _ (by simp))).mp h with h | h
    · have := h ⟨0, 0, 0⟩ ⟨1, 0, 0⟩ ⟨2, 0, 0⟩ ⟨0, by simp, by simp, by simp, by simp⟩
      norm_num [side, Vec3.dot_def] at this
    · have := h ⟨0, 0, 0⟩ ⟨1, 0, 0⟩ ⟨2, 0, 0⟩ ⟨0, by simp, by simp, by simp, by simp⟩
      norm_num [side, Vec3.dot_def] at this

end Fluffy.Props
