import Verif.Props.Halfway
import Verif.Props.Box
/-
C100: whether turning by one rotation vector and then by another is turning by their sum, as doc/physics.md says.
-/
set_option linter.unusedSectionVars false
set_option linter.unusedSimpArgs false
namespace Fluffy.Props
open InternalEntity Step XReal Demo

/-! ### Rotations as maps of vectors -/

/-- Every rotation vector is a unit axis times an angle. -/
theorem axis_angle (r : Vec3 ℝ) : ∃ k : Vec3 ℝ, k.dot k = 1 ∧ r = k.scale r.len := by
  by_cases h : r = .o
  · subst h; exact ⟨⟨1, 0, 0⟩, by simp [Vec3.dot_def], by ext <;> simp⟩
  · exact ⟨r.scale r.len⁻¹, Vec3.unit_normalize h, by rw [Vec3.scale_scale, inv_mul_cancel₀ (Vec3.len_pos h).ne', Vec3.scale_one]⟩

theorem rodrigues_sub (r u v : Vec3 ℝ) : rodrigues r (u - v) = rodrigues r u - rodrigues r v := by
  unfold rodrigues
  ext <;> simp only [Vec3.add_x, Vec3.add_y, Vec3.add_z, Vec3.sub_x, Vec3.sub_y, Vec3.sub_z, Vec3.scale_x, Vec3.scale_y, Vec3.scale_z, Vec3.cross_x, Vec3.cross_y,
    Vec3.cross_z, Vec3.dot_def] <;> ring

theorem rodrigues_len (r v : Vec3 ℝ) : (rodrigues r v).len = v.len := by
  obtain ⟨k, hk, hr⟩ := axis_angle r
  rw [hr, ← turnBy_rot hk]
  refine Quat.rot_len v ?_
  have h := Real.sin_sq_add_cos_sq (r.len / 2)
  rw [Vec3.dot_def] at hk
  simp only [Quat.normSq, turnBy]
  linear_combination h + Real.sin (r.len / 2) ^ 2 * hk

theorem cross_len (a v : Vec3 ℝ) : (a.cross v).len ≤ a.len * v.len := by
  rw [len_le (mul_nonneg a.len_nonneg v.len_nonneg)]
  have e : (a.cross v).dot (a.cross v) = a.dot a * v.dot v - a.dot v * a.dot v := by simp only [Vec3.dot_def, Vec3.cross_x, Vec3.cross_y, Vec3.cross_z]; ring
  rw [e, show a.len * v.len * (a.len * v.len) = (a.len * a.len) * (v.len * v.len) by ring, Vec3.len_sq, Vec3.len_sq]
  linarith [mul_self_nonneg (a.dot v)]

/-- A turn moves a vector by at most its angle times the length. -/
theorem rodrigues_near (r v : Vec3 ℝ) : (rodrigues r v - v).len ≤ r.len * v.len := by
  obtain ⟨k, hk, hr⟩ := axis_angle r
  have h0 := r.len_nonneg
  rw [len_le (mul_nonneg h0 v.len_nonneg)]
  rw [show r.len * v.len * (r.len * v.len) = r.len ^ 2 * (v.len * v.len) by ring, Vec3.len_sq]
  have hc := Real.one_sub_sq_div_two_le_cos (x := r.len)
  have hc1 := Real.cos_le_one r.len
  have hsc := Real.sin_sq_add_cos_sq r.len
  conv_lhs => rw [hr]
  rw [rodrigues_signed hk]
  generalize Real.cos r.len = c at *
  generalize Real.sin r.len = s at *
  have hv := v.dot_self_nonneg
  have e : (v.scale c + (k.cross v).scale s + k.scale (k.dot v * (1 - c)) - v).dot (v.scale c + (k.cross v).scale s + k.scale (k.dot v * (1 - c)) - v)
      = 2 * (1 - c) * (v.dot v - k.dot v * k.dot v) := by
    rw [Vec3.dot_def] at hk
    simp only [Vec3.dot_def, Vec3.add_x, Vec3.add_y, Vec3.add_z, Vec3.sub_x, Vec3.sub_y, Vec3.sub_z, Vec3.scale_x, Vec3.scale_y, Vec3.scale_z, Vec3.cross_x, Vec3.cross_y,
      Vec3.cross_z]
    linear_combination ((k.x * v.x + k.y * v.y + k.z * v.z) ^ 2 * (1 - c) ^ 2 + s ^ 2 * (v.x ^ 2 + v.y ^ 2 + v.z ^ 2)) * hk
      + (v.x ^ 2 + v.y ^ 2 + v.z ^ 2 - (k.x * v.x + k.y * v.y + k.z * v.z) ^ 2) * hsc
  rw [e]
  have : v.dot v - k.dot v * k.dot v ≤ v.dot v := by linarith [mul_self_nonneg (k.dot v)]
  calc 2 * (1 - c) * (v.dot v - k.dot v * k.dot v) ≤ 2 * (1 - c) * v.dot v := mul_le_mul_of_nonneg_left this (by linarith)
    _ ≤ r.len ^ 2 * v.dot v := mul_le_mul_of_nonneg_right (by linarith) hv

/-- A turn is nearly the cross product with its vector. -/
theorem rodrigues_second (r v : Vec3 ℝ) : (rodrigues r v - v - r.cross v).len ≤ 3 / 5 * r.len ^ 2 * v.len := by
  obtain ⟨k, hk, hr⟩ := axis_angle r
  have h0 := r.len_nonneg
  rw [len_le (mul_nonneg (by positivity) v.len_nonneg)]
  rw [show 3 / 5 * r.len ^ 2 * v.len * (3 / 5 * r.len ^ 2 * v.len) = 9 / 25 * r.len ^ 4 * (v.len * v.len) by ring, Vec3.len_sq]
  have hc := Real.one_sub_sq_div_two_le_cos (x := r.len)
  have hc1 := Real.cos_le_one r.len
  have hs1 := Real.sin_le h0
  have hs2 : r.len - r.len ^ 3 / 6 ≤ Real.sin r.len := by
    rcases eq_or_lt_of_le h0 with h | h
    · rw [← h]; simp
    · exact (Real.sin_gt_sub_cube h).le
  have hsc := Real.sin_sq_add_cos_sq r.len
  have e1 : r.cross v = (k.cross v).scale r.len := by
    conv_lhs => rw [hr]
    ext <;> simp only [Vec3.scale_x, Vec3.scale_y, Vec3.scale_z, Vec3.cross_x, Vec3.cross_y, Vec3.cross_z] <;> ring
  rw [e1]
  conv_lhs => rw [show rodrigues r v = rodrigues (k.scale r.len) v by rw [← hr]]
  rw [rodrigues_signed hk]
  generalize Real.cos r.len = c at *
  generalize Real.sin r.len = s at *
  generalize r.len = t at *
  have hv := v.dot_self_nonneg
  have e : (v.scale c + (k.cross v).scale s + k.scale (k.dot v * (1 - c)) - v - (k.cross v).scale t).dot
      (v.scale c + (k.cross v).scale s + k.scale (k.dot v * (1 - c)) - v - (k.cross v).scale t) = ((t - s) ^ 2 + (1 - c) ^ 2) * (v.dot v - k.dot v * k.dot v) := by
    rw [Vec3.dot_def] at hk
    simp only [Vec3.dot_def, Vec3.add_x, Vec3.add_y, Vec3.add_z, Vec3.sub_x, Vec3.sub_y, Vec3.sub_z, Vec3.scale_x, Vec3.scale_y, Vec3.scale_z, Vec3.cross_x, Vec3.cross_y,
      Vec3.cross_z]
    linear_combination ((k.x * v.x + k.y * v.y + k.z * v.z) ^ 2 * (1 - c) ^ 2 + (t - s) ^ 2 * (v.x ^ 2 + v.y ^ 2 + v.z ^ 2)) * hk
  rw [e]
  have b1 : (t - s) ^ 2 + (1 - c) ^ 2 ≤ 9 / 25 * t ^ 4 := by
    have := mul_le_mul_of_nonneg_left hs2 h0
    have h4 : (0 : ℝ) ≤ t ^ 4 := by positivity
    nlinarith
  have : v.dot v - k.dot v * k.dot v ≤ v.dot v := by linarith [mul_self_nonneg (k.dot v)]
  calc ((t - s) ^ 2 + (1 - c) ^ 2) * (v.dot v - k.dot v * k.dot v) ≤ ((t - s) ^ 2 + (1 - c) ^ 2) * v.dot v := mul_le_mul_of_nonneg_left this (by positivity)
    _ ≤ 9 / 25 * t ^ 4 * v.dot v := mul_le_mul_of_nonneg_right b1 hv

theorem rodrigues_first (r v : Vec3 ℝ) : (rodrigues r v - v - r.cross v).len ≤ r.len ^ 2 * v.len := by
  have : 0 ≤ r.len ^ 2 * v.len := mul_nonneg (sq_nonneg _) v.len_nonneg
  linarith [rodrigues_second r v]

/-! ### Maps that are near to each other -/

/-- The maps differ by at most `c` times the length of the vector. -/
def NearMap (c : ℝ) (f g : Vec3 ℝ → Vec3 ℝ) : Prop := ∀ v, (f v - g v).len ≤ c * v.len

/-- Differences and lengths are kept. -/
structure Isometric (f : Vec3 ℝ → Vec3 ℝ) : Prop where
  sub : ∀ u v, f (u - v) = f u - f v
  len : ∀ v, (f v).len = v.len

theorem rodrigues_isometric (r : Vec3 ℝ) : Isometric (rodrigues r) := ⟨rodrigues_sub r, rodrigues_len r⟩
theorem Isometric.comp {f g : Vec3 ℝ → Vec3 ℝ} (hf : Isometric f) (hg : Isometric g) : Isometric (f ∘ g) :=
  ⟨fun u v => by simp only [Function.comp, hg.sub, hf.sub], fun v => by simp only [Function.comp, hf.len, hg.len]⟩
theorem Isometric.iterate {f : Vec3 ℝ → Vec3 ℝ} (hf : Isometric f) (n : ℕ) : Isometric f^[n] := by
  induction n with
  | zero => exact ⟨fun _ _ => rfl, fun _ => rfl⟩
  | succ n ih => rw [Function.iterate_succ]; exact ih.comp hf

theorem NearMap.refl (f : Vec3 ℝ → Vec3 ℝ) : NearMap 0 f f := fun v => by
  rw [show f v - f v = .o by ext <;> simp]; simp
theorem NearMap.trans {c d : ℝ} {f g h : Vec3 ℝ → Vec3 ℝ} (h1 : NearMap c f g) (h2 : NearMap d g h) : NearMap (c + d) f h := fun v => by
  have e : f v - h v = (f v - g v) + (g v - h v) := by ext <;> simp
  rw [e, add_mul]
  exact (len_triangle _ _).trans (add_le_add (h1 v) (h2 v))
theorem NearMap.symm {c : ℝ} {f g : Vec3 ℝ → Vec3 ℝ} (h : NearMap c f g) : NearMap c g f := fun v => by
  have e : g v - f v = -(f v - g v) := by ext <;> simp
  rw [e, Vec3.len_neg]; exact h v
theorem NearMap.comp {c d : ℝ} {f f' g g' : Vec3 ℝ → Vec3 ℝ} (h1 : NearMap c f g) (h2 : NearMap d f' g') (hf : Isometric f) (hg : Isometric g') :
    NearMap (c + d) (f ∘ f') (g ∘ g') := fun v => by
  have e : (f ∘ f') v - (g ∘ g') v = (f (g' v) - g (g' v)) + f (f' v - g' v) := by
    rw [hf.sub]; ext <;> simp
  rw [e, add_mul]
  refine (len_triangle _ _).trans (add_le_add ?_ ?_)
  · have := h1 (g' v); rwa [hg.len] at this
  · rw [hf.len]; exact h2 v
theorem NearMap.iterate {c : ℝ} {f g : Vec3 ℝ → Vec3 ℝ} (h : NearMap c f g) (hf : Isometric f) (hg : Isometric g) (n : ℕ) : NearMap (n * c) f^[n] g^[n] := by
  induction n with
  | zero => simpa using NearMap.refl id
  | succ n ih =>
    rw [Function.iterate_succ, Function.iterate_succ, show ((n + 1 : ℕ) : ℝ) * c = n * c + c by push_cast; ring]
    exact ih.comp h (hf.iterate n) hg

/-- Moving one map past `n` of another. -/
theorem NearMap.pass {c : ℝ} {f g : Vec3 ℝ → Vec3 ℝ} (h : NearMap c (f ∘ g) (g ∘ f)) (hf : Isometric f) (hg : Isometric g) (n : ℕ) :
    NearMap (n * c) (f ∘ g^[n]) (g^[n] ∘ f) := by
  induction n with
  | zero => simpa using NearMap.refl f
  | succ n ih =>
    have a : NearMap (n * c + 0) ((f ∘ g^[n]) ∘ g) ((g^[n] ∘ f) ∘ g) := ih.comp (NearMap.refl g) (hf.comp (hg.iterate n)) hg
    have b : NearMap (0 + c) (g^[n] ∘ (f ∘ g)) (g^[n] ∘ (g ∘ f)) := (NearMap.refl _).comp h (hg.iterate n) (hg.comp hf)
    have e := a.trans b
    rw [show ((n + 1 : ℕ) : ℝ) * c = n * c + 0 + (0 + c) by push_cast; ring]
    rw [Function.iterate_succ]
    exact e

/-- Sorting `n` turns of each kind. -/
theorem NearMap.sort {c : ℝ} {f g : Vec3 ℝ → Vec3 ℝ} (h : NearMap c (f ∘ g) (g ∘ f)) (hf : Isometric f) (hg : Isometric g) (n : ℕ) :
    NearMap ((n : ℝ) * (n - 1) / 2 * c) (f^[n] ∘ g^[n]) (f ∘ g)^[n] := by
  induction n with
  | zero => simpa using NearMap.refl id
  | succ n ih =>
    have p : NearMap (0 + (n * c + 0)) (f^[n] ∘ ((f ∘ g^[n]) ∘ g)) (f^[n] ∘ ((g^[n] ∘ f) ∘ g)) :=
      (NearMap.refl _).comp ((h.pass hf hg n).comp (NearMap.refl g) (hf.comp (hg.iterate n)) hg) (hf.iterate n) (((hg.iterate n).comp hf).comp hg)
    have q : NearMap ((n : ℝ) * (n - 1) / 2 * c + 0) ((f^[n] ∘ g^[n]) ∘ (f ∘ g)) ((f ∘ g)^[n] ∘ (f ∘ g)) :=
      ih.comp (NearMap.refl _) ((hf.iterate n).comp (hg.iterate n)) (hf.comp hg)
    have e := p.trans q
    rw [show ((n + 1 : ℕ) : ℝ) * ((n + 1 : ℕ) - 1) / 2 * c = 0 + (n * c + 0) + ((n : ℝ) * (n - 1) / 2 * c + 0) by push_cast; ring]
    rw [Function.iterate_succ, Function.iterate_succ, Function.iterate_succ]
    exact e

/-! ### Two turns in series -/

/-- Turns in series are nearly the turn by the sum. -/
theorem series_small (a b : Vec3 ℝ) : NearMap (2 * (a.len + b.len) ^ 2) (rodrigues a ∘ rodrigues b) (rodrigues (a + b)) := fun v => by
  have ha := a.len_nonneg
  have hb := b.len_nonneg
  have hab := len_triangle a b
  have e : (rodrigues a ∘ rodrigues b) v - rodrigues (a + b) v = ((rodrigues a (rodrigues b v) - rodrigues b v - a.cross (rodrigues b v)) + a.cross (rodrigues b v - v))
      + ((rodrigues b v - v - b.cross v) + -(rodrigues (a + b) v - v - (a + b).cross v)) := by
    ext <;> simp only [Function.comp, Vec3.add_x, Vec3.add_y, Vec3.add_z, Vec3.sub_x, Vec3.sub_y, Vec3.sub_z, Vec3.neg_x, Vec3.neg_y, Vec3.neg_z, Vec3.cross_x, Vec3.cross_y,
      Vec3.cross_z] <;> ring
  rw [e]
  have t1 := len_triangle ((rodrigues a (rodrigues b v) - rodrigues b v - a.cross (rodrigues b v)) + a.cross (rodrigues b v - v))
    ((rodrigues b v - v - b.cross v) + -(rodrigues (a + b) v - v - (a + b).cross v))
  have t2 := len_triangle (rodrigues a (rodrigues b v) - rodrigues b v - a.cross (rodrigues b v)) (a.cross (rodrigues b v - v))
  have t3 := len_triangle (rodrigues b v - v - b.cross v) (-(rodrigues (a + b) v - v - (a + b).cross v))
  rw [Vec3.len_neg] at t3
  have u1 := rodrigues_first a (rodrigues b v)
  rw [rodrigues_len] at u1
  have u2 := (cross_len a (rodrigues b v - v)).trans (mul_le_mul_of_nonneg_left (rodrigues_near b v) ha)
  have u3 := rodrigues_first b v
  have u4 := rodrigues_first (a + b) v
  have u5 : (a + b).len ^ 2 * v.len ≤ (a.len + b.len) ^ 2 * v.len :=
    mul_le_mul_of_nonneg_right (pow_le_pow_left₀ (a + b).len_nonneg hab 2) v.len_nonneg
  have u6 : 0 ≤ a.len * b.len * v.len := mul_nonneg (mul_nonneg ha hb) v.len_nonneg
  nlinarith

/-- Turns nearly commute. -/
theorem commute_small (a b : Vec3 ℝ) :
    NearMap ((a.cross b).len + 2 * (a.len * b.len * (a.len + b.len))) (rodrigues a ∘ rodrigues b) (rodrigues b ∘ rodrigues a) := by
  have half : ∀ a b v : Vec3 ℝ, ((rodrigues a (rodrigues b v - v) - (rodrigues b v - v)) - a.cross (b.cross v)).len ≤
      a.len * b.len * (a.len + b.len) * v.len := by
    intro a b v
    have e : (rodrigues a (rodrigues b v - v) - (rodrigues b v - v)) - a.cross (b.cross v) =
        (rodrigues a (rodrigues b v - v) - (rodrigues b v - v) - a.cross (rodrigues b v - v)) + a.cross (rodrigues b v - v - b.cross v) := by
      ext <;> simp only [Vec3.add_x, Vec3.add_y, Vec3.add_z, Vec3.sub_x, Vec3.sub_y, Vec3.sub_z, Vec3.cross_x, Vec3.cross_y, Vec3.cross_z] <;> ring
    rw [e]
    refine (len_triangle _ _).trans ?_
    have u1 := (rodrigues_first a (rodrigues b v - v)).trans (mul_le_mul_of_nonneg_left (rodrigues_near b v) (sq_nonneg _))
    have u2 := (cross_len a (rodrigues b v - v - b.cross v)).trans (mul_le_mul_of_nonneg_left (rodrigues_first b v) a.len_nonneg)
    nlinarith
  intro v
  have ha := a.len_nonneg
  have hb := b.len_nonneg
  have e : (rodrigues a ∘ rodrigues b) v - (rodrigues b ∘ rodrigues a) v = (((rodrigues a (rodrigues b v - v) - (rodrigues b v - v)) - a.cross (b.cross v))
      + -((rodrigues b (rodrigues a v - v) - (rodrigues a v - v)) - b.cross (a.cross v))) + (a.cross b).cross v := by
    rw [rodrigues_sub, rodrigues_sub]
    ext <;> simp only [Function.comp, Vec3.add_x, Vec3.add_y, Vec3.add_z, Vec3.sub_x, Vec3.sub_y, Vec3.sub_z, Vec3.neg_x, Vec3.neg_y, Vec3.neg_z, Vec3.cross_x, Vec3.cross_y,
      Vec3.cross_z] <;> ring
  rw [e]
  refine (len_triangle _ _).trans ?_
  have t1 := len_triangle ((rodrigues a (rodrigues b v - v) - (rodrigues b v - v)) - a.cross (b.cross v))
    (-((rodrigues b (rodrigues a v - v) - (rodrigues a v - v)) - b.cross (a.cross v)))
  rw [Vec3.len_neg] at t1
  have t2 := half a b v
  have t3 := half b a v
  have t4 := cross_len (a.cross b) v
  nlinarith

theorem rodrigues_iterate (a : Vec3 ℝ) {n : ℕ} (hn : n ≠ 0) : (rodrigues (a.scale (n : ℝ)⁻¹))^[n] = rodrigues a := by
  have h : ∀ m : ℕ, (rodrigues (a.scale (n : ℝ)⁻¹))^[m] = rodrigues (a.scale (m * (n : ℝ)⁻¹)) := by
    intro m
    induction m with
    | zero => funext v; simp
    | succ m ih =>
      rw [Function.iterate_succ, ih]
      funext v
      rw [Function.comp, rodrigues_add]
      congr 2; push_cast; ring
  rw [h n, mul_inv_cancel₀ (Nat.cast_ne_zero.mpr hn), Vec3.scale_one]

/-- Turning by `b` and then by `a` differs from turning by `a + b` by at most half the length of their cross product. -/
theorem rodrigues_series (a b : Vec3 ℝ) : NearMap ((a.cross b).len / 2) (rodrigues a ∘ rodrigues b) (rodrigues (a + b)) := by
  have ha := a.len_nonneg
  have hb := b.len_nonneg
  set K := a.len * b.len * (a.len + b.len) + 2 * (a.len + b.len) ^ 2 with hK
  have hK0 : 0 ≤ K := by positivity
  have main : ∀ n : ℕ, n ≠ 0 → ∀ v, ((rodrigues a ∘ rodrigues b) v - rodrigues (a + b) v).len ≤ ((a.cross b).len / 2 + K / n) * v.len := by
    intro n hn v
    have hn' : (0 : ℝ) < n := by positivity
    have hn1 : (1 : ℝ) ≤ n := by exact_mod_cast Nat.one_le_iff_ne_zero.mpr hn
    have hi : 0 ≤ (n : ℝ)⁻¹ := by positivity
    have la : (a.scale (n : ℝ)⁻¹).len = a.len / n := by rw [Vec3.len_scale, abs_of_nonneg hi]; rfl
    have lb : (b.scale (n : ℝ)⁻¹).len = b.len / n := by rw [Vec3.len_scale, abs_of_nonneg hi]; rfl
    have lc : ((a.scale (n : ℝ)⁻¹).cross (b.scale (n : ℝ)⁻¹)).len = (a.cross b).len / n / n := by
      have : (a.scale (n : ℝ)⁻¹).cross (b.scale (n : ℝ)⁻¹) = ((a.cross b).scale (n : ℝ)⁻¹).scale (n : ℝ)⁻¹ := by
        ext <;> simp only [Vec3.cross_x, Vec3.cross_y, Vec3.cross_z, Vec3.scale_x, Vec3.scale_y, Vec3.scale_z] <;> ring
      rw [this, Vec3.len_scale, Vec3.len_scale, abs_of_nonneg hi]; rfl
    have f1 := rodrigues_isometric (a.scale (n : ℝ)⁻¹)
    have f2 := rodrigues_isometric (b.scale (n : ℝ)⁻¹)
    have f3 := rodrigues_isometric (a.scale (n : ℝ)⁻¹ + b.scale (n : ℝ)⁻¹)
    have s1 := (commute_small _ _).sort f1 f2 n
    have s2 := (series_small _ _).iterate (f1.comp f2) f3 n
    have s3 := s1.trans s2
    rw [rodrigues_iterate a hn, rodrigues_iterate b hn, show a.scale (n : ℝ)⁻¹ + b.scale (n : ℝ)⁻¹ = (a + b).scale (n : ℝ)⁻¹ by ext <;> simp <;> ring,
      rodrigues_iterate (a + b) hn, la, lb, lc] at s3
    refine (s3 v).trans (mul_le_mul_of_nonneg_right ?_ v.len_nonneg)
    have hc := (a.cross b).len_nonneg
    set C := (a.cross b).len
    set A := a.len
    set B := b.len
    have e1 : (n : ℝ) * (n - 1) / 2 * (C / n / n + 2 * (A / n * (B / n) * (A / n + B / n))) + n * (2 * (A / n + B / n) ^ 2)
        = (C / 2 + A * B * (A + B) / n) * ((n - 1) / n) + 2 * (A + B) ^ 2 / n := by field_simp
    have e2 : ((n : ℝ) - 1) / n ≤ 1 := by rw [div_le_one hn']; linarith
    have e3 : 0 ≤ C / 2 + A * B * (A + B) / n := by positivity
    rw [e1, hK, add_div]
    linarith [mul_le_mul_of_nonneg_left e2 e3]
  intro v
  refine le_of_forall_pos_le_add fun ε hε => ?_
  obtain ⟨n, hn⟩ := exists_nat_gt (K * v.len / ε)
  have hq : 0 ≤ K * v.len / ε := div_nonneg (mul_nonneg hK0 v.len_nonneg) hε.le
  have hn' : (0 : ℝ) < n := by linarith
  refine (main n (by rintro rfl; simp at hn') v).trans ?_
  rw [add_mul]
  have : K / n * v.len ≤ ε := by
    rw [div_mul_eq_mul_div, div_le_iff₀ hn']
    rw [div_lt_iff₀ hε] at hn
    linarith
  linarith
/-! ### Bodies -/

/-- **C100.** The rotation of a body that nothing touches, whose rotation vector is `R` and whose angular velocity is `w`, is after steps that turn it for the time `S` nearly
the rotation by the sum `R + w S`: every vector fixed to the body is carried to within `|w S × R| / 2` times its length of the place where the sum takes it. If the axes are
parallel it is exactly that rotation.

Missing: for axes that are not parallel the sum is not exact (`C100_false`); turns by at most `2^-22` per step do not count into `S` (C96). -/
theorem C100_partial {w : Vec3 ℝ} {h : Handle} {s s' : System XReal (GravityGenerator XReal)} {n : ℕ} {T S : ℝ} (hf : Whirls w h s n T S s') (hn : s.iterationMax ≠ 0)
    (hg : Earthly s) {p : Entity XReal} (hp : s.getEntity h = some p) (hi : FiniteInertia p) (hu : UnitPose p.lastOrientation) (hv : Finite3 p.velocity)
    (hw : p.angularVelocity = w.f) :
    ∃ (p' : Entity XReal) (R R' : Vec3 ℝ), s'.getEntity h = some p' ∧ p.rotation = R.f ∧ p'.rotation = R'.f ∧
      (∀ v, (rodrigues R' v - rodrigues (R + w.scale S) v).len ≤ ((w.scale S).cross R).len / 2 * v.len) ∧
      (w.cross R = .o → ∀ v, rodrigues R' v = rodrigues (R + w.scale S) v) := by
  obtain ⟨p', R, R', h1, -, h3, h4, h5⟩ := C96_turns_partial hf hn hg hp hi hu hv hw
  have hb : ∀ v, (rodrigues R' v - rodrigues (R + w.scale S) v).len ≤ ((w.scale S).cross R).len / 2 * v.len := by
    intro v
    have := rodrigues_series (w.scale S) R v
    rw [Function.comp, ← h5, show w.scale S + R = R + w.scale S by ext <;> simp [add_comm]] at this
    exact this
  refine ⟨p', R, R', h1, h3, h4, hb, fun hc v => ?_⟩
  have hz : (w.scale S).cross R = .o := by
    have e : (w.scale S).cross R = (w.cross R).scale S := by
      ext <;> simp only [Vec3.cross_x, Vec3.cross_y, Vec3.cross_z, Vec3.scale_x, Vec3.scale_y, Vec3.scale_z] <;> ring
    rw [e, hc]; ext <;> simp
  have := hb v
  rw [hz, Vec3.len_o, zero_div, zero_mul] at this
  have h0 := (Vec3.len_eq_zero _).mp (le_antisymm this (Vec3.len_nonneg _))
  have hx := congrArg Vec3.x h0; have hy := congrArg Vec3.y h0; have hz := congrArg Vec3.z h0
  simp only [Vec3.sub_x, Vec3.sub_y, Vec3.sub_z, Vec3.o_x, Vec3.o_y, Vec3.o_z, sub_eq_zero] at hx hy hz
  ext
  · exact hx
  · exact hy
  · exact hz

/-- A body of 1 kg that is turned already and turns on, with gravity as on earth, and never to fall asleep. -/
theorem turned_system (R w : Vec3 ℝ) : ∃ (s : System XReal (GravityGenerator XReal)) (p : Entity XReal), Reachable s ∧ Projectile s ∧ s.iterationMax ≠ 0 ∧ Earthly s ∧
    s.getEntity h0 = some p ∧ FiniteInertia p ∧ UnitPose p.lastOrientation ∧ Finite3 p.velocity ∧ p.angularVelocity = w.f ∧ p.rotation = (Quat.log (Quat.exp R)).f := by
  let e : Entity XReal := { Scene.source (fin 1) .o ⟨3, 20, 0⟩ with angularVelocity := w.f, rotation := R.f }
  let o : Orientation ℝ := { Scene.pose .o with rotation := Quat.exp R }
  let E : InternalEntity XReal := { Scene.dot (fin 1) .o ⟨3, 20, 0⟩ [] Scene.up with angularVelocity := w.f, orientation := o.f }
  have hsrc : InternalEntity.newFrom e = some E := by
    have hm' : ¬ Scalar.lt (fin 1 : XReal) zero = true := by simp
    unfold InternalEntity.newFrom
    rw [if_neg (by exact hm')]
    simp only [e, E, o, Scene.source, Entity.new, Entity.makeOrientation, Vec3.f_zeros, Mat3.f_zeros, Orientation.f_new, Quat.exp_o, Scene.dot, Scene.up, Scene.pose, zero_eq,
      Orientation.f_offset]
  let s1 : System XReal (GravityGenerator XReal) := ((System.new : System XReal (GravityGenerator XReal)).addGenerator ⟨Vec3.f ⟨0, -10, 0⟩⟩).1
  let s : System XReal (GravityGenerator XReal) := { (s1.addEntity e).1 with
    iterationMax := 5, energySleepThreshold := fin 1, sleepTimeThreshold := posInf, collisionRecords := [], debug := [] }
  have hreach : Reachable s :=
    ⟨_, .snoc .id (.configure 5 (fin 1) posInf [] []) .unit (.snoc .id (.addEntity e) _
      (.snoc .id (.addGenerator ⟨Vec3.f ⟨0, -10, 0⟩⟩) _ .nil rfl) rfl) rfl⟩
  have hget : s.entities.get h0 = some E := by
    simp only [s, s1, System.addGenerator, System.addEntity, hsrc]; rfl
  have hall : ∀ k X, s.entities.get k = some X → k = h0 ∧ X = E := by
    intro k X hX
    have hX : ((Arena.new : Arena (InternalEntity XReal)).insert E).1.get k = some X := by
      simp only [s, s1, System.addGenerator, System.addEntity, hsrc] at hX; exact hX
    rw [Arena.get_insert Arena.wf_new] at hX
    split at hX
    · rename_i hk; cases hX; exact ⟨hk, rfl⟩
    · rw [Arena.get_new] at hX; cases hX
  have hproj : Projectile s := by
    refine ⟨⟨⟨_, hget⟩, fun k X hX => ?_, fun k X m hX hm => ?_⟩, ⟨_, 0, hget, rfl, rfl⟩, rfl⟩
    · obtain ⟨a, rfl⟩ := hall k X hX; exact ⟨a, rfl⟩
    · obtain ⟨-, rfl⟩ := hall k X hX; cases hm
  have hp : s.getEntity h0 = some E.makePub := getEntity_eq_some.mpr ⟨_, hget, rfl⟩
  have hg : Earthly s := by
    intro k g hk
    have hgs : s.generators = s1.generators := by simp only [s, System.addEntity, hsrc]
    rw [hgs] at hk
    have hk : ((Arena.new : Arena (GravityGenerator XReal)).insert ⟨Vec3.f ⟨0, -10, 0⟩⟩).1.get k = some g := hk
    rw [Arena.get_insert Arena.wf_new] at hk
    split at hk
    · cases hk; exact finite3_f _
    · rw [Arena.get_new] at hk; cases hk
  have hU : Orientation.Unit o := Quat.exp_normSq R
  have hup : UnitPose E.makePub.lastOrientation := unitPose_f hU
  refine ⟨s, _, hreach, hproj, Nat.succ_ne_zero 4, hg, hp, ?_, hup, finite3_f ⟨3, 20, 0⟩, rfl, ?_⟩
  · exact ⟨⟨hup.position, hup.offset, hup.w, hup.v⟩, finite3_f Vec3.o, finite3_f Vec3.o, finite3_f Vec3.o⟩
  · show o.f.rotationVec = _
    rw [Orientation.f_rotationVec]

/-- The rotation that a body has after one step of a second, from any rotation and with any angular velocity that is not tiny: the hypotheses of `C100_partial` are met. -/
theorem C100_applies (R w : Vec3 ℝ) (hR : R.len < Real.pi) (hR' : 1 / 4194304 < R.len) (hw : 1 / 4194304 < w.len) :
    ∃ (s s' : System XReal (GravityGenerator XReal)) (p p' : Entity XReal) (R' : Vec3 ℝ), Reachable s ∧ Whirls w h0 s 1 1 1 s' ∧ s.iterationMax ≠ 0 ∧ Earthly s ∧
      s.getEntity h0 = some p ∧ FiniteInertia p ∧ UnitPose p.lastOrientation ∧ Finite3 p.velocity ∧ p.angularVelocity = w.f ∧ p.rotation = R.f ∧
      s'.getEntity h0 = some p' ∧ p'.rotation = R'.f ∧ ∀ v, rodrigues R' v = rodrigues w (rodrigues R v) := by
  obtain ⟨s, p, hr, hproj, hn, hg, hp, hi, hu, hv, hw', hrot⟩ := turned_system R w
  obtain ⟨s', -, hf⟩ := hproj.whirls (d := 1) (by norm_num) w 1
  rw [if_pos (by rw [abs_one, mul_one]; exact hw)] at hf
  have hf : Whirls w h0 s 1 1 1 s' := by simpa using hf
  have hlog : Quat.log (Quat.exp R) = R := by
    obtain ⟨k, hk, hkR⟩ := axis_angle R
    have e : Quat.exp R = turnBy k R.len := by
      have h := exp_turnBy hk (θ := R.len) (by rw [abs_of_nonneg R.len_nonneg]; unfold Quat.meps; linarith)
      rwa [← hkR] at h
    rw [e, log_turnBy hk (by linarith [R.len_nonneg, Real.pi_pos]) hR, ← hkR]
  rw [hlog] at hrot
  obtain ⟨p', R0, R', h1, -, h3, h4, h5⟩ := C96_turns_partial hf hn hg hp hi hu hv hw'
  rw [hrot, Vec3.f_inj] at h3
  subst h3
  exact ⟨s, s', p, p', R', hr, hf, hn, hg, hp, hi, hu, hv, hw', hrot, h1, h4, fun v => by rw [h5, Vec3.scale_one]⟩

/-- **C100** is false: a body that is turned by a quarter about the x axis and turns by a quarter about the y axis in one step is not turned by the sum of the two vectors
afterwards. The unit vector along x comes to lie along -z; the sum takes it to a place that is more than a quarter of its length away. -/
theorem C100_false : ∃ (s s' : System XReal (GravityGenerator XReal)) (p p' : Entity XReal) (w R R' v : Vec3 ℝ), Reachable s ∧ Whirls w h0 s 1 1 1 s' ∧
    s.iterationMax ≠ 0 ∧ Earthly s ∧ s.getEntity h0 = some p ∧ FiniteInertia p ∧ UnitPose p.lastOrientation ∧ Finite3 p.velocity ∧ p.angularVelocity = w.f ∧
    p.rotation = R.f ∧ s'.getEntity h0 = some p' ∧ p'.rotation = R'.f ∧ v.len = 1 ∧ rodrigues R' v = ⟨0, 0, -1⟩ ∧
    1 / 4 < (rodrigues R' v - rodrigues (R + w.scale 1) v).len := by
  have hpi := Real.two_le_pi
  have lx : (Vec3.mk (Real.pi / 2) 0 0 : Vec3 ℝ).len = Real.pi / 2 := len_of (by linarith) (by simp [Vec3.dot_def])
  have ly : (Vec3.mk 0 (Real.pi / 2) 0 : Vec3 ℝ).len = Real.pi / 2 := len_of (by linarith) (by simp [Vec3.dot_def])
  obtain ⟨s, s', p, p', R', a1, a2, a3, a4, a5, a6, a7, a8, a9, a10, a11, a12, a13⟩ := C100_applies ⟨Real.pi / 2, 0, 0⟩ ⟨0, Real.pi / 2, 0⟩ (by rw [lx]; linarith)
    (by rw [lx]; linarith) (by rw [ly]; linarith)
  have hv : rodrigues R' ⟨1, 0, 0⟩ = ⟨0, 0, -1⟩ := by
    rw [a13]
    rw [show (Vec3.mk (Real.pi / 2) 0 0 : Vec3 ℝ) = Vec3.scale ⟨1, 0, 0⟩ (Real.pi / 2) by ext <;> simp,
      show (Vec3.mk 0 (Real.pi / 2) 0 : Vec3 ℝ) = Vec3.scale ⟨0, 1, 0⟩ (Real.pi / 2) by ext <;> simp, rodrigues_signed (by simp [Vec3.dot_def]),
      rodrigues_signed (by simp [Vec3.dot_def])]
    ext <;> simp [Vec3.dot_def]
  refine ⟨s, s', p, p', _, _, R', ⟨1, 0, 0⟩, a1, a2, a3, a4, a5, a6, a7, a8, a9, a10, a11, a12, len_of zero_le_one (by simp [Vec3.dot_def]), hv, ?_⟩
  -- the z component under the sum is at least -1/√2
  have h2 := Real.sqrt_pos.mpr (by norm_num : (0 : ℝ) < 2)
  have h22 : Real.sqrt 2 * Real.sqrt 2 = 2 := Real.mul_self_sqrt (by norm_num)
  have hk : (Vec3.mk (Real.sqrt 2 / 2) (Real.sqrt 2 / 2) 0 : Vec3 ℝ).dot ⟨Real.sqrt 2 / 2, Real.sqrt 2 / 2, 0⟩ = 1 := by
    simp only [Vec3.dot_def]; nlinarith
  have hsum : (Vec3.mk (Real.pi / 2) 0 0 : Vec3 ℝ) + (Vec3.mk 0 (Real.pi / 2) 0 : Vec3 ℝ).scale 1 = Vec3.scale ⟨Real.sqrt 2 / 2, Real.sqrt 2 / 2, 0⟩ (Real.pi / Real.sqrt 2) := by
    ext <;> simp <;> field_simp
  rw [hv, hsum, rodrigues_signed hk]
  by_contra hc
  push Not at hc
  rw [len_le (by norm_num), Vec3.dot_def] at hc
  have hs := Real.sin_le_one (Real.pi / Real.sqrt 2)
  have hz : ∀ d : Vec3 ℝ, d.x * d.x + d.y * d.y + d.z * d.z ≤ 1 / 4 * (1 / 4) → -(1 / 4) ≤ d.z := by
    intro d hd
    nlinarith [mul_self_nonneg d.x, mul_self_nonneg d.y]
  have := hz _ hc
  simp only [Vec3.sub_z, Vec3.add_z, Vec3.scale_z, Vec3.cross_z] at this
  have hq : Real.sqrt 2 < 1.45 := by nlinarith
  generalize Real.sin (Real.pi / Real.sqrt 2) = t at *
  have hm := mul_le_mul_of_nonneg_left hs h2.le
  generalize Real.sqrt 2 = q at *
  clear hc hsum hk
  ring_nf at this hm
  norm_num at this hq
  linarith

end Fluffy.Props
