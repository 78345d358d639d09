import Verif.Num.Kernel
import Verif.Props.Detect
/-
C75: balls that meet are found, in binary32.
-/
set_option linter.unusedSectionVars false
set_option linter.unusedSimpArgs false
namespace Fluffy
namespace F32
variable [Libm]

/-- A finite number whose value is the integer `n`. -/
def IV (a : F32) (n : ℤ) : Prop := Val a (n : ℚ)

theorem IV.small {n : ℤ} (h : |n| ≤ 2 ^ 24) : |rnd (n : ℚ)| < 2 ^ 128 := by
  rw [rnd_int h, ← Int.cast_abs]
  have : ((|n| : ℤ) : ℚ) ≤ ((2 ^ 24 : ℤ) : ℚ) := by exact_mod_cast h
  exact lt_of_le_of_lt this (by norm_num)

theorem IV.add {a b : F32} {m n : ℤ} (ha : IV a m) (hb : IV b n) (h : |m + n| ≤ 2 ^ 24) : IV (a + b) (m + n) := by
  have := Val.add ha hb (by rw [← Int.cast_add]; exact IV.small h)
  rwa [← Int.cast_add, rnd_int h] at this

theorem IV.sub {a b : F32} {m n : ℤ} (ha : IV a m) (hb : IV b n) (h : |m - n| ≤ 2 ^ 24) : IV (a - b) (m - n) := by
  have := Val.sub ha hb (by rw [← Int.cast_sub]; exact IV.small h)
  rwa [← Int.cast_sub, rnd_int h] at this

theorem IV.mul {a b : F32} {m n : ℤ} (ha : IV a m) (hb : IV b n) (h : |m * n| ≤ 2 ^ 24) : IV (a * b) (m * n) := by
  have := Val.mul ha hb (by rw [← Int.cast_mul]; exact IV.small h)
  rwa [← Int.cast_mul, rnd_int h] at this

theorem IV.neg {a : F32} {m : ℤ} (ha : IV a m) : IV (-a) (-m) := by
  have := Val.neg ha
  rwa [← Int.cast_neg] at this

theorem iv_lit {n : ℤ} (h : |n| ≤ 2 ^ 24) : IV (lit n 1 : F32) n := by
  obtain ⟨k, e⟩ := lit_int h
  exact ⟨_, k, e⟩

theorem val_eps : ∃ e, Val (EPSILON : F32) e ∧ 0 < e ∧ e < 1 := by
  have h : valued (EPSILON : F32) (8796093 / 8796093022208) = true := by kernel_refl
  exact ⟨_, valued_iff.mp h, by norm_num, by norm_num⟩

/-- The rounded root of a number is not below any integer that the root is not below. -/
theorem root_ge {x : ℚ} (hx : 1 ≤ x) (hx' : x ≤ 2 ^ 24) {n : ℕ} (h : (n : ℚ) * n ≤ x) : (n : ℚ) ≤ root x := by
  have hl : Int.log 2 x ≤ 24 := by
    have := Int.log_mono_right (b := 2) (by linarith) hx'
    refine this.trans ?_
    rw [show (2 : ℚ) ^ 24 = ((2 : ℕ) : ℚ) ^ (24 : ℤ) by norm_num, Int.log_zpow (by norm_num)]
  set e : ℤ := Int.log 2 x / 2 - 23 with he
  have hk : ∃ k : ℕ, e = -(k : ℤ) := ⟨(-e).toNat, by omega⟩
  obtain ⟨k, hk⟩ := hk
  have h4 : (4 : ℚ) ^ e = 1 / (2 ^ k * 2 ^ k) := by
    rw [hk, zpow_neg, zpow_natCast, one_div, ← mul_pow]; norm_num
  have h2 : (2 : ℚ) ^ e = 1 / 2 ^ k := by rw [hk, zpow_neg, zpow_natCast, one_div]
  have hm : n * 2 ^ k ≤ Nat.sqrt ⌊x / 4 ^ e⌋₊ := by
    rw [Nat.le_sqrt]
    apply Nat.le_floor
    rw [h4, div_div_eq_mul_div, div_one]
    push_cast
    have : (0 : ℚ) ≤ 2 ^ k * 2 ^ k := by positivity
    nlinarith [mul_le_mul_of_nonneg_right h this]
  have hp : (0 : ℚ) < 2 ^ k := by positivity
  have hm' : (n : ℚ) * 2 ^ k ≤ (Nat.sqrt ⌊x / 4 ^ e⌋₊ : ℕ) := by exact_mod_cast hm
  have hr : root x = ((if x / 4 ^ e < ((Nat.sqrt ⌊x / 4 ^ e⌋₊ : ℕ) + 1 / 2) ^ 2 then Nat.sqrt ⌊x / 4 ^ e⌋₊ else Nat.sqrt ⌊x / 4 ^ e⌋₊ + 1 : ℕ) : ℚ) * 2 ^ e := rfl
  rw [hr, h2, mul_one_div, le_div_iff₀ hp]
  split <;> push_cast <;> linarith

theorem root_le {x : ℚ} (hx : 1 ≤ x) (hx' : x ≤ 2 ^ 24) : root x ≤ 2 ^ 13 := by
  have hl : Int.log 2 x ≤ 24 := by
    have := Int.log_mono_right (b := 2) (by linarith) hx'
    refine this.trans ?_
    rw [show (2 : ℚ) ^ 24 = ((2 : ℕ) : ℚ) ^ (24 : ℤ) by norm_num, Int.log_zpow (by norm_num)]
  set e : ℤ := Int.log 2 x / 2 - 23 with he
  obtain ⟨k, hk⟩ : ∃ k : ℕ, e = -(k : ℤ) := ⟨(-e).toNat, by omega⟩
  have h4 : (4 : ℚ) ^ e = 1 / (2 ^ k * 2 ^ k) := by
    rw [hk, zpow_neg, zpow_natCast, one_div, ← mul_pow]; norm_num
  have h2 : (2 : ℚ) ^ e = 1 / 2 ^ k := by rw [hk, zpow_neg, zpow_natCast, one_div]
  set m : ℕ := Nat.sqrt ⌊x / 4 ^ e⌋₊ with hm
  have hs : (m : ℚ) * m ≤ x * (2 ^ k * 2 ^ k) := by
    have h1 : m * m ≤ ⌊x / 4 ^ e⌋₊ := Nat.sqrt_le _
    have h3 : ((m * m : ℕ) : ℚ) ≤ x / 4 ^ e := (Nat.cast_le.mpr h1).trans (Nat.floor_le (by rw [h4]; positivity))
    rw [h4, div_div_eq_mul_div, div_one] at h3
    exact_mod_cast h3
  have hp : (1 : ℚ) ≤ 2 ^ k := one_le_pow₀ (by norm_num)
  have hm' : (m : ℚ) ≤ 2 ^ 12 * 2 ^ k := by
    refine abs_le_of_sq_le_sq' (a := (m : ℚ)) (b := 2 ^ 12 * 2 ^ k) ?_ (by positivity) |>.2
    nlinarith [mul_le_mul_of_nonneg_right hx' (by positivity : (0 : ℚ) ≤ 2 ^ k * 2 ^ k)]
  have hr : root x = ((if x / 4 ^ e < ((m : ℕ) + 1 / 2) ^ 2 then m else m + 1 : ℕ) : ℚ) * 2 ^ e := rfl
  rw [hr, h2, mul_one_div, div_le_iff₀ (by positivity)]
  split <;> push_cast <;> linarith

/-- The root of a small integer. -/
theorem IV.sqrt {a : F32} {n : ℤ} (ha : IV a n) (h1 : 1 ≤ n) (h2 : n ≤ 2 ^ 24) :
    ∃ s, Val (Scalar.sqrt a) s ∧ 0 ≤ s ∧ s ≤ 2 ^ 13 ∧ ∀ k : ℤ, 0 ≤ k → k * k ≤ n → (k : ℚ) ≤ s := by
  have q1 : (1 : ℚ) ≤ n := by exact_mod_cast h1
  have q2 : (n : ℚ) ≤ 2 ^ 24 := by exact_mod_cast h2
  obtain ⟨z, k, rfl⟩ := ha
  have hu := root_le q1 q2
  have hlo := root_ge q1 q2 (n := 0) (by push_cast; linarith)
  have e13 : Fluffy.rnd (2 ^ 13 : ℚ) = 2 ^ 13 := by
    have := rnd_int (n := 2 ^ 13) (by norm_num)
    push_cast at this; exact this
  have hb := rnd_between (rnd_zero) e13 (by push_cast at hlo; exact hlo) hu
  refine ⟨Fluffy.rnd (root n), ?_, hb.1, hb.2, ?_⟩
  · have e : Scalar.sqrt (F32.fin (n : ℚ) z k) = pack (root n) false := by
      show (if (n : ℚ) < 0 then nan else if (n : ℚ) = 0 then fin _ z k else pack (root n) false) = _
      rw [if_neg (by linarith), if_neg (by linarith)]
    rw [e]
    refine val_pack (lt_of_le_of_lt ?_ (by norm_num : (2 : ℚ) ^ 13 < 2 ^ 128))
    rw [abs_of_nonneg hb.1]; exact hb.2
  · intro j hj hjn
    obtain ⟨i, rfl⟩ := Int.eq_ofNat_of_zero_le hj
    have hi : (i : ℚ) * i ≤ n := by exact_mod_cast hjn
    have := rnd_mono (root_ge q1 q2 hi)
    have hs : |(i : ℤ)| ≤ 2 ^ 24 := by
      rw [abs_of_nonneg (by positivity)]
      nlinarith
    have e := rnd_int hs
    push_cast at e this ⊢
    rwa [e] at this

theorem Val.notNaN {a : F32} {x : ℚ} (h : Val a x) : Scalar.isNaN a = false := by obtain ⟨z, k, rfl⟩ := h; rfl

theorem unit_eq : (unitRange : Range F32) = ⟨zero, one⟩ := by
  unfold unitRange Range.range
  rw [val_zero.lt val_one]; simp

theorem intersect_unit {r : Range F32} {x y : ℚ} (hx : Val r.lo x) (hy : Val r.hi y) (h1 : x ≤ 1) (h0 : 0 ≤ y) (h : x ≤ y) :
    (r.intersect unitRange).isEmpty = false := by
  unfold Range.intersect
  rw [unit_eq]
  simp only [Range.isEmpty, hx.notNaN, hy.notNaN, val_zero.notNaN, val_one.notNaN, Bool.or_self, Bool.false_eq_true, if_false, val_zero.lt hx, hy.lt val_one]
  by_cases a : 0 < x <;> by_cases b : y < 1 <;>
    simp [a, b, hy.lt hx, hy.lt val_zero, val_one.lt hx, val_one.lt val_zero, hx.notNaN, hy.notNaN, val_zero.notNaN, val_one.notNaN, not_lt.mpr h, not_lt.mpr h1, not_lt.mpr h0, show ¬ (1 : ℚ) < 0 by norm_num]

theorem fits_pos {x y : ℚ} (h : 0 ≤ x ∧ x ≤ y) (hy : y < 2 ^ 128) : |x| < 2 ^ 128 := by rw [abs_of_nonneg h.1]; exact lt_of_le_of_lt h.2 hy

/-- The quadratic of small integer coefficients: if it is not positive somewhere in the step, its zeros meet the step. -/
theorem quadratic_found {a b c : F32} {A B C : ℤ} (ha : IV a A) (hb : IV b B) (hc : IV c C) (hA : 0 < A) (bA : A ≤ 2 ^ 11) (bB : |B| ≤ 2 ^ 12)
    (bC : |C| ≤ 2 ^ 11) (bD : |B * B - 4 * A * C| ≤ 2 ^ 24) {t : ℝ} (t0 : 0 ≤ t) (t1 : t ≤ 1) (ht : (A : ℝ) * t ^ 2 + B * t + C ≤ 0) :
    ((Range.quadraticZeros a b c).intersect unitRange).isEmpty = false := by
  have rA : (0 : ℝ) < A := by exact_mod_cast hA
  -- what the quadratic being negative somewhere says about its coefficients
  have hD : 0 ≤ B * B - 4 * A * C := by
    have : (0 : ℝ) ≤ B * B - 4 * A * C := by nlinarith [sq_nonneg (2 * A * t + B)]
    exact_mod_cast this
  have hB : 0 < B → B * B ≤ B * B - 4 * A * C := by
    intro h
    have h' : (0 : ℝ) < B := by exact_mod_cast h
    have : (C : ℝ) ≤ 0 := by nlinarith [mul_nonneg h'.le t0, mul_nonneg rA.le (sq_nonneg t)]
    have : (B * B : ℝ) ≤ B * B - 4 * A * C := by nlinarith [mul_nonneg rA.le (neg_nonneg.mpr this)]
    exact_mod_cast this
  have hE : 0 < -B - 2 * A → (-B - 2 * A) * (-B - 2 * A) ≤ B * B - 4 * A * C := by
    intro h
    have h' : (0 : ℝ) < -B - 2 * A := by exact_mod_cast h
    have : (A + B + C : ℝ) ≤ 0 := by nlinarith [mul_nonneg (sub_nonneg.mpr t1) (by nlinarith : (0 : ℝ) ≤ -B - A * (1 + t))]
    have : ((-B - 2 * A) * (-B - 2 * A) : ℝ) ≤ B * B - 4 * A * C := by nlinarith [mul_nonneg rA.le (neg_nonneg.mpr this)]
    exact_mod_cast this
  have bB' := abs_le.mp bB
  have bC' := abs_le.mp bC
  have bD' := abs_le.mp bD
  obtain ⟨e, ve, e0, e1⟩ := val_eps
  have qA : (1 : ℚ) ≤ A := by exact_mod_cast hA
  have b4 : |4 * A * C| ≤ 2 ^ 24 := by
    rw [abs_mul, abs_mul, abs_of_pos hA]
    have := abs_nonneg C
    simp only [Int.reduceAbs, Nat.abs_ofNat]
    nlinarith
  have v4 : IV (lit 4 1 * a * c) (4 * A * C) := ((iv_lit (by norm_num)).mul ha (by rw [abs_of_pos (by positivity)]; omega)).mul hc b4
  have vBB : IV (b * b) (B * B) := hb.mul hb (by rw [abs_mul_self]; nlinarith)
  have vD : IV (b * b - lit 4 1 * a * c) (B * B - 4 * A * C) := vBB.sub v4 bD
  have v2 : IV (two * a) (2 * A) := (iv_lit (n := 2) (by norm_num)).mul ha (by rw [abs_of_pos (by positivity)]; omega)
  have q2A : (0 : ℚ) < ((2 * A : ℤ) : ℚ) := by exact_mod_cast (by positivity : 0 < 2 * A)
  unfold Range.quadraticZeros
  rw [Val.lt (Val.abs ha) ve, abs_of_nonneg (by linarith), decide_eq_false (by linarith), if_neg Bool.false_ne_true]
  simp only
  rw [Val.lt vD (Val.neg ve), decide_eq_false (by push_cast; have : (0 : ℚ) ≤ B * B - 4 * A * C := by exact_mod_cast hD
                                                  linarith), if_neg Bool.false_ne_true, Val.lt vD ve]
  rcases hD.eq_or_lt with h0 | hpos
  · -- a double zero
    rw [decide_eq_true (by rw [← h0]; push_cast; exact e0), if_pos rfl]
    have hB0 : B ≤ 0 := by
      by_contra h
      have := hB (not_le.mp h)
      nlinarith [not_le.mp h]
    have hB1 : -B ≤ 2 * A := by
      by_contra h
      have := hE (by omega)
      nlinarith [not_le.mp h]
    have vh : Val (lit (-1) 2 : F32) (-1 / 2) := by
      have : valued (lit (-1) 2 : F32) (-1 / 2) = true := by kernel_refl
      exact valued_iff.mp this
    have eh : Fluffy.rnd (-1 / 2 * (B : ℚ)) = -1 / 2 * B := by
      have := rnd_exact (m := -B) (e := -1) (by rw [abs_neg]; omega) (by norm_num)
      rw [show -1 / 2 * (B : ℚ) = ((-B : ℤ) : ℚ) * 2 ^ (-1 : ℤ) by push_cast; norm_num; ring]
      exact this
    have qB0 : (B : ℚ) ≤ 0 := by exact_mod_cast hB0
    have qB1 : -(B : ℚ) ≤ 2 * A := by exact_mod_cast hB1
    have vm : Val (lit (-1) 2 * b : F32) (-1 / 2 * B) := by
      have := vh.mul hb (by
        rw [eh]
        have : |(B : ℚ)| ≤ 2 ^ 12 := by rw [← Int.cast_abs]; exact_mod_cast bB
        rw [abs_mul]; norm_num; linarith)
      rwa [eh] at this
    have hq := rnd_between rnd_zero rnd_one (x := -1 / 2 * (B : ℚ) / A) (div_nonneg (by linarith) (by linarith)) (by rw [div_le_one (by linarith)]; linarith)
    have vq := vm.div ha (by linarith) (fits_pos hq (by norm_num))
    exact intersect_unit (r := Range.single _) vq vq hq.2 hq.1 (le_refl _)
  · -- two zeros
    rw [decide_eq_false (by
      have : (1 : ℚ) ≤ ((B * B - 4 * A * C : ℤ) : ℚ) := by exact_mod_cast hpos
      linarith), if_neg Bool.false_ne_true]
    obtain ⟨s, vs, s0, s1, hs⟩ := vD.sqrt hpos bD'.2
    have p0 : 0 ≤ -(B : ℚ) + s := by
      rcases le_or_gt B 0 with h | h
      · have : (B : ℚ) ≤ 0 := by exact_mod_cast h
        linarith
      · linarith [hs B h.le (hB h)]
    have p1 : -(B : ℚ) - s ≤ ((2 * A : ℤ) : ℚ) := by
      rcases le_or_gt (-B - 2 * A) 0 with h | h
      · have : -(B : ℚ) - 2 * A ≤ 0 := by exact_mod_cast h
        push_cast; linarith
      · have := hs _ h.le (hE h)
        push_cast at this ⊢; linarith
    have aB : |(B : ℚ)| ≤ 2 ^ 12 := by rw [← Int.cast_abs]; exact_mod_cast bB
    have aB' := abs_le.mp aB
    have big : Fluffy.rnd (2 ^ 14 : ℚ) = 2 ^ 14 := by
      have := rnd_int (n := 2 ^ 14) (by norm_num)
      push_cast at this; exact this
    have big' : Fluffy.rnd (-2 ^ 14 : ℚ) = -2 ^ 14 := by rw [rnd_neg, big]
    have hp := rnd_between rnd_zero big p0 (by linarith)
    have hm := rnd_between big' big (x := -(B : ℚ) - s) (by linarith) (by linarith)
    have vp := Val.add (Val.neg hb) vs (fits_pos hp (by norm_num))
    have vm := Val.sub (Val.neg hb) vs (lt_of_le_of_lt (abs_le.mpr hm) (by norm_num))
    have m1 : Fluffy.rnd (-(B : ℚ) - s) ≤ ((2 * A : ℤ) : ℚ) := by
      have := rnd_mono p1
      rwa [rnd_int (n := 2 * A) (by rw [abs_of_pos (by positivity)]; omega)] at this
    have le : Fluffy.rnd (-(B : ℚ) - s) ≤ Fluffy.rnd (-(B : ℚ) + s) := rnd_mono (by linarith)
    have q1 : (1 : ℚ) ≤ ((2 * A : ℤ) : ℚ) := by push_cast; linarith
    have hp' := rnd_between rnd_zero big (x := Fluffy.rnd (-(B : ℚ) + s) / ((2 * A : ℤ) : ℚ)) (div_nonneg hp.1 q2A.le)
      ((div_le_self hp.1 q1).trans hp.2)
    have hm' := rnd_between big' rnd_one (x := Fluffy.rnd (-(B : ℚ) - s) / ((2 * A : ℤ) : ℚ)) (by
      rw [le_div_iff₀ q2A]; nlinarith [hm.1]) (by rw [div_le_one q2A]; exact m1)
    have vp' := vp.div v2 q2A.ne' (fits_pos hp' (by norm_num))
    have vm' := vm.div v2 q2A.ne' (lt_of_le_of_lt (abs_le.mpr ⟨hm'.1, hm'.2.trans (by norm_num : (1 : ℚ) ≤ 2 ^ 14)⟩) (by norm_num))
    have lq : Fluffy.rnd (Fluffy.rnd (-(B : ℚ) - s) / ((2 * A : ℤ) : ℚ)) ≤ Fluffy.rnd (Fluffy.rnd (-(B : ℚ) + s) / ((2 * A : ℤ) : ℚ)) :=
      rnd_mono (div_le_div_of_nonneg_right le q2A.le)
    unfold Range.range
    rw [vp'.lt vm', decide_eq_false (not_lt.mpr lq), if_neg Bool.false_ne_true]
    exact intersect_unit vm' vp' hm'.2 hp'.1 lq

/-- A vector of finite numbers whose values are integers. -/
def IVec (v : Vec3 F32) (n : Vec3 ℤ) : Prop := IV v.x n.x ∧ IV v.y n.y ∧ IV v.z n.z

theorem IVec.sub {u v : Vec3 F32} {m n : Vec3 ℤ} (hu : IVec u m) (hv : IVec v n) (h : (m - n).dot (m - n) ≤ 2048) : IVec (u - v) (m - n) := by
  have e : (m - n).dot (m - n) = (m.x - n.x) * (m.x - n.x) + (m.y - n.y) * (m.y - n.y) + (m.z - n.z) * (m.z - n.z) := rfl
  rw [e] at h
  have hx := mul_self_nonneg (m.x - n.x)
  have hy := mul_self_nonneg (m.y - n.y)
  have hz := mul_self_nonneg (m.z - n.z)
  exact ⟨hu.1.sub hv.1 (abs_le.mpr ⟨by nlinarith, by nlinarith⟩), hu.2.1.sub hv.2.1 (abs_le.mpr ⟨by nlinarith, by nlinarith⟩),
    hu.2.2.sub hv.2.2 (abs_le.mpr ⟨by nlinarith, by nlinarith⟩)⟩

theorem int_dot_bound {m n : Vec3 ℤ} (hm : m.dot m ≤ 2048) (hn : n.dot n ≤ 2048) :
    |m.x * n.x| ≤ 2048 ∧ |m.x * n.x + m.y * n.y| ≤ 2048 ∧ |m.x * n.x + m.y * n.y + m.z * n.z| ≤ 2048 ∧ |m.y * n.y| ≤ 2048 ∧ |m.z * n.z| ≤ 2048 := by
  have em : m.dot m = m.x * m.x + m.y * m.y + m.z * m.z := rfl
  have en : n.dot n = n.x * n.x + n.y * n.y + n.z * n.z := rfl
  rw [em] at hm
  rw [en] at hn
  have := mul_self_nonneg (m.x - n.x); have := mul_self_nonneg (m.y - n.y); have := mul_self_nonneg (m.z - n.z)
  have := mul_self_nonneg (m.x + n.x); have := mul_self_nonneg (m.y + n.y); have := mul_self_nonneg (m.z + n.z)
  have := mul_self_nonneg m.x; have := mul_self_nonneg m.y; have := mul_self_nonneg m.z
  have := mul_self_nonneg n.x; have := mul_self_nonneg n.y; have := mul_self_nonneg n.z
  refine ⟨?_, ?_, ?_, ?_, ?_⟩ <;> rw [abs_le] <;> constructor <;> nlinarith

theorem IVec.dot {u v : Vec3 F32} {m n : Vec3 ℤ} (hu : IVec u m) (hv : IVec v n) (hm : m.dot m ≤ 2048) (hn : n.dot n ≤ 2048) : IV (u.dot v) (m.dot n) := by
  obtain ⟨h1, h2, h3, h4, h5⟩ := int_dot_bound hm hn
  exact ((hu.1.mul hv.1 (by omega)).add (hu.2.1.mul hv.2.1 (by omega)) (by omega)).add (hu.2.2.mul hv.2.2 (by omega)) (by omega)

end F32

namespace Props
open F32 Demo

/-- An integer vector among the real ones. -/
def whole (n : Vec3 ℤ) : Vec3 ℝ := ⟨n.x, n.y, n.z⟩

/-- **C75**, small integers: of two balls whose centres, movements and radii are whole numbers (the relative movement, the distance and the sum of the radii not
above 45), a meeting during the step is never missed by binary32, with all its roundings, however the balls graze each other and however close to
the start or the end of the step they meet. -/
theorem C75_integers_partial [Libm] {r1 r2 : F32} {c1 m1 c2 m2 : Vec3 F32} {R1 R2 : ℤ} {C1 M1 C2 M2 : Vec3 ℤ} (hr1 : IV r1 R1) (hr2 : IV r2 R2)
    (hc1 : IVec c1 C1) (hm1 : IVec m1 M1) (hc2 : IVec c2 C2) (hm2 : IVec m2 M2) (p1 : 0 ≤ R1) (p2 : 0 ≤ R2) (hR : (R1 + R2) * (R1 + R2) ≤ 2048)
    (hv : (M1 - M2).dot (M1 - M2) ≤ 2048) (hd : (C1 - C2).dot (C1 - C2) ≤ 2048) (hmov : M1 ≠ M2)
    {t : ℝ} (t0 : 0 ≤ t) (t1 : t ≤ 1) (ht : BallsMeet R1 (whole C1) (whole M1) R2 (whole C2) (whole M2) t) :
    ∃ c, collideSphereSphere r1 c1 m1 r2 c2 m2 = some c := by
  have vv := hm1.sub hm2 hv
  have vc := hc1.sub hc2 hd
  have hcross := int_dot_bound hv hd
  have eAB : (M1 - M2).dot (C1 - C2) = (M1 - M2).x * (C1 - C2).x + (M1 - M2).y * (C1 - C2).y + (M1 - M2).z * (C1 - C2).z := rfl
  rw [← eAB] at hcross
  have bB := hcross.2.2.1
  have eA : (M1 - M2).dot (M1 - M2) = (M1.x - M2.x) * (M1.x - M2.x) + (M1.y - M2.y) * (M1.y - M2.y) + (M1.z - M2.z) * (M1.z - M2.z) := rfl
  have eC : (C1 - C2).dot (C1 - C2) = (C1.x - C2.x) * (C1.x - C2.x) + (C1.y - C2.y) * (C1.y - C2.y) + (C1.z - C2.z) * (C1.z - C2.z) := rfl
  have c0 : 0 ≤ (C1 - C2).dot (C1 - C2) := by
    rw [eC]
    have := mul_self_nonneg (C1.x - C2.x); have := mul_self_nonneg (C1.y - C2.y); have := mul_self_nonneg (C1.z - C2.z)
    omega
  have a0 : 0 < (M1 - M2).dot (M1 - M2) := by
    rw [eA]
    by_contra h
    apply hmov
    have hx := mul_self_nonneg (M1.x - M2.x); have hy := mul_self_nonneg (M1.y - M2.y); have hz := mul_self_nonneg (M1.z - M2.z)
    have x0 : (M1.x - M2.x) * (M1.x - M2.x) = 0 := by omega
    have y0 : (M1.y - M2.y) * (M1.y - M2.y) = 0 := by omega
    have z0 : (M1.z - M2.z) * (M1.z - M2.z) = 0 := by omega
    rw [mul_self_eq_zero, sub_eq_zero] at x0 y0 z0
    ext <;> assumption
  have r0 := mul_self_nonneg (R1 + R2)
  have sR : |R1 + R2| ≤ 2 ^ 24 := abs_le.mpr ⟨by nlinarith, by nlinarith⟩
  have vR := hr1.add hr2 sR
  have hp : IV (two * (m1 - m2).dot (c1 - c2)) (2 * (M1 - M2).dot (C1 - C2)) := (iv_lit (n := 2) (by norm_num)).mul (vv.dot vc hv hd) (by rw [abs_mul]; norm_num; omega)
  have hc : IV ((c1 - c2).dot (c1 - c2) - (r1 + r2) * (r1 + r2)) ((C1 - C2).dot (C1 - C2) - (R1 + R2) * (R1 + R2)) :=
    (vc.dot vc hd hd).sub (vR.mul vR (by rw [abs_of_nonneg r0]; omega)) (abs_le.mpr ⟨by omega, by omega⟩)
  have bD : |2 * (M1 - M2).dot (C1 - C2) * (2 * (M1 - M2).dot (C1 - C2)) -
      4 * (M1 - M2).dot (M1 - M2) * ((C1 - C2).dot (C1 - C2) - (R1 + R2) * (R1 + R2))| ≤ 2 ^ 24 := by
    have cs : (M1 - M2).dot (C1 - C2) * (M1 - M2).dot (C1 - C2) ≤ (M1 - M2).dot (M1 - M2) * (C1 - C2).dot (C1 - C2) := by
      rw [eAB, eA, eC]
      show _ ≤ ((M1 - M2).x * (M1 - M2).x + (M1 - M2).y * (M1 - M2).y + (M1 - M2).z * (M1 - M2).z) *
        ((C1 - C2).x * (C1 - C2).x + (C1 - C2).y * (C1 - C2).y + (C1 - C2).z * (C1 - C2).z)
      nlinarith [mul_self_nonneg ((M1 - M2).x * (C1 - C2).y - (M1 - M2).y * (C1 - C2).x), mul_self_nonneg ((M1 - M2).x * (C1 - C2).z - (M1 - M2).z * (C1 - C2).x),
        mul_self_nonneg ((M1 - M2).y * (C1 - C2).z - (M1 - M2).z * (C1 - C2).y)]
    have h1 : (M1 - M2).dot (M1 - M2) * (C1 - C2).dot (C1 - C2) ≤ 2048 * 2048 := mul_le_mul hv hd c0 (by norm_num)
    have h2 : (M1 - M2).dot (M1 - M2) * ((R1 + R2) * (R1 + R2)) ≤ 2048 * 2048 := mul_le_mul hv hR r0 (by norm_num)
    have h3 := mul_self_nonneg ((M1 - M2).dot (C1 - C2))
    have h4 : 0 ≤ (M1 - M2).dot (M1 - M2) * ((R1 + R2) * (R1 + R2)) := mul_nonneg a0.le r0
    rw [show 2 * (M1 - M2).dot (C1 - C2) * (2 * (M1 - M2).dot (C1 - C2)) - 4 * (M1 - M2).dot (M1 - M2) * ((C1 - C2).dot (C1 - C2) - (R1 + R2) * (R1 + R2)) =
      4 * ((M1 - M2).dot (C1 - C2) * (M1 - M2).dot (C1 - C2)) - 4 * ((M1 - M2).dot (M1 - M2) * (C1 - C2).dot (C1 - C2)) +
        4 * ((M1 - M2).dot (M1 - M2) * ((R1 + R2) * (R1 + R2))) by ring, abs_le]
    constructor <;> linarith
  rw [balls_quadratic (by exact_mod_cast p1) (by exact_mod_cast p2)] at ht
  have key := quadratic_found (vv.dot vv hv hv) hp hc a0 (by omega) (by rw [abs_mul]; norm_num; omega) (abs_le.mpr ⟨by omega, by omega⟩) bD t0 t1 (by
    refine le_trans (le_of_eq ?_) ht
    have ev : ∀ a b : Vec3 ℤ, ((a.dot b : ℤ) : ℝ) = (whole a).dot (whole b) := by
      intro a b
      show ((a.x * b.x + a.y * b.y + a.z * b.z : ℤ) : ℝ) = (a.x : ℝ) * b.x + a.y * b.y + a.z * b.z
      push_cast; rfl
    have es : ∀ a b : Vec3 ℤ, whole (a - b) = whole a - whole b := by
      intro a b
      exact congr (congrArg₂ Vec3.mk (Int.cast_sub _ _) (Int.cast_sub _ _)) (Int.cast_sub _ _)
    push_cast
    rw [ev, ev, ev, es, es])
  unfold collideSphereSphere
  simp only [key, Bool.not_false, if_true]
  exact ⟨_, rfl⟩

/-- Two balls of radius 4 grazing each other at the very end of the step. -/
example [Libm] : ∃ (r : F32) (c1 m1 c2 m2 : Vec3 F32) (C1 M1 C2 M2 : Vec3 ℤ), IV r 4 ∧ IVec c1 C1 ∧ IVec m1 M1 ∧ IVec c2 C2 ∧ IVec m2 M2 ∧
    (M1 - M2).dot (M1 - M2) ≤ 2048 ∧ (C1 - C2).dot (C1 - C2) ≤ 2048 ∧ M1 ≠ M2 ∧ BallsMeet 4 (whole C1) (whole M1) 4 (whole C2) (whole M2) 1 := by
  refine ⟨num 4, vec 0 0 0, vec 7 0 0, vec 7 8 0, vec 0 0 0, ⟨0, 0, 0⟩, ⟨7, 0, 0⟩, ⟨7, 8, 0⟩, ⟨0, 0, 0⟩, iv_lit (by norm_num),
    ⟨iv_lit (by norm_num), iv_lit (by norm_num), iv_lit (by norm_num)⟩, ⟨iv_lit (by norm_num), iv_lit (by norm_num), iv_lit (by norm_num)⟩,
    ⟨iv_lit (by norm_num), iv_lit (by norm_num), iv_lit (by norm_num)⟩, ⟨iv_lit (by norm_num), iv_lit (by norm_num), iv_lit (by norm_num)⟩, by decide, by decide, by decide, ?_⟩
  rw [balls_quadratic (by norm_num) (by norm_num)]
  norm_num [whole, Vec3.dot_def]

/-- A ball of radius `0.064` at the origin and one at `(164.8, -134.4, 11.2)`, the first on its way to three times as far in the direction of the second. -/
def bullets [Libm] : List (Op F32 (GravityGenerator F32)) :=
  [.addEntity (thing (num 1) (vec 0 0 0) ⟨num 4944 10, num (-4032) 10, num 336 10⟩), .addEntity (thing (num 1) ⟨num 1648 10, num (-1344) 10, num 112 10⟩ (vec 0 0 0)),
    .addCollider (ball (vec 0 0 0) (num 64 1000) (num 0) (num 1)), .addCollider (ball (vec 0 0 0) (num 64 1000) (num 0) (num 1)),
    .linkCollider h0 (some h0), .linkCollider h1 (some h1)]

/-- The values of the vector. -/
def Vals (v : Vec3 F32) (q : Vec3 ℚ) : Prop := Val v.x q.x ∧ Val v.y q.y ∧ Val v.z q.z
/-- A rational vector among the real ones. -/
def ratio (q : Vec3 ℚ) : Vec3 ℝ := ⟨q.x, q.y, q.z⟩

def valuedVec (v : Vec3 F32) (q : Vec3 ℚ) : Bool := valued v.x q.x && valued v.y q.y && valued v.z q.z
theorem valuedVec_iff [Libm] {v : Vec3 F32} {q : Vec3 ℚ} : valuedVec v q = true ↔ Vals v q := by
  simp [valuedVec, Vals, valued_iff, and_assoc]

/-- The handle `h` is of a ball around the origin of its entity, which is `e`, of the given radius, at the given place, with the given velocity and unturned. -/
structure IsBall {γ : Type} [Libm] [ForceGenerator F32 γ] (s : System F32 γ) (h : Handle) (radius : ℚ) (place velocity : Vec3 ℚ) : Prop where
  entity : ∃ e, s.getEntity h = some e ∧ e.colliders = [h] ∧ Vals e.position place ∧ Vals e.velocity velocity ∧ Vals e.rotation ⟨0, 0, 0⟩ ∧ Vals e.angularVelocity ⟨0, 0, 0⟩
  collider : ∃ S, s.colliders.get h = some (.sphere S) ∧ S.entity = some h ∧ Vals S.center ⟨0, 0, 0⟩ ∧ Val S.radius radius

def isBall {γ : Type} [Libm] (s : System F32 γ) (h : Handle) (radius : ℚ) (place velocity : Vec3 ℚ) : Bool :=
  (match s.getEntity h with
    | some e => e.colliders == [h] && valuedVec e.position place && valuedVec e.velocity velocity && valuedVec e.rotation ⟨0, 0, 0⟩ && valuedVec e.angularVelocity ⟨0, 0, 0⟩
    | none => false) &&
  match s.colliders.get h with
  | some (.sphere S) => S.entity == some h && valuedVec S.center ⟨0, 0, 0⟩ && valued S.radius radius
  | _ => false

theorem isBall_of {γ : Type} [Libm] [ForceGenerator F32 γ] {s : System F32 γ} {h : Handle} {radius : ℚ} {place velocity : Vec3 ℚ}
    (hh : isBall s h radius place velocity = true) : IsBall s h radius place velocity := by
  unfold isBall at hh
  rw [Bool.and_eq_true] at hh
  obtain ⟨h1, h2⟩ := hh
  constructor
  · cases he : s.getEntity h with
    | none => rw [he] at h1; cases h1
    | some e =>
      rw [he] at h1
      simp only [Bool.and_eq_true, beq_iff_eq, valuedVec_iff] at h1
      exact ⟨e, rfl, h1.1.1.1.1, h1.1.1.1.2, h1.1.1.2, h1.1.2, h1.2⟩
  · cases hc : s.colliders.get h with
    | none => rw [hc] at h2; cases h2
    | some c =>
      rw [hc] at h2
      cases c with
      | sphere S =>
        simp only [Bool.and_eq_true, beq_iff_eq, valuedVec_iff, valued_iff] at h2
        exact ⟨S, rfl, h2.1.1, h2.1.2, h2.2⟩
      | _ => cases h2

/-- **C75** is false: two balls, the first flying right into the second, which is at rest: after a third of the step their centres are closer
than a thousandth of the sum of their radii.  Binary32 reports nothing; the first ball ends the step beyond the second as if it had not been there. -/
theorem C75_false [Libm] : ∃ (s s' : System F32 (GravityGenerator F32)) (r : ℚ) (p v : Vec3 ℚ), Reachable s ∧ IsBall s h0 r ⟨0, 0, 0⟩ v ∧ IsBall s h1 r p ⟨0, 0, 0⟩ ∧
    0 < r ∧ BallsMeet (r / 1000 : ℚ) (ratio ⟨0, 0, 0⟩) (ratio v) (r / 1000 : ℚ) (ratio p) (ratio ⟨0, 0, 0⟩) (1 / 3) ∧
    s.step .id one = .ok s' ∧ s'.collisionRecords = [] ∧ IsBall s' h0 r v v ∧ IsBall s' h1 r p ⟨0, 0, 0⟩ := by
  have h : ((play (plain bullets) System.new).test fun q => isBall q.1 h0 (8589935 / 134217728) ⟨0, 0, 0⟩ ⟨16200499 / 32768, -6606029 / 16384, 4404019 / 131072⟩ &&
      isBall q.1 h1 (8589935 / 134217728) ⟨10800333 / 65536, -4404019 / 32768, 11744051 / 1048576⟩ ⟨0, 0, 0⟩ &&
      (q.1.step .id one).test fun s' => s'.collisionRecords.isEmpty &&
        isBall s' h0 (8589935 / 134217728) ⟨16200499 / 32768, -6606029 / 16384, 4404019 / 131072⟩ ⟨16200499 / 32768, -6606029 / 16384, 4404019 / 131072⟩ &&
        isBall s' h1 (8589935 / 134217728) ⟨10800333 / 65536, -4404019 / 32768, 11744051 / 1048576⟩ ⟨0, 0, 0⟩) = true := by kernel_refl
  obtain ⟨⟨s, outs⟩, h1', h⟩ := Res.of_test h
  simp only [Bool.and_eq_true] at h
  obtain ⟨⟨g1, g2⟩, h⟩ := h
  obtain ⟨s', h2', h⟩ := Res.of_test h
  simp only [Bool.and_eq_true, List.isEmpty_iff] at h
  refine ⟨s, s', _, _, _, play_reachable h1', isBall_of g1, isBall_of g2, by norm_num, ?_, h2', h.1.1, isBall_of h.1.2, isBall_of h.2⟩
  rw [balls_quadratic (by norm_num) (by norm_num)]
  norm_num [ratio, Vec3.dot_def]

end Props
end Fluffy
