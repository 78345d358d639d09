import Verif.Props.Fall

/-! C83: normals in binary32. -/

set_option linter.unusedSectionVars false
set_option linter.unusedSimpArgs false

namespace Fluffy.F32

/-- What the rounded root is: its distance to the root is at most half a unit in the last place. -/
theorem root_near {x : ℚ} (hx : 0 < x) : ∃ (m : ℕ) (e : ℤ), e = Int.log 2 x / 2 - 23 ∧ root x = m * 2 ^ e ∧ 2 ^ 23 ≤ m ∧ m ≤ 2 ^ 24 ∧
    ((m - 1 / 2 : ℚ) * 2 ^ e) ^ 2 ≤ x ∧ x ≤ ((m + 1 / 2 : ℚ) * 2 ^ e) ^ 2 := by
  set e : ℤ := Int.log 2 x / 2 - 23 with he
  have h4 : (4 : ℚ) ^ e = 2 ^ e * 2 ^ e := by rw [← mul_zpow]; norm_num
  have hp : (0 : ℚ) < 2 ^ e := by positivity
  have h4p : (0 : ℚ) < 4 ^ e := by positivity
  set y : ℚ := x / 4 ^ e with hy
  have hxy : x = y * (2 ^ e * 2 ^ e) := by rw [hy, h4]; field_simp
  have hyp : 0 < y := by positivity
  have hlo := Int.zpow_log_le_self (b := 2) (by norm_num) hx
  have hhi := Int.lt_zpow_succ_log_self (b := 2) (by norm_num) x
  push_cast at hlo hhi
  have y1 : 2 ^ 46 ≤ y := by
    rw [hy, le_div_iff₀ h4p, h4]
    refine le_trans ?_ hlo
    rw [← zpow_natCast (2 : ℚ) 46, ← zpow_add₀ (by norm_num), ← zpow_add₀ (by norm_num)]
    apply zpow_le_zpow_right₀ (by norm_num)
    push_cast; omega
  have y2 : y < 2 ^ 48 := by
    rw [hy, div_lt_iff₀ h4p, h4]
    refine lt_of_lt_of_le hhi ?_
    rw [← zpow_natCast (2 : ℚ) 48, ← zpow_add₀ (by norm_num), ← zpow_add₀ (by norm_num)]
    apply zpow_le_zpow_right₀ (by norm_num)
    push_cast; omega
  set k := ⌊y⌋₊ with hk
  have k1 : (k : ℚ) ≤ y := Nat.floor_le hyp.le
  have k2 : y < k + 1 := Nat.lt_floor_add_one y
  set m := Nat.sqrt k with hm
  have m1 : m * m ≤ k := Nat.sqrt_le k
  have m2 : k < (m + 1) * (m + 1) := Nat.lt_succ_sqrt k
  have m1' : (m : ℚ) * m ≤ y := le_trans (by exact_mod_cast m1) k1
  have m2' : y < ((m : ℚ) + 1) * (m + 1) := by
    have : ((k + 1 : ℕ) : ℚ) ≤ ((m + 1) * (m + 1) : ℕ) := by exact_mod_cast m2
    push_cast at this
    linarith
  have mlo : 2 ^ 23 ≤ m := by
    rw [hm, Nat.le_sqrt, hk]
    apply Nat.le_floor
    push_cast
    linarith
  have mhi : m < 2 ^ 24 := by
    rw [hm, Nat.sqrt_lt, hk]
    rw [Nat.floor_lt hyp.le]
    push_cast
    linarith
  have mlo' : (2 ^ 23 : ℚ) ≤ m := by exact_mod_cast mlo
  have hroot : root x = ((if y < (m + 1 / 2) ^ 2 then m else m + 1 : ℕ) : ℚ) * 2 ^ e := rfl
  by_cases hc : y < (m + 1 / 2) ^ 2
  · rw [if_pos hc] at hroot
    refine ⟨m, e, rfl, hroot, mlo, mhi.le, ?_, ?_⟩
    · rw [hxy, mul_pow, pow_two (2 ^ e : ℚ)]
      apply mul_le_mul_of_nonneg_right _ (by positivity)
      nlinarith
    · rw [hxy, mul_pow, pow_two (2 ^ e : ℚ)]
      exact mul_le_mul_of_nonneg_right hc.le (by positivity)
  · rw [if_neg hc] at hroot
    rw [not_lt] at hc
    refine ⟨m + 1, e, rfl, hroot, by omega, by omega, ?_, ?_⟩
    · rw [hxy, mul_pow, pow_two (2 ^ e : ℚ)]
      apply mul_le_mul_of_nonneg_right _ (by positivity)
      push_cast
      nlinarith
    · rw [hxy, mul_pow, pow_two (2 ^ e : ℚ)]
      apply mul_le_mul_of_nonneg_right _ (by positivity)
      push_cast
      nlinarith

variable [Libm]

/-- The root of a positive number: `q (1 - 2^-24) ≤ √x ≤ q (1 + 2^-24)`. -/
theorem Val.sqrt {a : F32} {x : ℚ} (ha : Val a x) (hx : 0 < x) : ∃ q, Val (Scalar.sqrt a) q ∧ 0 < q ∧ (q * (1 - 1 / 2 ^ 24)) ^ 2 ≤ x ∧ x ≤ (q * (1 + 1 / 2 ^ 24)) ^ 2 := by
  have hr := ha.rnd
  have hsm := ha.small
  obtain ⟨z, h, rfl⟩ := ha
  obtain ⟨m, e, he, hm, m1, m2, b1, b2⟩ := root_near hx
  have m1' : (2 ^ 23 : ℚ) ≤ m := by exact_mod_cast m1
  have m2' : (m : ℚ) ≤ 2 ^ 24 := by exact_mod_cast m2
  have hp : (0 : ℚ) < 2 ^ e := by positivity
  -- representable
  have hlog : -149 ≤ Int.log 2 x := by
    obtain ⟨k, j, -, hj, hk⟩ := rnd_form x
    rw [hr] at hk
    have hk1 : 1 ≤ k := by
      by_contra hc
      have : (k : ℚ) ≤ 0 := by exact_mod_cast (by omega : k ≤ 0)
      have := mul_nonpos_of_nonpos_of_nonneg this (show (0 : ℚ) ≤ 2 ^ j by positivity)
      linarith
    rw [← Int.zpow_le_iff_le_log (by norm_num) hx]
    push_cast
    calc (2 : ℚ) ^ (-149 : ℤ) ≤ 2 ^ j := zpow_le_zpow_right₀ (by norm_num) hj
      _ = 1 * 2 ^ j := (one_mul _).symm
      _ ≤ k * 2 ^ j := by gcongr; exact_mod_cast hk1
      _ = x := hk.symm
  have hlog2 : Int.log 2 x < 128 := by
    rw [← Int.lt_zpow_iff_log_lt (by norm_num) hx]
    push_cast
    rw [abs_of_pos hx] at hsm
    exact_mod_cast hsm
  have hrep : Fluffy.rnd (root x) = root x := by
    rw [hm]
    exact_mod_cast rnd_exact (m := m) (e := e) (by rw [abs_of_nonneg (by positivity)]; exact_mod_cast m2) (by omega)
  have hsmall : |Fluffy.rnd (root x)| < 2 ^ 128 := by
    rw [hrep, hm, abs_of_pos (by positivity)]
    calc (m : ℚ) * 2 ^ e ≤ 2 ^ 24 * 2 ^ (41 : ℤ) := by
          gcongr
          · norm_num
          · omega
      _ < 2 ^ 128 := by norm_num
  refine ⟨root x, ?_, ?_, ?_, ?_⟩
  · show Val (if x < 0 then _ else if x = 0 then _ else pack (root x) false) _
    rw [if_neg (not_lt.mpr hx.le), if_neg hx.ne']
    have := val_pack (z := false) hsmall
    rwa [hrep] at this
  · rw [hm]; positivity
  · refine le_trans ?_ b1
    rw [hm]
    apply pow_le_pow_left₀
    · apply mul_nonneg (by positivity) (by norm_num)
    · rw [mul_right_comm]
      apply mul_le_mul_of_nonneg_right _ hp.le
      have : (m : ℚ) * (1 / 2 ^ 24) ≥ 1 / 2 := by
        calc (m : ℚ) * (1 / 2 ^ 24) ≥ 2 ^ 23 * (1 / 2 ^ 24) := by gcongr
          _ = 1 / 2 := by norm_num
      linarith
  · refine le_trans b2 ?_
    rw [hm]
    apply pow_le_pow_left₀ (by positivity)
    rw [mul_right_comm]
    apply mul_le_mul_of_nonneg_right _ hp.le
    have : (m : ℚ) * (1 / 2 ^ 24) ≥ 1 / 2 := by
      calc (m : ℚ) * (1 / 2 ^ 24) ≥ 2 ^ 23 * (1 / 2 ^ 24) := by gcongr
        _ = 1 / 2 := by norm_num
    linarith


/-- A rounded number is the number up to an error. -/
theorem rnd_split {x b : ℚ} (h : |x| ≤ b) (hb : 2 ^ (-126 : ℤ) ≤ b) : |Fluffy.rnd x - x| ≤ b / 2 ^ 24 := by
  have := rnd_error_rel h hb
  rwa [show (2 : ℚ) ^ (-24 : ℤ) = 1 / 2 ^ 24 by norm_num [zpow_neg], mul_one_div] at this

/-- The scalar product of a vector with itself. -/
theorem Val.square {v : Vec3 F32} {x y z : ℚ} (hx : Val v.x x) (hy : Val v.y y) (hz : Val v.z z) {N : ℚ} (hN : N = x * x + y * y + z * z)
    (h0 : 2 ^ (-126 : ℤ) ≤ N) (h1 : N ≤ 2 ^ 126) : ∃ S, Val (v.dot v) S ∧ |S - N| ≤ 6 / 2 ^ 24 * N := by
  have hNp : 0 < N := lt_of_lt_of_le (by positivity) h0
  have hcap : (2 : ℚ) ^ 126 * 4 = 2 ^ 128 := by norm_num
  have e24 : (2 : ℚ) ^ 24 = 16777216 := by norm_num
  have sx := mul_self_nonneg x
  have sy := mul_self_nonneg y
  have sz := mul_self_nonneg z
  have ex := rnd_split (x := x * x) (b := N) (by rw [abs_of_nonneg sx]; linarith) h0
  have ey := rnd_split (x := y * y) (b := N) (by rw [abs_of_nonneg sy]; linarith) h0
  have ez := rnd_split (x := z * z) (b := N) (by rw [abs_of_nonneg sz]; linarith) h0
  rw [e24, abs_le] at ex ey ez
  have rx := rnd_nonneg sx
  have ry := rnd_nonneg sy
  have rz := rnd_nonneg sz
  have vx := hx.mul hx (by rw [abs_of_nonneg rx]; linarith)
  have vy := hy.mul hy (by rw [abs_of_nonneg ry]; linarith)
  have vz := hz.mul hz (by rw [abs_of_nonneg rz]; linarith)
  generalize Fluffy.rnd (x * x) = A at *
  generalize Fluffy.rnd (y * y) = B at *
  generalize Fluffy.rnd (z * z) = C at *
  have e1 := rnd_split (x := A + B) (b := N * (1 + 3 / 16777216)) (by rw [abs_of_nonneg (by linarith)]; linarith)
    (le_trans h0 (le_mul_of_one_le_right hNp.le (by norm_num)))
  rw [e24, abs_le] at e1
  have r1 := rnd_nonneg (show 0 ≤ A + B by linarith)
  have v1 := vx.add vy (by rw [abs_of_nonneg r1]; linarith)
  generalize Fluffy.rnd (A + B) = D at *
  have e2 := rnd_split (x := D + C) (b := N * (1 + 6 / 16777216)) (by rw [abs_of_nonneg (by linarith)]; linarith)
    (le_trans h0 (le_mul_of_one_le_right hNp.le (by norm_num)))
  rw [e24, abs_le] at e2
  have r2 := rnd_nonneg (show 0 ≤ D + C by linarith)
  have v2 := v1.add vz (by rw [abs_of_nonneg r2]; linarith)
  refine ⟨_, v2, ?_⟩
  rw [e24, abs_le]
  constructor <;> linarith

/-- **Normalisation in binary32**: if the square of the length is neither too small nor too large, the components are those of the vector divided by a length `q` up to
`2^-23`, and `q` is the length up to a part of `2^-20`. -/
theorem Val.normalize {v : Vec3 F32} {x y z : ℚ} (hx : Val v.x x) (hy : Val v.y y) (hz : Val v.z z) {N : ℚ} (hN : N = x * x + y * y + z * z)
    (h0 : 2 ^ (-126 : ℤ) ≤ N) (h1 : N ≤ 2 ^ 126) : ∃ q a b c, 0 < q ∧ |q * q - N| ≤ 9 / 2 ^ 24 * N ∧
      Val v.normalize.x a ∧ Val v.normalize.y b ∧ Val v.normalize.z c ∧ |a - x / q| ≤ 1 / 2 ^ 23 ∧ |b - y / q| ≤ 1 / 2 ^ 23 ∧ |c - z / q| ≤ 1 / 2 ^ 23 ∧
      |a * a + b * b + c * c - 1| ≤ 1 / 2 ^ 19 := by
  have hNp : 0 < N := lt_of_lt_of_le (by positivity) h0
  obtain ⟨S, hS, hSN⟩ := Val.square hx hy hz hN h0 h1
  have e24 : (2 : ℚ) ^ 24 = 16777216 := by norm_num
  have e23 : (2 : ℚ) ^ 23 = 8388608 := by norm_num
  have e19 : (2 : ℚ) ^ 19 = 524288 := by norm_num
  rw [e24, abs_le] at hSN
  have hSp : 0 < S := by linarith
  obtain ⟨q, hq, hq0, hql, hqu⟩ := hS.sqrt hSp
  rw [e24] at hql hqu
  have hqq : 0 < q * q := by positivity
  have hlo : q * q * (1 - 2 / 16777216) ≤ S := by nlinarith
  have hup : S ≤ q * q * (1 + 3 / 16777216) := by nlinarith
  have hqN : |q * q - N| ≤ 9 / 16777216 * N := by rw [abs_le]; constructor <;> linarith
  -- the exact quotients
  have hT : (x / q) * (x / q) + (y / q) * (y / q) + (z / q) * (z / q) = N / (q * q) := by rw [hN]; field_simp
  have hT1 : N / (q * q) ≤ 1 + 10 / 16777216 := by rw [div_le_iff₀ hqq]; rw [abs_le] at hqN; linarith
  have hT2 : 1 - 10 / 16777216 ≤ N / (q * q) := by rw [le_div_iff₀ hqq]; rw [abs_le] at hqN; linarith
  have comp : ∀ w : ℚ, (w / q) * (w / q) ≤ N / (q * q) → |w / q| ≤ 1 + 5 / 16777216 := by
    intro w hw
    refine abs_le_of_sq_le_sq ?_ (by norm_num)
    nlinarith
  have sx := mul_self_nonneg (x / q)
  have sy := mul_self_nonneg (y / q)
  have sz := mul_self_nonneg (z / q)
  have cx := comp x (by linarith)
  have cy := comp y (by linarith)
  have cz := comp z (by linarith)
  have hb : (2 : ℚ) ^ (-126 : ℤ) ≤ 1 + 5 / 16777216 := by norm_num [zpow_neg]
  have ex := rnd_split cx hb
  have ey := rnd_split cy hb
  have ez := rnd_split cz hb
  rw [e24] at ex ey ez
  have small : ∀ w : ℚ, |w| ≤ 1 + 5 / 16777216 → |Fluffy.rnd w - w| ≤ (1 + 5 / 16777216) / 16777216 → |Fluffy.rnd w| < 2 ^ 128 := by
    intro w h1 h2
    have : Fluffy.rnd w = w + (Fluffy.rnd w - w) := by ring
    rw [this]
    refine lt_of_le_of_lt ((abs_add_le _ _).trans (add_le_add h1 h2)) (by norm_num)
  have vx := hx.div hq hq0.ne' (small _ cx ex)
  have vy := hy.div hq hq0.ne' (small _ cy ey)
  have vz := hz.div hq hq0.ne' (small _ cz ez)
  refine ⟨q, _, _, _, hq0, by rw [e24]; exact hqN, vx, vy, vz, ?_, ?_, ?_, ?_⟩
  · rw [e23]; exact ex.trans (by norm_num)
  · rw [e23]; exact ey.trans (by norm_num)
  · rw [e23]; exact ez.trans (by norm_num)
  · have part : ∀ w r : ℚ, |w| ≤ 1 + 5 / 16777216 → |r - w| ≤ (1 + 5 / 16777216) / 16777216 → |r * r - w * w| ≤ 3 / 16777216 := by
      intro w r h1 h2
      have : r * r - w * w = (r - w) * (2 * w + (r - w)) := by ring
      rw [this, abs_mul]
      have h3 : |2 * w + (r - w)| ≤ 2 * (1 + 5 / 16777216) + (1 + 5 / 16777216) / 16777216 := by
        refine (abs_add_le _ _).trans ?_
        rw [abs_mul, abs_of_pos (show (0 : ℚ) < 2 by norm_num)]
        linarith
      calc |r - w| * |2 * w + (r - w)| ≤ ((1 + 5 / 16777216) / 16777216) * (2 * (1 + 5 / 16777216) + (1 + 5 / 16777216) / 16777216) := by gcongr
        _ ≤ 3 / 16777216 := by norm_num
    have px := part _ _ cx ex
    have py := part _ _ cy ey
    have pz := part _ _ cz ez
    rw [abs_le] at px py pz ⊢
    rw [e19]
    constructor <;> linarith

end Fluffy.F32

namespace Fluffy.Props
open F32 System
variable [Libm]

/-- A vector of binary32 numbers whose length is one up to rounding. -/
def NearUnit (n : Vec3 F32) : Prop := ∃ a b c, Val n.x a ∧ Val n.y b ∧ Val n.z c ∧ |a * a + b * b + c * c - 1| ≤ 1 / 2 ^ 19

/-- A vector of finite numbers of at most `2^62`. -/
def Moderate (v : Vec3 F32) : Prop := ∃ x y z, Val v.x x ∧ Val v.y y ∧ Val v.z z ∧ |x| ≤ 2 ^ 62 ∧ |y| ≤ 2 ^ 62 ∧ |z| ≤ 2 ^ 62

theorem moderate_square {x y z : ℚ} (hx : |x| ≤ 2 ^ 62) (hy : |y| ≤ 2 ^ 62) (hz : |z| ≤ 2 ^ 62) : x * x + y * y + z * z ≤ 2 ^ 126 := by
  have sq : ∀ w : ℚ, |w| ≤ 2 ^ 62 → w * w ≤ 2 ^ 124 := by
    intro w hw
    rw [← abs_mul_abs_self]
    calc |w| * |w| ≤ 2 ^ 62 * 2 ^ 62 := by gcongr
      _ = 2 ^ 124 := by norm_num
  have := sq x hx
  have := sq y hy
  have := sq z hz
  have e : (2 : ℚ) ^ 126 = 4 * 2 ^ 124 := by norm_num
  have p : (0 : ℚ) < 2 ^ 124 := by positivity
  linarith

theorem rnd_pow {e : ℤ} (he : -149 ≤ e) : rnd ((2 : ℚ) ^ e) = 2 ^ e := by
  have := rnd_exact (m := 1) (e := e) (by norm_num) he
  simpa using this

/-- A vector whose computed length is above the cut-off is not too short. -/
theorem magnitude_square {v : Vec3 F32} {x y z : ℚ} (hx : Val v.x x) (hy : Val v.y y) (hz : Val v.z z) (h : Scalar.lt EPSILON v.magnitude = true) :
    2 ^ (-126 : ℤ) ≤ x * x + y * y + z * z := by
  by_contra hc
  rw [not_le] at hc
  have sx := mul_self_nonneg x
  have sy := mul_self_nonneg y
  have sz := mul_self_nonneg z
  have up : ∀ w : ℚ, w * w ≤ 2 ^ (-126 : ℤ) → rnd (w * w) ≤ 2 ^ (-126 : ℤ) := fun w hw => (rnd_mono hw).trans_eq (rnd_pow (by norm_num))
  have ax := up x (by linarith)
  have ay := up y (by linarith)
  have az := up z (by linarith)
  have rx := rnd_nonneg sx
  have ry := rnd_nonneg sy
  have rz := rnd_nonneg sz
  have tiny : (2 : ℚ) ^ (-126 : ℤ) < 1 := by norm_num [zpow_neg]
  have big : (1 : ℚ) < 2 ^ 128 := by norm_num
  have vx := hx.mul hx (by rw [abs_of_nonneg rx]; linarith)
  have vy := hy.mul hy (by rw [abs_of_nonneg ry]; linarith)
  have vz := hz.mul hz (by rw [abs_of_nonneg rz]; linarith)
  have e1 : (2 : ℚ) ^ (-125 : ℤ) = 2 * 2 ^ (-126 : ℤ) := by norm_num [zpow_neg]
  have e2 : (2 : ℚ) ^ (-124 : ℤ) = 4 * 2 ^ (-126 : ℤ) := by norm_num [zpow_neg]
  have p : (0 : ℚ) < 2 ^ (-126 : ℤ) := by positivity
  have tiny4 : 4 * (2 : ℚ) ^ (-126 : ℤ) < 1 := by norm_num [zpow_neg]
  have d1 : rnd (rnd (x * x) + rnd (y * y)) ≤ 2 ^ (-125 : ℤ) := (rnd_mono (by linarith)).trans_eq (rnd_pow (by norm_num))
  have d0 := rnd_nonneg (show 0 ≤ rnd (x * x) + rnd (y * y) by linarith)
  have v1 := vx.add vy (by rw [abs_of_nonneg d0]; linarith)
  have s1 : rnd (rnd (rnd (x * x) + rnd (y * y)) + rnd (z * z)) ≤ 2 ^ (-124 : ℤ) := (rnd_mono (by linarith)).trans_eq (rnd_pow (by norm_num))
  have s0 := rnd_nonneg (show 0 ≤ rnd (rnd (x * x) + rnd (y * y)) + rnd (z * z) by linarith)
  have vS : Val (v.dot v) _ := v1.add vz (by rw [abs_of_nonneg s0]; linarith)
  obtain ⟨e, he, he0⟩ := EPSILON_lower
  generalize rnd (rnd (rnd (x * x) + rnd (y * y)) + rnd (z * z)) = S at *
  rcases s0.eq_or_lt with s0 | s0
  · have : Val (Scalar.sqrt (v.dot v)) 0 := by
      rw [← s0] at vS
      obtain ⟨b, k, hb⟩ := vS
      rw [hb]
      exact ⟨b, k, by show F32.sqrt (fin 0 b k) = _; simp [F32.sqrt]⟩
    have h' : Scalar.lt EPSILON (Scalar.sqrt (v.dot v)) = true := h
    rw [he.lt this, decide_eq_true_iff] at h'
    have : (0 : ℚ) < 2 ^ (-20 : ℤ) := by positivity
    linarith
  · obtain ⟨q, hq, hq0, hql, -⟩ := vS.sqrt s0
    have h' : Scalar.lt EPSILON (Scalar.sqrt (v.dot v)) = true := h
    rw [he.lt hq, decide_eq_true_iff] at h'
    have : (q * (1 - 1 / 2 ^ 24)) ≥ 2 ^ (-20 : ℤ) * (1 / 2) := by
      have : (1 / 2 : ℚ) ≤ 1 - 1 / 2 ^ 24 := by norm_num
      have hq' : 2 ^ (-20 : ℤ) ≤ q := by linarith
      gcongr
    have h2 := pow_le_pow_left₀ (by positivity) this 2
    have h3 : ((2 : ℚ) ^ (-20 : ℤ) * (1 / 2)) ^ 2 ≤ 2 ^ (-124 : ℤ) := h2.trans (hql.trans s1)
    norm_num [zpow_neg] at h3

/-- A normalised vector of moderate numbers has length one up to rounding, if its length was computed to be above the cut-off. -/
theorem normalize_near {v : Vec3 F32} (hv : Moderate v) (h : Scalar.lt EPSILON v.magnitude = true) : NearUnit v.normalize := by
  obtain ⟨x, y, z, vx, vy, vz, hx, hy, hz⟩ := hv
  obtain ⟨q, a, b, c, -, -, h1, h2, h3, -, -, -, h4⟩ := Val.normalize vx vy vz rfl (magnitude_square vx vy vz h) (moderate_square hx hy hz)
  exact ⟨a, b, c, h1, h2, h3, h4⟩

/-- **C83 (added planes).** In binary32, if a plane whose normal has finite components of at most `2^62` is added, the stored normal is that normal divided by its length:
the components are right up to `2^-23`, the length used up to a part of `2^-20` (of its square), and the square of the length of the stored normal is one up to `2^-19`. -/
theorem C83_added {γ : Type} [ForceGenerator F32 γ] {s s' : System F32 γ} (hr : Reachable s) {c : PlaneCollider F32} {h : Handle} (hs : s.addCollider (.plane c) = (s', some h)) {x y z : ℚ}
    (hx : Val c.normal.x x) (hy : Val c.normal.y y) (hz : Val c.normal.z z) (bx : |x| ≤ 2 ^ 62) (bY : |y| ≤ 2 ^ 62) (bz : |z| ≤ 2 ^ 62) :
    ∃ (p : PlaneCollider F32) (q a b d : ℚ), s'.getCollider h = some (.plane p) ∧ NearUnit p.normal ∧ Val p.normal.x a ∧ Val p.normal.y b ∧ Val p.normal.z d ∧
      0 < q ∧ |q * q - (x * x + y * y + z * z)| ≤ 1 / 2 ^ 20 * (x * x + y * y + z * z) ∧ |a - x / q| ≤ 1 / 2 ^ 23 ∧ |b - y / q| ≤ 1 / 2 ^ 23 ∧ |d - z / q| ≤ 1 / 2 ^ 23 := by
  unfold System.addCollider at hs
  simp only [Collider.newFrom] at hs
  split at hs
  case h_2 => cases hs
  case h_1 c' hc =>
  split at hc
  · cases hc
  case isFalse hv =>
  cases hc
  simp only [Bool.not_eq_true', Bool.not_eq_false, PlaneCollider.isValid, Bool.and_eq_true] at hv
  have h0 := magnitude_square hx hy hz hv.2
  have hp : 0 < x * x + y * y + z * z := lt_of_lt_of_le (by positivity) h0
  obtain ⟨q, a, b, d, hq0, hq, h1, h2, h3, h4, h5, h6, h7⟩ := Val.normalize hx hy hz rfl h0 (moderate_square bx bY bz)
  refine ⟨{ c with entity := none, normal := c.normal.normalize }, q, a, b, d, ?_, ⟨a, b, d, h1, h2, h3, h7⟩, h1, h2, h3, hq0, hq.trans ?_, h4, h5, h6⟩
  · simp only [Prod.mk.injEq, Option.some.injEq] at hs
    obtain ⟨rfl, rfl⟩ := hs
    rw [getCollider_eq]
    simp [Arena.get_insert hr.inv.wfC]
  · have : (9 / 2 ^ 24 : ℚ) ≤ 1 / 2 ^ 20 := by norm_num
    exact mul_le_mul_of_nonneg_right this hp.le

variable {γ : Type} [ForceGenerator F32 γ]

/-- Where a stored normal comes from: its length is one up to rounding, or some call of `update_collider` gave it for this very handle, or `add_collider` was called with
a normal that is not finite or has a component above `2^62`. -/
def NormalOf (tr : List (Op F32 γ × Out γ)) (k : Handle) (n : Vec3 F32) : Prop :=
  NearUnit n ∨ (∃ p out, (.updateCollider k (.plane p), out) ∈ tr ∧ p.normal = n) ∨
  (∃ p out, (.addCollider (.plane p), out) ∈ tr ∧ ¬ Moderate p.normal)

theorem NormalOf.mono {tr : List (Op F32 γ × Out γ)} {k : Handle} {n : Vec3 F32} (x : Op F32 γ × Out γ)
    (h : NormalOf tr k n) : NormalOf (x :: tr) k n := by
  rcases h with h | ⟨p, o, h, e⟩ | ⟨p, o, h, e⟩
  · exact .inl h
  · exact .inr (.inl ⟨p, o, by simp [h], e⟩)
  · exact .inr (.inr ⟨p, o, by simp [h], e⟩)

/-- **C83 (partial), for whole histories.** In binary32 the normal of every stored plane has length one up to rounding, unless it was given by `update_collider` or was not
finite or had a component above `2^62` when it was given to `add_collider`. -/
theorem C83_history_partial {s : System F32 γ} {tr : List (Op F32 γ × Out γ)} (h : Steps System.new tr s) :
    ∀ k p, s.getCollider k = some (.plane p) → NormalOf tr k p.normal := by
  simp only [getCollider_eq]
  induction h with
  | nil => intro k c h; simp [System.new, Arena.get_new] at h
  | snoc ord op out hst hx ih =>
    intro k p hk
    rcases exec_colliders (steps_inv inv_new hst) hx hk with h | ⟨d, t, h, h'⟩ | ⟨src, rfl, h'⟩ | ⟨src, d, rfl, hc, h'⟩
    · exact (ih k p h).mono _
    · cases d <;> simp only [Collider.setEntity] at h' <;> cases h'
      exact (ih k _ h).mono _
    · cases src <;> simp only [Collider.newFrom] at h' <;> split at h' <;> cases h'
      rename_i src hv
      by_cases hf : Moderate src.normal
      · left
        simp only [Bool.not_eq_true', Bool.not_eq_false, PlaneCollider.isValid, Bool.and_eq_true] at hv
        exact normalize_near hf hv.2
      · exact .inr (.inr ⟨src, out, by simp, hf⟩)
    · cases d <;> cases src <;> simp only [Collider.updateFrom] at h' <;> first | (cases h'; done) | skip
      all_goals (split at h' <;> cases h')
      rename_i d src hv
      exact .inr (.inl ⟨src, out, by simp, rfl⟩)

/-- **C83 (two balls).** The normal of a contact of two balls has length one up to rounding, if the way from the first ball's centre to the point of contact has finite
components of at most `2^62` and a length that is computed to be above the cut-off. -/
theorem C83_spheres_partial {r1 r2 : F32} {c1 m1 c2 m2 : Vec3 F32} {hit : Collision F32} (h : collideSphereSphere r1 c1 m1 r2 c2 m2 = some hit)
    (hm : Moderate (hit.position - c1)) (hl : Scalar.lt EPSILON (hit.position - c1).magnitude = true) : NearUnit hit.normal := by
  unfold collideSphereSphere at h
  dsimp only at h
  split at h
  · cases h; exact normalize_near hm hl
  · cases h

theorem F32.signum_unit {a : F32} (h : a ≠ .nan) : Scalar.signum a = one ∨ Scalar.signum a = num (-1) := by
  have e1 : same (pack (-1) false) (num (-1)) = true := by kernel_refl
  have e2 : same (pack 1 false) one = true := by kernel_refl
  cases a with
  | nan => exact absurd rfl h
  | inf b => cases b
             · exact .inl (same_iff.mp e2)
             · exact .inr (same_iff.mp e1)
  | fin x b k => cases b
                 · exact .inl (same_iff.mp e2)
                 · exact .inr (same_iff.mp e1)

/-- The axis directions. -/
def axisDirections : List (Vec3 F32) :=
  [⟨one, zero, zero⟩, ⟨num (-1), zero, zero⟩, ⟨zero, one, zero⟩, ⟨zero, num (-1), zero⟩, ⟨zero, zero, one⟩, ⟨zero, zero, num (-1)⟩]

/-- **C83 (box surfaces).** In binary32 the normal of a contact with the surface of a box is exactly one of the six axis directions, unless a component of it is NaN. -/
theorem C83_box_partial {c a b : Vec3 F32} (hx : (boxSurfaceNormal c a b).x ≠ .nan) (hy : (boxSurfaceNormal c a b).y ≠ .nan) (hz : (boxSurfaceNormal c a b).z ≠ .nan) :
    boxSurfaceNormal c a b ∈ axisDirections := by
  have nan_sign : ∀ w : F32, Scalar.signum w ≠ .nan → w ≠ .nan := by
    rintro w hw rfl; exact hw rfl
  unfold boxSurfaceNormal at hx hy hz ⊢
  dsimp only at hx hy hz ⊢
  split <;> rename_i h1
  · rw [if_pos h1] at hx hy hz
    split <;> rename_i h2
    · rw [if_pos h2] at hz
      rcases F32.signum_unit (nan_sign _ hz) with e | e <;> rw [e] <;> simp [axisDirections]
    · rw [if_neg h2] at hy
      rcases F32.signum_unit (nan_sign _ hy) with e | e <;> rw [e] <;> simp [axisDirections]
  · rw [if_neg h1] at hx hy hz
    split <;> rename_i h2
    · rw [if_pos h2] at hz
      rcases F32.signum_unit (nan_sign _ hz) with e | e <;> rw [e] <;> simp [axisDirections]
    · rw [if_neg h2] at hx
      rcases F32.signum_unit (nan_sign _ hx) with e | e <;> rw [e] <;> simp [axisDirections]

open Demo

/-- A plane through the origin whose normal points upwards and has the given length, and its entity; above it a ball of radius 1 at height 3 that falls with 10 m/s. -/
def trapCalls (n : F32) : List (Op F32 (GravityGenerator F32)) :=
  [.addEntity (thing (num 0) (vec 0 0 0) (vec 0 0 0)), .addCollider (.plane { PlaneCollider.new with normal := ⟨num 0, n, num 0⟩, mass := Scalar.inf }),
   .linkCollider h0 (some h0), .addEntity (thing (num 0) (vec 0 3 0) (vec 0 (-10) 0)), .addCollider (ball (vec 0 0 0) (num 1) (num 1) (num 1)),
   .linkCollider h1 (some h1)]

/-- **C83 is false** for longer normals: a plane with the normal (0, 2^70, 0) is accepted, the square of its length overflows and the zero vector is stored for its normal;
a ball that meets it during a step goes through it, and no collision is recorded. -/
theorem C83_false : ∃ (s s' : System F32 (GravityGenerator F32)) (c p : PlaneCollider F32) (e : Entity F32) (outs : List (Out (GravityGenerator F32))),
    c.normal = ⟨num 0, num (2 ^ 70), num 0⟩ ∧ Val c.normal.y (2 ^ 70) ∧ (Op.addCollider (.plane c)) ∈ trapCalls (num (2 ^ 70)) ∧
    play (plain (trapCalls (num (2 ^ 70)))) System.new = .ok (s, outs) ∧ Reachable s ∧
    s.getCollider h0 = some (.plane p) ∧ p.normal = Vec3.zeros ∧ ¬NearUnit p.normal ∧ s.step .id one = .ok s' ∧ s'.collisionRecords = [] ∧
    s'.getEntity h1 = some e ∧ Val e.position.y (-7) := by
  have h : ((play (plain (trapCalls (num (2 ^ 70)))) (System.new : System F32 (GravityGenerator F32))).test fun r => (match r.1.getCollider h0 with
      | some (.plane p) => vecEq p.normal Vec3.zeros
      | _ => false) && (r.1.step .id one).test fun m => m.collisionRecords.isEmpty && match m.getEntity h1 with
      | some e => valued e.position.y (-7)
      | _ => false) = true := by kernel_refl
  have hv : valued (num (2 ^ 70)) (2 ^ 70) = true := by kernel_refl
  obtain ⟨⟨s, outs⟩, hplay, h⟩ := Res.of_test h
  simp only [Bool.and_eq_true] at h
  obtain ⟨hE, h⟩ := h
  obtain ⟨m, hm, h⟩ := Res.of_test h
  simp only [Bool.and_eq_true, List.isEmpty_iff] at h
  obtain ⟨hr, h⟩ := h
  split at hE
  case h_2 => cases hE
  case h_1 p hp =>
  split at h
  case h_2 => cases h
  case h_1 e he =>
  simp only [vecEq_iff, valued_iff] at hE h
  refine ⟨s, m, { PlaneCollider.new with normal := ⟨num 0, num (2 ^ 70), num 0⟩, mass := Scalar.inf }, p, e, outs, rfl, valued_iff.mp hv, by simp [trapCalls], hplay,
    play_reachable hplay, hp, hE, ?_, hm, hr, he, h⟩
  rintro ⟨a, b, c, ha, hb, hc, habs⟩
  rw [hE] at ha hb hc
  rw [ha.inj val_zero, hb.inj val_zero, hc.inj val_zero] at habs
  norm_num [abs_of_nonneg] at habs

/-- With the normal (0, 3, 0) the hypotheses of `C83_added` are met, and the ball bounces. -/
example : ∃ (s s' : System F32 (GravityGenerator F32)) (h : Handle), Reachable s ∧
    s.addCollider (.plane { PlaneCollider.new with normal := ⟨num 0, num 3, num 0⟩ }) = (s', some h) ∧ Val (num 0) 0 ∧ Val (num 3) 3 ∧ |(3 : ℚ)| ≤ 2 ^ 62 := by
  have h : (match (System.new : System F32 (GravityGenerator F32)).addCollider (.plane { PlaneCollider.new with normal := ⟨num 0, num 3, num 0⟩ }) with
    | (_, some _) => true
    | _ => false) = true := by kernel_refl
  have h3 : valued (num 3) 3 = true := by kernel_refl
  generalize hc : (System.new : System F32 (GravityGenerator F32)).addCollider (.plane { PlaneCollider.new with normal := ⟨num 0, num 3, num 0⟩ }) = r at h
  obtain ⟨s', h'⟩ := r
  cases h' with
  | none => cases h
  | some k => exact ⟨System.new, s', k, ⟨_, .nil⟩, hc, val_zero, valued_iff.mp h3, by norm_num⟩

example : ((play (plain (trapCalls (num 3))) (System.new : System F32 (GravityGenerator F32))).test fun r => (r.1.step .id one).test fun m =>
    m.collisionRecords.length == 1) = true := by kernel_refl

/-- The hypotheses of `C83_spheres_partial` are met by two balls that meet head on. -/
example : ∃ hit, collideSphereSphere (num 1) (vec 0 0 0) (vec 4 0 0) (num 1) (vec 5 0 0) (vec 0 0 0) = some hit ∧ Moderate (hit.position - vec 0 0 0) ∧
    Scalar.lt EPSILON (hit.position - vec 0 0 0).magnitude = true := by
  have h : (match collideSphereSphere (num 1) (vec 0 0 0) (vec 4 0 0) (num 1) (vec 5 0 0) (vec 0 0 0) with
    | some hit => Scalar.lt EPSILON (hit.position - vec 0 0 0).magnitude &&
        (valued (hit.position - vec 0 0 0).x 4 && (valued (hit.position - vec 0 0 0).y 0 && valued (hit.position - vec 0 0 0).z 0))
    | none => false) = true := by kernel_refl
  split at h
  case h_2 => cases h
  case h_1 hit hh =>
  simp only [Bool.and_eq_true, valued_iff] at h
  exact ⟨hit, hh, ⟨4, 0, 0, h.2.1, h.2.2.1, h.2.2.2, by norm_num, by norm_num, by norm_num⟩, h.1⟩

/-- A ball above the middle of a box. -/
example : boxSurfaceNormal (vec 0 3 0) (vec (-1) (-1) (-1)) (vec 1 1 1) = ⟨zero, num (-1), zero⟩ := by
  have h : vecEq (boxSurfaceNormal (vec 0 3 0) (vec (-1) (-1) (-1)) (vec 1 1 1)) ⟨zero, num (-1), zero⟩ = true := by kernel_refl
  exact vecEq_iff.mp h

end Fluffy.Props
