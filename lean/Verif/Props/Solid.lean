import Verif.Props.Inertia
import Mathlib.Analysis.SpecialFunctions.Integrals.Basic

/-!
C15 and C18 against volume integrals: what the centre of mass and the tensor of a solid box and a solid ball are, computed
from a uniform density instead of quoted.
-/

set_option linter.unusedSectionVars false
set_option linter.unusedSimpArgs false

namespace Fluffy.Props

open Scalar XReal

/-- The mean of `f` over the points of the box with corners `lo` and `hi`. -/
noncomputable def boxMean (lo hi : Vec3 ℝ) (f : Vec3 ℝ → ℝ) : ℝ :=
  (∫ x in lo.x..hi.x, ∫ y in lo.y..hi.y, ∫ z in lo.z..hi.z, f ⟨x, y, z⟩) /
    ((hi.x - lo.x) * (hi.y - lo.y) * (hi.z - lo.z))

/-- The centre of mass of a body with the mean value functional `mean`. -/
noncomputable def solidCentre (mean : (Vec3 ℝ → ℝ) → ℝ) : Vec3 ℝ :=
  ⟨mean fun p => p.x, mean fun p => p.y, mean fun p => p.z⟩

/-- The tensor of inertia of a body of mass `m` about its centre of mass: the mean of `|d|² 1 - d dᵀ`, where `d` is the
distance to the centre, times the mass. -/
noncomputable def solidTensor (m : ℝ) (mean : (Vec3 ℝ → ℝ) → ℝ) : Mat3 ℝ :=
  let c := solidCentre mean
  ⟨⟨m * mean (fun p => (p.y - c.y) ^ 2 + (p.z - c.z) ^ 2), m * mean (fun p => -((p.x - c.x) * (p.y - c.y))),
      m * mean (fun p => -((p.x - c.x) * (p.z - c.z)))⟩,
    ⟨m * mean (fun p => -((p.y - c.y) * (p.x - c.x))), m * mean (fun p => (p.x - c.x) ^ 2 + (p.z - c.z) ^ 2),
      m * mean (fun p => -((p.y - c.y) * (p.z - c.z)))⟩,
    ⟨m * mean (fun p => -((p.z - c.z) * (p.x - c.x))), m * mean (fun p => -((p.z - c.z) * (p.y - c.y))),
      m * mean (fun p => (p.x - c.x) ^ 2 + (p.y - c.y) ^ 2)⟩⟩

theorem int_sq (a b c : ℝ) : ∫ x in a..b, (x - c) ^ 2 = ((b - c) ^ 3 - (a - c) ^ 3) / 3 := by
  rw [intervalIntegral.integral_comp_sub_right (fun x => x ^ 2) c, integral_pow]
  norm_num

theorem int_sub (a b c : ℝ) : ∫ x in a..b, (x - c) = ((b - c) ^ 2 - (a - c) ^ 2) / 2 := by
  rw [intervalIntegral.integral_comp_sub_right (fun x => x) c, integral_id]

/-- The mean over a box of a product of functions of one coordinate each. -/
theorem boxMean_prod (lo hi : Vec3 ℝ) (f g h : ℝ → ℝ) : boxMean lo hi (fun p => f p.x * (g p.y * h p.z)) =
    ((∫ x in lo.x..hi.x, f x) * ((∫ y in lo.y..hi.y, g y) * ∫ z in lo.z..hi.z, h z)) /
      ((hi.x - lo.x) * (hi.y - lo.y) * (hi.z - lo.z)) := by
  simp only [boxMean, intervalIntegral.integral_const_mul, intervalIntegral.integral_mul_const]

section
variable {lo hi : Vec3 ℝ} (hx : lo.x < hi.x) (hy : lo.y < hi.y) (hz : lo.z < hi.z)
include hx hy hz

theorem boxMean_x (f : ℝ → ℝ) : boxMean lo hi (fun p => f p.x) = (∫ x in lo.x..hi.x, f x) / (hi.x - lo.x) := by
  have := boxMean_prod lo hi f (fun _ => 1) (fun _ => 1)
  simp only [mul_one] at this
  rw [this]
  have h1 : hi.x - lo.x ≠ 0 := by linarith
  have h2 : hi.y - lo.y ≠ 0 := by linarith
  have h3 : hi.z - lo.z ≠ 0 := by linarith
  simp
  field_simp

theorem boxMean_y (f : ℝ → ℝ) : boxMean lo hi (fun p => f p.y) = (∫ x in lo.y..hi.y, f x) / (hi.y - lo.y) := by
  have := boxMean_prod lo hi (fun _ => 1) f (fun _ => 1)
  simp only [mul_one, one_mul] at this
  rw [this]
  have h1 : hi.x - lo.x ≠ 0 := by linarith
  have h2 : hi.y - lo.y ≠ 0 := by linarith
  have h3 : hi.z - lo.z ≠ 0 := by linarith
  simp
  field_simp

theorem boxMean_z (f : ℝ → ℝ) : boxMean lo hi (fun p => f p.z) = (∫ x in lo.z..hi.z, f x) / (hi.z - lo.z) := by
  have := boxMean_prod lo hi (fun _ => 1) (fun _ => 1) f
  simp only [mul_one, one_mul] at this
  rw [this]
  have h1 : hi.x - lo.x ≠ 0 := by linarith
  have h2 : hi.y - lo.y ≠ 0 := by linarith
  have h3 : hi.z - lo.z ≠ 0 := by linarith
  simp
  field_simp

theorem boxMean_add {f g : Vec3 ℝ → ℝ} (hf : Continuous fun p : ℝ × ℝ × ℝ => f ⟨p.1, p.2.1, p.2.2⟩)
    (hg : Continuous fun p : ℝ × ℝ × ℝ => g ⟨p.1, p.2.1, p.2.2⟩) :
    boxMean lo hi (fun p => f p + g p) = boxMean lo hi f + boxMean lo hi g := by
  unfold boxMean
  rw [← add_div]
  congr 1
  have cz : ∀ {f : Vec3 ℝ → ℝ}, (Continuous fun p : ℝ × ℝ × ℝ => f ⟨p.1, p.2.1, p.2.2⟩) → ∀ x y,
      Continuous fun z => f ⟨x, y, z⟩ := fun h x y => h.comp (by fun_prop : Continuous fun z : ℝ => (x, y, z))
  have cy : ∀ {f : Vec3 ℝ → ℝ}, (Continuous fun p : ℝ × ℝ × ℝ => f ⟨p.1, p.2.1, p.2.2⟩) → ∀ x,
      Continuous fun y => ∫ z in lo.z..hi.z, f ⟨x, y, z⟩ := by
    intro f h x
    apply intervalIntegral.continuous_parametric_intervalIntegral_of_continuous'
    exact h.comp (by fun_prop : Continuous fun p : ℝ × ℝ => (x, p.1, p.2))
  have cx : ∀ {f : Vec3 ℝ → ℝ}, (Continuous fun p : ℝ × ℝ × ℝ => f ⟨p.1, p.2.1, p.2.2⟩) →
      Continuous fun x => ∫ y in lo.y..hi.y, ∫ z in lo.z..hi.z, f ⟨x, y, z⟩ := by
    intro f h
    apply intervalIntegral.continuous_parametric_intervalIntegral_of_continuous'
    apply intervalIntegral.continuous_parametric_intervalIntegral_of_continuous'
    exact h.comp (by fun_prop : Continuous fun p : (ℝ × ℝ) × ℝ => (p.1.1, p.1.2, p.2))
  rw [← intervalIntegral.integral_add ((cx hf).intervalIntegrable _ _) ((cx hg).intervalIntegrable _ _)]
  congr 1; ext x
  rw [← intervalIntegral.integral_add ((cy hf x).intervalIntegrable _ _) ((cy hg x).intervalIntegrable _ _)]
  congr 1; ext y
  rw [← intervalIntegral.integral_add ((cz hf x y).intervalIntegrable _ _) ((cz hg x y).intervalIntegrable _ _)]

/-- The centre of mass of a solid box is its middle. -/
theorem boxCentre : solidCentre (boxMean lo hi) = ⟨(lo.x + hi.x) / 2, (lo.y + hi.y) / 2, (lo.z + hi.z) / 2⟩ := by
  have h1 : hi.x - lo.x ≠ 0 := by linarith
  have h2 : hi.y - lo.y ≠ 0 := by linarith
  have h3 : hi.z - lo.z ≠ 0 := by linarith
  unfold solidCentre
  rw [boxMean_x hx hy hz (fun x => x), boxMean_y hx hy hz (fun x => x), boxMean_z hx hy hz (fun x => x)]
  simp only [integral_id]
  congr 1 <;> (field_simp; ring)

/-- The tensor of a solid box, computed by integration. -/
theorem boxTensor_integral (m : ℝ) : solidTensor m (boxMean lo hi) =
    boxTensor m (hi.x - lo.x) (hi.y - lo.y) (hi.z - lo.z) := by
  have h1 : hi.x - lo.x ≠ 0 := by linarith
  have h2 : hi.y - lo.y ≠ 0 := by linarith
  have h3 : hi.z - lo.z ≠ 0 := by linarith
  have sx : ∀ c, boxMean lo hi (fun p => (p.x - c) ^ 2) = ((hi.x - c) ^ 3 - (lo.x - c) ^ 3) / 3 / (hi.x - lo.x) := fun c => by
    rw [boxMean_x hx hy hz (fun x => (x - c) ^ 2), int_sq]
  have sy : ∀ c, boxMean lo hi (fun p => (p.y - c) ^ 2) = ((hi.y - c) ^ 3 - (lo.y - c) ^ 3) / 3 / (hi.y - lo.y) := fun c => by
    rw [boxMean_y hx hy hz (fun x => (x - c) ^ 2), int_sq]
  have sz : ∀ c, boxMean lo hi (fun p => (p.z - c) ^ 2) = ((hi.z - c) ^ 3 - (lo.z - c) ^ 3) / 3 / (hi.z - lo.z) := fun c => by
    rw [boxMean_z hx hy hz (fun x => (x - c) ^ 2), int_sq]
  have mx : ∫ x in lo.x..hi.x, (x - (lo.x + hi.x) / 2) = 0 := by rw [int_sub]; ring
  have my : ∫ x in lo.y..hi.y, (x - (lo.y + hi.y) / 2) = 0 := by rw [int_sub]; ring
  have mz : ∫ x in lo.z..hi.z, (x - (lo.z + hi.z) / 2) = 0 := by rw [int_sub]; ring
  have pxy : boxMean lo hi (fun p => -((p.x - (lo.x + hi.x) / 2) * (p.y - (lo.y + hi.y) / 2))) = 0 := by
    have := boxMean_prod lo hi (fun x => -(x - (lo.x + hi.x) / 2)) (fun y => y - (lo.y + hi.y) / 2) (fun _ => 1)
    simp only [mul_one, neg_mul] at this
    rw [this, intervalIntegral.integral_neg, mx]; simp
  have pxz : boxMean lo hi (fun p => -((p.x - (lo.x + hi.x) / 2) * (p.z - (lo.z + hi.z) / 2))) = 0 := by
    have := boxMean_prod lo hi (fun x => -(x - (lo.x + hi.x) / 2)) (fun _ => 1) (fun y => y - (lo.z + hi.z) / 2)
    simp only [one_mul, neg_mul] at this
    rw [this, intervalIntegral.integral_neg, mx]; simp
  have pyz : boxMean lo hi (fun p => -((p.y - (lo.y + hi.y) / 2) * (p.z - (lo.z + hi.z) / 2))) = 0 := by
    have := boxMean_prod lo hi (fun _ => 1) (fun x => -(x - (lo.y + hi.y) / 2)) (fun y => y - (lo.z + hi.z) / 2)
    simp only [one_mul, neg_mul] at this
    rw [this, intervalIntegral.integral_neg, my]; simp
  have comm : ∀ a b : ℝ, -(a * b) = -(b * a) := fun a b => by ring
  unfold solidTensor
  simp only [boxCentre hx hy hz]
  rw [pxy, pxz, pyz]
  simp only [comm (_ - (lo.y + hi.y) / 2) (_ - (lo.x + hi.x) / 2), comm (_ - (lo.z + hi.z) / 2) (_ - (lo.x + hi.x) / 2),
    comm (_ - (lo.z + hi.z) / 2) (_ - (lo.y + hi.y) / 2)]
  rw [pxy, pxz, pyz]
  rw [boxMean_add hx hy hz (by fun_prop) (by fun_prop), boxMean_add hx hy hz (by fun_prop) (by fun_prop),
    boxMean_add hx hy hz (by fun_prop) (by fun_prop), sx, sy, sz]
  unfold boxTensor Mat3.diag
  congr 1 <;> congr 1 <;> (try simp) <;> field_simp <;> ring

end

/-- **C15, C18 (boxes, from first principles).** A box collider's centre of mass is that of a solid box with uniform
density, moved by the collider's position, and its tensor is the one of that solid about this centre; both are computed
by integration over the box. -/
theorem C18_box_integral (c : BoxCollider XReal) {m : ℝ} {p lo hi : Vec3 ℝ} (hm : c.mass = fin m) (hp : c.position = p.f)
    (hlo : c.minCorner = lo.f) (hhi : c.maxCorner = hi.f) (hv : c.isValid = true) :
    (Collider.box c).localCenterOfMass = (p + solidCentre (boxMean lo hi)).f ∧
    (Collider.box c).momentOfInertia = (solidTensor m (boxMean lo hi)).f := by
  obtain ⟨hx, hy, hz⟩ : lo.x < hi.x ∧ lo.y < hi.y ∧ lo.z < hi.z := by
    have h0 : (0 : ℝ) < 1 / 1000000 := by norm_num
    simp only [BoxCollider.isValid, hlo, hhi, Vec3.f_sub, Bool.and_eq_true, XReal.EPSILON_eq] at hv
    simp only [Vec3.f, fin_lt, Vec3.sub_x, Vec3.sub_y, Vec3.sub_z, decide_eq_true_eq] at hv
    refine ⟨?_, ?_, ?_⟩ <;> linarith [hv.1.1.1, hv.1.1.2, hv.1.2]
  refine ⟨?_, ?_⟩
  · rw [boxCentre hx hy hz]
    simp only [Collider.localCenterOfMass, hp, hlo, hhi]
    rw [Vec3.f_add, lit_eq, Vec3.f_scale, Vec3.f_add, Vec3.f_inj]
    ext <;> simp <;> ring
  · rw [boxTensor_integral hx hy hz, C18_box c hm hlo hhi]

/-! ### Balls -/

theorem int_root {ρ : ℝ} (hρ : 0 ≤ ρ) : ∫ y in -ρ..ρ, √(ρ ^ 2 - y ^ 2) = Real.pi * ρ ^ 2 / 2 := by
  have h := intervalIntegral.smul_integral_comp_mul_left (a := -1) (b := 1) (fun y => √(ρ ^ 2 - y ^ 2)) ρ
  simp only [mul_neg, mul_one, smul_eq_mul] at h
  rw [← h]
  have : ∀ u, √(ρ ^ 2 - (ρ * u) ^ 2) = ρ * √(1 - u ^ 2) := by
    intro u
    rw [show ρ ^ 2 - (ρ * u) ^ 2 = ρ ^ 2 * (1 - u ^ 2) by ring, Real.sqrt_mul (sq_nonneg ρ), Real.sqrt_sq hρ]
  simp only [this, intervalIntegral.integral_const_mul, integral_sqrt_one_sub_sq]
  ring

theorem int_root_sq {ρ : ℝ} (hρ : 0 ≤ ρ) : ∫ y in -ρ..ρ, y ^ 2 * √(ρ ^ 2 - y ^ 2) = Real.pi * ρ ^ 4 / 8 := by
  have hc : Continuous fun y : ℝ => √(ρ ^ 2 - y ^ 2) := by fun_prop
  have h0 : ∫ y in -ρ..ρ, (ρ ^ 2 * √(ρ ^ 2 - y ^ 2) - 4 * (y ^ 2 * √(ρ ^ 2 - y ^ 2))) = 0 := by
    have := intervalIntegral.integral_eq_sub_of_hasDerivAt_of_le (a := -ρ) (b := ρ) (by linarith)
      (f := fun y => y * √(ρ ^ 2 - y ^ 2) ^ 3)
      (f' := fun y => ρ ^ 2 * √(ρ ^ 2 - y ^ 2) - 4 * (y ^ 2 * √(ρ ^ 2 - y ^ 2)))
      (by fun_prop) ?_ (by apply Continuous.intervalIntegrable; fun_prop)
    · rw [this]; simp
    · intro y hy
      have hpos : 0 < ρ ^ 2 - y ^ 2 := by nlinarith [hy.1, hy.2]
      have hs := Real.sqrt_pos.mpr hpos
      have hd : HasDerivAt (fun y : ℝ => ρ ^ 2 - y ^ 2) (-(2 * y)) y := by
        simpa using ((hasDerivAt_pow 2 y).const_sub (ρ ^ 2))
      have hr := (hd.sqrt hpos.ne').pow 3
      have := (hasDerivAt_id y).mul hr
      refine this.congr_deriv ?_
      simp only [Pi.pow_apply, id_eq]
      have hsq : √(ρ ^ 2 - y ^ 2) ^ 2 = ρ ^ 2 - y ^ 2 := Real.sq_sqrt hpos.le
      generalize √(ρ ^ 2 - y ^ 2) = s at hs hsq
      field_simp
      simp
      linear_combination s ^ 2 * hsq
  rw [intervalIntegral.integral_sub (by apply Continuous.intervalIntegrable; fun_prop)
    (by apply Continuous.intervalIntegrable; fun_prop), intervalIntegral.integral_const_mul,
    intervalIntegral.integral_const_mul, int_root hρ] at h0
  linarith

theorem int_root_cube {ρ : ℝ} (hρ : 0 ≤ ρ) : ∫ y in -ρ..ρ, √(ρ ^ 2 - y ^ 2) ^ 3 = 3 * Real.pi * ρ ^ 4 / 8 := by
  have : ∫ y in -ρ..ρ, √(ρ ^ 2 - y ^ 2) ^ 3 =
      ∫ y in -ρ..ρ, (ρ ^ 2 * √(ρ ^ 2 - y ^ 2) - y ^ 2 * √(ρ ^ 2 - y ^ 2)) := by
    apply intervalIntegral.integral_congr
    intro y hy
    rw [Set.uIcc_of_le (by linarith)] at hy
    have hsq := Real.sq_sqrt (show 0 ≤ ρ ^ 2 - y ^ 2 by nlinarith [hy.1, hy.2])
    simp only
    linear_combination √(ρ ^ 2 - y ^ 2) * hsq
  rw [this, intervalIntegral.integral_sub (by apply Continuous.intervalIntegrable; fun_prop)
    (by apply Continuous.intervalIntegrable; fun_prop), intervalIntegral.integral_const_mul, int_root hρ, int_root_sq hρ]
  ring

theorem int_odd (f : ℝ → ℝ) (hf : ∀ x, f (-x) = -f x) (a : ℝ) : ∫ x in -a..a, f x = 0 := by
  have h := intervalIntegral.integral_comp_neg (a := -a) (b := a) f
  simp only [hf, neg_neg, intervalIntegral.integral_neg] at h
  linarith

/-- The integral of `f` over the points of the ball with centre `c` and radius `r`. -/
noncomputable def ballIntegral (c : Vec3 ℝ) (r : ℝ) (f : Vec3 ℝ → ℝ) : ℝ :=
  ∫ x in -r..r, ∫ y in -√(r ^ 2 - x ^ 2)..√(r ^ 2 - x ^ 2),
    ∫ z in -√(r ^ 2 - x ^ 2 - y ^ 2)..√(r ^ 2 - x ^ 2 - y ^ 2), f ⟨c.x + x, c.y + y, c.z + z⟩

/-- The mean of `f` over the points of the ball with centre `c` and radius `r`. -/
noncomputable def ballMean (c : Vec3 ℝ) (r : ℝ) (f : Vec3 ℝ → ℝ) : ℝ :=
  ballIntegral c r f / ballIntegral c r fun _ => 1

/-- The integral over a ball of `k x + n x y + o x z + l x y² + m x z²`, relative to the centre. -/
theorem ballIntegral_even {c : Vec3 ℝ} {r : ℝ} (hr : 0 ≤ r) {f : Vec3 ℝ → ℝ} (k n o l m : ℝ → ℝ)
    (hf : ∀ x y z, f ⟨c.x + x, c.y + y, c.z + z⟩ =
      k x + n x * y + o x * z + l x * y ^ 2 + m x * z ^ 2) :
    ballIntegral c r f = ∫ x in -r..r, (k x * (Real.pi * (r ^ 2 - x ^ 2)) +
      (l x + m x) * (Real.pi * (r ^ 2 - x ^ 2) ^ 2 / 4)) := by
  unfold ballIntegral
  apply intervalIntegral.integral_congr
  intro x hx
  rw [Set.uIcc_of_le (by linarith)] at hx
  have hρ : (√(r ^ 2 - x ^ 2)) ^ 2 = r ^ 2 - x ^ 2 := Real.sq_sqrt (by nlinarith [hx.1, hx.2])
  have h0 := Real.sqrt_nonneg (r ^ 2 - x ^ 2)
  simp only [hf]
  rw [← hρ]
  generalize √(r ^ 2 - x ^ 2) = ρ at h0
  rw [Real.sqrt_sq h0]
  have inner : ∀ y, ∫ z in -√(ρ ^ 2 - y ^ 2)..√(ρ ^ 2 - y ^ 2),
        (k x + n x * y + o x * z + l x * y ^ 2 + m x * z ^ 2) =
      2 * k x * √(ρ ^ 2 - y ^ 2) + 2 * l x * (y ^ 2 * √(ρ ^ 2 - y ^ 2)) + 2 / 3 * m x * √(ρ ^ 2 - y ^ 2) ^ 3 +
        2 * n x * (y * √(ρ ^ 2 - y ^ 2)) := by
    intro y
    rw [intervalIntegral.integral_congr (g := fun z => (k x + n x * y + l x * y ^ 2) + o x * z + m x * z ^ 2)
      (fun z _ => by simp only; ring)]
    rw [intervalIntegral.integral_add (by apply Continuous.intervalIntegrable; fun_prop)
      (by apply Continuous.intervalIntegrable; fun_prop), intervalIntegral.integral_add (by simp)
      (by apply Continuous.intervalIntegrable; fun_prop), intervalIntegral.integral_const_mul,
      intervalIntegral.integral_const_mul, integral_pow, integral_id]
    simp
    ring
  have odd : ∫ y in -ρ..ρ, y * √(ρ ^ 2 - y ^ 2) = 0 := int_odd _ (fun y => by simp) _
  simp only [inner]
  rw [intervalIntegral.integral_add (by apply Continuous.intervalIntegrable; fun_prop)
      (by apply Continuous.intervalIntegrable; fun_prop),
    intervalIntegral.integral_add (by apply Continuous.intervalIntegrable; fun_prop)
      (by apply Continuous.intervalIntegrable; fun_prop),
    intervalIntegral.integral_add (by apply Continuous.intervalIntegrable; fun_prop)
      (by apply Continuous.intervalIntegrable; fun_prop),
    intervalIntegral.integral_const_mul, intervalIntegral.integral_const_mul, intervalIntegral.integral_const_mul,
    intervalIntegral.integral_const_mul, int_root h0, int_root_sq h0, int_root_cube h0, odd]
  ring

theorem int_disc (r : ℝ) : ∫ x in -r..r, (r ^ 2 - x ^ 2) = 4 / 3 * r ^ 3 := by
  rw [intervalIntegral.integral_sub (by simp) (by apply Continuous.intervalIntegrable; fun_prop), integral_pow]
  simp
  ring

theorem ballVolume (c : Vec3 ℝ) {r : ℝ} (hr : 0 ≤ r) : ballIntegral c r (fun _ => 1) = 4 / 3 * Real.pi * r ^ 3 := by
  rw [ballIntegral_even hr (fun _ => 1) (fun _ => 0) (fun _ => 0) (fun _ => 0) (fun _ => 0) (by intros; ring)]
  simp only [add_zero, zero_mul, one_mul]
  rw [intervalIntegral.integral_const_mul, int_disc]
  ring

theorem int_ring (r : ℝ) : ∫ x in -r..r, (r ^ 2 - x ^ 2) ^ 2 = 16 / 15 * r ^ 5 := by
  have : ∀ x : ℝ, (r ^ 2 - x ^ 2) ^ 2 = r ^ 4 - 2 * r ^ 2 * x ^ 2 + x ^ 4 := fun x => by ring
  simp only [this]
  rw [intervalIntegral.integral_add (by apply Continuous.intervalIntegrable; fun_prop)
      (by apply Continuous.intervalIntegrable; fun_prop), intervalIntegral.integral_sub (by simp)
      (by apply Continuous.intervalIntegrable; fun_prop), intervalIntegral.integral_const_mul, integral_pow, integral_pow]
  simp
  ring

theorem int_axis (r : ℝ) : ∫ x in -r..r, x ^ 2 * (r ^ 2 - x ^ 2) = 4 / 15 * r ^ 5 := by
  have : ∀ x : ℝ, x ^ 2 * (r ^ 2 - x ^ 2) = r ^ 2 * x ^ 2 - x ^ 4 := fun x => by ring
  simp only [this]
  rw [intervalIntegral.integral_sub (by apply Continuous.intervalIntegrable; fun_prop)
      (by apply Continuous.intervalIntegrable; fun_prop), intervalIntegral.integral_const_mul, integral_pow, integral_pow]
  simp
  ring

section
variable (c : Vec3 ℝ) {r : ℝ} (hr : 0 < r)

theorem ball_const (a : ℝ) : ∫ x in -r..r, a * (Real.pi * (r ^ 2 - x ^ 2)) = a * (4 / 3 * Real.pi * r ^ 3) := by
  rw [intervalIntegral.integral_const_mul, intervalIntegral.integral_const_mul, int_disc]; ring

include hr

/-- The centre of mass of a solid ball is its centre. -/
theorem ballCentre : solidCentre (ballMean c r) = c := by
  have hV : (4 / 3 * Real.pi * r ^ 3) ≠ 0 := by positivity
  unfold solidCentre ballMean
  rw [ballVolume c hr.le,
    ballIntegral_even hr.le (fun x => c.x + x) (fun _ => 0) (fun _ => 0) (fun _ => 0) (fun _ => 0) (by intros; ring),
    ballIntegral_even hr.le (fun _ => c.y) (fun _ => 1) (fun _ => 0) (fun _ => 0) (fun _ => 0) (by intros; ring),
    ballIntegral_even hr.le (fun _ => c.z) (fun _ => 0) (fun _ => 1) (fun _ => 0) (fun _ => 0) (by intros; ring)]
  simp only [add_zero, zero_mul, ball_const, add_mul]
  rw [intervalIntegral.integral_add (by apply Continuous.intervalIntegrable; fun_prop)
    (by apply Continuous.intervalIntegrable; fun_prop), ball_const, int_odd _ (fun x => by ring)]
  ext <;> simp <;> field_simp

/-- The tensor of a solid ball, computed by integration. -/
theorem ballTensor_integral (m : ℝ) : solidTensor m (ballMean c r) = ballTensor m r := by
  have hV : (4 / 3 * Real.pi * r ^ 3) ≠ 0 := by positivity
  unfold solidTensor
  simp only [ballCentre c hr]
  unfold ballMean
  rw [ballVolume c hr.le,
    ballIntegral_even (f := fun p => (p.y - c.y) ^ 2 + (p.z - c.z) ^ 2) hr.le (fun _ => 0) (fun _ => 0) (fun _ => 0)
      (fun _ => 1) (fun _ => 1) (by intros; ring),
    ballIntegral_even (f := fun p => (p.x - c.x) ^ 2 + (p.z - c.z) ^ 2) hr.le (fun x => x ^ 2) (fun _ => 0) (fun _ => 0)
      (fun _ => 0) (fun _ => 1) (by intros; ring),
    ballIntegral_even (f := fun p => (p.x - c.x) ^ 2 + (p.y - c.y) ^ 2) hr.le (fun x => x ^ 2) (fun _ => 0) (fun _ => 0)
      (fun _ => 1) (fun _ => 0) (by intros; ring),
    ballIntegral_even (f := fun p => -((p.x - c.x) * (p.y - c.y))) hr.le (fun _ => 0) (fun x => -x) (fun _ => 0)
      (fun _ => 0) (fun _ => 0) (by intros; ring),
    ballIntegral_even (f := fun p => -((p.x - c.x) * (p.z - c.z))) hr.le (fun _ => 0) (fun _ => 0) (fun x => -x)
      (fun _ => 0) (fun _ => 0) (by intros; ring),
    ballIntegral_even (f := fun p => -((p.y - c.y) * (p.x - c.x))) hr.le (fun _ => 0) (fun x => -x) (fun _ => 0)
      (fun _ => 0) (fun _ => 0) (by intros; ring),
    ballIntegral_even (f := fun p => -((p.z - c.z) * (p.x - c.x))) hr.le (fun _ => 0) (fun _ => 0) (fun x => -x)
      (fun _ => 0) (fun _ => 0) (by intros; ring)]
  have yz : ballIntegral c r (fun p => -((p.y - c.y) * (p.z - c.z))) = 0 := by
    unfold ballIntegral
    have : ∀ x y, ∫ z in -√(r ^ 2 - x ^ 2 - y ^ 2)..√(r ^ 2 - x ^ 2 - y ^ 2),
        -((c.y + y - c.y) * (c.z + z - c.z)) = 0 := fun x y => int_odd _ (fun z => by ring) _
    simp only [this, intervalIntegral.integral_zero]
  have zy : ballIntegral c r (fun p => -((p.z - c.z) * (p.y - c.y))) = 0 := by
    rw [← yz]; congr 1; ext p; ring
  rw [yz, zy]
  have ring1 : ∀ a : ℝ, ∫ x in -r..r, a * (Real.pi * (r ^ 2 - x ^ 2) ^ 2 / 4) = a * (4 / 15 * Real.pi * r ^ 5) := by
    intro a
    have : ∀ x, a * (Real.pi * (r ^ 2 - x ^ 2) ^ 2 / 4) = a * Real.pi / 4 * (r ^ 2 - x ^ 2) ^ 2 := fun x => by ring
    simp only [this, intervalIntegral.integral_const_mul, int_ring]; ring
  have axis : ∫ x in -r..r, x ^ 2 * (Real.pi * (r ^ 2 - x ^ 2)) = 4 / 15 * Real.pi * r ^ 5 := by
    have : ∀ x, x ^ 2 * (Real.pi * (r ^ 2 - x ^ 2)) = Real.pi * (x ^ 2 * (r ^ 2 - x ^ 2)) := fun x => by ring
    simp only [this, intervalIntegral.integral_const_mul, int_axis]; ring
  have both : ∫ x in -r..r, (x ^ 2 * (Real.pi * (r ^ 2 - x ^ 2)) + 1 * (Real.pi * (r ^ 2 - x ^ 2) ^ 2 / 4)) =
      8 / 15 * Real.pi * r ^ 5 := by
    rw [intervalIntegral.integral_add (by apply Continuous.intervalIntegrable; fun_prop)
      (by apply Continuous.intervalIntegrable; fun_prop), axis, ring1]; ring
  simp only [zero_add, add_zero, zero_mul, intervalIntegral.integral_zero, zero_div, mul_zero, both, ring1]
  unfold ballTensor Mat3.diag
  congr 1 <;> congr 1 <;> (field_simp; ring)

end

/-- **C15 (spheres, from first principles).** A sphere collider's centre of mass is that of a solid ball with uniform
density, computed by integration. -/
theorem C18_sphere_centre (s : SphereCollider XReal) {c : Vec3 ℝ} {r : ℝ} (hc : s.center = c.f) (hr : 0 < r) :
    (Collider.sphere s).localCenterOfMass = (solidCentre (ballMean c r)).f := by
  rw [ballCentre c hr]; exact hc

/-- **C18 (spheres, from first principles), the true part.** A sphere collider has the tensor of a solid ball with uniform
density, computed by integration, exactly if it has no mass or its radius is 1.  Missing: every other radius. -/
theorem C18_sphere_integral_partial (s : SphereCollider XReal) {m r : ℝ} {c : Vec3 ℝ} (hm : s.mass = fin m)
    (hr : s.radius = fin r) (hv : s.isValid = true) :
    (Collider.sphere s).momentOfInertia = (solidTensor m (ballMean c r)).f ↔ m = 0 ∨ r = 1 := by
  have hr0 : 0 < r := by
    simp [SphereCollider.isValid, MINIMUM_RADIUS, hr] at hv
    linarith [hv.1]
  rw [ballTensor_integral c hr0]
  exact (C18_sphere_partial s hm hr hv).2

/-! ### Concrete cases -/

/-- A brick 2 by 4 by 6 of mass 12 whose corner is at the origin: it is a valid collider, and its centre is in its
middle. -/
example : ∃ c : BoxCollider XReal, c.isValid = true ∧ (Collider.box c).localCenterOfMass = (⟨1, 2, 3⟩ : Vec3 ℝ).f ∧
    (Collider.box c).momentOfInertia = (solidTensor 12 (boxMean ⟨0, 0, 0⟩ ⟨2, 4, 6⟩)).f := by
  let c : BoxCollider XReal :=
    ⟨none, (⟨0, 0, 0⟩ : Vec3 ℝ).f, (⟨0, 0, 0⟩ : Vec3 ℝ).f, (⟨2, 4, 6⟩ : Vec3 ℝ).f, fin 12, .default⟩
  have hv : c.isValid = true := by
    simp [c, BoxCollider.isValid, Vec3.f_sub]
    norm_num
  have := C18_box_integral c (m := 12) rfl rfl rfl rfl hv
  refine ⟨c, hv, ?_, this.2⟩
  rw [this.1, boxCentre (by norm_num) (by norm_num) (by norm_num)]
  norm_num [Vec3.f_inj, Vec3.ext_iff]

/-- A solid ball of radius 2 and mass 5 has tensor 8; the collider's is 4. -/
example : (solidTensor 5 (ballMean ⟨0, 0, 0⟩ 2)).r1.x = 8 := by
  rw [ballTensor_integral _ (by norm_num)]
  norm_num [ballTensor, Mat3.diag]

end Fluffy.Props
