import Verif.Num.Pose
import Verif.Model.Range
/-
Exact numbers under a finite shift: which operations commute with adding one finite number, or one finite vector, to the
positions.  Nothing here assumes that the shifted values are finite.
-/
set_option linter.unusedSectionVars false
set_option linter.unusedSimpArgs false
namespace Fluffy

namespace XReal

theorem add_asc (a b c : XReal) : a + b + c = a + (b + c) := by
  cases a <;> cases b <;> cases c <;> simp [add_assoc]
theorem add_cm (a b : XReal) : a + b = b + a := by
  cases a <;> cases b <;> simp [add_comm]
instance : Std.Associative (α := XReal) (· + ·) := ⟨add_asc⟩
instance : Std.Commutative (α := XReal) (· + ·) := ⟨add_cm⟩
theorem sub_add (a b : XReal) : a - b = a + -b := rfl
theorem neg_sum (a b : XReal) : -(a + b) = -a + -b := by
  cases a <;> cases b <;> simp [add_comm]
@[simp] theorem add_fin_zero (a : XReal) : a + fin 0 = a := by cases a <;> simp

/-- Not an infinity. -/
def Tame (c : XReal) : Prop := c ≠ posInf ∧ c ≠ negInf
theorem tame_fin (r : ℝ) : Tame (fin r) := ⟨by simp, by simp⟩
theorem tame_nan : Tame nan := ⟨by simp, by simp⟩
theorem Tame.cases {c : XReal} (h : Tame c) : c = nan ∨ ∃ r, c = fin r := by
  cases c with
  | nan => exact .inl rfl
  | fin r => exact .inr ⟨r, rfl⟩
  | posInf => exact absurd rfl h.1
  | negInf => exact absurd rfl h.2

theorem infSign_add (r a : ℝ) : infSign r + fin a = infSign r := by unfold infSign; split <;> [simp; split <;> simp]
theorem shift_mul_fin (x : XReal) (a k : ℝ) : (x + fin a) * fin k = x * fin k + fin (a * k) := by
  cases x with
  | nan => simp
  | fin r => simp; ring
  | posInf => simp only [posInf_add_fin]; exact (infSign_add k (a * k)).symm
  | negInf => simp only [negInf_add_fin]; exact (infSign_add (-k) (a * k)).symm
theorem fin_mul_shift (x : XReal) (a k : ℝ) : fin k * (x + fin a) = fin k * x + fin (k * a) := by
  cases x with
  | nan => simp
  | fin r => simp; ring
  | posInf => simp only [posInf_add_fin]; exact (infSign_add k (k * a)).symm
  | negInf => simp only [negInf_add_fin]; exact (infSign_add (-k) (k * a)).symm
theorem shift_div_fin (x : XReal) (a : ℝ) {k : ℝ} (h : k ≠ 0) : (x + fin a) / fin k = x / fin k + fin (a / k) := by
  cases x with
  | nan => simp
  | fin r => simp [fin_div h]; ring
  | posInf => simp only [posInf_add_fin, posInf_div_fin]; split <;> simp
  | negInf => simp only [negInf_add_fin, negInf_div_fin]; split <;> simp
theorem shift_sub_shift (x y : XReal) (a : ℝ) : (x + fin a) - (y + fin a) = x - y := by
  cases x <;> cases y <;> simp
theorem shift_sub (x y : XReal) (a : ℝ) : (x + fin a) - y = x - y + fin a := by
  rw [sub_add, sub_add]; ac_rfl
theorem shift_add (x y : XReal) (a : ℝ) : (x + fin a) + y = x + y + fin a := by ac_rfl
theorem neg_shift (x : XReal) (a : ℝ) : -(x + fin a) = -x + fin (-a) := by rw [neg_sum, fin_neg]
theorem shift_shift (x : XReal) (a b : ℝ) : x + fin a + fin b = x + fin (a + b) := by rw [add_asc, fin_add]
theorem isNaN_shift (x : XReal) (a : ℝ) : Scalar.isNaN (x + fin a) = Scalar.isNaN x := by cases x <;> simp
theorem lt_shift (x y : XReal) (a : ℝ) : Scalar.lt (x + fin a) (y + fin a) = Scalar.lt x y := by
  cases x <;> cases y <;> simp
end XReal

open XReal

/-- A range moved along. -/
noncomputable def Range.shift (k : ℝ) (r : Range XReal) : Range XReal := ⟨r.lo + fin k, r.hi + fin k⟩

namespace Range
variable (k : ℝ) (r s : Range XReal) (a b : XReal)
theorem isEmpty_shift : (r.shift k).isEmpty = r.isEmpty := by simp [isEmpty, shift, isNaN_shift]
theorem range_shift : range (a + fin k) (b + fin k) = (range a b).shift k := by
  unfold range; rw [lt_shift]; split <;> rfl
theorem min_shift : (r.shift k).min = r.min + fin k := by
  unfold min; rw [isEmpty_shift]; split <;> [simp; rfl]
theorem max_shift : (r.shift k).max = r.max + fin k := by
  unfold max; rw [isEmpty_shift]; split <;> [simp; rfl]
theorem intersect_shift : ((r.shift k).intersect (s.shift k)) = (r.intersect s).shift k := by
  have he : (empty : Range XReal) = (empty : Range XReal).shift k := by simp [empty, shift]
  unfold intersect
  rw [isEmpty_shift, isEmpty_shift]
  split
  · exact he
  · have h1 : (if Scalar.lt (s.shift k).lo (r.shift k).lo = true then (r.shift k).lo else (s.shift k).lo) =
        (if Scalar.lt s.lo r.lo = true then r.lo else s.lo) + fin k := by
      simp only [shift, lt_shift]; split <;> rfl
    have h2 : (if Scalar.lt (r.shift k).hi (s.shift k).hi = true then (r.shift k).hi else (s.shift k).hi) =
        (if Scalar.lt r.hi s.hi = true then r.hi else s.hi) + fin k := by
      simp only [shift, lt_shift]; split <;> rfl
    simp only [h1, h2, lt_shift]
    generalize (if Scalar.lt s.lo r.lo = true then r.lo else s.lo) = lo
    generalize (if Scalar.lt r.hi s.hi = true then r.hi else s.hi) = hi
    split
    · exact he
    · rfl
theorem linearOverlap_shift (m : XReal) : (r.shift k).linearOverlap (s.shift k) m = r.linearOverlap s m := by
  unfold linearOverlap
  rw [intersect_shift, isEmpty_shift, min_shift, min_shift, max_shift, max_shift]
  simp only [shift_sub_shift]
end Range

namespace Vec3
variable (v w : Vec3 XReal) (d u : Vec3 ℝ) (k : ℝ)

theorem add_asc (a b c : Vec3 XReal) : a + b + c = a + (b + c) := by
  ext <;> exact XReal.add_asc _ _ _
theorem add_cm (a b : Vec3 XReal) : a + b = b + a := by
  ext <;> exact XReal.add_cm _ _
instance : Std.Associative (α := Vec3 XReal) (· + ·) := ⟨add_asc⟩
instance : Std.Commutative (α := Vec3 XReal) (· + ·) := ⟨add_cm⟩
theorem sub_add (a b : Vec3 XReal) : a - b = a + -b := rfl
theorem shift_sub_shift : (v + f d) - (w + f d) = v - w := by
  ext <;> exact XReal.shift_sub_shift _ _ _
theorem shift_sub : (v + f d) - w = v - w + f d := by ext <;> exact XReal.shift_sub _ _ _
theorem shift_add : (v + f d) + w = v + w + f d := by ac_rfl
theorem add_shift : v + (w + f d) = v + w + f d := by ac_rfl
theorem shift_shift : v + f d + f u = v + f (d + u) := by rw [add_asc, f_add]
theorem neg_shift : -(v + f d) = -v + f (-d) := by ext <;> exact XReal.neg_shift _ _
theorem shift_scale : (v + f d).scale (fin k) = v.scale (fin k) + f (d.scale k) := by
  ext <;> exact XReal.shift_mul_fin _ _ _
theorem shift_unscale (h : k ≠ 0) : (v + f d).unscale (fin k) = v.unscale (fin k) + f (d.scale k⁻¹) := by
  ext
  · exact (XReal.shift_div_fin _ _ h).trans (by rw [div_eq_mul_inv]; rfl)
  · exact (XReal.shift_div_fin _ _ h).trans (by rw [div_eq_mul_inv]; rfl)
  · exact (XReal.shift_div_fin _ _ h).trans (by rw [div_eq_mul_inv]; rfl)
theorem scale_nan : v.scale nan = ⟨nan, nan, nan⟩ := by simp [scale]
theorem cross_shift : (f u).cross (v + f d) = (f u).cross v + f (u.cross d) := by
  have h : ∀ (p q : XReal) (a b x y : ℝ), fin a * (p + fin x) - fin b * (q + fin y) = fin a * p - fin b * q + fin (a * x - b * y) := by
    intro p q a b x y
    rw [fin_mul_shift, fin_mul_shift, XReal.sub_add, XReal.neg_shift, XReal.sub_add,
      show fin (a * x - b * y) = fin (a * x) + fin (-(b * y)) by simp [sub_eq_add_neg]]
    ac_rfl
  ext <;> exact h _ _ _ _ _ _
/-- No component is an infinity. -/
def Tame (n : Vec3 XReal) : Prop := n.x.Tame ∧ n.y.Tame ∧ n.z.Tame
theorem dot_shift : (v + f d).dot (f u) = v.dot (f u) + fin (d.dot u) := by
  show (v.x + fin d.x) * fin u.x + (v.y + fin d.y) * fin u.y + (v.z + fin d.z) * fin u.z = v.x * fin u.x + v.y * fin u.y + v.z * fin u.z + _
  rw [shift_mul_fin, shift_mul_fin, shift_mul_fin, dot_def,
    show fin (d.x * u.x + d.y * u.y + d.z * u.z) = fin (d.x * u.x) + fin (d.y * u.y) + fin (d.z * u.z) by simp]
  ac_rfl
/-- A direction without infinities is finite, or every product with it is NaN. -/
theorem Tame.cases {n : Vec3 XReal} (h : n.Tame) : (∃ u, n = f u) ∨ ∀ v : Vec3 XReal, v.dot n = nan := by
  obtain ⟨hx, hy, hz⟩ := h
  rcases hx.cases with hx | ⟨x, hx⟩
  · right; intro v; simp [dot, hx]
  rcases hy.cases with hy | ⟨y, hy⟩
  · right; intro v; simp [dot, hy]
  rcases hz.cases with hz | ⟨z, hz⟩
  · right; intro v; simp [dot, hz]
  exact .inl ⟨⟨x, y, z⟩, by ext <;> simp [f, hx, hy, hz]⟩
theorem tame_f (u : Vec3 ℝ) : (f u).Tame := ⟨tame_fin _, tame_fin _, tame_fin _⟩

theorem sq_cases (x : XReal) : x * x = nan ∨ x * x = posInf ∨ ∃ r : ℝ, 0 ≤ r ∧ x * x = fin r := by
  cases x with
  | nan => left; rfl
  | fin r => right; right; exact ⟨r * r, mul_self_nonneg r, rfl⟩
  | posInf => right; left; rfl
  | negInf => right; left; rfl
theorem dot_self_cases : v.dot v = nan ∨ v.dot v = posInf ∨ ∃ u, v = f u := by
  obtain ⟨x, y, z⟩ := v
  show x * x + y * y + z * z = nan ∨ x * x + y * y + z * z = posInf ∨ _
  cases x <;> cases y <;> cases z <;>
    first
    | exact .inl rfl
    | exact .inr (.inl rfl)
    | exact .inr (.inr ⟨⟨_, _, _⟩, rfl⟩)
/-- The quotient of a vector by its own length has no infinite component, whatever the vector. -/
theorem tame_normalize : v.normalize.Tame := by
  rcases dot_self_cases v with h | h | ⟨u, rfl⟩
  · have : v.magnitude = nan := by unfold magnitude; rw [h]; rfl
    unfold normalize; rw [this]
    simp only [unscale, div_nan]
    exact ⟨tame_nan, tame_nan, tame_nan⟩
  · have : v.magnitude = posInf := by unfold magnitude; rw [h]; rfl
    unfold normalize; rw [this]
    have hd : ∀ x : XReal, (x / posInf).Tame := by
      intro x
      cases x <;> [exact tame_nan; exact tame_nan; exact tame_fin _; exact tame_nan]
    exact ⟨hd _, hd _, hd _⟩
  · by_cases hu : u = o
    · subst hu
      unfold normalize
      rw [f_magnitude, len_o]
      have : ((fin 0 : XReal) / fin 0).Tame := by
        rw [fin_div', if_pos rfl]; unfold infSign; rw [if_pos rfl]; exact tame_nan
      exact ⟨this, this, this⟩
    · rw [f_normalize hu]; exact tame_f _
end Vec3

namespace Quat
/-- Every component is NaN. -/
def lost : Quat XReal := ⟨nan, nan, nan, nan⟩
/-- A unit quaternion of finite numbers, or nothing but NaN: the rotations that `from_scaled_axis` and products make. -/
def Ok (q : Quat XReal) : Prop := (∃ r : Quat ℝ, q = f r ∧ r.normSq = 1) ∨ q = lost
theorem ok_f {r : Quat ℝ} (h : r.normSq = 1) : (f r).Ok := .inl ⟨r, rfl, h⟩
theorem ok_identity : (identity : Quat XReal).Ok := .inl ⟨e, by simp, by simp⟩

theorem ok_fromScaledAxis (v : Vec3 XReal) : (fromScaledAxis v).Ok := by
  rcases Vec3.dot_self_cases (v.unscale two) with h | h | ⟨u, hu⟩
  · right
    unfold fromScaledAxis
    simp only [h, nan_le, sqrt_nan, Bool.false_eq_true, if_false]
    simp [lost, Vec3.scale]
    rfl
  · right
    unfold fromScaledAxis
    simp only [h]
    have : Scalar.le (posInf : XReal) (machineEps * machineEps) = false := by simp
    simp only [this, Bool.false_eq_true, if_false]
    have h2 : Scalar.sqrt (posInf : XReal) = posInf := rfl
    have h3 : Scalar.sin (posInf : XReal) = nan := rfl
    have h4 : Scalar.cos (posInf : XReal) = nan := rfl
    simp [h2, h3, h4, lost, Vec3.scale]
  · left
    refine ⟨exp (u.scale 2), ?_, exp_normSq _⟩
    have : v = (u.scale 2).f := by
      have hh : ∀ (x : XReal) (r : ℝ), x / fin 2 = fin r → x = fin (r * 2) := by
        intro x r hx
        cases x with
        | nan => simp at hx
        | posInf => rw [posInf_div_fin, if_pos (by norm_num)] at hx; cases hx
        | negInf => rw [negInf_div_fin, if_pos (by norm_num)] at hx; cases hx
        | fin a => rw [fin_div (by norm_num)] at hx; simp at hx ⊢; linarith
      have hx := congrArg Vec3.x hu
      have hy := congrArg Vec3.y hu
      have hz := congrArg Vec3.z hu
      simp only [Vec3.unscale, two_eq] at hx hy hz
      ext
      · exact hh _ _ hx
      · exact hh _ _ hy
      · exact hh _ _ hz
    rw [this, f_fromScaledAxis]

theorem Ok.mul {p q : Quat XReal} (hp : p.Ok) (hq : q.Ok) : (p.mul q).Ok := by
  rcases hp with ⟨a, rfl, ha⟩ | rfl
  · rcases hq with ⟨b, rfl, hb⟩ | rfl
    · left; exact ⟨a.mul b, by simp, by rw [mul_mul_normSq, ha, hb]; ring⟩
    · right; simp [Quat.mul, lost]
  · right; simp [Quat.mul, lost]

theorem lost_rotate (v : Vec3 XReal) : lost.rotate v = ⟨nan, nan, nan⟩ := by
  have hx : (lost.vec.cross v) = ⟨nan, nan, nan⟩ := by simp [Vec3.cross, lost, vec]
  have hv : ∀ a b c : Vec3 XReal, a = ⟨nan, nan, nan⟩ → a + b + c = ⟨nan, nan, nan⟩ := by
    rintro a b c rfl
    ext <;> exact (congrArg (· + _) (nan_add _)).trans (nan_add _)
  unfold rotate
  exact hv _ _ _ (by simp [hx, Vec3.scale])
theorem rotate_shift (q : Quat ℝ) (v : Vec3 XReal) (d : Vec3 ℝ) : (f q).rotate (v + d.f) = (f q).rotate v + (q.rot d).f := by
  simp only [rotate, f_vec, f_w, two_eq, Vec3.cross_shift, Vec3.shift_scale, rot]
  simp only [← Vec3.f_add]
  ac_rfl
end Quat

namespace Orientation
/-- The pose moved along. -/
noncomputable def shift (d : Vec3 ℝ) (o : Orientation XReal) : Orientation XReal := { o with position := o.position + d.f }
variable (d l : Vec3 ℝ) (o : Orientation XReal) (p v a b : Vec3 XReal)

theorem nan_shift : (⟨nan, nan, nan⟩ : Vec3 XReal) + d.f = ⟨nan, nan, nan⟩ := by ext <;> exact nan_add _
theorem add_nans : v + (⟨nan, nan, nan⟩ : Vec3 XReal) = ⟨nan, nan, nan⟩ := by ext <;> exact add_nan _
theorem nans_add : (⟨nan, nan, nan⟩ : Vec3 XReal) + v = ⟨nan, nan, nan⟩ := by ext <;> exact nan_add _

theorem lost_conj : Quat.lost.conj = Quat.lost := by simp [Quat.conj, Quat.lost]
theorem lost_mul (q : Quat XReal) : Quat.lost.mul q = Quat.lost := by simp [Quat.mul, Quat.lost]

theorem ok_intoLocal (h : o.rotation.Ok) : o.intoLocal.rotation = o.rotation.conj ∧
    o.intoLocal.translation = o.rotation.conj.rotate (-o.position) + -o.internalOriginOffset := by
  refine ⟨?_, rfl⟩
  show o.rotation.conj.mul Quat.identity = _
  rcases h with ⟨r, hr, -⟩ | hr
  · rw [hr]; simp
  · rw [hr, lost_conj, lost_mul]

theorem positionIntoWorld_shift (h : o.rotation.Ok) : (o.shift d).positionIntoWorld p = o.positionIntoWorld p + d.f := by
  obtain ⟨h1, h2⟩ := ok_intoLocal o h
  obtain ⟨h3, h4⟩ := ok_intoLocal (o.shift d) h
  unfold positionIntoWorld intoWorld Isometry.point Isometry.inverse
  simp only [h1, h2, h3, h4]
  show o.rotation.conj.conj.rotate p + o.rotation.conj.conj.rotate (-(o.rotation.conj.rotate (-(o.position + d.f)) + -o.internalOriginOffset)) = _
  rcases h with ⟨r, hr, hu⟩ | hr
  · rw [hr]
    simp only [Quat.f_conj, Quat.conj_conj, Vec3.neg_shift, Quat.rotate_shift]
    rw [Vec3.shift_add, Vec3.neg_shift, Quat.rotate_shift, ← Vec3.add_asc]
    congr 2
    rw [Quat.rot_neg, Quat.rot_neg, Quat.rot_neg, Quat.rot_rot_conj _ hu, Vec3.neg_neg']
  · rw [hr]
    simp only [lost_conj, Quat.lost_rotate, nan_shift, add_nans, nans_add]

theorem positionIntoLocal_shift (h : o.rotation.Ok) : (o.shift d).positionIntoLocal (p + d.f) = o.positionIntoLocal p := by
  obtain ⟨h1, h2⟩ := ok_intoLocal o h
  obtain ⟨h3, h4⟩ := ok_intoLocal (o.shift d) h
  unfold positionIntoLocal Isometry.point
  simp only [h1, h2, h3, h4]
  show o.rotation.conj.rotate (p + d.f) + (o.rotation.conj.rotate (-(o.position + d.f)) + -o.internalOriginOffset) = _
  rcases h with ⟨r, hr, hu⟩ | hr
  · rw [hr]
    simp only [Quat.f_conj, Vec3.neg_shift, Quat.rotate_shift]
    rw [show ∀ a b c e g : Vec3 XReal, a + b + (c + e + g) = a + (c + g) + (b + e) by intro a b c e g; ac_rfl, Vec3.f_add,
      Quat.rot_neg]
    have : r.conj.rot d + -r.conj.rot d = Vec3.o := by ext <;> simp
    rw [this]
    ext <;> exact add_fin_zero _
  · rw [hr]
    simp only [lost_conj, Quat.lost_rotate, nan_shift, add_nans, nans_add]

theorem directionIntoWorld_shift : (o.shift d).directionIntoWorld v = o.directionIntoWorld v := by
  show Quat.rotate (o.shift d).intoLocal.rotation.conj v = Quat.rotate o.intoLocal.rotation.conj v
  rfl
theorem directionIntoLocal_shift : (o.shift d).directionIntoLocal v = o.directionIntoLocal v := by
  show Quat.rotate (o.shift d).intoLocal.rotation v = Quat.rotate o.intoLocal.rotation v
  rfl
theorem afterAffected_shift : (o.shift d).afterAffected a b = (o.afterAffected a b).shift d := by
  unfold afterAffected shift
  simp only [Vec3.shift_add]
theorem lerp_shift (t : ℝ) (o' : Orientation XReal) : lerp (fin t) (o.shift d) (o'.shift d) = (lerp (fin t) o o').shift d := by
  have h : (o.position + d.f).scale (fin (1 - t)) + (o'.position + d.f).scale (fin t) =
      o.position.scale (fin (1 - t)) + o'.position.scale (fin t) + d.f := by
    rw [Vec3.shift_scale, Vec3.shift_scale,
      show ∀ a b c e : Vec3 XReal, a + b + (c + e) = a + c + (b + e) by intro a b c e; ac_rfl, Vec3.f_add]
    congr 2
    ext <;> simp <;> ring
  unfold lerp
  simp only [one_eq, fin_sub]
  show Orientation.mk _ _ _ = Orientation.mk _ _ _
  rw [Orientation.mk.injEq]
  exact ⟨h, rfl, rfl⟩
end Orientation
end Fluffy
