import Verif.Model.Range
import Verif.Num.XReal
/-
C39-C41: ranges.
-/
set_option linter.unusedSectionVars false
set_option linter.unusedSimpArgs false
namespace Fluffy.Props
open Fluffy

/-! ### C39 -/
section Order
variable {α : Type} [Scalar α]

/-- The value `x` is in the range: not below its minimum and not above its maximum. -/
def Holds (r : Range α) (x : α) : Prop := Scalar.le r.min x = true ∧ Scalar.le x r.max = true

/-- The ranges that can be built with the crate's functions (the fields are private). -/
inductive Built : Range α → Prop
  | empty : Built .empty
  | single (v : α) : Built (.single v)
  | range (a b : α) : Built (.range a b)
  | everything : Built .everything
  | intersect {r s : Range α} : Built r → Built s → Built (r.intersect s)
  | contain {r s : Range α} : Built r → Built s → Built (r.contain s)
  | quadratic (a b c : α) : Built (.quadraticZeros a b c)
  | overlap {r s : Range α} (v : α) : Built r → Built s → Built (r.linearOverlap s v)

variable [LawfulOrder α]

theorem le_iff' {a b : α} : Scalar.le a b = true ↔ (Scalar.lt b a = false ∧ Scalar.isNaN a = false ∧ Scalar.isNaN b = false) :=
  LawfulOrder.le_iff a b
theorem not_lt_trans {a b c : α} (hb : Scalar.isNaN b = false) (h1 : Scalar.lt b a = false) (h2 : Scalar.lt c b = false) :
    Scalar.lt c a = false := by
  cases h : Scalar.lt c a with
  | false => rfl
  | true => rcases LawfulOrder.lt_of_not c b a h hb with h | h <;> simp_all
theorem lt_asymm' {a b : α} (h : Scalar.lt a b = true) : Scalar.lt b a = false := by
  cases h2 : Scalar.lt b a with
  | false => rfl
  | true => have := LawfulOrder.lt_trans _ _ _ h h2; rw [LawfulOrder.lt_irrefl] at this; cases this
theorem le_trans' {a b c : α} (h1 : Scalar.le a b = true) (h2 : Scalar.le b c = true) : Scalar.le a c = true := by
  rw [le_iff'] at *
  exact ⟨not_lt_trans h1.2.2 h1.1 h2.1, h1.2.1, h2.2.2⟩
theorem le_refl' {a : α} (h : Scalar.isNaN a = false) : Scalar.le a a = true :=
  le_iff'.mpr ⟨LawfulOrder.lt_irrefl a, h, h⟩
theorem le_of_lt' {a b : α} (h : Scalar.lt a b = true) : Scalar.le a b = true :=
  le_iff'.mpr ⟨lt_asymm' h, LawfulOrder.lt_notNaN _ _ h⟩
theorem le_total' {a b : α} (ha : Scalar.isNaN a = false) (hb : Scalar.isNaN b = false) :
    Scalar.le a b = true ∨ Scalar.le b a = true := by
  cases h : Scalar.lt b a with
  | false => exact Or.inl (le_iff'.mpr ⟨h, ha, hb⟩)
  | true => exact Or.inr (le_of_lt' h)

theorem isEmpty_false {r : Range α} (h : r.isEmpty = false) : Scalar.isNaN r.lo = false ∧ Scalar.isNaN r.hi = false := by
  unfold Range.isEmpty at h
  simpa using h

/-- A range is empty exactly when a bound is NaN; then nothing is in it. -/
theorem holds_iff {r : Range α} {x : α} : Holds r x ↔ r.isEmpty = false ∧ Scalar.le r.lo x = true ∧ Scalar.le x r.hi = true := by
  unfold Holds Range.min Range.max
  cases h : r.isEmpty with
  | false => simp
  | true =>
    simp only [if_true]
    constructor
    · rintro ⟨h1, -⟩
      rw [le_iff', LawfulOrder.isNaN_nan] at h1
      simp at h1
    · simp

theorem holds_iff' {r : Range α} {x : α} : Holds r x ↔ Scalar.le r.lo x = true ∧ Scalar.le x r.hi = true := by
  rw [holds_iff]
  constructor
  · exact fun h => h.2
  · intro h
    refine ⟨?_, h⟩
    have h1 := (le_iff'.mp h.1).2.1
    have h2 := (le_iff'.mp h.2).2.2
    unfold Range.isEmpty; rw [h1, h2]; rfl

/-- Every range that is built is empty or has its bounds in order. -/
theorem Built.sound {r : Range α} (h : Built r) : r.isEmpty = true ∨ Scalar.le r.lo r.hi = true := by
  have hrange : ∀ a b : α, (Range.range a b).isEmpty = true ∨ Scalar.le (Range.range a b).lo (Range.range a b).hi = true := by
    intro a b
    unfold Range.range Range.isEmpty
    split
    · rename_i h; exact Or.inr (le_of_lt' h)
    · rename_i h
      cases ha : Scalar.isNaN a <;> cases hb : Scalar.isNaN b <;> simp
      exact le_iff'.mpr ⟨by simpa using h, hb, ha⟩
  have hsingle : ∀ v : α, (Range.single v).isEmpty = true ∨ Scalar.le (Range.single v).lo (Range.single v).hi = true := by
    intro v
    unfold Range.single Range.isEmpty
    cases hv : Scalar.isNaN v with
    | true => left; simp [hv]
    | false => right; exact le_refl' hv
  have hempty : (Range.empty : Range α).isEmpty = true := by unfold Range.empty Range.isEmpty; rw [LawfulOrder.isNaN_nan]; rfl
  have hevery : Scalar.le (Range.everything : Range α).lo (Range.everything : Range α).hi = true :=
    le_iff'.mpr ⟨LawfulOrder.inf_max _, LawfulOrder.neg_inf_notNaN, LawfulOrder.inf_notNaN⟩
  have hcontain : ∀ {r s : Range α}, (r.isEmpty = true ∨ Scalar.le r.lo r.hi = true) →
      (s.isEmpty = true ∨ Scalar.le s.lo s.hi = true) →
      ((r.contain s).isEmpty = true ∨ Scalar.le (r.contain s).lo (r.contain s).hi = true) := by
    intro r s hr hs
    unfold Range.contain
    split
    · exact hs
    · split
      · exact hr
      · rename_i h1 h2
        have h1 : r.isEmpty = false := by simpa using h1
        have h2 : s.isEmpty = false := by simpa using h2
        rw [h1] at hr; rw [h2] at hs
        have hr : Scalar.le r.lo r.hi = true := by simpa using hr
        have hs : Scalar.le s.lo s.hi = true := by simpa using hs
        right
        simp only
        split <;> split <;> rename_i q1 q2
        · exact hr
        · exact le_trans' (le_of_lt' q1) hs
        · refine le_trans' ?_ hr
          exact le_iff'.mpr ⟨by simpa using q1, (le_iff'.mp hs).2.1, (le_iff'.mp hr).2.1⟩
        · exact hs
  induction h with
  | empty => exact Or.inl hempty
  | single v => exact hsingle v
  | range a b => exact hrange a b
  | everything => exact Or.inr hevery
  | @intersect r s _ _ hr hs =>
    unfold Range.intersect
    split
    · exact Or.inl hempty
    · rename_i h
      simp only [Bool.or_eq_true, not_or, Bool.not_eq_true] at h
      obtain ⟨r1, r2⟩ := isEmpty_false h.1
      obtain ⟨s1, s2⟩ := isEmpty_false h.2
      simp only
      have n1 : Scalar.isNaN (if Scalar.lt s.lo r.lo = true then r.lo else s.lo) = false := by split <;> assumption
      have n2 : Scalar.isNaN (if Scalar.lt r.hi s.hi = true then r.hi else s.hi) = false := by split <;> assumption
      generalize (if Scalar.lt s.lo r.lo = true then r.lo else s.lo) = lo at n1 ⊢
      generalize (if Scalar.lt r.hi s.hi = true then r.hi else s.hi) = hi at n2 ⊢
      split
      · exact Or.inl hempty
      · rename_i hlt
        right
        exact le_iff'.mpr ⟨by simpa using hlt, n1, n2⟩
  | contain _ _ hr hs => exact hcontain hr hs
  | quadratic a b c =>
    unfold Range.quadraticZeros
    split
    · split
      · split
        · exact Or.inr hevery
        · exact Or.inl hempty
      · exact hsingle _
    · simp only
      split
      · exact Or.inl hempty
      · split
        · exact hsingle _
        · exact hrange _ _
  | overlap v _ _ =>
    unfold Range.linearOverlap
    split
    · split
      · exact Or.inl hempty
      · exact Or.inr hevery
    · exact hcontain (hrange _ _) (hrange _ _)

/-- **C39.** `Range::range` gives the values between its arguments, in either order; none if one of them is NaN. -/
theorem C39_range (a b x : α) : Holds (Range.range a b) x ↔
    (Scalar.le a x = true ∧ Scalar.le x b = true) ∨ (Scalar.le b x = true ∧ Scalar.le x a = true) := by
  rw [holds_iff']
  unfold Range.range
  split
  · rename_i h
    constructor
    · exact Or.inl
    · rintro (h1 | ⟨h1, h2⟩)
      · exact h1
      · exact ⟨le_trans' (le_of_lt' h) h1, le_trans' h2 (le_of_lt' h)⟩
  · rename_i h
    constructor
    · exact Or.inr
    · rintro (⟨h1, h2⟩ | h1)
      · have hba : Scalar.le b a = true := le_iff'.mpr ⟨by simpa using h, (le_iff'.mp h2).2.2, (le_iff'.mp h1).2.1⟩
        exact ⟨le_trans' hba h1, le_trans' h2 hba⟩
      · exact h1

/-- **C39.** `Range::single` gives one value (up to the sign of zero). -/
theorem C39_single (v x : α) : Holds (Range.single v) x ↔ Scalar.le v x = true ∧ Scalar.le x v = true := holds_iff'
/-- **C39.** `Range::everything` contains every number. -/
theorem C39_everything (x : α) : Holds (Range.everything : Range α) x ↔ Scalar.isNaN x = false := by
  rw [holds_iff', Range.everything, le_iff', le_iff']
  have h1 := LawfulOrder.inf_max x
  have h2 := LawfulOrder.neg_inf_min x
  have h3 : Scalar.isNaN (Scalar.inf : α) = false := LawfulOrder.inf_notNaN
  have h4 : Scalar.isNaN (-Scalar.inf : α) = false := LawfulOrder.neg_inf_notNaN
  simp [h1, h2, h3, h4]
/-- **C39.** `Range::empty` contains nothing. -/
theorem C39_empty (x : α) : ¬ Holds (Range.empty : Range α) x := by
  rw [holds_iff', Range.empty, le_iff', LawfulOrder.isNaN_nan]
  simp

/-- **C39.** A range is empty, for `is_empty`, exactly when it contains no value. -/
theorem C39_isEmpty {r : Range α} (h : Built r) : r.isEmpty = true ↔ ∀ x, ¬ Holds r x := by
  constructor
  · intro he x hx
    rw [holds_iff, he] at hx
    cases hx.1
  · intro hx
    rcases h.sound with h | h
    · exact h
    · exfalso
      apply hx r.lo
      rw [holds_iff']
      exact ⟨le_refl' (le_iff'.mp h).2.1, h⟩

/-- **C39.** A NaN bound means the range is empty. -/
theorem C39_nan (a b x : α) (h : Scalar.isNaN a = true ∨ Scalar.isNaN b = true) :
    (Range.range a b).isEmpty = true ∧ ¬ Holds (Range.range a b) x := by
  have he : (Range.range a b).isEmpty = true := by
    unfold Range.range Range.isEmpty
    split <;> rcases h with h | h <;> simp [h]
  refine ⟨he, fun hx => ?_⟩
  rw [holds_iff, he] at hx
  cases hx.1

/-- **C39.** `intersect` gives exactly the common values. -/
theorem C39_intersect (r s : Range α) (x : α) : Holds (r.intersect s) x ↔ Holds r x ∧ Holds s x := by
  rw [holds_iff (r := r), holds_iff (r := s)]
  unfold Range.intersect
  cases hr : r.isEmpty with
  | true => simp; exact C39_empty x
  | false =>
    cases hs : s.isEmpty with
    | true => simp; exact C39_empty x
    | false =>
      simp only [Bool.or_self, Bool.false_eq_true, if_false, true_and]
      obtain ⟨r1, r2⟩ := isEmpty_false hr
      obtain ⟨s1, s2⟩ := isEmpty_false hs
      have key : ∀ lo hi : α, lo = (if Scalar.lt s.lo r.lo then r.lo else s.lo) →
          hi = (if Scalar.lt r.hi s.hi then r.hi else s.hi) →
          ((Scalar.le lo x = true ∧ Scalar.le x hi = true) ↔
            (Scalar.le r.lo x = true ∧ Scalar.le x r.hi = true) ∧ Scalar.le s.lo x = true ∧ Scalar.le x s.hi = true) := by
        rintro lo hi rfl rfl
        have hlo : Scalar.le (if Scalar.lt s.lo r.lo then r.lo else s.lo) x = true ↔
            Scalar.le r.lo x = true ∧ Scalar.le s.lo x = true := by
          split
          · rename_i h; exact ⟨fun q => ⟨q, le_trans' (le_of_lt' h) q⟩, fun q => q.1⟩
          · rename_i h
            exact ⟨fun q => ⟨le_trans' (le_iff'.mpr ⟨by simpa using h, r1, s1⟩) q, q⟩, fun q => q.2⟩
        have hhi : Scalar.le x (if Scalar.lt r.hi s.hi then r.hi else s.hi) = true ↔
            Scalar.le x r.hi = true ∧ Scalar.le x s.hi = true := by
          split
          · rename_i h; exact ⟨fun q => ⟨q, le_trans' q (le_of_lt' h)⟩, fun q => q.1⟩
          · rename_i h
            exact ⟨fun q => ⟨le_trans' q (le_iff'.mpr ⟨by simpa using h, s2, r2⟩), q⟩, fun q => q.2⟩
        rw [hlo, hhi]; tauto
      rw [← key _ _ rfl rfl]
      generalize (if Scalar.lt s.lo r.lo = true then r.lo else s.lo) = lo
      generalize (if Scalar.lt r.hi s.hi = true then r.hi else s.hi) = hi
      split
      · rename_i hlt
        constructor
        · intro h; exact absurd h (C39_empty x)
        · intro h
          have := le_iff'.mp (le_trans' h.1 h.2)
          rw [hlt] at this
          cases this.1
      · exact holds_iff'

/-- **C39.** `contain` gives a range that contains both. -/
theorem C39_contain_upper (r s : Range α) (x : α) (h : Holds r x ∨ Holds s x) : Holds (r.contain s) x := by
  unfold Range.contain
  cases hr : r.isEmpty with
  | true =>
    simp only [if_true]
    rcases h with h | h
    · rw [holds_iff, hr] at h; cases h.1
    · exact h
  | false =>
    cases hs : s.isEmpty with
    | true =>
      simp only [if_true, Bool.false_eq_true, if_false]
      rcases h with h | h
      · exact h
      · rw [holds_iff, hs] at h; cases h.1
    | false =>
      simp only [Bool.false_eq_true, if_false]
      obtain ⟨r1, r2⟩ := isEmpty_false hr
      obtain ⟨s1, s2⟩ := isEmpty_false hs
      rw [holds_iff', holds_iff'] at h
      rw [holds_iff']
      simp only
      rcases h with ⟨h1, h2⟩ | ⟨h1, h2⟩
      · constructor
        · split
          · exact h1
          · rename_i q; exact le_trans' (le_iff'.mpr ⟨by simpa using q, s1, r1⟩) h1
        · split
          · exact h2
          · rename_i q; exact le_trans' h2 (le_iff'.mpr ⟨by simpa using q, r2, s2⟩)
      · constructor
        · split
          · rename_i q; exact le_trans' (le_of_lt' q) h1
          · exact h1
        · split
          · rename_i q; exact le_trans' h2 (le_of_lt' q)
          · exact h2

/-- **C39.** ... and it is the smallest: it lies within every range that contains both. -/
theorem C39_contain_least {r s t : Range α} (hr : Built r) (hs : Built s) (h : ∀ x, Holds r x ∨ Holds s x → Holds t x)
    (x : α) (hx : Holds (r.contain s) x) : Holds t x := by
  unfold Range.contain at hx
  cases he : r.isEmpty with
  | true => rw [he] at hx; exact h x (Or.inr hx)
  | false =>
    cases he' : s.isEmpty with
    | true => rw [he, he'] at hx; exact h x (Or.inl hx)
    | false =>
      rw [he, he'] at hx
      simp only [Bool.false_eq_true, if_false] at hx
      obtain ⟨r1, r2⟩ := isEmpty_false he
      obtain ⟨s1, s2⟩ := isEmpty_false he'
      have hr' : Scalar.le r.lo r.hi = true := by rcases hr.sound with q | q; rw [he] at q; cases q; exact q
      have hs' : Scalar.le s.lo s.hi = true := by rcases hs.sound with q | q; rw [he'] at q; cases q; exact q
      have t1 := holds_iff'.mp (h r.lo (Or.inl (holds_iff'.mpr ⟨le_refl' r1, hr'⟩)))
      have t2 := holds_iff'.mp (h r.hi (Or.inl (holds_iff'.mpr ⟨hr', le_refl' r2⟩)))
      have t3 := holds_iff'.mp (h s.lo (Or.inr (holds_iff'.mpr ⟨le_refl' s1, hs'⟩)))
      have t4 := holds_iff'.mp (h s.hi (Or.inr (holds_iff'.mpr ⟨hs', le_refl' s2⟩)))
      rw [holds_iff'] at hx ⊢
      simp only at hx
      refine ⟨?_, ?_⟩
      · have := hx.1
        split at this
        · exact le_trans' t1.1 this
        · exact le_trans' t3.1 this
      · have := hx.2
        split at this
        · exact le_trans' this t2.2
        · exact le_trans' this t4.2

end Order

/-! ### The real line

From here on scalars are extended reals. -/
open XReal

@[simp] theorem holds_fin {a b t : ℝ} : Holds (⟨fin a, fin b⟩ : Range XReal) (fin t) ↔ a ≤ t ∧ t ≤ b := by
  rw [holds_iff']; simp

theorem holds_range {a b t : ℝ} : Holds (Range.range (fin a) (fin b)) (fin t) ↔ (a ≤ t ∧ t ≤ b) ∨ (b ≤ t ∧ t ≤ a) := by
  rw [C39_range]; simp
theorem holds_single {a t : ℝ} : Holds (Range.single (fin a)) (fin t) ↔ t = a := by
  rw [C39_single]; simp only [fin_le, decide_eq_true_eq]
  exact ⟨fun h => le_antisymm h.2 h.1, fun h => by rw [h]; exact ⟨le_refl _, le_refl _⟩⟩

/-- **C39.** The size of a bounded range is the distance between its ends, and 0 for an empty one. -/
theorem C39_size {r : Range XReal} (h : Built r) :
    (r.isEmpty = true → r.size = fin 0) ∧
    (∀ a b : ℝ, (∀ t : ℝ, Holds r (fin t) ↔ a ≤ t ∧ t ≤ b) → a ≤ b → (∀ x, Holds r x → ∃ t, x = fin t) → r.size = fin (b - a)) := by
  constructor
  · intro he; unfold Range.size; rw [if_pos he]; simp
  · intro a b hab hle hfin
    have ha := holds_iff.mp ((hab a).mpr ⟨le_refl _, hle⟩)
    have hb := holds_iff.mp ((hab b).mpr ⟨hle, le_refl _⟩)
    have hlohi : Scalar.le r.lo r.hi = true := le_trans' ha.2.1 ha.2.2
    obtain ⟨lo, hlo⟩ := hfin r.lo (holds_iff'.mpr ⟨le_refl' (le_iff'.mp hlohi).2.1, hlohi⟩)
    obtain ⟨hi, hhi⟩ := hfin r.hi (holds_iff'.mpr ⟨hlohi, le_refl' (le_iff'.mp hlohi).2.2⟩)
    have hr : r = ⟨fin lo, fin hi⟩ := by cases r; simp_all
    subst hr
    simp only [fin_le, decide_eq_true_eq] at ha hb hlohi
    have q1 := (hab lo).mp (holds_fin.mpr ⟨le_refl _, hlohi⟩)
    have q2 := (hab hi).mp (holds_fin.mpr ⟨hlohi, le_refl _⟩)
    have e1 : lo = a := le_antisymm ha.2.1 q1.1
    have e2 : hi = b := le_antisymm q2.2 hb.2.2
    unfold Range.size
    rw [if_neg (by rw [ha.1]; simp), e1, e2]; simp

/-! ### C40 -/

/-- The cut-off constant `EPSILON` of the crate. -/
noncomputable def eps : ℝ := 1 / 1000000
theorem eps_pos : 0 < eps := by unfold eps; norm_num

/-- **C40**, quadratic case. For a leading coefficient not below the cut-off, the range is exactly the set where the quadratic
is not positive, unless the discriminant is within the cut-off of zero; then the range is the single vertex, where the quadratic is within
`EPSILON/(4a)` of zero, and every solution of the inequality is within `sqrt EPSILON/(2a)` of it. -/
theorem C40_quadratic_partial (a b c : ℝ) (ha : eps ≤ a) :
    ((b * b - 4 * a * c < -eps ∨ eps ≤ b * b - 4 * a * c) →
      ∀ t : ℝ, Holds (Range.quadraticZeros (fin a) (fin b) (fin c)) (fin t) ↔ a * t ^ 2 + b * t + c ≤ 0) ∧
    (¬ (b * b - 4 * a * c < -eps ∨ eps ≤ b * b - 4 * a * c) →
      ∃ t₀ : ℝ, (∀ t : ℝ, Holds (Range.quadraticZeros (fin a) (fin b) (fin c)) (fin t) ↔ t = t₀) ∧
        |a * t₀ ^ 2 + b * t₀ + c| ≤ eps / (4 * a) ∧
        ∀ t : ℝ, a * t ^ 2 + b * t + c ≤ 0 → (2 * a * (t - t₀)) ^ 2 ≤ eps) := by
  have hpos : 0 < a := lt_of_lt_of_le eps_pos ha
  have h2a : (2 * a) ≠ 0 := by positivity
  have habs : ¬ (|a| < eps) := by rw [abs_of_pos hpos]; exact not_lt.mpr ha
  have ident : ∀ t : ℝ, 4 * a * (a * t ^ 2 + b * t + c) = (2 * a * t + b) ^ 2 - (b * b - 4 * a * c) := fun t => by ring
  have sign : ∀ t : ℝ, a * t ^ 2 + b * t + c ≤ 0 ↔ (2 * a * t + b) ^ 2 ≤ b * b - 4 * a * c := by
    intro t
    have := ident t
    constructor
    · intro h; nlinarith
    · intro h
      by_contra hn
      push Not at hn
      have : 0 < 4 * a * (a * t ^ 2 + b * t + c) := by positivity
      linarith
  have e4 : (lit 4 1 : XReal) = fin 4 := by simp
  have unfolded : Range.quadraticZeros (fin a) (fin b) (fin c) =
      (if b * b - 4 * a * c < -eps then Range.empty
       else if b * b - 4 * a * c < eps then Range.single (fin (-b / (2 * a)))
       else Range.range (fin ((-b + Real.sqrt (b * b - 4 * a * c)) / (2 * a))) (fin ((-b - Real.sqrt (b * b - 4 * a * c)) / (2 * a)))) := by
    unfold Range.quadraticZeros
    unfold eps at habs ⊢
    simp only [fin_abs, EPSILON_eq, fin_lt, habs, decide_false, Bool.false_eq_true, if_false, fin_mul, e4, fin_sub, fin_neg, two_eq, decide_eq_true_eq]
    split
    · rfl
    · split
      · simp only [lit_eq, fin_mul]
        rw [fin_div hpos.ne']
        congr 2
        push_cast
        field_simp
      · rename_i h1 h2
        rw [fin_sqrt (by unfold eps at *; linarith)]
        simp only [fin_add, fin_sub]
        rw [fin_div h2a, fin_div h2a]
  constructor
  · intro hd t
    rw [sign t, unfolded]
    rcases hd with hd | hd
    · rw [if_pos hd]
      have h1 := C39_empty (fin t)
      constructor
      · intro h; exact absurd h h1
      · intro h; have := sq_nonneg (2 * a * t + b); have := eps_pos; linarith
    · have hd0 : 0 ≤ b * b - 4 * a * c := le_trans eps_pos.le hd
      have := eps_pos
      rw [if_neg (by linarith), if_neg (by linarith), holds_range]
      have hs := Real.sqrt_nonneg (b * b - 4 * a * c)
      have hle : (2 * a * t + b) ^ 2 ≤ b * b - 4 * a * c ↔ |2 * a * t + b| ≤ Real.sqrt (b * b - 4 * a * c) :=
        ⟨fun h => Real.abs_le_sqrt h, fun h => by
          rw [← sq_abs, ← Real.sq_sqrt hd0]; exact pow_le_pow_left₀ (abs_nonneg _) h 2⟩
      rw [hle, abs_le]
      have d1 : ∀ x : ℝ, x / (2 * a) ≤ t ↔ x ≤ 2 * a * t := fun x => by rw [div_le_iff₀ (by positivity), mul_comm]
      have d2 : ∀ x : ℝ, t ≤ x / (2 * a) ↔ 2 * a * t ≤ x := fun x => by rw [le_div_iff₀ (by positivity), mul_comm]
      rw [d1, d1, d2, d2]
      constructor
      · rintro (⟨h1, h2⟩ | ⟨h1, h2⟩) <;> constructor <;> linarith
      · rintro ⟨h1, h2⟩; right; constructor <;> linarith
  · intro hd
    push Not at hd
    refine ⟨-b / (2 * a), ?_, ?_, ?_⟩
    · intro t
      rw [unfolded, if_neg (by linarith [hd.1]), if_pos hd.2, holds_single]
    · have h1 := ident (-b / (2 * a))
      have h2 : 2 * a * (-b / (2 * a)) + b = 0 := by field_simp; ring
      rw [h2] at h1
      have h4 : (0 : ℝ) < 4 * a := by positivity
      rw [le_div_iff₀ h4]
      conv_lhs => rw [← abs_of_pos h4, ← abs_mul]
      have : (a * (-b / (2 * a)) ^ 2 + b * (-b / (2 * a)) + c) * (4 * a) = -(b * b - 4 * a * c) := by linarith
      rw [this, abs_neg, abs_le]
      exact ⟨hd.1, hd.2.le⟩
    · intro t ht
      rw [sign t] at ht
      have : 2 * a * (t - -b / (2 * a)) = 2 * a * t + b := by field_simp; ring
      rw [this]
      linarith [hd.2]

/-- **C40**, other cases. With a leading coefficient within the cut-off of zero the range is everything or nothing if the linear
coefficient is also within it, according to the constant being below the cut-off, and is otherwise the single zero of the linear part. -/
theorem C40_degenerate (a b c : ℝ) (ha : |a| < eps) :
    (|b| < eps → ∀ t : ℝ, Holds (Range.quadraticZeros (fin a) (fin b) (fin c)) (fin t) ↔ c < eps) ∧
    (eps ≤ |b| → ∀ t : ℝ, Holds (Range.quadraticZeros (fin a) (fin b) (fin c)) (fin t) ↔ b * t + c = 0) := by
  unfold eps at *
  constructor
  · intro hb t
    unfold Range.quadraticZeros
    simp only [fin_abs, EPSILON_eq, fin_lt, ha, hb, decide_true, if_true, decide_eq_true_eq]
    split
    · rename_i h; simp only [h, iff_true]; exact (C39_everything _).mpr rfl
    · rename_i h; simp only [h, iff_false]; exact C39_empty _
  · intro hb t
    have hb0 : b ≠ 0 := by rintro rfl; rw [abs_zero] at hb; norm_num at hb
    unfold Range.quadraticZeros
    simp only [fin_abs, EPSILON_eq, fin_lt, ha, not_lt.mpr hb, decide_true, decide_false, if_true, Bool.false_eq_true, if_false, fin_neg]
    rw [fin_div hb0, holds_single]
    constructor
    · rintro rfl; field_simp; ring
    · intro h; rw [eq_div_iff hb0]; linarith

/-- **C40 fails** in the linear case: for `t - 1 <= 0` only `t = 1` is returned. -/
theorem C40_false : ∃ a b c t : ℝ, 0 ≤ a ∧ a * t ^ 2 + b * t + c ≤ -1 ∧
    ¬ Holds (Range.quadraticZeros (fin a) (fin b) (fin c)) (fin t) := by
  refine ⟨0, 1, -1, 0, le_refl _, by norm_num, ?_⟩
  rw [(C40_degenerate 0 1 (-1) (by rw [abs_zero]; exact eps_pos)).2 (by unfold eps; rw [abs_one]; norm_num)]
  norm_num

/-- **C40 fails** also for a positive leading coefficient below the cut-off. -/
theorem C40_false_positive : ∃ a b c t : ℝ, 0 < a ∧ a * t ^ 2 + b * t + c ≤ -1 ∧
    ¬ Holds (Range.quadraticZeros (fin a) (fin b) (fin c)) (fin t) := by
  refine ⟨1 / 4000000, 1 / 1000, -3, 0, by norm_num, by norm_num, ?_⟩
  rw [(C40_degenerate (1 / 4000000) (1 / 1000) (-3) (by unfold eps; rw [abs_of_pos (by norm_num)]; norm_num)).2
    (by unfold eps; rw [abs_of_pos (by norm_num)]; norm_num)]
  norm_num

example : eps ≤ 1 ∧ eps ≤ (-3 : ℝ) * (-3) - 4 * 1 * 2 := by unfold eps; norm_num

/-! ### C41 -/

theorem hull_up {α : Type} [Scalar α] [LawfulOrder α] {w x y z t : α} (h1 : Scalar.le w x = true) (h2 : Scalar.le y z = true)
    (h3 : Scalar.le y w = true) (h4 : Scalar.le z x = true) :
    Holds ((Range.range w x).contain (Range.range y z)) t ↔ Scalar.le y t = true ∧ Scalar.le t x = true := by
  constructor
  · intro h
    have hyx := le_trans' h3 h1
    have back : (Scalar.le y t = true ∧ Scalar.le t x = true) ∨ (Scalar.le x t = true ∧ Scalar.le t y = true) →
        Scalar.le y t = true ∧ Scalar.le t x = true := by
      rintro (q | q)
      · exact q
      · exact ⟨le_trans' hyx q.1, le_trans' q.2 hyx⟩
    apply back
    rw [← C39_range]
    refine C39_contain_least (.range _ _) (.range _ _) (fun u hu => ?_) t h
    rw [C39_range, C39_range] at hu
    rw [C39_range]
    left
    rcases hu with (q | q) | (q | q)
    · exact ⟨le_trans' h3 q.1, q.2⟩
    · exact ⟨le_trans' hyx q.1, le_trans' q.2 h1⟩
    · exact ⟨q.1, le_trans' q.2 h4⟩
    · exact ⟨le_trans' h2 q.1, le_trans' q.2 hyx⟩
  · rintro ⟨h5, h6⟩
    have e1 : (Range.range w x).isEmpty = false := by
      rw [Bool.eq_false_iff]
      exact fun q => (C39_isEmpty (.range w x)).mp q w ((C39_range _ _ _).mpr (Or.inl ⟨le_refl' (le_iff'.mp h1).2.1, h1⟩))
    have e2 : (Range.range y z).isEmpty = false := by
      rw [Bool.eq_false_iff]
      exact fun q => (C39_isEmpty (.range y z)).mp q y ((C39_range _ _ _).mpr (Or.inl ⟨le_refl' (le_iff'.mp h2).2.1, h2⟩))
    have a1 := holds_iff'.mp (C39_contain_upper (Range.range w x) (Range.range y z) y (Or.inr ((C39_range _ _ _).mpr (Or.inl ⟨le_refl' (le_iff'.mp h2).2.1, h2⟩))))
    have a2 := holds_iff'.mp (C39_contain_upper (Range.range w x) (Range.range y z) x (Or.inl ((C39_range _ _ _).mpr (Or.inl ⟨h1, le_refl' (le_iff'.mp h1).2.2⟩))))
    exact holds_iff'.mpr ⟨le_trans' a1.1 h5, le_trans' h6 a2.2⟩

theorem range_comm {α : Type} [Scalar α] [LawfulOrder α] {a b x : α} : Holds (Range.range a b) x ↔ Holds (Range.range b a) x := by
  rw [C39_range, C39_range, or_comm]

theorem contain_congr {α : Type} [Scalar α] [LawfulOrder α] {r s r' s' : Range α} (hr : Built r) (hs : Built s)
    (h1 : ∀ x, Holds r x → Holds r' x) (h2 : ∀ x, Holds s x → Holds s' x) {x : α} (h : Holds (r.contain s) x) : Holds (r'.contain s') x :=
  C39_contain_least hr hs (fun u hu => C39_contain_upper _ _ u (hu.imp (h1 u) (h2 u))) x h

theorem hull_down {α : Type} [Scalar α] [LawfulOrder α] {w x y z t : α} (h1 : Scalar.le x w = true) (h2 : Scalar.le z y = true)
    (h3 : Scalar.le w y = true) (h4 : Scalar.le x z = true) :
    Holds ((Range.range w x).contain (Range.range y z)) t ↔ Scalar.le x t = true ∧ Scalar.le t y = true := by
  rw [← hull_up (w := z) (x := y) (y := x) (z := w) h2 h1 h4 h3]
  constructor
  · intro h
    refine C39_contain_least (.range _ _) (.range _ _) (fun u hu => C39_contain_upper _ _ u ?_) t h
    rw [range_comm (a := z), range_comm (a := x), or_comm]; exact hu
  · intro h
    refine C39_contain_least (.range _ _) (.range _ _) (fun u hu => C39_contain_upper _ _ u ?_) t h
    rw [range_comm (a := w), range_comm (a := y), or_comm]; exact hu

theorem div_le_div_up {v : ℝ} (hv : 0 < v) (x y : XReal) : Scalar.le (x / fin v) (y / fin v) = Scalar.le x y := by
  cases x <;> cases y <;> simp [fin_div hv.ne', posInf_div_fin, negInf_div_fin, hv.le, div_le_div_iff_of_pos_right hv]
theorem div_le_div_down {v : ℝ} (hv : v < 0) (x y : XReal) : Scalar.le (x / fin v) (y / fin v) = Scalar.le y x := by
  cases x <;> cases y <;> simp [fin_div hv.ne, posInf_div_fin, negInf_div_fin, not_le.mpr hv, div_le_div_right_of_neg hv]
theorem fin_as_div {v : ℝ} (hv : v ≠ 0) (t : ℝ) : fin t = fin (v * t) / fin v := by
  rw [fin_div hv, mul_div_cancel_left₀ _ hv]

/-- When two ranges share a point after a shift by `w`. -/
theorem shift_iff {s1 s2 o1 o2 : XReal} (hs : Scalar.le s1 s2 = true) (ho : Scalar.le o1 o2 = true)
    (hb : (∃ a b, s1 = fin a ∧ s2 = fin b) ∨ (∃ a b, o1 = fin a ∧ o2 = fin b)) (w : ℝ) :
    (Scalar.le (s1 - o2) (fin w) = true ∧ Scalar.le (fin w) (s2 - o1) = true) ↔
      ∃ x y : ℝ, (Scalar.le s1 (fin x) = true ∧ Scalar.le (fin x) s2 = true) ∧ (Scalar.le o1 (fin y) = true ∧ Scalar.le (fin y) o2 = true) ∧ x = y + w := by
  rcases hb with ⟨a, b, rfl, rfl⟩ | ⟨a, b, rfl, rfl⟩
  · simp only [fin_le, decide_eq_true_eq] at hs
    cases o1 <;> cases o2 <;> simp at ho ⊢
    · rename_i d
      constructor
      · intro h
        refine ⟨min b (d + w) - w, ⟨?_, ?_⟩, ?_⟩
        · have : a ≤ min b (d + w) := le_min hs (by linarith)
          linarith
        · linarith [min_le_left b (d + w)]
        · linarith [min_le_right b (d + w)]
      · rintro ⟨y, h1, h2⟩; linarith
    · exact ⟨a - w, by linarith, by linarith⟩
    · rename_i c d
      constructor
      · rintro ⟨h1, h2⟩
        refine ⟨max a (c + w) - w, ⟨?_, ?_⟩, ?_, ?_⟩
        · linarith [le_max_left a (c + w)]
        · have : max a (c + w) ≤ b := max_le hs (by linarith)
          linarith
        · linarith [le_max_right a (c + w)]
        · have : max a (c + w) ≤ d + w := max_le (by linarith) (by linarith)
          linarith
      · rintro ⟨y, h1, h2, h3⟩; constructor <;> linarith
    · rename_i c
      constructor
      · intro h
        refine ⟨max a (c + w) - w, ⟨?_, ?_⟩, ?_⟩
        · linarith [le_max_left a (c + w)]
        · have : max a (c + w) ≤ b := max_le hs (by linarith)
          linarith
        · linarith [le_max_right a (c + w)]
      · rintro ⟨y, h1, h2⟩; linarith
  · simp only [fin_le, decide_eq_true_eq] at ho
    cases s1 <;> cases s2 <;> simp at hs ⊢
    · rename_i d
      constructor
      · intro h
        refine ⟨min b (d - w), ?_, ?_, ?_⟩
        · linarith [min_le_right b (d - w)]
        · exact le_min ho (by linarith)
        · exact min_le_left _ _
      · rintro ⟨y, h1, h2, h3⟩; linarith
    · exact ⟨a, le_refl _, ho⟩
    · rename_i c d
      constructor
      · rintro ⟨h1, h2⟩
        refine ⟨max a (c - w), ⟨?_, ?_⟩, ?_, ?_⟩
        · linarith [le_max_right a (c - w)]
        · have : max a (c - w) ≤ d - w := max_le (by linarith) (by linarith)
          linarith
        · exact le_max_left _ _
        · exact max_le ho (by linarith)
      · rintro ⟨y, h1, h2, h3⟩; constructor <;> linarith
    · rename_i c
      constructor
      · intro h
        refine ⟨max a (c - w), ?_, ?_, ?_⟩
        · linarith [le_max_right a (c - w)]
        · exact le_max_left _ _
        · exact max_le ho (by linarith)
      · rintro ⟨y, h1, h2, h3⟩; linarith

theorem sub_le_right {a b c : XReal} (h : Scalar.le a b = true) (hb : (∃ x y, a = fin x ∧ b = fin y) ∨ ∃ x, c = fin x) :
    Scalar.isNaN c = false → Scalar.le (a - c) (b - c) = true := by
  rcases hb with ⟨x, y, rfl, rfl⟩ | ⟨x, rfl⟩
  · cases c <;> simp at h ⊢; exact h
  · cases a <;> cases b <;> simp at h ⊢; exact h
theorem sub_le_left {a b c : XReal} (h : Scalar.le a b = true) (hb : (∃ x y, a = fin x ∧ b = fin y) ∨ ∃ x, c = fin x) :
    Scalar.isNaN c = false → Scalar.le (c - b) (c - a) = true := by
  rcases hb with ⟨x, y, rfl, rfl⟩ | ⟨x, rfl⟩
  · cases c <;> simp at h ⊢; linarith
  · cases a <;> cases b <;> simp at h ⊢; linarith

/-- Both ends are real numbers. -/
def Bounded (r : Range XReal) : Prop := ∃ a b : ℝ, r.min = fin a ∧ r.max = fin b

/-- **C41**, for ranges of which one is bounded: the overlap times are exactly the times at which the other range, shifted by the
movement times `t`, has a number in common with the first. -/
theorem C41_overlap_partial {s o : Range XReal} (hs : Built s) (ho : Built o) (hsn : s.isEmpty = false) (hon : o.isEmpty = false)
    (hb : Bounded s ∨ Bounded o) {v : ℝ} (hv : eps ≤ |v|) (t : ℝ) :
    Holds (s.linearOverlap o (fin v)) (fin t) ↔ ∃ x y : ℝ, Holds s (fin x) ∧ Holds o (fin y) ∧ x = y + v * t := by
  have hv0 : v ≠ 0 := by rintro rfl; rw [abs_zero] at hv; exact absurd eps_pos (not_lt.mpr hv)
  have hs' := hs.sound.resolve_left (by rw [hsn]; simp)
  have ho' := ho.sound.resolve_left (by rw [hon]; simp)
  unfold Range.linearOverlap
  rw [if_neg (by unfold eps at hv; simpa using hv)]
  unfold Bounded at hb
  simp only [holds_iff', Range.min, Range.max, hsn, hon, Bool.false_eq_true, if_false] at hb ⊢
  obtain ⟨s1, s2⟩ := s
  obtain ⟨o1, o2⟩ := o
  simp only at *
  rw [← holds_iff' (r := Range.contain _ _)]
  have ns1 := (le_iff'.mp hs').2.1
  have ns2 := (le_iff'.mp hs').2.2
  have no1 := (le_iff'.mp ho').2.1
  have no2 := (le_iff'.mp ho').2.2
  have b1 : (∃ x y, s1 = fin x ∧ s2 = fin y) ∨ ∃ x, o1 = fin x := by
    rcases hb with h | ⟨a, b, h, _⟩; exact Or.inl h; exact Or.inr ⟨a, h⟩
  have b2 : (∃ x y, s1 = fin x ∧ s2 = fin y) ∨ ∃ x, o2 = fin x := by
    rcases hb with h | ⟨a, b, _, h⟩; exact Or.inl h; exact Or.inr ⟨b, h⟩
  have b3 : (∃ x y, o1 = fin x ∧ o2 = fin y) ∨ ∃ x, s1 = fin x := by
    rcases hb with ⟨a, b, h, _⟩ | h; exact Or.inr ⟨a, h⟩; exact Or.inl h
  have b4 : (∃ x y, o1 = fin x ∧ o2 = fin y) ∨ ∃ x, s2 = fin x := by
    rcases hb with ⟨a, b, _, h⟩ | h; exact Or.inr ⟨b, h⟩; exact Or.inl h
  have q1 := sub_le_right hs' b1 no1
  have q2 := sub_le_right hs' b2 no2
  have q3 := sub_le_left ho' b3 ns1
  have q4 := sub_le_left ho' b4 ns2
  rw [fin_as_div hv0 t]
  rcases lt_or_gt_of_ne hv0 with hlt | hgt
  · rw [hull_down (by rwa [div_le_div_down hlt]) (by rwa [div_le_div_down hlt]) (by rwa [div_le_div_down hlt]) (by rwa [div_le_div_down hlt]),
      div_le_div_down hlt, div_le_div_down hlt, and_comm]
    exact shift_iff hs' ho' hb _
  · rw [hull_up (by rwa [div_le_div_up hgt]) (by rwa [div_le_div_up hgt]) (by rwa [div_le_div_up hgt]) (by rwa [div_le_div_up hgt]),
      div_le_div_up hgt, div_le_div_up hgt]
    exact shift_iff hs' ho' hb _

/-- **C41 fails** for two ranges unbounded on the same side: the numbers up to 0 and the numbers up to 5 overlap at time 0 (and always), but
`linear_overlap` says not. (The crate only calls it with one bounded range.) -/
theorem C41_false : ∃ (s o : Range XReal) (v t : ℝ), Built s ∧ Built o ∧ s.isEmpty = false ∧ o.isEmpty = false ∧ eps ≤ |v| ∧
    (∃ x y : ℝ, Holds s (fin x) ∧ Holds o (fin y) ∧ x = y + v * t) ∧ ¬ Holds (s.linearOverlap o (fin v)) (fin t) := by
  refine ⟨Range.range negInf (fin 0), Range.range negInf (fin 5), 1, 0, .range _ _, .range _ _, ?_, ?_, ?_, ⟨-1, -1, ?_, ?_, ?_⟩, ?_⟩
  · simp [Range.range, Range.isEmpty]
  · simp [Range.range, Range.isEmpty]
  · unfold eps; norm_num
  · rw [C39_range]; simp
  · rw [C39_range]; simp; norm_num
  · norm_num
  · rw [holds_iff']
    simp [Range.linearOverlap, Range.contain, Range.range, Range.isEmpty, Range.min, Range.max, negInf_div_fin, posInf_div_fin, fin_div']
    norm_num

/-- Two ranges for `C41_overlap_partial`: a bounded one and a half-unbounded one. -/
example : Built (Range.range (fin 1) (fin 2)) ∧ Built (Range.range negInf (fin 0)) ∧ (Range.range (fin 1) (fin 2)).isEmpty = false ∧
    (Range.range negInf (fin 0)).isEmpty = false ∧ Bounded (Range.range (fin 1) (fin 2)) := by
  refine ⟨.range _ _, .range _ _, ?_, ?_, 1, 2, ?_, ?_⟩ <;> simp [Range.range, Range.isEmpty, Range.min, Range.max]

end Fluffy.Props
