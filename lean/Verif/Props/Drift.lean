import Verif.Props.Motion
import Verif.Props.Rest

/-! C81: free flight in binary32. -/

set_option linter.unusedSectionVars false
set_option linter.unusedSimpArgs false

namespace Fluffy.F32

/-- The error of rounding a number of at most `b` is at most `b / 2 ^ 24`, unless `b` is below the normal numbers. -/
theorem rnd_error_rel {x b : ℚ} (h : |x| ≤ b) (hb : 2 ^ (-126 : ℤ) ≤ b) : |rnd x - x| ≤ b * 2 ^ (-24 : ℤ) := by
  by_cases h0 : x = 0
  · rw [h0, rnd_zero]; rw [sub_zero, abs_zero]; exact mul_nonneg (le_trans (by positivity) hb) (by positivity)
  refine (rnd_error x).trans ?_
  have hx : (0 : ℚ) < |x| := abs_pos.mpr h0
  unfold ulpExp
  rcases le_total (Int.log 2 |x| - 23) (-149) with h1 | h1
  · rw [max_eq_left h1]
    calc (2 : ℚ) ^ (-149 - 1 : ℤ) = 2 ^ (-126 : ℤ) * 2 ^ (-24 : ℤ) := by rw [← zpow_add₀ (by norm_num)]; rfl
      _ ≤ b * 2 ^ (-24 : ℤ) := by gcongr
  · rw [max_eq_right h1]
    have := Int.zpow_log_le_self (b := 2) (by norm_num) hx
    calc (2 : ℚ) ^ (Int.log 2 |x| - 23 - 1) = 2 ^ (Int.log 2 |x|) * 2 ^ (-24 : ℤ) := by
          rw [← zpow_add₀ (by norm_num)]; congr 1; ring
      _ ≤ |x| * 2 ^ (-24 : ℤ) := by gcongr; exact_mod_cast this
      _ ≤ b * 2 ^ (-24 : ℤ) := by gcongr

end Fluffy.F32

namespace Fluffy.Props
open Step F32
variable {γ : Type}

/-- The three axes. -/
inductive Axis where
  | x | y | z

/-- The component of a vector along an axis. -/
def Axis.of {α : Type} : Axis → Vec3 α → α
  | .x, v => v.x
  | .y, v => v.y
  | .z, v => v.z

theorem Axis.add {α : Type} [Scalar α] (a : Axis) (u v : Vec3 α) : a.of (u + v) = a.of u + a.of v := by cases a <;> rfl
theorem Axis.scale {α : Type} [Scalar α] (a : Axis) (u : Vec3 α) (k : α) : a.of (u.scale k) = a.of u * k := by cases a <;> rfl
theorem Axis.zeros {α : Type} [Scalar α] (a : Axis) : a.of (Vec3.zeros : Vec3 α) = zero := by cases a <;> rfl

variable [Libm] [ForceGenerator F32 γ]

/-- Steps one after the other, of positive lengths with the sum `t`, in which no collision is recorded, and before each of which the entity is awake. -/
inductive Flight (h : Handle) : System F32 γ → Nat → ℚ → System F32 γ → Prop where
  | nil {s : System F32 γ} : Flight h s 0 0 s
  | cons {s m s' : System F32 γ} {ord : IterOrder} {dt : F32} {d t : ℚ} {n : Nat} : Proper dt → Val dt d → 0 < d → s.step ord dt = .ok m →
      m.collisionRecords = [] → (∀ p, s.getEntity h = some p → p.asleep = false) → Flight h m n t s' → Flight h s (n + 1) (d + t) s'

theorem flight_nonneg {h : Handle} {s s' : System F32 γ} {n : Nat} {t : ℚ} (hf : Flight h s n t s') : 0 ≤ t := by
  induction hf with
  | nil => exact le_refl 0
  | cons _ _ hd _ _ _ _ ih => linarith

/-- One step of free flight, in rounded numbers. -/
theorem flight_step {s s' : System F32 γ} {ord : IterOrder} {dt : F32} {d : ℚ} (hp : Proper dt) (hd : Val dt d) (hh : s.step ord dt = .ok s')
    (hr : s'.collisionRecords = []) (hg : s.generators.handles = []) (hn : s.iterationMax ≠ 0) {h : Handle} {p : Entity F32} (he : s.getEntity h = some p)
    (ha : p.asleep = false) :
    ∃ p', s'.getEntity h = some p' ∧ ∀ (a : Axis) (v x : ℚ), Val (a.of p.velocity) v → Val (a.of p.position) x → Val (a.of p'.velocity) v ∧
      (|rnd (v * d)| < 2 ^ 128 → |rnd (x + rnd (v * d))| < 2 ^ 128 → Val (a.of p'.position) (rnd (x + rnd (v * d)))) := by
  obtain ⟨w, g, g', fs, p', -, -, -, -, has, hp', hv, -, hx, -⟩ := C21_free_flight hp hh hr hn he ha
  have hfs : fs = [] := by
    rw [hg, ite_self] at has
    cases has; rfl
  subst hfs
  refine ⟨p', hp', fun a v x hva hxa => ?_⟩
  have hz : Val (a.of ((accelerationOf p []).scale dt)) 0 := by
    rw [a.scale]
    show Val (a.of Vec3.zeros * dt) 0
    rw [a.zeros]
    have := val_zero.mul hd (by rw [zero_mul]; exact small_zero)
    rwa [zero_mul, rnd_zero] at this
  have hv' : Val (a.of p'.velocity) v := by
    rw [hv, a.add]
    have := hva.add hz (by rw [add_zero, hva.rnd]; exact hva.small)
    rwa [add_zero, hva.rnd] at this
  refine ⟨hv', fun h1 h2 => ?_⟩
  rw [hx, a.add, a.scale, a.scale]
  have hl := hv'.mul hd h1
  have hl1 : Val (a.of p'.velocity * dt * one) (rnd (v * d)) := by
    have := hl.mul val_one (by rw [mul_one, hl.rnd]; exact h1)
    rwa [mul_one, hl.rnd] at this
  exact hxa.add hl1 h2

/-- The error after some more steps. -/
theorem flight_error {h : Handle} {s s' : System F32 γ} {n : Nat} {t : ℚ} (hf : Flight h s n t s') (hg : s.generators.handles = []) (hn : s.iterationMax ≠ 0)
    {p : Entity F32} (he : s.getEntity h = some p) {a : Axis} {v x : ℚ} (hv : Val (a.of p.velocity) v) (hx : Val (a.of p.position) x)
    {o u R E : ℚ} (hu : 0 ≤ u) (hE : |x - (o + v * u)| ≤ E) (hR : |o| + |v| * (u + t) ≤ R) (hR0 : 2 ^ (-126 : ℤ) ≤ R)
    (hR1 : (R + E) * (1 + 2 ^ (-22 : ℤ)) ^ n ≤ 2 ^ 126) :
    ∃ p', s'.getEntity h = some p' ∧ Val (a.of p'.velocity) v ∧ ∃ x', Val (a.of p'.position) x' ∧
      |x' - (o + v * (u + t))| ≤ (R + E) * (1 + 2 ^ (-22 : ℤ)) ^ n - R := by
  induction hf generalizing p x u E with
  | nil => exact ⟨p, he, hv, x, hx, by rw [add_zero, pow_zero]; linarith⟩
  | @cons s m s' ord dt d t n hp hd hd0 hh hr ha hfl ih =>
    obtain ⟨p', hp', hax⟩ := flight_step hp hd hh hr hg hn he (ha p he)
    obtain ⟨hv', hx'⟩ := hax a v x hv hx
    have ht := flight_nonneg hfl
    have hE0 : 0 ≤ E := (abs_nonneg _).trans hE
    have hRp : 0 < R := lt_of_lt_of_le (by positivity) hR0
    have hvd : |v * d| ≤ R := by
      rw [abs_mul, abs_of_pos hd0]
      have : |v| * d ≤ |v| * (u + (d + t)) := by
        apply mul_le_mul_of_nonneg_left _ (abs_nonneg _); linarith
      linarith [abs_nonneg o]
    have hl := rnd_error_rel hvd hR0
    have hpow : (1 : ℚ) ≤ (1 + 2 ^ (-22 : ℤ)) ^ (n + 1) := one_le_pow₀ (by norm_num [zpow_neg])
    have hcap : R + E ≤ 2 ^ 126 := le_trans (le_mul_of_one_le_right (by linarith) hpow) hR1
    have hgoal : |o + v * (u + d)| ≤ R := by
      have h1 : |v * (u + d)| ≤ |v| * (u + (d + t)) := by
        rw [abs_mul, abs_of_nonneg (show 0 ≤ u + d by linarith)]
        apply mul_le_mul_of_nonneg_left _ (abs_nonneg _); linarith
      exact (abs_add_le _ _).trans (by linarith)
    have e24 : (2 : ℚ) ^ (-24 : ℤ) = 1 / 16777216 := by norm_num [zpow_neg]
    have e22 : (2 : ℚ) ^ (-22 : ℤ) = 1 / 4194304 := by norm_num [zpow_neg]
    rw [e24] at hl
    -- before the second rounding
    have hmid : |x + rnd (v * d) - (o + v * (u + d))| ≤ E + R * (1 / 16777216) := by
      have : x + rnd (v * d) - (o + v * (u + d)) = (x - (o + v * u)) + (rnd (v * d) - v * d) := by ring
      rw [this]; exact (abs_add_le _ _).trans (by linarith)
    have hsum : |x + rnd (v * d)| ≤ R + E + R * (1 / 16777216) := by
      have : x + rnd (v * d) = (o + v * (u + d)) + (x + rnd (v * d) - (o + v * (u + d))) := by ring
      rw [this]; exact (abs_add_le _ _).trans (by linarith)
    have hB : (2 : ℚ) ^ (-126 : ℤ) ≤ R + E + R * (1 / 16777216) := le_trans hR0 (by linarith)
    have hr2 := rnd_error_rel hsum hB
    rw [e24] at hr2
    have c1 : |rnd (v * d)| < 2 ^ 128 := by
      have : rnd (v * d) = v * d + (rnd (v * d) - v * d) := by ring
      rw [this]
      refine lt_of_le_of_lt ((abs_add_le _ _).trans (add_le_add hvd hl)) ?_
      have : (2 : ℚ) ^ 126 * 2 < 2 ^ 128 := by norm_num
      linarith
    have c2 : |rnd (x + rnd (v * d))| < 2 ^ 128 := by
      have : rnd (x + rnd (v * d)) = (x + rnd (v * d)) + (rnd (x + rnd (v * d)) - (x + rnd (v * d))) := by ring
      rw [this]
      refine lt_of_le_of_lt ((abs_add_le _ _).trans (add_le_add hsum hr2)) ?_
      have : (2 : ℚ) ^ 126 * 4 = 2 ^ 128 := by norm_num
      nlinarith
    have hx' := hx' c1 c2
    -- the error after this step
    have hE' : |rnd (x + rnd (v * d)) - (o + v * (u + d))| ≤ (R + E) * (1 + 2 ^ (-22 : ℤ)) - R := by
      have : rnd (x + rnd (v * d)) - (o + v * (u + d)) =
          (rnd (x + rnd (v * d)) - (x + rnd (v * d))) + (x + rnd (v * d) - (o + v * (u + d))) := by ring
      rw [this, e22]
      refine (abs_add_le _ _).trans ?_
      linarith
    have hfr := step_frame hh
    obtain ⟨p'', hp'', hv'', x'', hx'', herr⟩ := ih (u := u + d) (E := (R + E) * (1 + 2 ^ (-22 : ℤ)) - R)
      (by rw [hfr.2.handles]; exact hg) (by rw [hfr.1.iterationMax]; exact hn) hp' hv' hx' (by linarith) hE'
      (by rw [show u + d + t = u + (d + t) by ring]; exact hR) (by
        rw [show R + ((R + E) * (1 + 2 ^ (-22 : ℤ)) - R) = (R + E) * (1 + 2 ^ (-22 : ℤ)) by ring, mul_assoc, ← pow_succ']; exact hR1)
    refine ⟨p'', hp'', hv'', x'', hx'', ?_⟩
    rw [show R + ((R + E) * (1 + 2 ^ (-22 : ℤ)) - R) = (R + E) * (1 + 2 ^ (-22 : ℤ)) by ring, mul_assoc, ← pow_succ',
      show u + d + t = u + (d + t) by ring] at herr
    exact herr

/-- **C81.** In binary32, after `n` steps of free flight that took the time `t` a body has the same velocity, and each coordinate is that of uniform motion up to
`R ((1 + 2^-22)^n - 1)`, where `R` bounds the starting coordinate plus the way, `|x| + |v| t`. -/
theorem C81_drift {h : Handle} {s s' : System F32 γ} {n : Nat} {t : ℚ} (hf : Flight h s n t s') (hg : s.generators.handles = []) (hn : s.iterationMax ≠ 0)
    {p : Entity F32} (he : s.getEntity h = some p) {a : Axis} {v x R : ℚ} (hv : Val (a.of p.velocity) v) (hx : Val (a.of p.position) x)
    (hR : |x| + |v| * t ≤ R) (hR0 : 2 ^ (-126 : ℤ) ≤ R) (hR1 : R * (1 + 2 ^ (-22 : ℤ)) ^ n ≤ 2 ^ 126) :
    ∃ p', s'.getEntity h = some p' ∧ Val (a.of p'.velocity) v ∧ ∃ x', Val (a.of p'.position) x' ∧
      |x' - (x + v * t)| ≤ R * ((1 + 2 ^ (-22 : ℤ)) ^ n - 1) := by
  obtain ⟨p', h1, h2, x', h3, h4⟩ := flight_error hf hg hn he hv hx (o := x) (u := 0) (R := R) (E := 0) (le_refl 0) (by simp) (by rwa [zero_add]) hR0
    (by rwa [add_zero])
  refine ⟨p', h1, h2, x', h3, ?_⟩
  rw [zero_add, add_zero] at h4
  rw [mul_sub, mul_one]; exact h4

end Fluffy.Props

namespace Fluffy.Props
open F32 Demo Rest Step
variable [Libm]

/-! ### Equal states, tested -/

def vecEq (a b : Vec3 F32) : Bool := same a.x b.x && (same a.y b.y && same a.z b.z)
def quatEq (a b : Quat F32) : Bool := same a.w b.w && (same a.i b.i && (same a.j b.j && same a.k b.k))
def matEq (a b : Mat3 F32) : Bool := vecEq a.r1 b.r1 && (vecEq a.r2 b.r2 && vecEq a.r3 b.r3)
def poseEq (a b : Orientation F32) : Bool := vecEq a.position b.position && (quatEq a.rotation b.rotation && vecEq a.internalOriginOffset b.internalOriginOffset)
def entityEq (a b : InternalEntity F32) : Bool := poseEq a.orientation b.orientation && (same a.ownMass b.ownMass && (same a.totalMass b.totalMass &&
  (matEq a.preppedMoment b.preppedMoment && (vecEq a.velocity b.velocity && (vecEq a.angularVelocity b.angularVelocity && (a.colliders == b.colliders &&
  (a.fallingAsleep == b.fallingAsleep && (same a.fallingAsleepTime b.fallingAsleepTime && (a.asleep == b.asleep && a.neighbors == b.neighbors)))))))))
def itemsEq : List (Option (Nat × InternalEntity F32)) → List (Option (Nat × InternalEntity F32)) → Bool
  | [], [] => true
  | none :: l, none :: l' => itemsEq l l'
  | some (n, x) :: l, some (m, y) :: l' => n == m && (entityEq x y && itemsEq l l')
  | _, _ => false
def arenaEq (a b : Arena (InternalEntity F32)) : Bool := itemsEq a.items b.items && (a.free == b.free && a.generation == b.generation)

theorem vecEq_iff {a b : Vec3 F32} : vecEq a b = true ↔ a = b := by
  obtain ⟨x, y, z⟩ := a; obtain ⟨x', y', z'⟩ := b
  simp [vecEq, same_iff]
theorem quatEq_iff {a b : Quat F32} : quatEq a b = true ↔ a = b := by
  obtain ⟨x, y, z, w⟩ := a; obtain ⟨x', y', z', w'⟩ := b
  simp [quatEq, same_iff]
theorem matEq_iff {a b : Mat3 F32} : matEq a b = true ↔ a = b := by
  obtain ⟨x, y, z⟩ := a; obtain ⟨x', y', z'⟩ := b
  simp [matEq, vecEq_iff]
theorem poseEq_iff {a b : Orientation F32} : poseEq a b = true ↔ a = b := by
  obtain ⟨x, y, z⟩ := a; obtain ⟨x', y', z'⟩ := b
  simp [poseEq, vecEq_iff, quatEq_iff]
theorem entityEq_iff {a b : InternalEntity F32} : entityEq a b = true ↔ a = b := by
  obtain ⟨o, om, tm, pm, v, w, cs, fa, ft, as, ns⟩ := a
  obtain ⟨o', om', tm', pm', v', w', cs', fa', ft', as', ns'⟩ := b
  simp [entityEq, poseEq_iff, same_iff, matEq_iff, vecEq_iff]
theorem itemsEq_iff : ∀ {l l' : List (Option (Nat × InternalEntity F32))}, itemsEq l l' = true → l = l'
  | [], [], _ => rfl
  | none :: l, none :: l', h => by rw [itemsEq_iff (l := l) (l' := l') h]
  | some (n, x) :: l, some (m, y) :: l', h => by
    simp only [itemsEq, Bool.and_eq_true, beq_iff_eq, entityEq_iff] at h
    rw [h.1, h.2.1, itemsEq_iff h.2.2]
  | [], _ :: _, h => by simp [itemsEq] at h
  | _ :: _, [], h => by cases ‹Option _› <;> simp [itemsEq] at h
  | none :: _, some _ :: _, h => by simp [itemsEq] at h
  | some _ :: _, none :: _, h => by simp [itemsEq] at h
theorem arenaEq_iff {a b : Arena (InternalEntity F32)} (h : arenaEq a b = true) : a = b := by
  obtain ⟨x, y, z⟩ := a; obtain ⟨x', y', z'⟩ := b
  simp only [arenaEq, Bool.and_eq_true, beq_iff_eq] at h
  rw [itemsEq_iff h.1, h.2.1, h.2.2]

theorem shape_eq {τ : Type} {a b : Arena τ} (h : Arena.SameShape a b) (hb : ∀ o ∈ b.items, o = none) : a = b := by
  obtain ⟨i1, i2, i3⟩ := h
  obtain ⟨x, y, z⟩ := a; obtain ⟨x', y', z'⟩ := b
  simp only at *
  have : x = x' := by
    clear i2 i3
    induction x' generalizing x with
    | nil => simpa using i1
    | cons o l ih =>
      cases x with
      | nil => simp at i1
      | cons o' l' =>
        simp only [List.map_cons, List.cons.injEq] at i1
        have ho : o = none := hb o (by simp)
        rw [ho, Option.map_none, Option.map_eq_none_iff] at i1
        rw [ih l' (fun q hq => hb q (List.mem_cons_of_mem _ hq)) i1.2, ho, i1.1]
  rw [this, i2, i3]

/-- A body of 1 kg, 1048576 m from the origin, at 1 m/s. -/
def farCalls : List (Op F32 (GravityGenerator F32)) := [.addEntity (thing (num 1) (vec 1048576 0 0) (vec 1 0 0))]

/-- **C81 (far from the origin).** The error can be all of the movement: at 1048576 m from the origin a body with a velocity of 1 m/s that is alone in the world does not
get anywhere in any number of steps of 1/60 s; no step changes anything. -/
theorem C81_stuck : ∃ (s : System F32 (GravityGenerator F32)) (p : Entity F32), Reachable s ∧ s.getEntity h0 = some p ∧ p.velocity = vec 1 0 0 ∧ p.asleep = false ∧
    ∀ n, stepAll (List.replicate n (.id, num 1 60)) s = .ok s := by
  have h : ((play (plain farCalls) (System.new : System F32 (GravityGenerator F32))).test fun r => (match r.1.getEntity h0 with
      | some a => vecEq a.velocity (vec 1 0 0) && !a.asleep
      | _ => false) && r.1.generators.items.all Option.isNone && (r.1.collisionRecords.isEmpty && r.1.debug.isEmpty) && (r.1.step .id (num 1 60)).test fun m =>
        arenaEq m.entities r.1.entities && (m.collisionRecords.isEmpty && m.debug.isEmpty)) = true := by kernel_refl
  obtain ⟨⟨s, outs⟩, hplay, h⟩ := Res.of_test h
  simp only [Bool.and_eq_true, beq_iff_eq, List.isEmpty_iff] at h
  obtain ⟨⟨⟨hE, hg⟩, hr, hd⟩, h⟩ := h
  obtain ⟨m, hm, h⟩ := Res.of_test h
  simp only [Bool.and_eq_true, beq_iff_eq, List.isEmpty_iff] at h
  obtain ⟨ha, hr', hd'⟩ := h
  split at hE
  case h_2 => cases hE
  case h_1 a ha' =>
  simp only [Bool.and_eq_true, vecEq_iff, Bool.not_eq_true'] at hE
  have hms : m = s := by
    obtain ⟨⟨-, f1, f2, f3, f4⟩, hs⟩ := step_frame hm
    have hgen : m.generators = s.generators := by
      exact shape_eq hs (by simpa using hg)
    obtain ⟨⟨a1, a2, a3, a4, a5, a6, a7⟩, a8⟩ := m
    obtain ⟨⟨b1, b2, b3, b4, b5, b6, b7⟩, b8⟩ := s
    have := arenaEq_iff ha
    simp only at *
    subst this f1 f2 f3 f4 hgen hr' hd' hr hd
    rfl
  refine ⟨s, a, play_reachable hplay, ha', hE.1, hE.2, ?_⟩
  rw [hms] at hm
  intro n
  induction n with
  | zero => rfl
  | succ n ih =>
    rw [List.replicate_succ]
    unfold stepAll
    rw [hm]; exact ih


/-- The hypotheses of `C81_drift` are met: a body at (1, 2, 3) with a velocity of (1/2, -1, 1/4) in two steps of 1/64 s. -/
example : ∃ (s s' : System F32 (GravityGenerator F32)) (p : Entity F32) (d : ℚ), Reachable s ∧ Flight h0 s 2 (d + (d + 0)) s' ∧ s.generators.handles = [] ∧ s.iterationMax ≠ 0 ∧
    s.getEntity h0 = some p ∧ Val (p.velocity.x) (1 / 2) ∧ Val (p.position.x) 1 ∧ |(1 : ℚ)| + |(1 / 2 : ℚ)| * (d + (d + 0)) ≤ 2 ∧ (2 : ℚ) ^ (-126 : ℤ) ≤ 2 ∧
    2 * (1 + 2 ^ (-22 : ℤ)) ^ 2 ≤ (2 ^ 126 : ℚ) := by
  have h : ((play (plain [.addEntity (thing (num 1) (vec 1 2 3) ⟨num 1 2, num (-1), num 1 4⟩)]) (System.new : System F32 (GravityGenerator F32))).test fun r =>
      (match r.1.getEntity h0 with
      | some a => !a.asleep && (valued a.velocity.x (1 / 2) && valued a.position.x 1)
      | _ => false) && r.1.generators.handles == [] && r.1.iterationMax != 0 && (r.1.step .id (num 1 64)).test fun m =>
        (match m.getEntity h0 with
        | some a => !a.asleep
        | _ => false) && m.collisionRecords.isEmpty && (m.step .id (num 1 64)).test fun n => n.collisionRecords.isEmpty) = true := by kernel_refl
  have hd : Val (num 1 64) (1 / 64) := valued_iff.mp (by kernel_refl)
  have hpr : Proper (num 1 64) := by
    have h1 : Scalar.lt (Scalar.abs (num 1 64)) EPSILON = false := by kernel_refl
    exact h1
  obtain ⟨⟨s, outs⟩, hplay, h⟩ := Res.of_test h
  simp only [Bool.and_eq_true, beq_iff_eq, bne_iff_ne, List.isEmpty_iff] at h
  obtain ⟨⟨⟨hE, hg⟩, hn⟩, h⟩ := h
  obtain ⟨m, hm, h⟩ := Res.of_test h
  simp only [Bool.and_eq_true, beq_iff_eq, List.isEmpty_iff] at h
  obtain ⟨⟨hE', hr⟩, h⟩ := h
  obtain ⟨k, hk, h⟩ := Res.of_test h
  split at hE
  case h_2 => cases hE
  case h_1 a ha =>
  split at hE'
  case h_2 => cases hE'
  case h_1 b hb =>
  simp only [Bool.and_eq_true, valued_iff, Bool.not_eq_true'] at hE hE'
  simp only [List.isEmpty_iff] at h
  refine ⟨s, k, a, 1 / 64, play_reachable hplay, ?_, hg, hn, ha, hE.2.1, hE.2.2, by norm_num [abs_of_pos], by norm_num [zpow_neg], by norm_num [zpow_neg]⟩
  refine .cons hpr hd (by norm_num) hm hr ?_ (.cons hpr hd (by norm_num) hk h ?_ .nil)
  · intro p hp; rw [ha] at hp; cases hp; exact hE.1
  · intro p hp; rw [hb] at hp; cases hp; exact hE'

end Fluffy.Props
