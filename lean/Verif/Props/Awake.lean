import Verif.Num.Kernel
import Verif.Props.Drowsy
import Verif.Props.Sinking
/-
C76: what is quiet falls asleep.
-/
set_option linter.unusedSectionVars false
set_option linter.unusedSimpArgs false
namespace Fluffy.Props
open InternalEntity Step
section
variable {α : Type} [Scalar α] {γ : Type} [ForceGenerator α γ]

/-- `n` steps of length `dt` lead from `s0` to the system; after each of them the entity was there, its energy was not above the threshold, and it was awake. -/
inductive Restless (h : Handle) (dt : α) (s0 : System α γ) : ℕ → System α γ → Prop
  | nil : Restless h dt s0 0 s0
  | snoc {n : ℕ} {m s : System α γ} {e : InternalEntity α} (ord : IterOrder) : Restless h dt s0 n m → m.step ord dt = .ok s → s.entities.get h = some e →
      Scalar.lt s.energySleepThreshold e.totalEnergy = false → e.asleep = false → Restless h dt s0 (n + 1) s

/-- The clock of a restless entity counts the steps, perhaps without the first. -/
theorem Restless.clock {h : Handle} {dt : α} {s0 s : System α γ} (hdt : Proper dt) {e0 : InternalEntity α} (h0 : s0.entities.get h = some e0) {n : ℕ}
    (hr : Restless h dt s0 n s) : s.sleepTimeThreshold = s0.sleepTimeThreshold ∧ ∃ e, s.entities.get h = some e ∧
      (n = 0 ∧ e = e0 ∨ ∃ k, (n = k ∨ n = k + 1) ∧ e.fallingAsleep = true ∧ e.fallingAsleepTime = (· + dt)^[k] e0.fallingAsleepTime ∧
        Scalar.lt e.fallingAsleepTime s.sleepTimeThreshold = true) := by
  induction hr with
  | nil => exact ⟨rfl, e0, h0, Or.inl ⟨rfl, rfl⟩⟩
  | @snoc n m s e ord hr hs he hq ha ih =>
    obtain ⟨i0, e1, he1, ih⟩ := ih
    refine ⟨(step_frame hs).1.time.trans i0, e, he, Or.inr ?_⟩
    rcases step_dozes hdt hs he1 he with ⟨⟨a1, -⟩, -⟩ | ⟨-, a1, -⟩ | ⟨-, -, a1, a2, a3⟩
    · rw [ha] at a1; cases a1
    · rw [hq] at a1; cases a1
    · have hlt : Scalar.lt e.fallingAsleepTime s.sleepTimeThreshold = true := by rw [ha] at a3; simpa using a3.symm
      rcases ih with ⟨rfl, rfl⟩ | ⟨k, hk, b1, b2, -⟩
      · cases hf : e1.fallingAsleep with
        | true => exact ⟨1, Or.inl rfl, a1, by rw [a2, hf]; rfl, hlt⟩
        | false => exact ⟨0, Or.inr rfl, a1, by rw [a2, hf]; rfl, hlt⟩
      · refine ⟨k + 1, by omega, a1, ?_, hlt⟩
        rw [a2, b1, if_pos rfl, b2, Function.iterate_succ_apply']
end

/-! ### In exact arithmetic -/

section
open XReal
variable {γ : Type} [ForceGenerator XReal γ]

theorem clock_exact {d t : ℝ} (k : ℕ) : (· + fin d)^[k] (fin t) = fin (t + k * d) := by
  induction k with
  | zero => simp
  | succ k ih => rw [Function.iterate_succ_apply', ih, fin_add]; congr 1; push_cast; ring

/-- **C76** in exact arithmetic: an entity whose energy is below the threshold at the end of every step does not stay awake for more steps than fit into the time threshold
and one more. -/
theorem C76_falls_asleep {h : Handle} {d τ t0 : ℝ} (hd : Proper (fin d)) (hpos : 0 < d) {s0 s : System XReal γ} {e0 : InternalEntity XReal}
    (h0 : s0.entities.get h = some e0) (ht0 : e0.fallingAsleepTime = fin t0) (hp : 0 ≤ t0) (hτ : s0.sleepTimeThreshold = fin τ) (h0τ : 0 ≤ τ) {n : ℕ}
    (hr : Restless h (fin d) s0 n s) : (n : ℝ) ≤ τ / d + 1 := by
  obtain ⟨i0, e, he, hc⟩ := hr.clock hd h0
  rcases hc with ⟨rfl, -⟩ | ⟨k, hk, -, hc, hl⟩
  · have := div_nonneg h0τ hpos.le
    push_cast; linarith
  · rw [hc, ht0, clock_exact, i0, hτ, fin_lt, decide_eq_true_eq] at hl
    have : (n : ℝ) ≤ k + 1 := by
      rcases hk with rfl | rfl
      · linarith
      · push_cast; exact le_refl _
    have h2 : (k : ℝ) ≤ τ / d := by rw [le_div_iff₀ hpos]; linarith
    linarith

/-- An entity that is awake and quiet after one step: the ground of C73 (mass infinite), with the thresholds of a new system. -/
example : ∃ (s0 s : System XReal (GravityGenerator XReal)) (h : Handle) (e0 : InternalEntity XReal), Reachable s0 ∧ Proper (fin 1) ∧ s0.entities.get h = some e0 ∧
    e0.fallingAsleepTime = fin 0 ∧ s0.sleepTimeThreshold = fin (1 / 10) ∧ Restless h (fin 1) s0 1 s := by
  have hp : Proper (fin 1) := proper_fin (d := 1) (by norm_num)
  refine ⟨_, _, Demo.h0, _, Scene.bare_finite.reachable, hp, rfl, rfl, by simp [Scene.bare, System.new, lit_eq], .snoc (e := Scene.dot posInf .o .o [Demo.h0] ⟨true, fin 0, false, []⟩) .id .nil Scene.bare_step rfl ?_ rfl⟩
  have hE : (Scene.dot posInf .o .o [Demo.h0] ⟨true, fin 0, false, []⟩).totalEnergy = fin 0 := quiet_floor rfl rfl rfl
  rw [hE]
  simp [Scene.bare, System.new, lit_eq]
end

/-! ### In binary32 -/

section
open F32
variable {γ : Type} [Libm] [ForceGenerator F32 γ]

theorem ulp_small {x d : ℚ} (hd : 0 < d) (h0 : 0 < x) (h : x ≤ 2 ^ 23 * d) (hn : (2 : ℚ) ^ (-149 : ℤ) ≤ d) : (2 : ℚ) ^ ulpExp x ≤ d := by
  by_cases he : -149 < ulpExp x
  · have := ulp_le h0.ne' he
    rw [abs_of_pos h0, zpow_add₀ (by norm_num)] at this
    norm_num at this h
    linarith
  · have : ulpExp x = -149 := by unfold ulpExp at he ⊢; omega
    rw [this]; exact hn

/-- Adding a not too small number to a number makes it larger by at least the half of it. -/
theorem add_progress {t d : ℚ} (hd : 0 < d) (hn : (2 : ℚ) ^ (-149 : ℤ) ≤ d) (h0 : 0 ≤ t) (h : t + d ≤ 2 ^ 23 * d) : t + d / 2 ≤ rnd (t + d) := by
  have h1 := abs_le.mp (rnd_error (t + d))
  have h2 := ulp_small hd (by linarith) h hn
  rw [zpow_sub₀ (by norm_num)] at h1
  norm_num at h1
  linarith [h1.1]

/-- **C76** in binary32, as long as the step is not too short beside the threshold: the bound is twice as large, because a sum can be rounded down by half a step.
The missing part is false (`C76_false`). -/
theorem C76_binary32_partial {h : Handle} {dt : F32} {d τ t0 : ℚ} (hdt : Proper dt) (hd : Val dt d) (hpos : 0 < d) (hbig : d < 2 ^ 100) {s0 s : System F32 γ}
    {e0 : InternalEntity F32} (h0 : s0.entities.get h = some e0) (ht0 : Val e0.fallingAsleepTime t0) (hp : 0 ≤ t0) (hs0 : t0 + d ≤ 2 ^ 23 * d)
    (hτ : Val s0.sleepTimeThreshold τ) (h0τ : 0 ≤ τ) (hsτ : τ + d ≤ 2 ^ 23 * d) {n : ℕ} (hr : Restless h dt s0 n s) : (n : ℚ) ≤ 2 * (τ / d) + 1 := by
  have hn : (2 : ℚ) ^ (-149 : ℤ) ≤ d := by
    obtain ⟨m, e, h1, h2, h3⟩ := rnd_form d
    rw [hd.rnd] at h3
    have p : (0 : ℚ) < 2 ^ e := by positivity
    have m0 : (0 : ℚ) < m := by rw [h3] at hpos; exact (pos_iff_pos_of_mul_pos hpos).mpr p
    have m1 : (1 : ℚ) ≤ m := by exact_mod_cast (show (0 : ℤ) < m by exact_mod_cast m0)
    rw [h3]
    calc (2 : ℚ) ^ (-149 : ℤ) ≤ 2 ^ e := zpow_le_zpow_right₀ (by norm_num) h2
      _ = 1 * 2 ^ e := (one_mul _).symm
      _ ≤ m * 2 ^ e := mul_le_mul_of_nonneg_right m1 p.le
  have e23 : rnd (2 ^ 23 * d) = 2 ^ 23 * d := by
    have := hd.rnd
    obtain ⟨m, e, h1, h2, h3⟩ := rnd_form d
    rw [this] at h3
    rw [h3, show (2 : ℚ) ^ 23 * (m * 2 ^ e) = m * 2 ^ (23 + e) by rw [zpow_add₀ (by norm_num)]; norm_num; ring]
    exact rnd_exact h1 (by omega)
  have adv : ∀ {a : F32} {u : ℚ}, Val a u → 0 ≤ u → u + d ≤ 2 ^ 23 * d → ∃ v, Val (a + dt) v ∧ u + d / 2 ≤ v := by
    intro a u hu u0 hs
    have hp := add_progress hpos hn u0 hs
    have := rnd_mono hs
    rw [e23] at this
    exact ⟨_, hu.add hd (by rw [abs_of_nonneg (by linarith)]; norm_num at this hbig ⊢; linarith), hp⟩
  have key : s.sleepTimeThreshold = s0.sleepTimeThreshold ∧ ∃ e, s.entities.get h = some e ∧
      (n = 0 ∧ e = e0 ∨ e.fallingAsleep = true ∧ ∃ u, Val e.fallingAsleepTime u ∧ ((n : ℚ) - 1) * (d / 2) ≤ u ∧ 0 ≤ u ∧ u < τ) := by
    induction hr with
    | nil => exact ⟨rfl, e0, h0, Or.inl ⟨rfl, rfl⟩⟩
    | @snoc n m s e ord hr hs he hq ha ih =>
      obtain ⟨i0, e1, he1, ih⟩ := ih
      have i1 := (step_frame hs).1.time.trans i0
      refine ⟨i1, e, he, Or.inr ?_⟩
      rcases step_dozes hdt hs he1 he with ⟨⟨a1, -⟩, -⟩ | ⟨-, a1, -⟩ | ⟨-, -, a1, a2, a3⟩
      · rw [ha] at a1; cases a1
      · rw [hq] at a1; cases a1
      · have hlt : Scalar.lt e.fallingAsleepTime s.sleepTimeThreshold = true := by rw [ha] at a3; simpa using a3.symm
        rw [i1] at hlt
        refine ⟨a1, ?_⟩
        have fin : ∀ {u}, Val e.fallingAsleepTime u → u < τ := fun hu => by rw [hu.lt hτ] at hlt; exact of_decide_eq_true hlt
        rcases ih with ⟨rfl, rfl⟩ | ⟨b1, u, hu, b2, b3, b4⟩
        · cases hf : e1.fallingAsleep with
          | true =>
            obtain ⟨v, hv, hle⟩ := adv ht0 hp hs0
            rw [hf, if_pos rfl] at a2
            rw [← a2] at hv
            exact ⟨v, hv, by push_cast; linarith, by linarith, fin hv⟩
          | false =>
            rw [hf] at a2
            have hv : Val e.fallingAsleepTime t0 := by rw [a2]; exact ht0
            exact ⟨t0, hv, by push_cast; linarith, hp, fin hv⟩
        · obtain ⟨v, hv, hle⟩ := adv hu b3 (by linarith)
          rw [b1, if_pos rfl] at a2
          rw [← a2] at hv
          exact ⟨v, hv, by push_cast; linarith, by linarith, fin hv⟩
  obtain ⟨-, e, -, ⟨rfl, -⟩ | ⟨-, u, -, b1, -, b2⟩⟩ := key
  · have := div_nonneg h0τ hpos.le
    push_cast; linarith
  · have : ((n : ℚ) - 1) / 2 ≤ τ / d := by rw [le_div_iff₀ hpos]; linarith
    linarith
end

/-! ### The clock of a binary32 number can stop -/

section
open F32 Demo Scene
variable [Libm]


/-- One body at rest, and a threshold of 64 for the time before it falls asleep. -/
def stallCalls : List (Op F32 (GravityGenerator F32)) :=
  [.configure 5 (num 1 1000) (num 64) [] [], .addEntity (thing (num 1) (vec 0 0 0) (vec 0 0 0)), .step (num 1 1000000)]

def stalled : System F32 (GravityGenerator F32) := match play (plain stallCalls) System.new with | .ok r => r.1 | .error _ => System.new

/-- The same with another time on the clock. -/
def stalledAt (t : F32) : System F32 (GravityGenerator F32) :=
  { stalled with entities := { stalled.entities with items := stalled.entities.items.map (Option.map (fun p => (p.1, { p.2 with fallingAsleepTime := t }))) } }

/-- What the step knows of the body after the integration: it does not move. -/
def stallInfo : StepInfo F32 := ⟨h0, Vec3.zeros, Vec3.zeros, []⟩

theorem stall_sleep (t : F32) : sleepOne .id (num 1 1000000) stallInfo (stalledAt t).toWorld =
    if Scalar.lt (t + num 1 1000000) (num 64) then .ok (stalledAt (t + num 1 1000000)).toWorld else
      match stalled.entities.get h0 with
      | some e => .ok { (stalledAt t).toWorld with
          entities := (stalledAt t).entities.set h0 { e with fallingAsleepTime := t + num 1 1000000, asleep := true, neighbors := [] }
          debug := [.puttingToSleep h0] }
      | none => .error .diverge := by kernel_refl

theorem stall_phases (t : F32) : (stalledAt t).step .id (num 1 1000000) =
    (do let w ← sleepLoop .id (num 1 1000000) [stallInfo] (stalledAt t).toWorld
        .ok { stalledAt t with toWorld := w }) := by kernel_refl

theorem stall_step {t : F32} (h : Scalar.lt (t + num 1 1000000) (num 64) = true) : (stalledAt t).step .id (num 1 1000000) = .ok (stalledAt (t + num 1 1000000)) := by
  rw [stall_phases, sleepLoop, stall_sleep, if_pos h]; rfl

theorem stall_view (t : F32) : ∃ e, (stalledAt t).entities.get h0 = some e ∧ Scalar.lt (stalledAt t).energySleepThreshold e.totalEnergy = false ∧ e.asleep = false ∧
    e.fallingAsleepTime = t := by
  have h : ((match (stalledAt t).entities.get h0 with | some e => !Scalar.lt (stalledAt t).energySleepThreshold e.totalEnergy && !e.asleep | none => false) = true) := by kernel_refl
  have h' : ((match (stalledAt t).entities.get h0 with | some e => e.fallingAsleepTime | none => t) = t) := by kernel_refl
  split at h
  · rename_i e he
    rw [he] at h'
    simp only [Bool.and_eq_true, Bool.not_eq_true'] at h
    exact ⟨e, he, h.1, h.2, h'⟩
  · cases h

/-- Below 32 the clock stays below 32. -/
theorem stall_clock {t : F32} {u : ℚ} (h : Val t u) (h0 : 0 ≤ u) (h1 : u ≤ 32) : ∃ v, Val (t + num 1 1000000) v ∧ 0 ≤ v ∧ v ≤ 32 := by
  have ve : Val (num 1 1000000) (8796093 / 2 ^ 43) := valued_iff.mp (by kernel_refl)
  have vs : Val (num 32 + num 1 1000000) 32 := valued_iff.mp (by kernel_refl)
  have v32 : Val (num 32) 32 := valued_iff.mp (by kernel_refl)
  have v64 : Val (num 64) 64 := valued_iff.mp (by kernel_refl)
  have vz : Val (num 0) 0 := valued_iff.mp (by kernel_refl)
  have small : ∀ {x : ℚ}, 0 ≤ x → x ≤ 64 → |rnd x| < 2 ^ 128 := fun {x} hx hy => by
    have := rnd_between vz.rnd v64.rnd hx hy
    rw [abs_of_nonneg this.1]; linarith [this.2]
  have e32 := (v32.add ve (small (by norm_num) (by norm_num))).inj vs
  refine ⟨_, h.add ve (small (by linarith) (by norm_num; linarith)), rnd_nonneg (by linarith), ?_⟩
  rw [← e32]
  exact rnd_mono (by linarith)

/-- The full statement of **C76** fails in binary32: from some state that calls lead to, with a body at rest and steps of a millionth, the body is awake after any number of
steps, although its energy is always below the threshold and the time before it should fall asleep is 64. -/
theorem C76_false : ∃ (s0 : System F32 (GravityGenerator F32)) (h : Handle) (e0 : InternalEntity F32) (dt : F32) (d : ℚ), Reachable s0 ∧ s0.entities.get h = some e0 ∧
    Val e0.fallingAsleepTime 0 ∧ Val s0.sleepTimeThreshold 64 ∧ Proper dt ∧ Val dt d ∧ 0 < d ∧ ∀ n, ∃ s, Restless h dt s0 n s := by
  obtain ⟨e0, he, -, -, ht⟩ := stall_view (num 0)
  have v0 : Val (num 0) 0 := valued_iff.mp (by kernel_refl)
  have v64 : Val (num 64) 64 := valued_iff.mp (by kernel_refl)
  have hst : ∃ outs, play (plain stallCalls) System.new = .ok (stalledAt (num 0), outs) := ⟨[.unit, .entity (some h0), .unit], by kernel_refl⟩
  obtain ⟨outs, hst⟩ := hst
  refine ⟨stalledAt (num 0), h0, e0, num 1 1000000, 8796093 / 2 ^ 43, play_reachable hst, he, ht ▸ v0, valued_iff.mp (by kernel_refl), (by unfold Proper; kernel_refl), valued_iff.mp (by kernel_refl), by norm_num, fun n => ?_⟩
  suffices ∃ t u, Val t u ∧ 0 ≤ u ∧ u ≤ 32 ∧ Restless h0 (num 1 1000000) (stalledAt (num 0)) n (stalledAt t) by
    obtain ⟨t, -, -, -, -, hr⟩ := this
    exact ⟨_, hr⟩
  induction n with
  | zero => exact ⟨num 0, 0, v0, le_refl _, by norm_num, .nil⟩
  | succ n ih =>
    obtain ⟨t, u, hu, u0, u1, hr⟩ := ih
    obtain ⟨v, hv, b0, b1⟩ := stall_clock hu u0 u1
    obtain ⟨e, he, hq, ha, -⟩ := stall_view (t + num 1 1000000)
    refine ⟨_, v, hv, b0, b1, .snoc .id hr (stall_step ?_) he hq ha⟩
    rw [hv.lt v64]
    exact decide_eq_true (by linarith)

/-- With the thresholds of a new system and steps of 1/64 a body at rest is still awake after two steps, and the clock is as `C76_binary32_partial` wants it. -/
example : ∃ (s0 s : System F32 (GravityGenerator F32)) (e0 : InternalEntity F32) (τ : ℚ), Reachable s0 ∧ Proper (num 1 64) ∧ Val (num 1 64) (1 / 64) ∧
    s0.entities.get h0 = some e0 ∧ Val e0.fallingAsleepTime 0 ∧ (0 : ℚ) + 1 / 64 ≤ 2 ^ 23 * (1 / 64) ∧ Val s0.sleepTimeThreshold τ ∧ 0 ≤ τ ∧
    τ + 1 / 64 ≤ 2 ^ 23 * (1 / 64) ∧ Restless h0 (num 1 64) s0 2 s := by
  have h : ((play (plain [.addEntity (thing (num 1) (vec 0 0 0) (vec 0 0 0))]) (System.new : System F32 (GravityGenerator F32))).test fun r => (r.1.step .id (num 1 64)).test fun s1 =>
      (s1.step .id (num 1 64)).test fun s2 => match r.1.entities.get h0, s1.entities.get h0, s2.entities.get h0 with
      | some e0, some e1, some e2 => valued e0.fallingAsleepTime 0 && valued r.1.sleepTimeThreshold (13421773 / 2 ^ 27) && (!Scalar.lt s1.energySleepThreshold e1.totalEnergy) && (!e1.asleep) &&
          (!Scalar.lt s2.energySleepThreshold e2.totalEnergy) && !e2.asleep
      | _, _, _ => false) = true := by kernel_refl
  obtain ⟨⟨s0, outs⟩, h1, h⟩ := Res.of_test h
  obtain ⟨s1, h2, h⟩ := Res.of_test h
  obtain ⟨s2, h3, h⟩ := Res.of_test h
  split at h
  · rename_i e0 e1 e2 g0 g1 g2
    simp only [Bool.and_eq_true, Bool.not_eq_true'] at h
    obtain ⟨⟨⟨⟨⟨a1, a2⟩, a3⟩, a4⟩, a5⟩, a6⟩ := h
    exact ⟨s0, s2, e0, _, play_reachable h1, (by unfold Proper; kernel_refl), valued_iff.mp (by kernel_refl), g0, valued_iff.mp a1, by norm_num, valued_iff.mp a2, by norm_num,
      by norm_num, .snoc .id (.snoc .id .nil h2 g1 a3 a4) h3 g2 a5 a6⟩
  · cases h
end
end Fluffy.Props
