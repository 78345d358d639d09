import Verif.Num.Kernel
import Verif.Props.Clock
/-
The passing of time during a step in binary32, with all its roundings.
-/
set_option linter.unusedSectionVars false
set_option linter.unusedSimpArgs false
namespace Fluffy.Props
open InternalEntity Step F32 Demo
variable {γ : Type} [Libm]

/-- Where in the step an iteration's collision is. -/
theorem percentOf_binary {ord : IterOrder} {w : World F32} {infos : List (StepInfo F32)} {best : Option (Candidate F32)}
    (h : searchFirst ord w 0 infos none = .ok best) : ∃ p, Val (percentOf best) p ∧ 0 ≤ p ∧ p ≤ 1 := by
  cases best with
  | none => exact ⟨1, val_one, by norm_num, le_refl _⟩
  | some k =>
    obtain ⟨hc, hb, -⟩ := C55_search h
    obtain ⟨n, m, i1, i2, -, -, -, first, second, -, -, -, -, -, ch1, -, ch2, -, c1, c2, c, -, -, hcol, -, rfl⟩ := hc
    obtain ⟨-, t1, -⟩ := C52_times hcol
    simp only at hb
    exact val_of_between (LawfulOrder.lt_notNaN _ _ hb).1 val_zero val_one t1 (le_of_lt' hb)

/-- The part of the step that has passed is `c`, the step has length `d`, and the records are in order of time. -/
structure Ticks (d c : ℚ) (st : LoopState F32) : Prop where
  percent : Val st.currentPercent c
  nonneg : 0 ≤ c
  le_one : c ≤ 1
  range : ∀ r ∈ st.world.collisionRecords, ∃ t, Val r.time t ∧ 0 ≤ t ∧ t ≤ rnd (c * d)
  sorted : st.world.collisionRecords.Pairwise (fun a b => Scalar.le a.time b.time = true)

theorem small_of_unit {x : ℚ} (h0 : 0 ≤ x) (h1 : x ≤ 1) : |x| < 2 ^ 128 := by
  rw [abs_of_nonneg h0]; exact lt_of_le_of_lt h1 (by norm_num)

theorem Ticks.advance {d c : ℚ} (hd : 0 ≤ d) {ord : IterOrder} {st st1 : LoopState F32} {best : Option (Candidate F32)} {w : World F32}
    (hc : Ticks d c st) (h1 : searchFirst ord st.world 0 st.infos none = .ok best)
    (h2 : wakeColliding ord best st.world = .ok w) (h3 : advance best { st with world := w } = .ok st1) : ∃ c', c ≤ c' ∧ Ticks d c' st1 := by
  obtain ⟨p, hp, p0, p1⟩ := percentOf_binary h1
  have hw : w.collisionRecords = st.world.collisionRecords := by rw [(wakeColliding_evolves h2).1]
  unfold Step.advance at h3
  obtain ⟨⟨a, is⟩, -, h3⟩ := Res.bind_eq_ok.mp h3
  simp only [Except.ok.injEq] at h3
  subst h3
  -- what is left
  have hl := rnd_between rnd_zero F32.rnd_one (sub_nonneg.mpr hc.le_one) (by linarith [hc.nonneg] : 1 - c ≤ 1)
  have vl := val_one.sub hc.percent (small_of_unit hl.1 hl.2)
  -- what passes
  have hm : 0 ≤ rnd (rnd (1 - c) * p) ∧ rnd (rnd (1 - c) * p) ≤ rnd (1 - c) :=
    rnd_between rnd_zero (rnd_rnd _) (mul_nonneg hl.1 p0) (mul_le_of_le_one_right hl.1 p1)
  have vm := vl.mul hp (small_of_unit hm.1 (hm.2.trans hl.2))
  -- what has passed
  have e := abs_le.mp (rnd_error_one (x := 1 - c) (by rw [abs_of_nonneg (by linarith [hc.le_one])]; linarith [hc.nonneg]))
  have hs : c ≤ rnd (c + rnd (rnd (1 - c) * p)) := by
    have := rnd_mono (by linarith [hm.1] : c ≤ c + rnd (rnd (1 - c) * p))
    rwa [hc.percent.rnd] at this
  have hs' : rnd (c + rnd (rnd (1 - c) * p)) ≤ 1 := rnd_above_one (by linarith [hm.2, e.2])
  have vs := hc.percent.add vm (small_of_unit (hc.nonneg.trans hs) hs')
  refine ⟨_, hs, vs, hc.nonneg.trans hs, hs', ?_, ?_⟩
  · intro r hr
    simp only [hw] at hr
    obtain ⟨t, t1, t2, t3⟩ := hc.range r hr
    exact ⟨t, t1, t2, t3.trans (rnd_mono (mul_le_mul_of_nonneg_right hs hd))⟩
  · simp only [hw]; exact hc.sorted

theorem Ticks.respond {d c : ℚ} {dt : F32} (hdt : Val dt d) (hd : 0 ≤ d) {k : Candidate F32} {st st' : LoopState F32} (hc : Ticks d c st)
    (h : respond dt k st = .ok st') : Ticks d c st' := by
  obtain ⟨first, second, i1, i2, -, -, -, -, -, rfl⟩ := respond_spec h
  have h1 : 0 ≤ rnd (c * d) ∧ rnd (c * d) ≤ d := rnd_between rnd_zero hdt.rnd (mul_nonneg hc.nonneg hd) (mul_le_of_le_one_left hd hc.le_one)
  have ht : Val (respondPair k (st.currentPercent * dt) st.timeLeft first second i1 i2).record.time (rnd (c * d)) :=
    hc.percent.mul hdt (lt_of_le_of_lt (by rw [abs_of_nonneg h1.1, abs_of_nonneg hd]; exact h1.2) hdt.small)
  refine ⟨hc.percent, hc.nonneg, hc.le_one, ?_, ?_⟩
  · intro r hr
    simp only [List.mem_append, List.mem_singleton] at hr
    rcases hr with hr | rfl
    · exact hc.range r hr
    · exact ⟨_, ht, h1.1, le_refl _⟩
  · simp only [List.pairwise_append]
    refine ⟨hc.sorted, List.pairwise_singleton _ _, ?_⟩
    intro a ha b hb
    rw [List.mem_singleton] at hb
    subst hb
    obtain ⟨t, t1, -, t3⟩ := hc.range a ha
    rw [t1.le ht]
    simpa using t3

theorem iterate_ticks {d : ℚ} {dt : F32} (hdt : Val dt d) (hd : 0 ≤ d) {ord : IterOrder} {n : Nat} {st st' : LoopState F32} {b : Bool} {c : ℚ}
    (hc : Ticks d c st) (h : iterate ord dt n st = .ok (st', b)) : ∃ c', Ticks d c' st' := by
  have := iterate_cases (ord := ord) (dt := dt) (P := fun st => ∃ c, Ticks d c st) (Q := fun st => ∃ c, Ticks d c st) ?_ ⟨c, hc⟩ h
  · cases b with
    | false => exact this.1 rfl
    | true => exact this.2 rfl
  · rintro st best w st1 ⟨c, hc⟩ h1 h2 h3
    obtain ⟨c', -, h⟩ := hc.advance hd h1 h2 h3
    exact ⟨fun _ => ⟨_, h⟩, fun k st2 _ h4 => ⟨_, h.respond hdt hd h4⟩⟩

/-- **C30**, the times in binary32: rounding takes the times of the records neither out of the step nor out of order, for every finite step length `d ≥ 0`. -/
theorem C30_times_binary32 [ForceGenerator F32 γ] {s s' : System F32 γ} {ord : IterOrder} {dt : F32} {d : ℚ} (hdt : Val dt d) (hd : 0 ≤ d) (hp : Proper dt)
    (h : s.step ord dt = .ok s') :
    (∀ r ∈ s'.collisionRecords, Scalar.le zero r.time = true ∧ Scalar.le r.time dt = true) ∧
    s'.collisionRecords.Pairwise (fun a b => Scalar.le a.time b.time = true) := by
  obtain ⟨ph⟩ := step_phases hp h
  obtain ⟨k1, -⟩ := integrateAll_spec (Arena.handles_nodup _) ph.integrate
  have hmid : ph.mid.collisionRecords = [] := by show ph.mid.toWorld.collisionRecords = []; rw [k1]
  obtain ⟨c, hc⟩ := iterate_ticks hdt hd (c := 0) ⟨val_zero, le_refl _, by norm_num, by simp [hmid], by simp [hmid]⟩ ph.iterate
  have hr : s'.collisionRecords = ph.final.world.collisionRecords := by
    have := (sleepLoop_frame ph.selfless ph.sleep).2
    cases hc : ph.concluded <;> rw [hc] at this <;> simpa using this
  rw [hr]
  refine ⟨fun r hr => ?_, hc.sorted⟩
  obtain ⟨t, t1, t2, t3⟩ := hc.range r hr
  have := (rnd_between rnd_zero hdt.rnd (mul_nonneg hc.nonneg hd) (mul_le_of_le_one_left hd hc.le_one)).2
  rw [val_zero.le t1, t1.le hdt]
  exact ⟨by simpa using t2, by simpa using t3.trans this⟩

/-- Two balls of radius 1 and mass 1, three apart, the first coming at the other with speed 4. -/
def meeting : List (Op F32 (GravityGenerator F32)) :=
  [.addEntity (thing (num 1) (vec 0 0 0) (vec 4 0 0)), .addEntity (thing (num 1) (vec 3 0 0) (vec 0 0 0)), .addCollider (ball (vec 0 0 0) (num 1) (num 0) (num 1)),
    .addCollider (ball (vec 0 0 0) (num 1) (num 0) (num 1)), .linkCollider h0 (some h0), .linkCollider h1 (some h1)]

/-- A step that `C30_times_binary32` speaks about, with a collision after a quarter of the time. -/
example : ∃ (s s' : System F32 (GravityGenerator F32)) (dt : F32) (d : ℚ), Reachable s ∧ Val dt d ∧ 0 ≤ d ∧ Proper dt ∧ s.step .id dt = .ok s' ∧
    ∃ r, s'.collisionRecords = [r] ∧ Val r.time (1 / 4) := by
  have h : ((play (plain meeting) System.new).test fun r => (r.1.step .id (num 1)).test fun s' =>
      match s'.collisionRecords with | [r] => valued r.time (1 / 4) | _ => false) = true := by kernel_refl
  obtain ⟨⟨s, outs⟩, h1, h⟩ := Res.of_test h
  obtain ⟨s', h2, h⟩ := Res.of_test h
  refine ⟨s, s', num 1, 1, play_reachable h1, val_one, by norm_num, ?_, h2, ?_⟩
  · have : Scalar.lt (Scalar.abs (num 1)) (EPSILON : F32) = false := by kernel_refl
    exact this
  · split at h
    · rename_i r hr; exact ⟨r, hr, valued_iff.mp h⟩
    · cases h

end Fluffy.Props
