import Verif.Num.Kernel
import Verif.Props.Parabola
/-
C89: a body let go in mid-air.
-/
set_option linter.unusedSectionVars false
set_option linter.unusedSimpArgs false
namespace Fluffy.Props
open InternalEntity Step Demo

section
variable {α : Type} [Scalar α] {γ : Type} [ForceGenerator α γ]

/-- `n` steps of length `dt`, in which no collision is recorded. -/
inductive Undisturbed (dt : α) (s : System α γ) : ℕ → System α γ → Prop where
  | nil : Undisturbed dt s 0 s
  | snoc {n : ℕ} {m s' : System α γ} {ord : IterOrder} : Undisturbed dt s n m → m.step ord dt = .ok s' → s'.collisionRecords = [] → Undisturbed dt s (n + 1) s'

/-- **C89**, the sleeper: what is asleep in mid-air stays there. -/
theorem C89_sleeper_hangs {dt : α} (hd : Proper dt) {s s' : System α γ} {n : ℕ} (hu : Undisturbed dt s n s') {h : Handle} {p : Entity α} (hp : s.getEntity h = some p)
    (ha : p.asleep = true) : ∃ p', s'.getEntity h = some p' ∧ p'.position = p.position ∧ p'.asleep = true := by
  induction hu with
  | nil => exact ⟨p, hp, rfl, ha⟩
  | snoc hu hh hr ih =>
    obtain ⟨q, hq, h1, h2⟩ := ih
    obtain ⟨p', hp', h3, -, h4, -⟩ := C24_no_collision hd hh hr hq h2
    exact ⟨p', hp', h3.trans h1, h4⟩

theorem Hermit.undisturbed [SafeGenerator α γ] {s : System α γ} (hs : Hermit s) {dt : α} (hp : Proper dt) (n : ℕ) : ∃ s', Hermit s' ∧ Undisturbed dt s n s' := by
  induction n with
  | zero => exact ⟨s, hs, .nil⟩
  | succ n ih =>
    obtain ⟨m, hm, hu⟩ := ih
    obtain ⟨s', hh, hr, hs'⟩ := hm.step hp .id
    exact ⟨s', hs', .snoc hu hh hr⟩
end

/-! ### In exact arithmetic -/
section
open XReal

/-- A body that does not turn, of mass `m`, at `x` with velocity `v`. -/
structure Gliding (E : InternalEntity XReal) (m : ℝ) (x v : Vec3 ℝ) : Prop where
  mass : E.totalMass = fin m
  inertia : FiniteInertia E.makePub
  position : E.orientation.position = x.f
  velocity : E.velocity = v.f
  angular : E.angularVelocity = Vec3.o.f

theorem Gliding.energy {E : InternalEntity XReal} {m : ℝ} {x v : Vec3 ℝ} (h : Gliding E m x v) : E.totalEnergy = fin (m * v.dot v / 2) := by
  obtain ⟨o, ho⟩ := h.inertia.pose.real
  obtain ⟨M, hM⟩ := Mat3.exists_f h.inertia.r1.f h.inertia.r2.f h.inertia.r3.f
  have ho : E.orientation = o.f := ho
  have hM : E.preppedMoment = M.f := hM
  unfold InternalEntity.totalEnergy
  rw [h.mass, h.velocity, h.angular]
  have hi : E.momentOfInertia = ((o.rotation.matrix.mul M).mul o.rotation.matrix.transpose).f := by
    unfold InternalEntity.momentOfInertia Orientation.finalizeMomentOfInertia rotateMomentOfInertia
    rw [ho, hM]
    simp only [Orientation.f_rotation, Quat.f_matrix, Mat3.f_mul, Mat3.f_transpose]
  rw [hi, if_neg (by simp)]
  simp only [Vec3.f_scale, Vec3.f_dot, Mat3.f_mulVec, two_eq]
  rw [fin_div (by norm_num), fin_div (by norm_num), fin_add, fin_inj]
  simp only [Vec3.dot_def, Vec3.scale_x, Vec3.scale_y, Vec3.scale_z, Vec3.o_x, Vec3.o_y, Vec3.o_z]
  ring

/-- One step of a body that does not turn. -/
theorem Gliding.step {s s' : System XReal (GravityGenerator XReal)} {ord : IterOrder} {d : ℝ} (hd : Proper (fin d)) (hh : s.step ord (fin d) = .ok s')
    (hr : s'.collisionRecords = []) (hn : s.iterationMax ≠ 0) {h : Handle} {E : InternalEntity XReal} (hE : s.entities.get h = some E) (ha : E.asleep = false)
    {m : ℝ} (hm : 1 / 1000000 < m) {x v g : Vec3 ℝ} (hb : Gliding E m x v) (hg : gravity s.generators = g.f)
    (hf : ∀ k y, s.generators.get k = some y → Finite3 y.acceleration) :
    ∃ E', s'.entities.get h = some E' ∧ Gliding E' m (x + (v + g.scale d).scale d) (v + g.scale d) := by
  have hpush : Pushable E.makePub = true := by
    show (Scalar.isFinite E.totalMass && Scalar.lt EPSILON E.totalMass) = true
    rw [hb.mass, Bool.and_eq_true]
    exact ⟨rfl, by rw [EPSILON_eq, fin_lt]; exact decide_eq_true hm⟩
  have hp : s.getEntity h = some E.makePub := getEntity_eq_some.mpr ⟨E, hE, rfl⟩
  obtain ⟨ph⟩ := step_phases hd hh
  obtain ⟨q, hq, hv, hw⟩ := C22_gravity (s := { s with collisionRecords := [], debug := [] }) ph.integrate (k := h) (p := E.makePub) hp hpush
  obtain ⟨X, hX, rfl⟩ := getEntity_eq_some.mp hq
  obtain ⟨Y, hY, y1, y2, y3⟩ := ph.free hr hn hE ha hX
  have hv : X.velocity = (v + g.scale d).f := by
    have hv : X.velocity = E.velocity + (gravity s.generators).scale (fin d) := hv
    rw [hv, hb.velocity, hg, Vec3.f_scale, Vec3.f_add]
  have hw : X.angularVelocity = Vec3.o.f := (hw hb.inertia (by simp) hf).trans hb.angular
  obtain ⟨o, ho⟩ := hb.inertia.pose.real
  have ho : E.orientation = o.f := ho
  have hpos : o.position = x := by
    have := hb.position
    rw [ho] at this
    exact (Vec3.f_inj _ _).mp this
  have hst := staticRel_iff.mp (((step_frame hh).1.entities).2 h E Y hE hY)
  have hori : Y.orientation = (⟨o.position + (v + g.scale d).scale d, (Quat.exp .o).mul o.rotation, o.internalOriginOffset⟩ : Orientation ℝ).f := by
    rw [y3, hv, hw, ho]
    unfold Orientation.afterAffected
    rw [scale_oneX, scale_oneX]
    have : (Vec3.o.f).scale (fin d) = Vec3.o.f := by
      rw [Vec3.f_scale, Vec3.f_inj]; ext <;> simp
    rw [this, Quat.f_fromScaledAxis]
    simp only [Vec3.f_scale]
    rfl
  refine ⟨Y, hY, ?_, ⟨?_, ?_, ?_, ?_⟩, ?_, y1.trans hv, y2.trans hw⟩
  · rw [hst.2.2.1, hb.mass]
  · show FinitePose Y.orientation
    rw [hori]
    exact ⟨finite3_f _, finite3_f _, rfl, ⟨rfl, rfl, rfl⟩⟩
  · show Finite3 Y.preppedMoment.r1; rw [hst.2.2.2.1]; exact hb.inertia.r1
  · show Finite3 Y.preppedMoment.r2; rw [hst.2.2.2.1]; exact hb.inertia.r2
  · show Finite3 Y.preppedMoment.r3; rw [hst.2.2.2.1]; exact hb.inertia.r3
  · rw [hori, hpos]; rfl

/-- The body sleeps after step `K + 1`, if it does: the number of steps that the clock needs, and one more. -/
noncomputable def nap (τ d : ℝ) : ℕ := ⌈τ / d⌉₊ + 1

/-- The kinetic energy after `n` steps of a body of mass `m` let go with gravity `g`. -/
noncomputable def gained (m : ℝ) (g : Vec3 ℝ) (d : ℝ) (n : ℕ) : ℝ := m * g.dot g * (n * d) ^ 2 / 2

theorem gained_mono {m : ℝ} (hm : 0 ≤ m) {g : Vec3 ℝ} {d : ℝ} (hd : 0 ≤ d) {a b : ℕ} (h : a ≤ b) : gained m g d a ≤ gained m g d b := by
  unfold gained
  have h1 : (a : ℝ) * d ≤ b * d := mul_le_mul_of_nonneg_right (by exact_mod_cast h) hd
  have h2 : (a * d : ℝ) ^ 2 ≤ (b * d) ^ 2 := pow_le_pow_left₀ (by positivity) h1 2
  have := mul_le_mul_of_nonneg_left h2 (mul_nonneg hm (Vec3.dot_self_nonneg g))
  linarith

/-- How far the body has fallen after `n` steps. -/
noncomputable def fallen (g : Vec3 ℝ) (d : ℝ) (n : ℕ) : Vec3 ℝ := g.scale (n * (n + 1) / 2 * (d * d))

/-- **C89.** What becomes of a body of mass `m` let go at `x` under gravity `g`, with steps of length `d`, in exact arithmetic: if the energy it has gained after `nap τ d`
steps is not above the threshold, it falls for that many steps, and then hangs in the air; otherwise it falls for ever.
Missing from the full statement: that every body falls, which is false (`C89_false`). -/
theorem C89_exact_partial {s s' : System XReal (GravityGenerator XReal)} {d : ℝ} (hd : 1 / 1000000 ≤ d) {n : ℕ} (hu : Undisturbed (fin d) s n s') (hn : s.iterationMax ≠ 0)
    {h : Handle} {E : InternalEntity XReal} (hE : s.entities.get h = some E) (ha : E.asleep = false) (hfa : E.fallingAsleep = false) (hft : E.fallingAsleepTime = fin 0)
    {m : ℝ} (hm : 1 / 1000000 < m) {x g : Vec3 ℝ} (hb : Gliding E m x .o) (hg : gravity s.generators = g.f)
    (hf : ∀ k y, s.generators.get k = some y → Finite3 y.acceleration) {θ τ : ℝ} (hθ : s.energySleepThreshold = fin θ) (hτ : s.sleepTimeThreshold = fin τ) :
    ∃ p', s'.getEntity h = some p' ∧
      if gained m g d (nap τ d) ≤ θ ∧ nap τ d ≤ n then p'.asleep = true ∧ p'.position = (x + fallen g d (nap τ d)).f
      else p'.asleep = false ∧ p'.velocity = (g.scale (n * d)).f ∧ p'.position = (x + fallen g d n).f := by
  have hp : Proper (fin d) := proper_fin hd
  have hd0 : 0 < d := lt_of_lt_of_le (by norm_num) hd
  have hm0 : 0 ≤ m := le_trans (by norm_num) hm.le
  suffices hs : s'.iterationMax ≠ 0 ∧ gravity s'.generators = g.f ∧ (∀ k y, s'.generators.get k = some y → Finite3 y.acceleration) ∧
      s'.energySleepThreshold = fin θ ∧ s'.sleepTimeThreshold = fin τ ∧ ∃ E', s'.entities.get h = some E' ∧
      if gained m g d (nap τ d) ≤ θ ∧ nap τ d ≤ n then E'.asleep = true ∧ E'.orientation.position = (x + fallen g d (nap τ d)).f
      else E'.asleep = false ∧ Gliding E' m (x + fallen g d n) (g.scale (n * d)) ∧
        if n ≠ 0 ∧ gained m g d n ≤ θ then E'.fallingAsleep = true ∧ E'.fallingAsleepTime = fin ((n - 1) * d)
        else E'.fallingAsleep = false ∧ E'.fallingAsleepTime = fin 0 by
    obtain ⟨-, -, -, -, -, E', hE', hs⟩ := hs
    refine ⟨E'.makePub, getEntity_eq_some.mpr ⟨E', hE', rfl⟩, ?_⟩
    split at hs
    · rename_i hc; rw [if_pos hc]; exact hs
    · rename_i hc; rw [if_neg hc]; exact ⟨hs.1, hs.2.1.velocity, hs.2.1.position⟩
  induction hu with
  | nil =>
    refine ⟨hn, hg, hf, hθ, hτ, E, hE, ?_⟩
    rw [if_neg (by unfold nap; omega), if_neg (by simp)]
    refine ⟨ha, ?_, hfa, hft⟩
    have e1 : x + fallen g d 0 = x := by unfold fallen; ext <;> simp
    have e2 : g.scale (((0 : ℕ) : ℝ) * d) = Vec3.o := by ext <;> simp
    rw [e1, e2]; exact hb
  | @snoc n mid s' ord hu hh hr ih =>
    obtain ⟨i1, i2, i3, i4, i5, E1, hE1, ih⟩ := ih
    have hfr := step_frame hh
    have hgen := step_gravity hp hh
    refine ⟨by rw [hfr.1.iterationMax]; exact i1, ?_, fun k y hy => i3 k y (by rw [← hgen]; exact hy), by rw [hfr.1.energy]; exact i4, by rw [hfr.1.time]; exact i5, ?_⟩
    · rw [← i2]; exact gravity_congr hfr.2.handles hgen
    split at ih
    · -- asleep already
      rename_i hc
      obtain ⟨p', hp', h3, -, h4, -⟩ := C24_no_collision hp hh hr (getEntity_eq_some.mpr ⟨E1, hE1, rfl⟩) ih.1
      obtain ⟨E2, hE2, rfl⟩ := getEntity_eq_some.mp hp'
      refine ⟨E2, hE2, ?_⟩
      rw [if_pos ⟨hc.1, by omega⟩]
      exact ⟨h4, h3.trans ih.2⟩
    · rename_i hc
      obtain ⟨ha1, hb1, hclock⟩ := ih
      obtain ⟨E2, hE2, hb2⟩ := hb1.step hp hh hr i1 hE1 ha1 hm i2 i3
      have hb2 : Gliding E2 m (x + fallen g d (n + 1)) (g.scale ((n + 1 : ℕ) * d)) := by
        convert hb2 using 1
        · unfold fallen; ext <;> simp <;> ring
        · ext <;> simp <;> ring
      have hen : E2.totalEnergy = fin (gained m g d (n + 1)) := by
        rw [hb2.energy]; congr 1; unfold gained
        simp only [Vec3.dot_def, Vec3.scale_x, Vec3.scale_y, Vec3.scale_z]; ring
      have hθ' : s'.energySleepThreshold = fin θ := by rw [hfr.1.energy]; exact i4
      have hτ' : s'.sleepTimeThreshold = fin τ := by rw [hfr.1.time]; exact i5
      refine ⟨E2, hE2, ?_⟩
      rcases step_dozes hp hh hE1 hE2 with ⟨-, h, -⟩ | ⟨-, h1, h2, h3, h4⟩ | ⟨-, h1, h2, h3, h4⟩
      · rw [ha1] at h; cases h
      · rw [hθ', hen, fin_lt, decide_eq_true_eq] at h1
        rw [if_neg, if_neg]
        · exact ⟨h2, hb2, h3, by rw [h4, zero_eq]⟩
        · exact fun hx => absurd hx.2 (not_le.mpr h1)
        · rintro ⟨q1, q2⟩
          have : ¬nap τ d ≤ n := fun hx => hc ⟨q1, hx⟩
          have hq : nap τ d = n + 1 := by omega
          rw [hq] at q1
          exact absurd q1 (not_le.mpr h1)
      · rw [hθ', hen, fin_lt, decide_eq_false_iff_not, not_lt] at h1
        have htime : E2.fallingAsleepTime = fin (((n + 1 : ℕ) - 1) * d) := by
          by_cases h0 : n = 0
          · subst h0
            rw [if_neg (by simp)] at hclock
            rw [h3, hclock.1, if_neg (by simp), hclock.2]; simp
          · rw [if_pos ⟨h0, le_trans (gained_mono hm0 hd0.le (Nat.le_succ n)) h1⟩] at hclock
            rw [h3, hclock.1, if_pos rfl, hclock.2, fin_add]; congr 1; push_cast; ring
        have hcast : (((n + 1 : ℕ) : ℝ) - 1) = n := by push_cast; ring
        rw [htime, hτ', hcast, fin_lt] at h4
        have hceil : (n : ℝ) * d < τ ↔ n < ⌈τ / d⌉₊ := by rw [Nat.lt_ceil, lt_div_iff₀ hd0]
        by_cases hk : ⌈τ / d⌉₊ ≤ n
        · have hle : nap τ d ≤ n + 1 := by unfold nap; omega
          have hlow : gained m g d (nap τ d) ≤ θ := le_trans (gained_mono hm0 hd0.le hle) h1
          have : ¬nap τ d ≤ n := fun hx => hc ⟨hlow, hx⟩
          have hq : nap τ d = n + 1 := by omega
          rw [if_pos ⟨hlow, hle⟩, hq]
          refine ⟨?_, hb2.position⟩
          rw [h4, decide_eq_false (by rw [hceil]; omega)]; rfl
        · rw [if_neg (by unfold nap; omega), if_pos ⟨by omega, h1⟩]
          refine ⟨?_, hb2, h2, htime⟩
          rw [h4, decide_eq_true (by rw [hceil]; omega)]; rfl

/-- A single body in a new system with gravity. -/
theorem dropped_system {m : ℝ} (hm : 0 ≤ m) (g : Vec3 ℝ) : ∃ s : System XReal (GravityGenerator XReal), Reachable s ∧ Hermit s ∧ s.iterationMax ≠ 0 ∧
    s.entities.get h0 = some (Scene.dot (fin m) .o .o [] Scene.up) ∧ gravity s.generators = g.f ∧ (∀ k y, s.generators.get k = some y → Finite3 y.acceleration) ∧
    s.energySleepThreshold = fin (1 / 1000) ∧ s.sleepTimeThreshold = fin (1 / 10) := by
  have hsrc := Scene.source_newFrom (m := fin m) (by rw [zero_eq, fin_lt]; exact decide_eq_false (not_lt.mpr hm)) .o .o
  let s1 : System XReal (GravityGenerator XReal) := ((System.new : System XReal (GravityGenerator XReal)).addGenerator ⟨g.f⟩).1
  let s : System XReal (GravityGenerator XReal) := (s1.addEntity (Scene.source (fin m) .o .o)).1
  have hreach : Reachable s :=
    ⟨_, .snoc .id (.addEntity (Scene.source (fin m) .o .o)) _ (.snoc .id (.addGenerator ⟨g.f⟩) _ .nil rfl) rfl⟩
  have hget : s.entities.get h0 = some (Scene.dot (fin m) .o .o [] Scene.up) := by
    simp only [s, s1, System.addGenerator, System.addEntity, hsrc]; rfl
  have hall : ∀ k E, s.entities.get k = some E → k = h0 ∧ E = Scene.dot (fin m) .o .o [] Scene.up := by
    intro k E hE
    have hE : ((Arena.new : Arena (InternalEntity XReal)).insert (Scene.dot (fin m) .o .o [] Scene.up)).1.get k = some E := by
      simp only [s, s1, System.addGenerator, System.addEntity, hsrc] at hE; exact hE
    rw [Arena.get_insert Arena.wf_new] at hE
    split at hE
    · rename_i hk; cases hE; exact ⟨hk, rfl⟩
    · rw [Arena.get_new] at hE; cases hE
  have hgs : s.generators = s1.generators := by simp only [s, System.addEntity, hsrc]
  have hrest : s.iterationMax = 5 ∧ s.energySleepThreshold = lit 1 1000 ∧ s.sleepTimeThreshold = lit 1 10 := by
    simp only [s, s1, System.addGenerator, System.addEntity, hsrc]; exact ⟨rfl, rfl, rfl⟩
  refine ⟨s, hreach, ⟨⟨_, hget⟩, fun k E hE => ?_, fun k E n hE hn => ?_⟩, by rw [hrest.1]; decide, hget, ?_, ?_, ?_, ?_⟩
  · obtain ⟨a, rfl⟩ := hall k E hE; exact ⟨a, rfl⟩
  · obtain ⟨-, rfl⟩ := hall k E hE; cases hn
  · rw [hgs]
    show Vec3.zeros + g.f = _
    rw [Vec3.f_zeros, Vec3.f_add, Vec3.f_inj]; ext <;> simp
  · intro k y hy
    rw [hgs] at hy
    have hy : ((Arena.new : Arena (GravityGenerator XReal)).insert ⟨g.f⟩).1.get k = some y := hy
    rw [Arena.get_insert Arena.wf_new] at hy
    split at hy
    · cases hy; exact finite3_f _
    · rw [Arena.get_new] at hy; cases hy
  · rw [hrest.2.1]; simp [lit]
  · rw [hrest.2.2]; simp [lit]

/-- **C89**, for all masses: with a gravity of 10 m/s², steps of 1/100 s and the thresholds of a new system, a body of at most 1/605 kg let go at the origin falls for 11
steps and then hangs 66 mm lower, while a heavier one falls for ever. (The hypotheses of `C89_exact_partial` are met for any number of steps.) -/
theorem C89_masses {m : ℝ} (hm : 1 / 1000000 < m) (n : ℕ) : ∃ (s s' : System XReal (GravityGenerator XReal)) (p' : Entity XReal), Reachable s ∧
    s.entities.get h0 = some (Scene.dot (fin m) .o .o [] Scene.up) ∧ gravity s.generators = Vec3.f ⟨0, -10, 0⟩ ∧ Undisturbed (fin (1 / 100)) s n s' ∧ s'.getEntity h0 = some p' ∧
    if m ≤ 1 / 605 ∧ 11 ≤ n then p'.asleep = true ∧ p'.position = Vec3.f ⟨0, -(66 / 1000), 0⟩
    else p'.asleep = false ∧ p'.velocity = Vec3.f ⟨0, -(n / 10), 0⟩ ∧ p'.position = Vec3.f ⟨0, -(n * (n + 1) / 2000), 0⟩ := by
  have hm0 : 0 ≤ m := le_trans (by norm_num) hm.le
  obtain ⟨s, hr, hh, hn, hE, hg, hf, hθ, hτ⟩ := dropped_system hm0 ⟨0, -10, 0⟩
  obtain ⟨s', -, hu⟩ := hh.undisturbed (dt := fin (1 / 100)) (proper_fin (by norm_num)) n
  have hgl : Gliding (Scene.dot (fin m) .o .o [] Scene.up) m .o .o := by
    refine ⟨rfl, ⟨?_, finite3_f .o, finite3_f .o, finite3_f .o⟩, rfl, rfl, rfl⟩
    show FinitePose (Scene.pose .o).f
    exact ⟨finite3_f _, finite3_f _, rfl, ⟨rfl, rfl, rfl⟩⟩
  obtain ⟨p', hp', hc⟩ := C89_exact_partial (by norm_num) hu hn hE rfl rfl rfl hm hgl hg hf hθ hτ
  refine ⟨s, s', p', hr, hE, hg, hu, hp', ?_⟩
  have hnap : nap (1 / 10) (1 / 100) = 11 := by
    unfold nap
    rw [show (1 / 10 : ℝ) / (1 / 100) = ((10 : ℕ) : ℝ) by norm_num, Nat.ceil_natCast]
  have hgain : gained m ⟨0, -10, 0⟩ (1 / 100) 11 ≤ 1 / 1000 ↔ m ≤ 1 / 605 := by
    unfold gained; simp only [Vec3.dot_def]
    constructor <;> intro h <;> push_cast at * <;> linarith
  rw [hnap] at hc
  split at hc
  · rename_i h; rw [hgain] at h; rw [if_pos h]
    refine ⟨hc.1, ?_⟩
    rw [hc.2, Vec3.f_inj]; unfold fallen; ext <;> simp; norm_num
  · rename_i h; rw [hgain] at h; rw [if_neg h]
    refine ⟨hc.1, ?_, ?_⟩
    · rw [hc.2.1, Vec3.f_inj]; ext <;> simp; ring
    · rw [hc.2.2, Vec3.f_inj]; unfold fallen; ext <;> simp; ring
end

/-! ### In binary32 -/
section
open F32
variable [Libm]

/-- Gravity as on earth, and a body of 1 g. -/
def featherCalls : List (Op F32 (GravityGenerator F32)) :=
  [.addGenerator ⟨⟨num 0, num (-981) 100, num 0⟩⟩, .addEntity (thing (num 1 1000) (vec 0 0 0) (vec 0 0 0))]

/-- **C89 is false**: with gravity as on earth, steps of 1/60 s and the thresholds of a new system, a body of 1 g that is let go, alone in the world, is put to sleep after
seven steps, and hangs there however many steps of whatever length follow. -/
theorem C89_false : ∃ (s : System F32 (GravityGenerator F32)) (p : Entity F32), Reachable s ∧ Hermit s ∧ s.getEntity h0 = some p ∧ p.ownMass = num 1 1000 ∧
    p.asleep = true ∧ s.generators.get h0 = some ⟨⟨num 0, num (-981) 100, num 0⟩⟩ ∧
    ∀ (dt : F32), Proper dt → ∀ n : ℕ, (∃ s', Undisturbed dt s n s') ∧
      ∀ s', Undisturbed dt s n s' → ∃ p', s'.getEntity h0 = some p' ∧ p'.position = p.position ∧ p'.asleep = true := by
  have h : ((play (plain (featherCalls ++ List.replicate 7 (Op.step (num 1 60)))) (System.new : System F32 (GravityGenerator F32))).test fun r =>
      r.1.entities.handles == [h0] && (match r.1.entities.get h0, r.1.generators.get h0 with
        | some a, some g => a.asleep && (a.colliders == [] && (a.neighbors == [] && (same a.ownMass (num 1 1000) && vecEq g.acceleration ⟨num 0, num (-981) 100, num 0⟩)))
        | _, _ => false)) = true := by kernel_refl
  obtain ⟨⟨s, outs⟩, hplay, h⟩ := Res.of_test h
  simp only [Bool.and_eq_true, beq_iff_eq] at h
  obtain ⟨hl, h⟩ := h
  split at h
  case h_2 => cases h
  case h_1 a g ha hg =>
  simp only [Bool.and_eq_true, beq_iff_eq, same_iff, vecEq_iff] at h
  obtain ⟨hs, hc, hn, hm, hacc⟩ := h
  have hall : ∀ k E, s.entities.get k = some E → k = h0 ∧ E = a := by
    intro k E hE
    have : k ∈ s.entities.handles := Arena.mem_handles.mpr ⟨E, hE⟩
    rw [hl, List.mem_singleton] at this
    subst this
    rw [ha] at hE; cases hE; exact ⟨rfl, rfl⟩
  have hher : Hermit s := by
    refine ⟨⟨a, ha⟩, fun k E hE => ?_, fun k E n hE hk => ?_⟩
    · obtain ⟨q, rfl⟩ := hall k E hE; exact ⟨q, hc⟩
    · obtain ⟨-, rfl⟩ := hall k E hE; rw [hn] at hk; cases hk
  have hp : s.getEntity h0 = some a.makePub := getEntity_eq_some.mpr ⟨a, ha, rfl⟩
  refine ⟨s, a.makePub, play_reachable hplay, hher, hp, hm, hs, ?_, fun dt hdt n => ⟨?_, fun s' hu => C89_sleeper_hangs hdt hu hp hs⟩⟩
  · have : g = ⟨⟨num 0, num (-981) 100, num 0⟩⟩ := by cases g; simp only at hacc; rw [hacc]
    rw [← this]; exact hg
  · obtain ⟨s', -, hu⟩ := hher.undisturbed hdt n
    exact ⟨s', hu⟩

end
end Fluffy.Props
