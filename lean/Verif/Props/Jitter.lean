import Verif.Props.Drop
import Verif.Props.Room
import Verif.Props.Awake
/-
C103: a ball that is put down on a floor comes to rest.
-/
set_option linter.unusedSectionVars false
set_option linter.unusedSimpArgs false
namespace Fluffy.Props
open Fluffy XReal InternalEntity Step Demo Scene

/-- Steps of length `d` without end, with any iteration orders. -/
def Unrolls (d : ℝ) (s : System XReal (GravityGenerator XReal)) (f : ℕ → System XReal (GravityGenerator XReal)) : Prop :=
  f 0 = s ∧ ∀ j, ∃ ord, (f j).step ord (fin d) = .ok (f (j + 1))

section
variable {bh fh ch ch' : Handle} {B F : InternalEntity XReal} {sc : SphereCollider XReal} {pl : PlaneCollider XReal} {o q : Orientation ℝ} {r : ℝ}
  {c P n G v : Vec3 ℝ} {m i ρ t μs μd γ d : ℝ} {s s' : System XReal (GravityGenerator XReal)} {ord : IterOrder}

theorem Rebound.straight (hn : n.dot n = 1) (u : ℝ) : Rebound n m ρ t μs μd (n.scale u) = n.scale (-(ρ * u)) := by
  have h1 : (n.scale u).dot n = u := by rw [Vec3.scale_dot, hn, one_mul]
  have h2 : along' n (n.scale u) = .o := by
    unfold along'
    rw [h1]; ext <;> simp
  unfold Rebound
  simp only [h1, h2]
  ext <;> simp <;> ring

/-- A ball over the floor at a height `h`, leaving it with a speed `w` that gravity turns round in the next step, so that it gets back to the floor in that step. -/
structure Trembles (γ d ρ h w : ℝ) : Prop where
  above : 0 ≤ h
  leaves : 0 ≤ w
  slow : w ≤ ρ * (γ * d)
  returns : h < d * (γ * d - w)

theorem Trembles.next {h w : ℝ} (hd : 0 < d) (hγ : 0 < γ) (hρ : 0 ≤ ρ) (hρ2 : ρ < 1 / 2) (hT : Trembles γ d ρ h w) :
    Trembles γ d ρ (ρ * (d * (γ * d - w) - h)) (ρ * (γ * d - w)) := by
  obtain ⟨h1, h2, h3, h4⟩ := hT
  have ha : 0 < γ * d := mul_pos hγ hd
  have hu : 0 ≤ γ * d - w := by nlinarith
  refine ⟨mul_nonneg hρ (by linarith), mul_nonneg hρ hu, ?_, ?_⟩
  · exact mul_le_mul_of_nonneg_left (by linarith) hρ
  · have k1 : ρ * (d * (γ * d - w) - h) ≤ ρ * (d * (γ * d)) := mul_le_mul_of_nonneg_left (by nlinarith) hρ
    have k2 : ρ * (γ * d - w) ≤ ρ * (γ * d) := mul_le_mul_of_nonneg_left (by linarith) hρ
    have k3 : d * (ρ * (γ * d - w)) ≤ d * (ρ * (γ * d)) := mul_le_mul_of_nonneg_left k2 hd.le
    have k4 : 0 < d * (γ * d) := mul_pos hd ha
    nlinarith

/-- What a step does to it. -/
theorem Leap.tremble {x x' v' : Vec3 ℝ} {w : ℝ} (hn : n.dot n = 1) (hd : 0 < d) (hγ : 0 < γ) (hρ : 0 ≤ ρ) (hρ2 : ρ < 1 / 2) (hk : 1 / 1000000 ≤ (1 - ρ) * (γ * d))
    (hk' : 1 / 1000000 ≤ d * ((1 - ρ) * (γ * d)))
    (hT : Trembles γ d ρ (clearance x P n r) w) (hl : Leap P n r m ρ t μs μd d x (n.scale w + (n.scale (-γ)).scale d) x' v') :
    v' = n.scale (ρ * (γ * d - w)) ∧ clearance x' P n r = ρ * (d * (γ * d - w) - clearance x P n r) := by
  obtain ⟨h1, h2, h3, h4⟩ := hT
  have hv : n.scale w + (n.scale (-γ)).scale d = n.scale (w - γ * d) := by ext <;> simp <;> ring
  have hdot : (n.scale (w - γ * d)).dot n = w - γ * d := by rw [Vec3.scale_dot, hn, one_mul]
  have hcl : ∀ (x y : Vec3 ℝ) (a : ℝ), clearance (x + y.scale a) P n r = clearance x P n r + a * y.dot n := by
    intro x w a; simp only [clearance, Vec3.dot_def, Vec3.add_x, Vec3.add_y, Vec3.add_z, Vec3.sub_x, Vec3.sub_y, Vec3.sub_z, Vec3.scale_x, Vec3.scale_y, Vec3.scale_z]; ring
  rw [hv] at hl
  have hu : w - γ * d ≤ -(1 / 1000000) := by nlinarith
  rcases hl with ⟨e1, e2, e3 | ⟨e3, e4 | e4⟩⟩ | ⟨τ, t0, t1, -, hc, e1, e2⟩
  · rw [hdot] at e3; linarith
  · rw [hdot] at e4; nlinarith
  · rw [hcl, hdot] at e4; nlinarith
  · rw [Rebound.straight hn] at e1
    have e1' : v' = n.scale (ρ * (γ * d - w)) := by rw [e1]; congr 1; ring
    refine ⟨e1', ?_⟩
    have hd2 : (n.scale (ρ * (γ * d - w))).dot n = ρ * (γ * d - w) := by rw [Vec3.scale_dot, hn, one_mul]
    rw [e2, hcl, hcl, hdot, e1', hd2]
    rcases hc with ⟨rfl, hc⟩ | ⟨-, hc⟩
    · have : clearance x P n r = 0 := le_antisymm hc h1
      rw [this]; ring
    · rw [hcl, hdot] at hc
      nlinarith

theorem Drops.energy (hL : Drops s bh fh ch ch' B F sc pl o q r c P n G m i ρ t μs μd v) : B.totalEnergy = fin (m * v.dot v / 2) := by
  have h2 : (2 : ℝ) ≠ 0 := by norm_num
  have hI : B.orientation.finalizeMomentOfInertia B.preppedMoment = (Mat3.diag ⟨i, i, i⟩).f := by rw [hL.pose, hL.moment.1, finalize_diag hL.unit]
  unfold totalEnergy momentOfInertia
  rw [hI, hL.mass.1, hL.moves.1, hL.moves.2]
  simp [fin_div h2, Vec3.scale_dot, Mat3.diag, Vec3.dot_def]
  ring

/-- A ball that trembles on a floor that sleeps. -/
structure Tremor (s : System XReal (GravityGenerator XReal)) (bh fh ch ch' : Handle) (sc : SphereCollider XReal) (pl : PlaneCollider XReal) (q : Orientation ℝ) (r : ℝ)
    (c P n : Vec3 ℝ) (γ d m i ρ t μs μd : ℝ) (B F : InternalEntity XReal) (o : Orientation ℝ) (w : ℝ) : Prop where
  drops : Drops s bh fh ch ch' B F sc pl o q r c P n (n.scale (-γ)) m i ρ t μs μd (n.scale w)
  abed : F.asleep = true
  tiny : Trembles γ d ρ (clearance o.position P n r) w

/-- The conditions on the step: the restitution is less than a half, and gravity is not negligible. -/
structure Weighty (γ d ρ : ℝ) : Prop where
  proper : 1 / 1000000 ≤ d
  down : 0 < γ
  back : 0 ≤ ρ ∧ ρ < 1 / 2
  speed : 1 / 1000000 ≤ (1 - ρ) * (γ * d)
  way : 1 / 1000000 ≤ d * ((1 - ρ) * (γ * d))

variable {w : ℝ}

theorem Tremor.next (hW : Weighty γ d ρ) (hh : s.step ord (fin d) = .ok s') (hL : Tremor s bh fh ch ch' sc pl q r c P n γ d m i ρ t μs μd B F o w) :
    ∃ B' F' o', s'.entities.get bh = some B' ∧ B'.orientation = o'.f ∧ clearance o'.position P n r = ρ * (d * (γ * d - w) - clearance o.position P n r) ∧
      (Scalar.lt s.energySleepThreshold (fin (m * (ρ * (γ * d - w)) ^ 2 / 2)) = true → B'.asleep = false) ∧
      (B'.asleep = false → Tremor s' bh fh ch ch' sc pl q r c P n γ d m i ρ t μs μd B' F' o' (ρ * (γ * d - w))) := by
  have hd0 : 0 < d := lt_of_lt_of_le (by norm_num) hW.proper
  have hn := hL.drops.setting.one
  obtain ⟨B', F', o', v', gB, gF, hl, hp, -, k1, k2, k3⟩ := drop_step hW.proper hh hL.drops
  obtain ⟨rfl, hc⟩ := hl.tremble hn hd0 hW.down hW.back.1 hW.back.2 hW.speed hW.way hL.tiny
  have hE : (n.scale (ρ * (γ * d - w))).dot (n.scale (ρ * (γ * d - w))) = (ρ * (γ * d - w)) ^ 2 := by
    rw [Vec3.scale_dot, Vec3.dot_comm, Vec3.scale_dot, hn]; ring
  rw [hE] at k2
  refine ⟨B', F', o', gB, hp, hc, k2, fun aw => ⟨k3 aw ((k1 hL.abed).trans hL.abed.symm), k1 hL.abed, ?_⟩⟩
  rw [hc]
  exact hL.tiny.next hd0 hW.down hW.back.1 hW.back.2

/-- A ball without velocity that touches the floor. -/
theorem DropsOn.tremor {ball floor : Entity XReal} {x : Vec3 ℝ} (hW : Weighty γ d ρ) (hR : DropsOn s bh fh ch ch' ball floor sc pl r x P n (n.scale (-γ)) m i ρ t μs μd .o)
    (hx : clearance x P n r = 0) (hF : floor.asleep = true) :
    ∃ q c B F o, ball = B.makePub ∧ s.entities.get bh = some B ∧ Tremor s bh fh ch ch' sc pl q r c P n γ d m i ρ t μs μd B F o 0 ∧ o.position = x := by
  have hd0 : 0 < d := lt_of_lt_of_le (by norm_num) hW.proper
  obtain ⟨B, F, o, q, c, rfl, rfl, rfl, hL⟩ := hR.drops
  have h0 : n.scale 0 = .o := by ext <;> simp
  refine ⟨q, c, B, F, o, rfl, hL.setting.get1, ⟨by rw [h0]; exact hL, hF, ?_⟩, rfl⟩
  have := mul_pos hW.down hd0
  exact ⟨hx.ge, le_rfl, mul_nonneg hW.back.1 this.le, by rw [hx, sub_zero]; exact mul_pos hd0 this⟩

variable {ball floor : Entity XReal} {x : Vec3 ℝ} {f : ℕ → System XReal (GravityGenerator XReal)} {ε : ℝ}

/-- **C103 (the ball never rests).** A ball is put at rest on a sleeping floor that it touches; the restitution `ρ` is less than a half. If the energy of the velocity
`ρ (1 - ρ) γ d`, which the bounces give it, is above the threshold, then the ball never falls asleep, and it has at least this velocity after every step. -/
theorem C103_never (hW : Weighty γ d ρ) (hR : DropsOn s bh fh ch ch' ball floor sc pl r x P n (n.scale (-γ)) m i ρ t μs μd .o) (hx : clearance x P n r = 0)
    (hF : floor.asleep = true) (hε : s.energySleepThreshold = fin ε) (much : ε < m * (ρ * (1 - ρ) * (γ * d)) ^ 2 / 2) (hf : Unrolls d s f) (k : ℕ) :
    ∃ ball' w, (f (k + 1)).getEntity bh = some ball' ∧ ball'.asleep = false ∧ ball'.velocity = Vec3.f (n.scale w) ∧ ρ * (1 - ρ) * (γ * d) ≤ w := by
  have hd0 : 0 < d := lt_of_lt_of_le (by norm_num) hW.proper
  have hm0 : 0 < m := lt_trans (by norm_num) hR.mass.2
  obtain ⟨q, c, B, F, o, -, -, hT, -⟩ := hR.tremor hW hx hF
  have ha : 0 < γ * d := mul_pos hW.down hd0
  obtain ⟨p1, p2⟩ := hW.back
  have step : ∀ {j B F o w}, Tremor (f j) bh fh ch ch' sc pl q r c P n γ d m i ρ t μs μd B F o w → (f j).energySleepThreshold = fin ε →
      ∃ B' F' o', Tremor (f (j + 1)) bh fh ch ch' sc pl q r c P n γ d m i ρ t μs μd B' F' o' (ρ * (γ * d - w)) ∧ (f (j + 1)).energySleepThreshold = fin ε ∧
        ρ * (1 - ρ) * (γ * d) ≤ ρ * (γ * d - w) := by
    intro j B F o w hT he
    obtain ⟨ord, hh⟩ := hf.2 j
    have hle : ρ * (1 - ρ) * (γ * d) ≤ ρ * (γ * d - w) := by
      have := mul_le_mul_of_nonneg_left hT.tiny.slow p1
      nlinarith
    obtain ⟨B', F', o', -, -, -, k2, k3⟩ := hT.next hW hh
    refine ⟨B', F', o', k3 (k2 ?_), by rw [(step_frame hh).1.energy]; exact he, hle⟩
    rw [he, fin_lt, decide_eq_true_eq]
    have h0 : 0 ≤ ρ * (1 - ρ) * (γ * d) := mul_nonneg (mul_nonneg p1 (by linarith)) ha.le
    have := mul_le_mul_of_nonneg_left (pow_le_pow_left₀ h0 hle 2) hm0.le
    linarith
  have run : ∃ B F o w, Tremor (f (k + 1)) bh fh ch ch' sc pl q r c P n γ d m i ρ t μs μd B F o w ∧ (f (k + 1)).energySleepThreshold = fin ε ∧
      ρ * (1 - ρ) * (γ * d) ≤ w := by
    induction k with
    | zero =>
      obtain ⟨B', F', o', h1, h2, h3⟩ := step (j := 0) (by rw [hf.1]; exact hT) (by rw [hf.1]; exact hε)
      exact ⟨B', F', o', _, h1, h2, h3⟩
    | succ k ih =>
      obtain ⟨B, F, o, w, h1, h2, -⟩ := ih
      obtain ⟨B', F', o', h1, h2, h3⟩ := step h1 h2
      exact ⟨B', F', o', _, h1, h2, h3⟩
  obtain ⟨B', F', o', w, h1, -, h3⟩ := run
  exact ⟨B'.makePub, w, getEntity_iff.mpr ⟨B', h1.drops.setting.get1, rfl⟩, h1.drops.awake, h1.drops.moves.1, h3⟩

/-- **C103 (partial).** The same, but the energy of the velocity `ρ γ d` is not above the threshold: then the ball falls asleep. Missing: the other case (`C103_never`),
and restitutions of a half or more. -/
theorem C103_partial (hW : Weighty γ d ρ) (hR : DropsOn s bh fh ch ch' ball floor sc pl r x P n (n.scale (-γ)) m i ρ t μs μd .o) (hx : clearance x P n r = 0)
    (hF : floor.asleep = true) (hε : s.energySleepThreshold = fin ε) (little : m * (ρ * (γ * d)) ^ 2 / 2 ≤ ε) {T : ℝ} (hτ : s.sleepTimeThreshold = fin T)
    (hf : Unrolls d s f) : ∃ k ball', (f k).getEntity bh = some ball' ∧ ball'.asleep = true := by
  by_contra hno
  have hd0 : 0 < d := lt_of_lt_of_le (by norm_num) hW.proper
  have hm0 : 0 < m := lt_trans (by norm_num) hR.mass.2
  obtain ⟨q, c, B, F, o, -, gB, hT, -⟩ := hR.tremor hW hx hF
  obtain ⟨t0, ht0⟩ := clocks_finite hR.history gB
  obtain ⟨p1, p2⟩ := hW.back
  have run : ∀ k, (f k).energySleepThreshold = fin ε ∧ Restless bh (fin d) s k (f k) ∧
      ∃ B F o w, Tremor (f k) bh fh ch ch' sc pl q r c P n γ d m i ρ t μs μd B F o w := by
    intro k
    induction k with
    | zero => rw [hf.1]; exact ⟨hε, .nil, B, F, o, 0, hT⟩
    | succ k ih =>
      obtain ⟨he, hr, B, F, o, w, hT⟩ := ih
      obtain ⟨ord, hh⟩ := hf.2 k
      obtain ⟨B', F', o', gB', -, -, -, k3⟩ := hT.next hW hh
      have aw : B'.asleep = false := by
        cases hb : B'.asleep with
        | false => rfl
        | true => exact absurd ⟨k + 1, B'.makePub, getEntity_iff.mpr ⟨B', gB', rfl⟩, hb⟩ hno
      have hT' := k3 aw
      have he' : (f (k + 1)).energySleepThreshold = fin ε := by rw [(step_frame hh).1.energy]; exact he
      refine ⟨he', .snoc ord hr hh gB' ?_ aw, B', F', o', _, hT'⟩
      have hn := hT'.drops.setting.one
      rw [he', hT'.drops.energy, fin_lt, decide_eq_false_iff_not, not_lt]
      have hE : (n.scale (ρ * (γ * d - w))).dot (n.scale (ρ * (γ * d - w))) = (ρ * (γ * d - w)) ^ 2 := by
        rw [Vec3.scale_dot, Vec3.dot_comm, Vec3.scale_dot, hn]; ring
      rw [hE]
      have := mul_le_mul_of_nonneg_left (pow_le_pow_left₀ hT'.tiny.leaves hT'.tiny.slow 2) hm0.le
      linarith
  obtain ⟨k, hk⟩ := exists_nat_gt (|T - t0| / d + 1)
  obtain ⟨-, hr, -⟩ := run k
  obtain ⟨i0, e, he, hc⟩ := hr.clock (proper_fin hW.proper) gB
  have hpos : 0 ≤ |T - t0| / d := div_nonneg (abs_nonneg _) hd0.le
  rcases hc with ⟨rfl, -⟩ | ⟨j, hj, -, hc, hl⟩
  · simp at hk; linarith
  · rw [hc, ht0, clock_exact, i0, hτ, fin_lt, decide_eq_true_eq] at hl
    have hj' : (k : ℝ) ≤ j + 1 := by exact_mod_cast (show k ≤ j + 1 by omega)
    have h2 : |T - t0| / d < j := by linarith
    rw [div_lt_iff₀ hd0] at h2
    have := le_abs_self (T - t0)
    linarith

/-- **C103 (what the code does).** As long as the ball is awake, its velocity and its height after `k` steps are these: they approach `ρ γ d / (1 + ρ)` and
`ρ γ d² / (1 + ρ)²`. -/
theorem C103_course (hW : Weighty γ d ρ) (hR : DropsOn s bh fh ch ch' ball floor sc pl r x P n (n.scale (-γ)) m i ρ t μs μd .o) (hx : clearance x P n r = 0)
    (hF : floor.asleep = true) (hf : Unrolls d s f) (k : ℕ) (aw : ∀ j ≤ k, ∀ b, (f j).getEntity bh = some b → b.asleep = false) :
    ∃ ball' x', (f k).getEntity bh = some ball' ∧ ball'.velocity = Vec3.f (n.scale (ρ * γ * d / (1 + ρ) * (1 - (-ρ) ^ k))) ∧ ball'.position = Vec3.f x' ∧
      clearance x' P n r = ρ * γ * d ^ 2 / (1 + ρ) ^ 2 * (1 - (-ρ) ^ k * (1 + k * (1 + ρ))) := by
  obtain ⟨q, c, B, F, o, -, -, hT, ho⟩ := hR.tremor hW hx hF
  have hρ : 1 + ρ ≠ 0 := by linarith [hW.back.1]
  have run : ∃ B F o, Tremor (f k) bh fh ch ch' sc pl q r c P n γ d m i ρ t μs μd B F o (ρ * γ * d / (1 + ρ) * (1 - (-ρ) ^ k)) ∧
      clearance o.position P n r = ρ * γ * d ^ 2 / (1 + ρ) ^ 2 * (1 - (-ρ) ^ k * (1 + k * (1 + ρ))) := by
    induction k with
    | zero => rw [hf.1]; exact ⟨B, F, o, by simpa using hT, by rw [ho, hx]; simp⟩
    | succ k ih =>
      obtain ⟨B, F, o, hT, hc⟩ := ih (fun j hj => aw j (by omega))
      obtain ⟨ord, hh⟩ := hf.2 k
      obtain ⟨B', F', o', gB', -, k1, -, k3⟩ := hT.next hW hh
      have hT' := k3 (aw (k + 1) le_rfl _ (getEntity_iff.mpr ⟨B', gB', rfl⟩))
      refine ⟨B', F', o', ?_, ?_⟩
      · convert hT' using 1
        rw [pow_succ]; field_simp; ring
      · rw [k1, hc, pow_succ]; push_cast; field_simp; ring
  obtain ⟨B', F', o', h1, h2⟩ := run
  refine ⟨B'.makePub, o'.position, getEntity_iff.mpr ⟨B', h1.drops.setting.get1, rfl⟩, h1.drops.moves.1, ?_, h2⟩
  show B'.orientation.position = _
  rw [h1.drops.pose]; rfl

/-- As long as the ball is awake: where it is, and that its sleep clock shows a finite time. -/
theorem Tremor.course (hW : Weighty γ d ρ) (hT : Tremor s bh fh ch ch' sc pl q r c P n γ d m i ρ t μs μd B F o 0) {t0 : ℝ} (ht0 : B.fallingAsleepTime = fin t0)
    (hf : Unrolls d s f) (k : ℕ) (aw : ∀ j ≤ k, ∀ b, (f j).getEntity bh = some b → b.asleep = false) :
    ∃ B F o, Tremor (f k) bh fh ch ch' sc pl q r c P n γ d m i ρ t μs μd B F o (ρ * γ * d / (1 + ρ) * (1 - (-ρ) ^ k)) ∧ ∃ t : ℝ, B.fallingAsleepTime = fin t := by
  have hρ : 1 + ρ ≠ 0 := by linarith [hW.back.1]
  induction k with
  | zero => rw [hf.1]; exact ⟨B, F, o, by simpa using hT, t0, ht0⟩
  | succ k ih =>
    obtain ⟨B, F, o, hT, u, hu⟩ := ih (fun j hj => aw j (by omega))
    obtain ⟨ord, hh⟩ := hf.2 k
    obtain ⟨B', F', o', gB', -, k1, -, k3⟩ := hT.next hW hh
    have hT' := k3 (aw (k + 1) le_rfl _ (getEntity_iff.mpr ⟨B', gB', rfl⟩))
    refine ⟨B', F', o', ?_, ?_⟩
    · convert hT' using 1
      rw [pow_succ]; field_simp; ring
    · rcases step_dozes (proper_fin hW.proper) hh hT.drops.setting.get1 gB' with ⟨-, h, -⟩ | ⟨-, -, -, -, h⟩ | ⟨-, -, -, h, -⟩
      · rw [hT.drops.awake] at h; cases h
      · exact ⟨0, h.trans zero_eq⟩
      · rw [h, hu]
        split
        · exact ⟨u + d, fin_add u d⟩
        · exact ⟨u, rfl⟩

/-- **C103 (exactly when).** For a restitution between 0 and 1/2 and a positive sleep time: a ball that is put at rest on a sleeping floor falls asleep if and only if
the energy of the velocity `ρ γ d / (1 + ρ)` is below the threshold. -/
theorem C103_exact_partial (hW : Weighty γ d ρ) (hρ : 0 < ρ) (hR : DropsOn s bh fh ch ch' ball floor sc pl r x P n (n.scale (-γ)) m i ρ t μs μd .o)
    (hx : clearance x P n r = 0) (hF : floor.asleep = true) (hε : s.energySleepThreshold = fin ε) {T : ℝ} (hτ : s.sleepTimeThreshold = fin T) (hT0 : 0 < T)
    (hf : Unrolls d s f) : (∃ k ball', (f k).getEntity bh = some ball' ∧ ball'.asleep = true) ↔ m * (ρ * γ * d / (1 + ρ)) ^ 2 / 2 < ε := by
  have hd0 : 0 < d := lt_of_lt_of_le (by norm_num) hW.proper
  have hm0 : 0 < m := lt_trans (by norm_num) hR.mass.2
  obtain ⟨q, c, B, F, o, -, gB, hT, -⟩ := hR.tremor hW hx hF
  obtain ⟨t0, ht0⟩ := clocks_finite hR.history gB
  have hs : ∀ k, (f k).energySleepThreshold = fin ε ∧ (f k).sleepTimeThreshold = fin T := by
    intro k
    induction k with
    | zero => rw [hf.1]; exact ⟨hε, hτ⟩
    | succ k ih =>
      obtain ⟨ord, hh⟩ := hf.2 k
      rw [(step_frame hh).1.energy, (step_frame hh).1.time]; exact ih
  have hdot : ∀ {k B F o w}, Tremor (f k) bh fh ch ch' sc pl q r c P n γ d m i ρ t μs μd B F o w → B.totalEnergy = fin (m * w ^ 2 / 2) := by
    intro k B F o w h
    rw [h.drops.energy]
    congr 3
    rw [Vec3.scale_dot, Vec3.dot_comm, Vec3.scale_dot, h.drops.setting.one]; ring
  set W := ρ * γ * d / (1 + ρ) with hWd
  have hWp : 0 < W := div_pos (mul_pos (mul_pos hρ hW.down) hd0) (by linarith)
  have hρ1 : 1 + ρ ≠ 0 := by linarith
  constructor
  · rintro ⟨k, b, hb, hsl⟩
    by_contra hge
    rw [not_lt] at hge
    -- after an odd number of steps it is faster than `W`, and its sleep clock starts anew
    have main : ∀ j, (∃ B F o, Tremor (f (2 * j)) bh fh ch ch' sc pl q r c P n γ d m i ρ t μs μd B F o (W * (1 - (-ρ) ^ (2 * j)))) ∧
        ∃ B F o, Tremor (f (2 * j + 1)) bh fh ch ch' sc pl q r c P n γ d m i ρ t μs μd B F o (W * (1 - (-ρ) ^ (2 * j + 1))) ∧
          B.fallingAsleep = false ∧ B.fallingAsleepTime = zero := by
      have odd : ∀ j, (∃ B F o, Tremor (f (2 * j)) bh fh ch ch' sc pl q r c P n γ d m i ρ t μs μd B F o (W * (1 - (-ρ) ^ (2 * j)))) →
          ∃ B F o, Tremor (f (2 * j + 1)) bh fh ch ch' sc pl q r c P n γ d m i ρ t μs μd B F o (W * (1 - (-ρ) ^ (2 * j + 1))) ∧
            B.fallingAsleep = false ∧ B.fallingAsleepTime = zero := by
        rintro j ⟨B, F, o, hT⟩
        obtain ⟨ord, hh⟩ := hf.2 (2 * j)
        obtain ⟨B', F', o', gB', -, -, k2, k3⟩ := hT.next hW hh
        have e : ρ * (γ * d - W * (1 - (-ρ) ^ (2 * j))) = W * (1 - (-ρ) ^ (2 * j + 1)) := by rw [hWd, pow_succ]; field_simp; ring
        have hp : (-ρ) ^ (2 * j + 1) < 0 := Odd.pow_neg ⟨j, rfl⟩ (by linarith)
        have hlt : W < W * (1 - (-ρ) ^ (2 * j + 1)) := by nlinarith
        have hen : Scalar.lt (fin ε) (fin (m * (W * (1 - (-ρ) ^ (2 * j + 1))) ^ 2 / 2)) = true := by
          rw [fin_lt, decide_eq_true_eq]
          have := mul_lt_mul_of_pos_left (pow_lt_pow_left₀ hlt hWp.le two_ne_zero) hm0
          linarith
        rw [e] at k2 k3
        have hT' := k3 (k2 (by rw [(hs _).1]; exact hen))
        refine ⟨B', F', o', hT', ?_⟩
        rcases step_dozes (proper_fin hW.proper) hh hT.drops.setting.get1 gB' with ⟨-, h, -⟩ | ⟨-, -, -, h1, h2⟩ | ⟨-, h, -⟩
        · rw [hT.drops.awake] at h; cases h
        · exact ⟨h1, h2⟩
        · rw [(hs _).1, hdot hT', hen] at h; cases h
      intro j
      induction j with
      | zero => 
        have h0 : ∃ B F o, Tremor (f (2 * 0)) bh fh ch ch' sc pl q r c P n γ d m i ρ t μs μd B F o (W * (1 - (-ρ) ^ (2 * 0))) := by
          rw [Nat.mul_zero, hf.1]; exact ⟨B, F, o, by simpa using hT⟩
        exact ⟨h0, odd 0 h0⟩
      | succ j ih =>
        obtain ⟨-, B, F, o, hT, c1, c2⟩ := ih
        obtain ⟨ord, hh⟩ := hf.2 (2 * j + 1)
        obtain ⟨B', F', o', gB', -, -, -, k3⟩ := hT.next hW hh
        have e : ρ * (γ * d - W * (1 - (-ρ) ^ (2 * j + 1))) = W * (1 - (-ρ) ^ (2 * (j + 1))) := by
          rw [hWd, show 2 * (j + 1) = 2 * j + 1 + 1 by ring, pow_succ _ (2 * j + 1)]; field_simp; ring
        have aw : B'.asleep = false := by
          rcases step_dozes (proper_fin hW.proper) hh hT.drops.setting.get1 gB' with ⟨-, h, -⟩ | ⟨-, -, h, -⟩ | ⟨-, -, -, h1, h2⟩
          · rw [hT.drops.awake] at h; cases h
          · exact h
          · rw [h2, h1, c1, c2, (hs _).2, zero_eq]; simpa using hT0
        have h0 : ∃ B F o, Tremor (f (2 * (j + 1))) bh fh ch ch' sc pl q r c P n γ d m i ρ t μs μd B F o (W * (1 - (-ρ) ^ (2 * (j + 1)))) := by
          rw [← e]; exact ⟨B', F', o', k3 aw⟩
        exact ⟨h0, odd _ h0⟩
    have : ∃ B F o w, Tremor (f k) bh fh ch ch' sc pl q r c P n γ d m i ρ t μs μd B F o w := by
      rcases Nat.even_or_odd' k with ⟨j, rfl | rfl⟩
      · obtain ⟨⟨B, F, o, h⟩, -⟩ := main j; exact ⟨B, F, o, _, h⟩
      · obtain ⟨-, B, F, o, h, -⟩ := main j; exact ⟨B, F, o, _, h⟩
    obtain ⟨B, F, o, w, h⟩ := this
    obtain ⟨Y, gY, rfl⟩ := getEntity_iff.mp hb
    rw [h.drops.setting.get1] at gY; cases gY
    have := h.drops.awake
    rw [show B.makePub.asleep = B.asleep from rfl, this] at hsl; cases hsl
  · intro hlt
    by_contra hno
    have aw : ∀ j b, (f j).getEntity bh = some b → b.asleep = false := by
      intro j b hb
      cases h : b.asleep with
      | false => rfl
      | true => exact absurd ⟨j, b, hb, h⟩ hno
    -- from some step on the energy is low
    obtain ⟨K, hK⟩ : ∃ K : ℕ, ∀ k ≥ K, m * (W * (1 - (-ρ) ^ k)) ^ 2 / 2 ≤ ε := by
      have h1 : Filter.Tendsto (fun k : ℕ => m * (W * (1 - (-ρ) ^ k)) ^ 2 / 2) Filter.atTop (nhds (m * (W * (1 - 0)) ^ 2 / 2)) := by
        have h0 : Filter.Tendsto (fun k : ℕ => (-ρ) ^ k) Filter.atTop (nhds 0) :=
          tendsto_pow_atTop_nhds_zero_of_abs_lt_one (by rw [abs_neg, abs_of_pos hρ]; linarith [hW.back.2])
        exact ((((tendsto_const_nhds.sub h0).const_mul W).pow 2).const_mul m).div_const 2
      rw [sub_zero, mul_one] at h1
      obtain ⟨K, hK⟩ := Filter.eventually_atTop.mp (h1.eventually (gt_mem_nhds hlt))
      exact ⟨K, fun k hk => (hK k hk).le⟩
    obtain ⟨B1, F1, o1, hT1, t1, ht1⟩ := hT.course hW ht0 hf K (fun j _ => aw j)
    have run : ∀ k, Restless bh (fin d) (f K) k (f (K + k)) := by
      intro k
      induction k with
      | zero => exact .nil
      | succ k ih =>
        obtain ⟨ord, hh⟩ := hf.2 (K + k)
        obtain ⟨B2, F2, o2, hT2, -⟩ := hT.course hW ht0 hf (K + k + 1) (fun j _ => aw j)
        refine .snoc ord ih hh hT2.drops.setting.get1 ?_ hT2.drops.awake
        rw [(hs _).1, hdot hT2, fin_lt, decide_eq_false_iff_not, not_lt]
        exact hK _ (by omega)
    obtain ⟨k, hk⟩ := exists_nat_gt (|T - t1| / d + 1)
    obtain ⟨i0, e, he, hc⟩ := (run k).clock (proper_fin hW.proper) hT1.drops.setting.get1
    have hpos : 0 ≤ |T - t1| / d := div_nonneg (abs_nonneg _) hd0.le
    rcases hc with ⟨rfl, -⟩ | ⟨j, hj, -, hc, hl⟩
    · simp at hk; linarith
    · rw [hc, ht1, clock_exact, (hs _).2, fin_lt, decide_eq_true_eq] at hl
      have hj' : (k : ℝ) ≤ j + 1 := by exact_mod_cast (show k ≤ j + 1 by omega)
      have h2 : |T - t1| / d < j := by linarith
      rw [div_lt_iff₀ hd0] at h2
      have := le_abs_self (T - t1)
      linarith

/-- Steps go on for ever where they do not fail. -/
theorem unrolls_total (d : ℝ) (live : NeighborsLive s.entities) (safe : PairsSafe s.toWorld) : ∃ f, Unrolls d s f := by
  have step : ∀ a : { s : System XReal (GravityGenerator XReal) // NeighborsLive s.entities ∧ PairsSafe s.toWorld },
      ∃ b : { s : System XReal (GravityGenerator XReal) // NeighborsLive s.entities ∧ PairsSafe s.toWorld }, a.1.step .id (fin d) = .ok b.1 := by
    rintro ⟨s, live, safe⟩
    obtain ⟨s', hh, live'⟩ := step_total (ord := .id) (fin d) live safe
    exact ⟨⟨s', live', safe.frame (step_frame hh).1⟩, hh⟩
  choose g hg using step
  refine ⟨fun k => (g^[k] ⟨s, live, safe⟩).1, rfl, fun j => ⟨.id, ?_⟩⟩
  show _ = Except.ok (g^[j + 1] _).1
  rw [Function.iterate_succ_apply']
  exact hg _
end

/-- **C103 is false:** with the settings of a new system, a gravity of 10, steps of 1/60 and a restitution of 1/4 a ball of mass 3 that is put at rest on a floor never
falls asleep, and is never at rest after a step. -/
theorem C103_false : ∃ (s : System XReal (GravityGenerator XReal)) (f : ℕ → System XReal (GravityGenerator XReal)) (ball floor : Entity XReal) (sc : SphereCollider XReal)
    (pl : PlaneCollider XReal),
    DropsOn s h1 h0 h1 h0 ball floor sc pl 1 ⟨0, 1, 0⟩ .o ⟨0, 1, 0⟩ ⟨0, -10, 0⟩ 3 0 (1 / 4) 1 1 1 .o ∧ s.energySleepThreshold = lit 1 1000 ∧ s.sleepTimeThreshold = lit 1 10 ∧
      Unrolls (1 / 60) s f ∧ ∀ k, ∃ ball' v, (f (k + 1)).getEntity h1 = some ball' ∧ ball'.asleep = false ∧ ball'.velocity = Vec3.f v ∧ 1 / 32 ≤ v.y := by
  have hf := mount_finite (hill_sleeps (ρ := 1 / 2) ⟨0, -10, 0⟩) (m := 3) (k := 0) (by norm_num) le_rfl (mount_dot 3 .o)
  have hR := mount_drops hf rfl (by norm_num)
  rw [show (1 / 2 * (1 / 2) : ℝ) = 1 / 4 by norm_num] at hR
  have hG : (⟨0, -10, 0⟩ : Vec3 ℝ) = (⟨0, 1, 0⟩ : Vec3 ℝ).scale (-10) := by ext <;> simp
  have hW : Weighty 10 (1 / 60) (1 / 4) := ⟨by norm_num, by norm_num, by norm_num, by norm_num, by norm_num⟩
  have he : (lit 1 1000 : XReal) = fin (1 / 1000) := by rw [lit_eq]; norm_num
  have hx : clearance ⟨0, 1, 0⟩ .o ⟨0, 1, 0⟩ 1 = 0 := by simp [clearance, Vec3.dot_def]
  have hR' := hR
  rw [hG] at hR'
  obtain ⟨q, c, B, F, o, -, -, hT, -⟩ := hR'.tremor hW hx rfl
  obtain ⟨f, hu⟩ := unrolls_total (1 / 60) (mount_live rfl rfl) (hT.drops.setting.safe hT.drops.alone)
  refine ⟨_, f, _, _, _, _, hR, ?_, ?_, by rw [hG]; exact hu, fun k => ?_⟩
  · rfl
  · rfl
  · obtain ⟨b, w, h1, h2, h3, h4⟩ := C103_never hW hR' hx rfl he (by norm_num) hu k
    exact ⟨b, _, h1, h2, h3, by simp; norm_num at h4; linarith⟩

/-- The hypotheses of `C103_partial` can be met: a ball of mass 1/2 in the same place falls asleep. -/
example : ∃ (s : System XReal (GravityGenerator XReal)) (f : ℕ → System XReal (GravityGenerator XReal)),
    Tame' s ∧ Unrolls (1 / 60) s f ∧ ∃ k ball', (f k).getEntity h1 = some ball' ∧ ball'.asleep = true := by
  have hf := mount_finite (hill_sleeps (ρ := 1 / 2) ((⟨0, 1, 0⟩ : Vec3 ℝ).scale (-10))) (m := 1 / 2) (k := 0) (by norm_num) le_rfl (mount_dot (1 / 2) .o)
  have hR := mount_drops hf rfl (by norm_num)
  rw [show (1 / 2 * (1 / 2) : ℝ) = 1 / 4 by norm_num] at hR
  have hW : Weighty 10 (1 / 60) (1 / 4) := ⟨by norm_num, by norm_num, by norm_num, by norm_num, by norm_num⟩
  have he : (lit 1 1000 : XReal) = fin (1 / 1000) := by rw [lit_eq]; norm_num
  have ht : (lit 1 10 : XReal) = fin (1 / 10) := by rw [lit_eq]; norm_num
  have hx : clearance ⟨0, 1, 0⟩ .o ⟨0, 1, 0⟩ 1 = 0 := by simp [clearance, Vec3.dot_def]
  obtain ⟨q, c, B, F, o, -, -, hT, -⟩ := hR.tremor hW hx rfl
  obtain ⟨f, hu⟩ := unrolls_total (1 / 60) (mount_live rfl rfl) (hT.drops.setting.safe hT.drops.alone)
  exact ⟨_, f, hf, hu, C103_partial hW hR hx rfl he (by norm_num) ht hu⟩

end Fluffy.Props
