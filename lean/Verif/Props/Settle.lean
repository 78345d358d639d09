import Verif.Props.Jitter
/-
C103 for every restitution below 1, and from any height: a ball dropped on a floor comes to rest, if bounces as small as those the steps can resolve are below the threshold.
-/
set_option linter.unusedSectionVars false
set_option linter.unusedSimpArgs false
namespace Fluffy.Props
open Fluffy XReal InternalEntity Step Demo Scene

section
variable {γ d ρ : ℝ}

/-- A step of a ball that moves straight up and down, in terms of its height over the floor and its speed upward. -/
def Hop (γ d ρ H w H' w' : ℝ) : Prop :=
  (w' = w - γ * d ∧ H' = H + d * (w - γ * d) ∧ (-(1 / 1000000) < w - γ * d ∨ 0 < H ∧ (-(1 / 1000000) < d * (w - γ * d) ∨ 0 ≤ H'))) ∨
  ∃ τ, 0 ≤ τ ∧ τ < d ∧ w - γ * d ≤ -(1 / 1000000) ∧ H + τ * (w - γ * d) ≤ 0 ∧ w' = -(ρ * (w - γ * d)) ∧ H' = H + τ * (w - γ * d) + (d - τ) * w'

/-- The height a bounce that is too quick for the steps can lead to, times gravity. -/
noncomputable def residue (γ d ρ : ℝ) : ℝ := 2 * ρ * (γ * d / (1 - ρ)) ^ 2

theorem residue_nonneg (hρ : 0 ≤ ρ) : 0 ≤ residue γ d ρ := by unfold residue; positivity

/-- Each step costs energy, unless there is not more of it than quick bounces give. -/
theorem Hop.cost {H w H' w' : ℝ} (hγ : 0 < γ) (hd : 0 < d) (hρ : 0 ≤ ρ) (hρ1 : ρ < 1) (h : Hop γ d ρ H w H' w') :
    lift γ H' w' ≤ max (lift γ H w - (γ * d) ^ 2 / 2) (residue γ d ρ) := by
  rcases h with ⟨rfl, rfl, -⟩ | ⟨τ, τ0, τ1, hs, hH, rfl, rfl⟩
  · apply le_max_of_le_left
    unfold lift
    nlinarith
  · obtain ⟨u, hu⟩ : ∃ u, w - γ * d = -u := ⟨_, (neg_neg _).symm⟩
    rw [hu] at hs hH ⊢
    have hu0 : 0 ≤ u := by linarith
    have hwu : w = γ * d - u := by linarith
    have hq : 0 < 1 - ρ := by linarith
    have h1 : γ * (d - τ) ≤ γ * d := by nlinarith
    unfold lift residue
    by_cases hfast : 2 * (γ * d) ≤ (1 - ρ) * u
    · apply le_max_of_le_left
      rw [hwu]
      have h2 : 0 ≤ (1 + ρ) * u * ((1 - ρ) * u / 2 - γ * (d - τ)) := mul_nonneg (by positivity) (by linarith)
      nlinarith
    · apply le_max_of_le_right
      push Not at hfast
      set U := 2 * (γ * d) / (1 - ρ) with hU
      have hlt : u ≤ U := by rw [hU, le_div_iff₀ hq]; linarith
      have hUγ : γ * d = (1 - ρ) * U / 2 := by rw [hU]; field_simp
      have h2 : ρ * u * (γ * (d - τ)) ≤ ρ * U * (γ * d) := by
        apply mul_le_mul (mul_le_mul_of_nonneg_left hlt hρ) h1 (mul_nonneg hγ.le (by linarith)) (mul_nonneg hρ (le_trans hu0 hlt))
      have h3 : (ρ * u) ^ 2 ≤ (ρ * U) ^ 2 := by
        apply pow_le_pow_left₀ (mul_nonneg hρ hu0); exact mul_le_mul_of_nonneg_left hlt hρ
      have h4 : γ * (H + τ * -u) ≤ 0 := mul_nonpos_of_nonneg_of_nonpos hγ.le (by linarith)
      have h5 : 2 * ρ * (γ * d / (1 - ρ)) ^ 2 = ρ * U ^ 2 / 2 := by rw [hU]; field_simp
      rw [h5]
      have h6 : (ρ * U) ^ 2 / 2 + ρ * U * (γ * d) = ρ * U ^ 2 / 2 := by rw [hUγ]; ring
      nlinarith

/-- The speed such a ball has in the end, at most. -/
noncomputable def lastSpeed (γ d ρ : ℝ) : ℝ := Real.sqrt (2 * residue γ d ρ + 2 * γ / 1000000 + (1 / 1000000) ^ 2)

theorem lastSpeed_sq (hγ : 0 < γ) (hρ : 0 ≤ ρ) : lastSpeed γ d ρ ^ 2 = 2 * residue γ d ρ + 2 * γ / 1000000 + (1 / 1000000) ^ 2 :=
  Real.sq_sqrt (by have := residue_nonneg (γ := γ) (d := d) hρ; positivity)

theorem lastSpeed_tiny (hγ : 0 < γ) (hρ : 0 ≤ ρ) : 1 / 1000000 ≤ lastSpeed γ d ρ := by
  apply Real.le_sqrt_of_sq_le
  have := residue_nonneg (γ := γ) (d := d) hρ
  have : 0 ≤ 2 * γ / 1000000 := by positivity
  linarith

theorem lastSpeed_bounce (hγ : 0 < γ) (hd : 0 < d) (hρ : 0 ≤ ρ) (hρ1 : ρ < 1) : ρ * (γ * d + lastSpeed γ d ρ) ≤ lastSpeed γ d ρ := by
  have hq : 0 < 1 - ρ := by linarith
  have h : ρ * (γ * d / (1 - ρ)) ≤ lastSpeed γ d ρ := by
    apply Real.le_sqrt_of_sq_le
    unfold residue
    have h1 : 0 ≤ (γ * d / (1 - ρ)) ^ 2 := sq_nonneg _
    have h2 : ρ ^ 2 ≤ 4 * ρ := by nlinarith
    have h3 := mul_le_mul_of_nonneg_right h2 h1
    have : 0 ≤ 2 * γ / 1000000 := by positivity
    rw [mul_pow]; nlinarith
  rw [← mul_div_assoc, div_le_iff₀ hq] at h
  linarith

/-- Once there is little energy, each step slows the ball down, unless it is slow. -/
theorem Hop.slows {H w H' w' : ℝ} (hγ : 0 < γ) (hd : 0 < d) (hρ : 0 ≤ ρ) (hρ1 : ρ < 1) (h : Hop γ d ρ H w H' w') (hl : lift γ H' w' ≤ residue γ d ρ) :
    -lastSpeed γ d ρ ≤ w' ∧ (-lastSpeed γ d ρ ≤ w → w' ≤ max (lastSpeed γ d ρ) (w - γ * d)) := by
  have s1 := lastSpeed_tiny (d := d) hγ hρ
  have s2 := lastSpeed_bounce hγ hd hρ hρ1
  have s3 := lastSpeed_sq (d := d) hγ hρ
  have ha := mul_pos hγ hd
  rcases h with ⟨rfl, rfl, h⟩ | ⟨τ, τ0, τ1, hs, hH, rfl, rfl⟩
  · refine ⟨?_, fun _ => le_max_right _ _⟩
    by_cases hs : -(1 / 1000000) < w - γ * d
    · linarith
    · have hpos : -(1 / 1000000) ≤ H + d * (w - γ * d) := by
        rcases h with h | ⟨h0, h | h⟩
        · exact absurd h hs
        · linarith
        · linarith
      unfold lift at hl
      have hg := mul_le_mul_of_nonneg_left hpos hγ.le
      refine (abs_le.mp (abs_le_of_sq_le_sq ?_ (by linarith))).1
      rw [s3]
      nlinarith
  · refine ⟨?_, fun hw => le_max_of_le_left ?_⟩
    · have : 0 ≤ -(ρ * (w - γ * d)) := by
        have := mul_nonneg hρ (show (0 : ℝ) ≤ -(w - γ * d) by linarith)
        linarith
      linarith
    · have := mul_le_mul_of_nonneg_left (show -(w - γ * d) ≤ γ * d + lastSpeed γ d ρ by linarith) hρ
      linarith

/-- In the end the ball is slow for ever. -/
theorem hops_settle {H w : ℕ → ℝ} (hγ : 0 < γ) (hd : 0 < d) (hρ : 0 ≤ ρ) (hρ1 : ρ < 1) (h : ∀ j, Hop γ d ρ (H j) (w j) (H (j + 1)) (w (j + 1))) :
    ∃ N, ∀ j, N ≤ j → w j ^ 2 ≤ 2 * residue γ d ρ + 2 * γ / 1000000 + (1 / 1000000) ^ 2 := by
  have ha := mul_pos hγ hd
  have hsq : 0 < (γ * d) ^ 2 / 2 := by positivity
  have falls : ∀ j, lift γ (H j) (w j) ≤ max (lift γ (H 0) (w 0) - j * ((γ * d) ^ 2 / 2)) (residue γ d ρ) := by
    intro j
    induction j with
    | zero => simp
    | succ j ih =>
      rcases le_max_iff.mp ((h j).cost hγ hd hρ hρ1) with k | k
      · rcases le_max_iff.mp ih with i | i
        · apply le_max_of_le_left; push_cast; linarith
        · apply le_max_of_le_right; linarith
      · exact le_max_of_le_right k
  obtain ⟨N, hN⟩ := exists_nat_gt ((lift γ (H 0) (w 0) - residue γ d ρ) / ((γ * d) ^ 2 / 2))
  rw [div_lt_iff₀ hsq] at hN
  have low : ∀ j, N ≤ j → lift γ (H j) (w j) ≤ residue γ d ρ := by
    intro j hj
    rcases le_max_iff.mp (falls j) with k | k
    · have : (N : ℝ) ≤ j := by exact_mod_cast hj
      nlinarith
    · exact k
  have step := fun j (hj : N ≤ j) => (h j).slows hγ hd hρ hρ1 (low (j + 1) (by omega))
  have slow : ∀ k, w (N + 1 + k) ≤ max (lastSpeed γ d ρ) (w (N + 1) - k * (γ * d)) := by
    intro k
    induction k with
    | zero => simp
    | succ k ih =>
      have h1 := (step (N + k) (by omega)).1
      have h2 := (step (N + 1 + k) (by omega)).2 (by rw [show N + 1 + k = N + k + 1 by omega]; exact h1)
      rw [show N + 1 + (k + 1) = N + 1 + k + 1 by omega]
      rcases le_max_iff.mp h2 with i | i
      · exact le_max_of_le_left i
      · rcases le_max_iff.mp ih with j | j
        · apply le_max_of_le_left; linarith
        · apply le_max_of_le_right; push_cast; linarith
  obtain ⟨M, hM⟩ := exists_nat_gt ((w (N + 1) - lastSpeed γ d ρ) / (γ * d))
  rw [div_lt_iff₀ ha] at hM
  refine ⟨N + 1 + M, fun j hj => ?_⟩
  obtain ⟨k, rfl⟩ := Nat.exists_eq_add_of_le hj
  have h1 : -lastSpeed γ d ρ ≤ w (N + 1 + M + k) := by
    have := (step (N + (M + k)) (by omega)).1
    rwa [show N + (M + k) + 1 = N + 1 + M + k by omega] at this
  have h2 : w (N + 1 + M + k) ≤ lastSpeed γ d ρ := by
    have := slow (M + k)
    rw [← Nat.add_assoc] at this
    rcases le_max_iff.mp this with i | i
    · exact i
    · have : (0 : ℝ) ≤ k * (γ * d) := by positivity
      push_cast at i
      linarith
  rw [← lastSpeed_sq (d := d) hγ hρ]
  exact sq_le_sq.mpr (by rw [abs_of_nonneg (show 0 ≤ lastSpeed γ d ρ from Real.sqrt_nonneg _)]; exact abs_le.mpr ⟨h1, h2⟩)
/-- Of two successive speeds one is not small. -/
theorem Hop.lively {H w H' w' : ℝ} (hγ : 0 < γ) (hd : 0 < d) (hρ : 0 ≤ ρ) (hρ1 : ρ ≤ 1) (h : Hop γ d ρ H w H' w') : ρ * γ * d / (1 + ρ) ≤ |w| ∨ ρ * γ * d / (1 + ρ) ≤ |w'| := by
  have ha := mul_pos hγ hd
  have hq : 0 < 1 + ρ := by linarith
  set W := ρ * γ * d / (1 + ρ) with hW
  have hWe : W * (1 + ρ) = ρ * (γ * d) := by rw [hW]; field_simp
  by_contra hno
  push Not at hno
  obtain ⟨h1, h2⟩ := hno
  obtain ⟨a1, a2⟩ := abs_lt.mp h1
  obtain ⟨b1, b2⟩ := abs_lt.mp h2
  rcases h with ⟨rfl, -, -⟩ | ⟨τ, -, -, -, -, rfl, -⟩
  · nlinarith
  · nlinarith
end

section
variable {bh fh ch ch' : Handle} {sc : SphereCollider XReal} {pl : PlaneCollider XReal} {r : ℝ} {x P n : Vec3 ℝ} {m i ρ t μs μd γ d ε : ℝ}
  {s : System XReal (GravityGenerator XReal)} {ball floor : Entity XReal} {f : ℕ → System XReal (GravityGenerator XReal)}

theorem Leap.hop {x x' v' : Vec3 ℝ} {w : ℝ} (hn : n.dot n = 1) (hl : Leap P n r m ρ t μs μd d x (n.scale w + (n.scale (-γ)).scale d) x' v') :
    ∃ w', v' = n.scale w' ∧ Hop γ d ρ (clearance x P n r) w (clearance x' P n r) w' := by
  have hv : n.scale w + (n.scale (-γ)).scale d = n.scale (w - γ * d) := by ext <;> simp <;> ring
  have hdot : ∀ u, (n.scale u).dot n = u := fun u => by rw [Vec3.scale_dot, hn, one_mul]
  rw [hv] at hl
  rcases hl with ⟨rfl, rfl, h⟩ | ⟨τ, t0, t1, hs, hc, rfl, rfl⟩
  · refine ⟨_, rfl, Or.inl ⟨rfl, by rw [clearance_add, Vec3.scale_dot, hdot]; ring, ?_⟩⟩
    rw [hdot] at h
    exact h
  · rw [Rebound.straight hn]
    refine ⟨_, rfl, Or.inr ⟨τ, t0, t1, by rw [hdot] at hs; exact hs, ?_, rfl, ?_⟩⟩
    · rcases hc with ⟨rfl, h⟩ | ⟨-, h⟩
      · rw [zero_mul, add_zero]; exact h
      · rw [clearance_add, Vec3.scale_dot, hdot] at h; linarith
    · simp only [clearance_add, Vec3.scale_dot, hn]; ring

/-- **C103 (any height, any restitution below 1).** A ball is let go over a sleeping floor, at any height and with any speed straight up or down. If the energy that bounces too quick for
the steps can give it is not above the threshold, then the ball falls asleep. Missing: the other case (`C103_restless`, which leaves a gap), and sideways movement. -/
theorem C103_settles_partial (hd : 1 / 1000000 ≤ d) (hγ : 0 < γ) (hρ1 : ρ < 1) {w0 : ℝ}
    (hR : DropsOn s bh fh ch ch' ball floor sc pl r x P n (n.scale (-γ)) m i ρ t μs μd (n.scale w0)) (hF : floor.asleep = true) (hε : s.energySleepThreshold = fin ε)
    (little : m * (2 * ρ * (γ * d / (1 - ρ)) ^ 2 + γ / 1000000 + 1 / 2000000000000) ≤ ε) {T : ℝ} (hτ : s.sleepTimeThreshold = fin T)
    (hf : Unrolls d s f) : ∃ k ball', (f k).getEntity bh = some ball' ∧ ball'.asleep = true := by
  by_contra hno
  have hd0 : 0 < d := lt_of_lt_of_le (by norm_num) hd
  have hm0 : 0 < m := lt_trans (by norm_num) hR.mass.2
  have hρ : 0 ≤ ρ := hR.rest.2
  obtain ⟨B, F, o, q, c, rfl, rfl, rfl, hL⟩ := hR.drops
  have hn := hL.setting.one
  obtain ⟨t0, ht0⟩ := clocks_finite hR.history hL.setting.get1
  -- what is known after each step
  have next : ∀ {j B F o w}, Drops (f j) bh fh ch ch' B F sc pl o q r c P n (n.scale (-γ)) m i ρ t μs μd (n.scale w) → F.asleep = true → (∃ t : ℝ, B.fallingAsleepTime = fin t) →
      ∃ B' F' o' w', Drops (f (j + 1)) bh fh ch ch' B' F' sc pl o' q r c P n (n.scale (-γ)) m i ρ t μs μd (n.scale w') ∧ F'.asleep = true ∧
        (∃ t : ℝ, B'.fallingAsleepTime = fin t) ∧ Hop γ d ρ (clearance o.position P n r) w (clearance o'.position P n r) w' := by
    rintro j B F o w hL hF ⟨u, hu⟩
    obtain ⟨ord, hh⟩ := hf.2 j
    obtain ⟨B', F', o', v', gB, gF, hl, hp, -, k1, -, k3⟩ := drop_step hd hh hL
    obtain ⟨w', rfl, hop⟩ := hl.hop hn
    have aw : B'.asleep = false := by
      cases hb : B'.asleep with
      | false => rfl
      | true => exact absurd ⟨j + 1, B'.makePub, getEntity_iff.mpr ⟨B', gB, rfl⟩, hb⟩ hno
    refine ⟨B', F', o', w', k3 aw ((k1 hF).trans hF.symm), k1 hF, ?_, hop⟩
    rcases step_dozes (proper_fin hd) hh hL.setting.get1 gB with ⟨-, h, -⟩ | ⟨-, -, -, -, h⟩ | ⟨-, -, -, h, -⟩
    · rw [hL.awake] at h; cases h
    · exact ⟨0, h.trans zero_eq⟩
    · rw [h, hu]
      split
      · exact ⟨u + d, fin_add u d⟩
      · exact ⟨u, rfl⟩
  have all : ∀ j, ∃ Hw : ℝ × ℝ, ∃ B F o, Drops (f j) bh fh ch ch' B F sc pl o q r c P n (n.scale (-γ)) m i ρ t μs μd (n.scale Hw.2) ∧ F.asleep = true ∧
      (∃ t : ℝ, B.fallingAsleepTime = fin t) ∧ Hw.1 = clearance o.position P n r := by
    intro j
    induction j with
    | zero => rw [hf.1]; exact ⟨(_, w0), B, F, o, hL, hF, ⟨t0, ht0⟩, rfl⟩
    | succ j ih =>
      obtain ⟨Hw, B, F, o, hL, hF, ht, -⟩ := ih
      obtain ⟨B', F', o', w', h1, h2, h3, -⟩ := next hL hF ht
      exact ⟨(_, w'), B', F', o', h1, h2, h3, rfl⟩
  choose Hw BB FF oo hall using all
  have hops : ∀ j, Hop γ d ρ (Hw j).1 (Hw j).2 (Hw (j + 1)).1 (Hw (j + 1)).2 := by
    intro j
    obtain ⟨h1, h2, h3, h4⟩ := hall j
    obtain ⟨k1, -, -, k4⟩ := hall (j + 1)
    obtain ⟨B', F', o', w', l1, -, -, l4⟩ := next h1 h2 h3
    have eB : B' = BB (j + 1) := by
      have := l1.setting.get1
      rw [k1.setting.get1] at this; cases this; rfl
    subst eB
    have eo : o' = oo (j + 1) := by rw [← Orientation.f_inj, ← l1.pose, k1.pose]
    have ew : w' = (Hw (j + 1)).2 := by
      have := l1.moves.1
      rw [k1.moves.1, Vec3.f_inj] at this
      have := congrArg (fun v => v.dot n) this
      simp only [Vec3.scale_dot, hn, one_mul] at this
      exact this.symm
    rw [h4, k4, ← eo, ← ew]
    exact l4
  obtain ⟨N, hN⟩ := hops_settle hγ hd0 hρ hρ1 hops
  have hs : ∀ k, (f k).energySleepThreshold = fin ε ∧ (f k).sleepTimeThreshold = fin T := by
    intro k
    induction k with
    | zero => rw [hf.1]; exact ⟨hε, hτ⟩
    | succ k ih =>
      obtain ⟨ord, hh⟩ := hf.2 k
      rw [(step_frame hh).1.energy, (step_frame hh).1.time]; exact ih
  have run : ∀ k, Restless bh (fin d) (f N) k (f (N + k)) := by
    intro k
    induction k with
    | zero => exact .nil
    | succ k ih =>
      obtain ⟨ord, hh⟩ := hf.2 (N + k)
      obtain ⟨h1, -⟩ := hall (N + k + 1)
      refine .snoc ord ih hh h1.setting.get1 ?_ h1.awake
      rw [(hs _).1, h1.energy, fin_lt, decide_eq_false_iff_not, not_lt]
      have hE : (n.scale (Hw (N + k + 1)).2).dot (n.scale (Hw (N + k + 1)).2) = (Hw (N + k + 1)).2 ^ 2 := by
        rw [Vec3.scale_dot, Vec3.dot_comm, Vec3.scale_dot, hn]; ring
      rw [hE]
      have := mul_le_mul_of_nonneg_left (hN (N + k + 1) (by omega)) hm0.le
      unfold residue at this
      linarith
  obtain ⟨h1, -, ⟨t1, ht1⟩, -⟩ := hall N
  obtain ⟨k, hk⟩ := exists_nat_gt (|T - t1| / d + 1)
  obtain ⟨i0, e, he, hc⟩ := (run k).clock (proper_fin hd) h1.setting.get1
  have hpos : 0 ≤ |T - t1| / d := div_nonneg (abs_nonneg _) hd0.le
  rcases hc with ⟨rfl, -⟩ | ⟨j, hj, -, hc, hl⟩
  · simp at hk; linarith
  · rw [hc, ht1, clock_exact, (hs _).2, fin_lt, decide_eq_true_eq] at hl
    have hj' : (k : ℝ) ≤ j + 1 := by exact_mod_cast (show k ≤ j + 1 by omega)
    have h2 : |T - t1| / d < j := by linarith
    rw [div_lt_iff₀ hd0] at h2
    have := le_abs_self (T - t1)
    linarith
/-- The same for a ball that also moves along the floor, which may slope. -/
theorem Leap.rise {x x' v v' G : Vec3 ℝ} (hn : n.dot n = 1) (hG : G.dot n = -γ) (hl : Leap P n r m ρ t μs μd d x (v + G.scale d) x' v') :
    Hop γ d ρ (clearance x P n r) (v.dot n) (clearance x' P n r) (v'.dot n) := by
  have hv : (v + G.scale d).dot n = v.dot n - γ * d := by rw [Vec3.add_dot, Vec3.scale_dot, hG]; ring
  rcases hl with ⟨rfl, rfl, h⟩ | ⟨τ, t0, t1, hs, hc, rfl, rfl⟩
  · refine Or.inl ⟨hv, by rw [clearance_add, Vec3.scale_dot, hv]; ring, ?_⟩
    rw [hv] at h
    exact h
  · rw [hv] at hs
    refine Or.inr ⟨τ, t0, t1, hs, ?_, by rw [Rebound.up hn, hv]; ring, by rw [clearance_add, clearance_add, Vec3.scale_dot, Vec3.scale_dot, hv]; ring⟩
    rcases hc with ⟨rfl, h⟩ | ⟨-, h⟩
    · rw [zero_mul, add_zero]; exact h
    · rw [clearance_add, Vec3.scale_dot, hv] at h; linarith

/-- **C103 (restless, any height, any restitution up to 1).** A ball is let go over a sleeping floor, level or sloping, at any height and with any velocity. `γ` is the part of gravity
towards the floor. If the energy of the velocity
`ρ γ d / (1 + ρ)` is above the threshold, then the ball never falls asleep, unless it does so in the first step (which it does not if it is slow at the beginning): after one of any two
successive steps it has at least this speed away from or towards the floor, and so its sleep clock never gets far. For restitutions below a half this is the sharp threshold of `C103_exact_partial`. -/
theorem C103_restless (hd : 1 / 1000000 ≤ d) (hγ : 0 < γ) (hρ1 : ρ ≤ 1) {G v0 : Vec3 ℝ} (hG : G.dot n = -γ)
    (hR : DropsOn s bh fh ch ch' ball floor sc pl r x P n G m i ρ t μs μd v0) (hF : floor.asleep = true) (hε : s.energySleepThreshold = fin ε)
    (much : ε < m * (ρ * γ * d / (1 + ρ)) ^ 2 / 2) {T : ℝ} (hτ : s.sleepTimeThreshold = fin T) (hT : 0 < T) (hf : Unrolls d s f)
    (start : m * v0.dot v0 / 2 ≤ ε ∨ ∃ b, (f 1).getEntity bh = some b ∧ b.asleep = false) (k : ℕ) :
    ∃ ball1 ball2 v1 v2, (f (k + 1)).getEntity bh = some ball1 ∧ (f (k + 2)).getEntity bh = some ball2 ∧ ball1.asleep = false ∧ ball2.asleep = false ∧
      ball1.velocity = Vec3.f v1 ∧ ball2.velocity = Vec3.f v2 ∧ (ρ * γ * d / (1 + ρ) ≤ |v1.dot n| ∨ ρ * γ * d / (1 + ρ) ≤ |v2.dot n|) := by
  have hd0 : 0 < d := lt_of_lt_of_le (by norm_num) hd
  have hm0 : 0 < m := lt_trans (by norm_num) hR.mass.2
  have hρ : 0 ≤ ρ := hR.rest.2
  obtain ⟨B, F, o, q, c, rfl, rfl, rfl, hL⟩ := hR.drops
  have hn := hL.setting.one
  have hs : ∀ k, (f k).energySleepThreshold = fin ε ∧ (f k).sleepTimeThreshold = fin T := by
    intro k
    induction k with
    | zero => rw [hf.1]; exact ⟨hε, hτ⟩
    | succ k ih =>
      obtain ⟨ord, hh⟩ := hf.2 k
      rw [(step_frame hh).1.energy, (step_frame hh).1.time]; exact ih
  have hW0 : 0 ≤ ρ * γ * d / (1 + ρ) := by positivity
  have loud : ∀ {v : Vec3 ℝ}, ρ * γ * d / (1 + ρ) ≤ |v.dot n| → ε < m * v.dot v / 2 := by
    intro v hw
    have h2 : v.dot n ^ 2 ≤ v.dot v := by
      have h0 := Vec3.dot_self_nonneg (along' n v)
      have h3 : (along' n v).dot (along' n v) = v.dot v - v.dot n ^ 2 * (2 - n.dot n) := by unfold along'; simp [Vec3.dot_def]; ring
      rw [h3, hn] at h0; linarith
    have h1 := pow_le_pow_left₀ hW0 hw 2
    rw [sq_abs] at h1
    have := mul_le_mul_of_nonneg_left (h1.trans h2) hm0.le
    linarith
  -- what a step does: the sleep clock starts anew if the ball is fast, and a ball whose clock starts anew stays awake
  have next : ∀ {j B F o v}, Drops (f j) bh fh ch ch' B F sc pl o q r c P n G m i ρ t μs μd v → F.asleep = true →
      (m * v.dot v / 2 ≤ ε ∨ B.fallingAsleep = false ∧ B.fallingAsleepTime = zero ∨ ∃ b, (f (j + 1)).getEntity bh = some b ∧ b.asleep = false) →
      ∃ B' F' o' v', Drops (f (j + 1)) bh fh ch ch' B' F' sc pl o' q r c P n G m i ρ t μs μd v' ∧ F'.asleep = true ∧
        (m * v'.dot v' / 2 ≤ ε ∨ B'.fallingAsleep = false ∧ B'.fallingAsleepTime = zero) ∧ (ρ * γ * d / (1 + ρ) ≤ |v.dot n| ∨ ρ * γ * d / (1 + ρ) ≤ |v'.dot n|) := by
    intro j B F o v hL hF hc
    obtain ⟨ord, hh⟩ := hf.2 j
    obtain ⟨B', F', o', v', gB, gF, hl, hp, -, k1, k2, k3⟩ := drop_step hd hh hL
    have two := (hl.rise hn hG).lively hγ hd0 hρ hρ1
    have aw : B'.asleep = false := by
      rcases hc with hc | ⟨c1, c2⟩ | ⟨b, hb, ha⟩
      · apply k2
        rw [(hs j).1, fin_lt, decide_eq_true_eq]
        rcases two with h | h
        · exact absurd (loud h) (not_lt.mpr hc)
        · exact loud h
      · rcases step_dozes (proper_fin hd) hh hL.setting.get1 gB with ⟨-, h, -⟩ | ⟨-, -, h, -⟩ | ⟨-, -, -, h1, h2⟩
        · rw [hL.awake] at h; cases h
        · exact h
        · rw [h2, h1, c1, c2, (hs _).2, zero_eq]; simpa using hT
      · obtain ⟨Y, gY, rfl⟩ := getEntity_iff.mp hb
        rw [gB] at gY; cases gY
        exact ha
    have hL' := k3 aw ((k1 hF).trans hF.symm)
    refine ⟨B', F', o', v', hL', k1 hF, ?_, two⟩
    rcases step_dozes (proper_fin hd) hh hL.setting.get1 gB with ⟨-, h, -⟩ | ⟨-, -, -, h1, h2⟩ | ⟨-, h, -⟩
    · rw [hL.awake] at h; cases h
    · exact .inr ⟨h1, h2⟩
    · rw [(hs _).1, hL'.energy, fin_lt, decide_eq_false_iff_not, not_lt] at h
      exact .inl h
  have run : ∀ j, ∃ B F o v, Drops (f (j + 1)) bh fh ch ch' B F sc pl o q r c P n G m i ρ t μs μd v ∧ F.asleep = true ∧
      (m * v.dot v / 2 ≤ ε ∨ B.fallingAsleep = false ∧ B.fallingAsleepTime = zero) := by
    intro j
    induction j with
    | zero =>
      obtain ⟨B', F', o', v', h1, h2, h3, -⟩ := next (j := 0) (by rw [hf.1]; exact hL) hF (start.elim .inl fun h => .inr (.inr h))
      exact ⟨B', F', o', v', h1, h2, h3⟩
    | succ j ih =>
      obtain ⟨B, F, o, v, h1, h2, h3⟩ := ih
      obtain ⟨B', F', o', v', k1, k2, k3, -⟩ := next h1 h2 (h3.elim .inl fun h => .inr (.inl h))
      exact ⟨B', F', o', v', k1, k2, k3⟩
  obtain ⟨B1, F1, o1, v1, h1, h2, h3⟩ := run k
  obtain ⟨B2, F2, o2, v2, k1, -, -, k4⟩ := next h1 h2 (h3.elim .inl fun h => .inr (.inl h))
  exact ⟨B1.makePub, B2.makePub, v1, v2, getEntity_iff.mpr ⟨B1, h1.setting.get1, rfl⟩, getEntity_iff.mpr ⟨B2, k1.setting.get1, rfl⟩, h1.awake, k1.awake, h1.moves.1, k1.moves.1, k4⟩
end

/-- The hypotheses of `C103_settles_partial` can be met: the restitution is 81/100, gravity is 10, and a ball of half a gram is thrown up from the floor with speed 3. -/
example : ∃ (s : System XReal (GravityGenerator XReal)) (f : ℕ → System XReal (GravityGenerator XReal)),
    Tame' s ∧ Unrolls (1 / 60) s f ∧ ∃ k ball', (f k).getEntity h1 = some ball' ∧ ball'.asleep = true := by
  have hf := mount_finite (hill_sleeps (ρ := 9 / 10) ((⟨0, 1, 0⟩ : Vec3 ℝ).scale (-10))) (m := 1 / 2000) (k := 0) (by norm_num) le_rfl (mount_dot (1 / 2000) ((⟨0, 1, 0⟩ : Vec3 ℝ).scale 3))
  have hR := mount_drops hf rfl (by norm_num)
  have he : (lit 1 1000 : XReal) = fin (1 / 1000) := by rw [lit_eq]; norm_num
  have ht : (lit 1 10 : XReal) = fin (1 / 10) := by rw [lit_eq]; norm_num
  obtain ⟨B, F, o, q, c, -, -, -, hL⟩ := hR.drops
  obtain ⟨f, hu⟩ := unrolls_total (1 / 60) (mount_live rfl rfl) (hL.setting.safe hL.alone)
  exact ⟨_, f, hf, hu, C103_settles_partial (by norm_num) (by norm_num) (by norm_num) hR rfl he (by norm_num) ht hu⟩

/-- The hypotheses of `C103_restless` can be met: with the restitution of a new collider, gravity 10 and the settings of a new system, a ball of 1 kg that is put at rest on a floor never
falls asleep. -/
example : ∃ (s : System XReal (GravityGenerator XReal)) (f : ℕ → System XReal (GravityGenerator XReal)),
    Tame' s ∧ Unrolls (1 / 60) s f ∧ ∀ k, ∃ ball', (f (k + 1)).getEntity h1 = some ball' ∧ ball'.asleep = false := by
  have hf := mount_finite (hill_sleeps (ρ := 1) ((⟨0, 1, 0⟩ : Vec3 ℝ).scale (-10))) (m := 1) (k := 0) (by norm_num) le_rfl (mount_dot 1 ((⟨0, 1, 0⟩ : Vec3 ℝ).scale 0))
  have hR := mount_drops hf rfl (by norm_num)
  have he : (lit 1 1000 : XReal) = fin (1 / 1000) := by rw [lit_eq]; norm_num
  have ht : (lit 1 10 : XReal) = fin (1 / 10) := by rw [lit_eq]; norm_num
  obtain ⟨B, F, o, q, c, -, -, -, hL⟩ := hR.drops
  obtain ⟨f, hu⟩ := unrolls_total (1 / 60) (mount_live rfl rfl) (hL.setting.safe hL.alone)
  refine ⟨_, f, hf, hu, fun k => ?_⟩
  obtain ⟨b, -, -, -, h1, -, h2, -⟩ := C103_restless (γ := 10) (by norm_num) (by norm_num) (by norm_num) (by simp [Vec3.dot_def]) hR rfl he (by norm_num) ht (by norm_num) hu
    (.inl (by simp [Vec3.dot_def])) k
  exact ⟨b, h1, h2⟩

end Fluffy.Props
