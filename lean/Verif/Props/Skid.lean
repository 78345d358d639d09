import Verif.Props.Settle
import Verif.Props.Box
/-
C113: a ball that bounces or slides along a level floor keeps its course and does not get faster along the floor.
-/
set_option linter.unusedSectionVars false
set_option linter.unusedSimpArgs false
namespace Fluffy.Props
open Fluffy XReal InternalEntity Step Demo Scene

section
variable {bh fh ch ch' : Handle} {sc : SphereCollider XReal} {pl : PlaneCollider XReal} {q : Orientation ℝ} {r : ℝ} {c x P n G v : Vec3 ℝ} {m i ρ t μs μd d : ℝ}
  {s s' : System XReal (GravityGenerator XReal)} {ball floor : Entity XReal}

theorem along_scale (u : Vec3 ℝ) (a : ℝ) : along' n (u.scale a) = (along' n u).scale a := by
  unfold along'; ext <;> simp [Vec3.dot_def] <;> ring

theorem along_add (u w : Vec3 ℝ) : along' n (u + w) = along' n u + along' n w := by
  unfold along'; ext <;> simp [Vec3.dot_def] <;> ring

/-- What a contact does to the velocity along the floor. -/
theorem Rebound.skid (hn : n.dot n = 1) (hρ : 0 ≤ ρ) (hs : 0 ≤ μs) (hd : 0 ≤ μd) (u : Vec3 ℝ) :
    ∃ κ, 0 ≤ κ ∧ κ ≤ 1 ∧ along' n (Rebound n m ρ t μs μd u) = (along' n u).scale (1 - κ / m) := by
  have hμ : 0 ≤ (if ρ * |u.dot n| < t * (along' n u).len then μs else μd) := by split <;> assumption
  refine ⟨min 1 ((1 + ρ) * |u.dot n| * (if ρ * |u.dot n| < t * (along' n u).len then μs else μd) / (along' n u).len), ?_, min_le_left _ _, ?_⟩
  · exact le_min zero_le_one (div_nonneg (mul_nonneg (by positivity) hμ) (Real.sqrt_nonneg _))
  · generalize hk : min 1 ((1 + ρ) * |u.dot n| * (if ρ * |u.dot n| < t * (along' n u).len then μs else μd) / (along' n u).len) = k
    have e : Rebound n m ρ t μs μd u = u - n.scale ((1 + ρ) * u.dot n) - (along' n u).scale (k / m) := by unfold Rebound; simp only [hk]
    have h1 := Rebound.up hn m ρ t μs μd u
    show Rebound n m ρ t μs μd u - n.scale ((Rebound n m ρ t μs μd u).dot n) = _
    rw [h1, e]
    unfold along'; ext <;> simp <;> ring

/-- What a step does to it. -/
theorem Leap.skid {x x' v v' : Vec3 ℝ} (hn : n.dot n = 1) (hρ : 0 ≤ ρ) (hs : 0 ≤ μs) (hd : 0 ≤ μd) (h0 : 0 ≤ d) (hl : Leap P n r m ρ t μs μd d x v x' v') :
    ∃ κ τ, 0 ≤ κ ∧ κ ≤ 1 ∧ 0 ≤ τ ∧ τ ≤ d ∧ along' n v' = (along' n v).scale (1 - κ / m) ∧
      along' n (x' - x) = (along' n v).scale (τ + (d - τ) * (1 - κ / m)) := by
  rcases hl with ⟨rfl, rfl, -⟩ | ⟨τ, t0, t1, -, -, rfl, rfl⟩
  · refine ⟨0, d, le_rfl, zero_le_one, h0, le_rfl, by ext <;> simp, ?_⟩
    rw [show x + v'.scale d - x = v'.scale d by ext <;> simp, along_scale]
    congr 1; ring
  · obtain ⟨κ, k0, k1, e⟩ := Rebound.skid (m := m) (t := t) hn hρ hs hd v
    refine ⟨κ, τ, k0, k1, t0, t1.le, e, ?_⟩
    rw [show x + v.scale τ + (Rebound n m ρ t μs μd v).scale (d - τ) - x = v.scale τ + (Rebound n m ρ t μs μd v).scale (d - τ) by ext <;> simp <;> ring,
      along_add, along_scale, along_scale, e]
    ext <;> simp <;> ring

theorem skid_run {ds : List ℝ} (hs : 0 ≤ μs) (hd : 0 ≤ μd) (hG : along' n G = .o) (hrun : Wakeful bh fh s ds s') : ∀ {B F : InternalEntity XReal} {o : Orientation ℝ} {v : Vec3 ℝ},
    (∀ d ∈ ds, 1 / 1000000 ≤ d) → Drops s bh fh ch ch' B F sc pl o q r c P n G m i ρ t μs μd v →
    ∃ B' F' o' v', Drops s' bh fh ch ch' B' F' sc pl o' q r c P n G m i ρ t μs μd v' ∧
      (1 / 2 ≤ m → (along' n v').dot (along' n v') ≤ (along' n v).dot (along' n v)) ∧
      (1 ≤ m → ∃ l k, 0 ≤ l ∧ l ≤ 1 ∧ 0 ≤ k ∧ k ≤ ds.sum ∧ along' n v' = (along' n v).scale l ∧ along' n (o'.position - o.position) = (along' n v).scale k) := by
  induction hrun with
  | nil s =>
    intro B F o v _ hL
    refine ⟨B, F, o, v, hL, fun _ => le_rfl, fun _ => ⟨1, 0, zero_le_one, le_rfl, le_rfl, by simp, by ext <;> simp, ?_⟩⟩
    unfold along'; ext <;> simp [Vec3.dot_def]
  | @cons ord s m' s' d ds first ball floor rest ih =>
    intro B F o v hds hL
    have h1 := hds d (by simp)
    have hd0 : 0 ≤ d := le_trans (by norm_num) h1
    have hm0 : 0 < m := lt_trans (by norm_num) hL.mass.2
    obtain ⟨B1, F1, o1, v1, gB, gF, hl, -, -, -, -, hR⟩ := drop_step h1 first hL
    have hR := hR (ball _ (getEntity_iff.mpr ⟨B1, gB, rfl⟩)) (floor _ _ (getEntity_iff.mpr ⟨F, hL.setting.get2, rfl⟩) (getEntity_iff.mpr ⟨F1, gF, rfl⟩))
    obtain ⟨B2, F2, o2, v2, k1, k2, k3⟩ := ih (fun d hd => hds d (by simp [hd])) hR
    obtain ⟨κ, τ, a0, a1, b0, b1, e1, e2⟩ := hl.skid hL.setting.one hL.back hs hd hd0
    have hv : along' n (v + G.scale d) = along' n v := by rw [along_add, along_scale, hG]; ext <;> simp
    rw [hv] at e1 e2
    have hκ : 0 ≤ κ / m := div_nonneg a0 hm0.le
    refine ⟨B2, F2, o2, v2, k1, fun hm => (k2 hm).trans ?_, fun hm => ?_⟩
    · have h2 : κ / m ≤ 2 := by rw [div_le_iff₀ hm0]; linarith
      have h3 : (1 - κ / m) ^ 2 ≤ 1 := by nlinarith
      rw [e1, show ((along' n v).scale (1 - κ / m)).dot ((along' n v).scale (1 - κ / m)) = (1 - κ / m) ^ 2 * (along' n v).dot (along' n v) by simp [Vec3.dot_def]; ring]
      exact mul_le_of_le_one_left (Vec3.dot_self_nonneg _) h3
    · obtain ⟨l, k, l0, l1, k0, k1', f1, f2⟩ := k3 hm
      have h2 : κ / m ≤ 1 := by rw [div_le_iff₀ hm0]; linarith
      set g := 1 - κ / m with hg
      have g0 : 0 ≤ g := by linarith
      have g1 : g ≤ 1 := by linarith
      refine ⟨g * l, τ + (d - τ) * g + g * k, mul_nonneg g0 l0, mul_le_one₀ g1 l0 l1, ?_, ?_, ?_, ?_⟩
      · have := mul_nonneg (sub_nonneg.mpr b1) g0
        have := mul_nonneg g0 k0
        linarith
      · have h4 := mul_le_of_le_one_right (sub_nonneg.mpr b1) g1
        have h5 := mul_le_of_le_one_left k0 g1
        rw [List.sum_cons]; linarith
      · rw [f1, e1]; ext <;> simp <;> ring
      · rw [show o2.position - o.position = (o1.position - o.position) + (o2.position - o1.position) by ext <;> simp, along_add, e2, f2, e1]
        ext <;> simp <;> ring

/-- **C113 (partial).** A ball of at least 1 kg bounces or slides on a level floor, with any restitution and friction: after any number of steps its velocity along the floor is what it was
at the beginning or less, in the same direction, and it has gone straight on, not farther than without the floor. Missing: lighter balls (`C113_false`), balls that roll, and what happens when
one of the two falls asleep. -/
theorem C113_partial (hR : DropsOn s bh fh ch ch' ball floor sc pl r x P n G m i ρ t μs μd v) (hm : 1 ≤ m) (hs : 0 ≤ μs) (hd : 0 ≤ μd) (hG : G = n.scale (G.dot n)) {ds : List ℝ}
    (hds : ∀ d ∈ ds, 1 / 1000000 ≤ d) (hrun : Wakeful bh fh s ds s') :
    ∃ ball' x' v' l k, s'.getEntity bh = some ball' ∧ ball'.position = Vec3.f x' ∧ ball'.velocity = Vec3.f v' ∧ 0 ≤ l ∧ l ≤ 1 ∧ 0 ≤ k ∧ k ≤ ds.sum ∧
      v' - n.scale (v'.dot n) = (v - n.scale (v.dot n)).scale l ∧ (x' - x) - n.scale ((x' - x).dot n) = (v - n.scale (v.dot n)).scale k := by
  obtain ⟨B, F, o, q, c, rfl, rfl, rfl, hL⟩ := hR.drops
  have hG' : along' n G = .o := by
    show G - n.scale (G.dot n) = .o
    rw [← hG]; ext <;> simp
  obtain ⟨B', F', o', v', hL', -, h⟩ := skid_run hs hd hG' hrun hds hL
  obtain ⟨l, k, l0, l1, k0, k1, e1, e2⟩ := h hm
  refine ⟨B'.makePub, o'.position, v', l, k, getEntity_iff.mpr ⟨B', hL'.setting.get1, rfl⟩, ?_, hL'.moves.1, l0, l1, k0, k1, e1, e2⟩
  show B'.orientation.position = _
  rw [hL'.pose]; rfl

/-- **C113 (speed only).** From half a kilogram on, the ball at least does not get faster along the floor; friction may turn it back. -/
theorem C113_speed_partial (hR : DropsOn s bh fh ch ch' ball floor sc pl r x P n G m i ρ t μs μd v) (hm : 1 / 2 ≤ m) (hs : 0 ≤ μs) (hd : 0 ≤ μd) (hG : G = n.scale (G.dot n))
    {ds : List ℝ} (hds : ∀ d ∈ ds, 1 / 1000000 ≤ d) (hrun : Wakeful bh fh s ds s') :
    ∃ ball' v', s'.getEntity bh = some ball' ∧ ball'.velocity = Vec3.f v' ∧
      (v' - n.scale (v'.dot n)).dot (v' - n.scale (v'.dot n)) ≤ (v - n.scale (v.dot n)).dot (v - n.scale (v.dot n)) := by
  obtain ⟨B, F, o, q, c, rfl, rfl, rfl, hL⟩ := hR.drops
  have hG' : along' n G = .o := by
    show G - n.scale (G.dot n) = .o
    rw [← hG]; ext <;> simp
  obtain ⟨B', F', o', v', hL', h, -⟩ := skid_run hs hd hG' hrun hds hL
  exact ⟨B'.makePub, v', getEntity_iff.mpr ⟨B', hL'.setting.get1, rfl⟩, hL'.moves.1, h hm⟩
theorem slope_run {ds : List ℝ} (hm : 1 / 2 ≤ m) (hs : 0 ≤ μs) (hd : 0 ≤ μd) (hrun : Wakeful bh fh s ds s') : ∀ {B F : InternalEntity XReal} {o : Orientation ℝ} {v : Vec3 ℝ},
    (∀ d ∈ ds, 1 / 1000000 ≤ d) → Drops s bh fh ch ch' B F sc pl o q r c P n G m i ρ t μs μd v →
    ∃ B' F' o' v', Drops s' bh fh ch ch' B' F' sc pl o' q r c P n G m i ρ t μs μd v' ∧ (along' n v').len ≤ (along' n v).len + ds.sum * (along' n G).len := by
  induction hrun with
  | nil s => intro B F o v _ hL; exact ⟨B, F, o, v, hL, by simp⟩
  | @cons ord s m' s' d ds first ball floor rest ih =>
    intro B F o v hds hL
    have h1 := hds d (by simp)
    have hd0 : 0 ≤ d := le_trans (by norm_num) h1
    have hm0 : 0 < m := lt_trans (by norm_num) hL.mass.2
    obtain ⟨B1, F1, o1, v1, gB, gF, hl, -, -, -, -, hR⟩ := drop_step h1 first hL
    have hR := hR (ball _ (getEntity_iff.mpr ⟨B1, gB, rfl⟩)) (floor _ _ (getEntity_iff.mpr ⟨F, hL.setting.get2, rfl⟩) (getEntity_iff.mpr ⟨F1, gF, rfl⟩))
    obtain ⟨B2, F2, o2, v2, k1, k2⟩ := ih (fun d hd => hds d (by simp [hd])) hR
    obtain ⟨κ, τ, a0, a1, -, -, e1, -⟩ := hl.skid hL.setting.one hL.back hs hd hd0
    have hκ : 0 ≤ κ / m := div_nonneg a0 hm0.le
    have h2 : κ / m ≤ 2 := by rw [div_le_iff₀ hm0]; linarith
    have h3 : |1 - κ / m| ≤ 1 := abs_le.mpr ⟨by linarith, by linarith⟩
    have h4 : (along' n v1).len ≤ (along' n v).len + d * (along' n G).len := by
      rw [e1, Vec3.len_scale]
      refine (mul_le_of_le_one_right (Real.sqrt_nonneg _) h3).trans ?_
      rw [along_add, along_scale]
      refine (len_triangle _ _).trans ?_
      rw [Vec3.len_scale, abs_of_nonneg hd0, mul_comm]
    refine ⟨B2, F2, o2, v2, k1, k2.trans ?_⟩
    rw [List.sum_cons, add_mul]; linarith

/-- **C113 (slopes).** On a floor that slopes the speed along the floor grows by no more than the part of gravity along the floor times the time, from half a kilogram on. -/
theorem C113_slope_partial (hR : DropsOn s bh fh ch ch' ball floor sc pl r x P n G m i ρ t μs μd v) (hm : 1 / 2 ≤ m) (hs : 0 ≤ μs) (hd : 0 ≤ μd)
    {ds : List ℝ} (hds : ∀ d ∈ ds, 1 / 1000000 ≤ d) (hrun : Wakeful bh fh s ds s') :
    ∃ ball' v', s'.getEntity bh = some ball' ∧ ball'.velocity = Vec3.f v' ∧
      (v' - n.scale (v'.dot n)).len ≤ (v - n.scale (v.dot n)).len + ds.sum * (G - n.scale (G.dot n)).len := by
  obtain ⟨B, F, o, q, c, rfl, rfl, rfl, hL⟩ := hR.drops
  obtain ⟨B', F', o', v', hL', h⟩ := slope_run hm hs hd hrun hds hL
  exact ⟨B'.makePub, v', getEntity_iff.mpr ⟨B', hL'.setting.get1, rfl⟩, hL'.moves.1, h⟩
end

/-- **C113 is false:** a ball of 1/4 kg that is thrown down on a level floor, with speed 1 along it, leaves it in the opposite direction, three times as fast. Settings of a new
system, restitution and friction 1, gravity 10. -/
theorem C113_false : ∃ (s s' : System XReal (GravityGenerator XReal)) (ball floor ball' : Entity XReal) (sc : SphereCollider XReal) (pl : PlaneCollider XReal) (v' : Vec3 ℝ),
    DropsOn s h1 h0 h1 h0 ball floor sc pl 1 ⟨0, 1, 0⟩ .o ⟨0, 1, 0⟩ ⟨0, -10, 0⟩ (1 / 4) 0 1 1 1 1 ⟨1, -1, 0⟩ ∧ floor.asleep = true ∧ s.step .id (fin (1 / 60)) = .ok s' ∧
      s'.getEntity h1 = some ball' ∧ ball'.velocity = Vec3.f v' ∧ v'.x = -3 := by
  have hf := mount_finite (hill_sleeps (ρ := 1) ⟨0, -10, 0⟩) (m := 1 / 4) (k := 0) (by norm_num) le_rfl (mount_dot (1 / 4) ⟨1, -1, 0⟩)
  have hR := mount_drops hf rfl (by norm_num)
  rw [one_mul] at hR
  obtain ⟨B, F, o, q, c, hB, hF, hx, hL⟩ := hR.drops
  obtain ⟨s', hh, -⟩ := step_total (ord := .id) (fin (1 / 60)) (mount_live rfl rfl) (hL.setting.safe hL.alone)
  obtain ⟨B', F', o', v', gB, gF, hl, hp, hv, k1, k2, k3⟩ := drop_step (by norm_num) hh hL
  have hu : (⟨1, -1, 0⟩ : Vec3 ℝ) + (⟨0, -10, 0⟩ : Vec3 ℝ).scale (1 / 60) = ⟨1, -(7 / 6), 0⟩ := by ext <;> simp <;> norm_num
  rw [hu, hx] at hl
  have hdot : (⟨1, -(7 / 6), 0⟩ : Vec3 ℝ).dot ⟨0, 1, 0⟩ = -(7 / 6) := by simp [Vec3.dot_def]
  have hc : clearance ⟨0, 1, 0⟩ .o ⟨0, 1, 0⟩ 1 = 0 := by simp [clearance, Vec3.dot_def]
  have hv' : v' = Rebound ⟨0, 1, 0⟩ (1 / 4) 1 1 1 1 ⟨1, -(7 / 6), 0⟩ := by
    rcases hl with ⟨-, -, h⟩ | ⟨τ, -, -, -, -, h, -⟩
    · rw [hdot, hc] at h
      rcases h with h | ⟨h, -⟩ <;> norm_num at h
    · exact h
  have hal : along' ⟨0, 1, 0⟩ (⟨1, -(7 / 6), 0⟩ : Vec3 ℝ) = ⟨1, 0, 0⟩ := by unfold along'; rw [hdot]; ext <;> simp
  have hlen : (⟨1, 0, 0⟩ : Vec3 ℝ).len = 1 := by unfold Vec3.len; simp [Vec3.dot_def]
  have hx' : v'.x = -3 := by
    rw [hv']; unfold Rebound
    simp only [hal, hlen, hdot, ite_self]
    norm_num [abs_of_nonneg]
  have aw : B'.asleep = false := k2 (by
    show Scalar.lt (lit 1 1000 : XReal) _ = true
    rw [lit_eq, fin_lt, decide_eq_true_eq]
    have : 9 ≤ v'.dot v' := by rw [Vec3.dot_def, hx']; nlinarith [mul_self_nonneg v'.y, mul_self_nonneg v'.z]
    norm_num; linarith)
  exact ⟨_, s', _, _, B'.makePub, _, _, v', hR, rfl, hh, getEntity_iff.mpr ⟨B', gB, rfl⟩, hv aw, hx'⟩

/-- A ball of 1 kg on a floor that sleeps, with any gravity and velocity, that never falls asleep. -/
noncomputable def skidder (G v : Vec3 ℝ) : System XReal (GravityGenerator XReal) := mount (1 / 2) G abed [.puttingToSleep h0] (dot (fin 1) ⟨0, 1, 0⟩ v [h1] up) 0 (fin (-1))

theorem skidder_tame (G v : Vec3 ℝ) : Tame' (skidder G v) :=
  mount_calm (mount_finite (hill_sleeps (ρ := 1 / 2) G) (m := 1) (k := 0) (by norm_num) le_rfl (mount_dot 1 v)) (fin (-1))

theorem skidder_runs (G v : Vec3 ℝ) (k : Nat) : ∃ s', Wakeful h1 h0 (skidder G v) (List.replicate k 1) s' := by
  obtain ⟨B, F, o, q, c, hB, hF, hx, hL⟩ := (mount_drops (skidder_tame G v) rfl (by norm_num)).drops
  have hA : Aloft (skidder G v) h1 h0 h1 h0 _ _ q _ c _ _ _ _ _ _ _ _ _ _ _ :=
    ⟨⟨B, F, o, _, hL, by have := congrArg Entity.asleep hF; exact this.symm, rfl, rfl⟩, mount_live rfl rfl, rfl⟩
  have hrun : ∃ s' h u, Wakeful h1 h0 (skidder G v) (List.replicate k 1) s' ∧
      Aloft s' h1 h0 h1 h0 { roughBall (1 / 2) 0 with entity := some h1 } { roughPlane (1 / 2) with entity := some h0 } q 1 c .o ⟨0, 1, 0⟩ G 1 0 (1 / 2 * (1 / 2)) 1 1 1 h u := by
    induction k with
    | zero => exact ⟨_, _, _, .nil _, hA⟩
    | succ j ih =>
      obtain ⟨s', h, u, hw, h1⟩ := ih
      obtain ⟨s'', h', u', hw', h2, -⟩ := h1.next (d := 1) (by norm_num)
      exact ⟨s'', h', u', by rw [List.replicate_succ']; exact hw.append hw', h2⟩
  obtain ⟨s', -, -, hs, -⟩ := hrun
  exact ⟨s', hs⟩

/-- The hypotheses of `C113_partial` can be met: a ball of 1 kg is thrown sideways with speed 2. However often it bounces, it stays in its plane and its speed sideways does not grow. -/
example (k : Nat) : ∃ s s' ball' v', Tame' s ∧ Wakeful h1 h0 s (List.replicate k 1) s' ∧ s'.getEntity h1 = some ball' ∧ ball'.velocity = Vec3.f v' ∧ v'.z = 0 ∧ 0 ≤ v'.x ∧ v'.x ≤ 2 := by
  have hf := skidder_tame ⟨0, -1, 0⟩ ⟨2, 0, 0⟩
  obtain ⟨s', hs⟩ := skidder_runs ⟨0, -1, 0⟩ ⟨2, 0, 0⟩ k
  obtain ⟨b, x', v', l, k', hb, -, hv, l0, l1, -, -, e, -⟩ := C113_partial (mount_drops hf rfl (by norm_num)) le_rfl zero_le_one zero_le_one (by ext <;> simp [Vec3.dot_def]) (by
    intro d hd
    rw [(List.mem_replicate.mp hd).2]; norm_num) hs
  have e1 := congrArg Vec3.x e
  have e3 := congrArg Vec3.z e
  simp [Vec3.dot_def] at e1 e3
  exact ⟨_, s', b, v', hf, hs, hb, hv, e3, by rw [e1]; linarith, by rw [e1]; linarith⟩

/-- The hypotheses of `C113_slope_partial` can be met: gravity pulls along the floor with 3, and the ball starts at rest. -/
example (k : Nat) : ∃ s s' ball' v', Tame' s ∧ Wakeful h1 h0 s (List.replicate k 1) s' ∧ s'.getEntity h1 = some ball' ∧ ball'.velocity = Vec3.f v' ∧
    (v' - (⟨0, 1, 0⟩ : Vec3 ℝ).scale (v'.dot ⟨0, 1, 0⟩)).len ≤ k * (⟨3, 0, 0⟩ : Vec3 ℝ).len := by
  have hf := skidder_tame ⟨3, -4, 0⟩ .o
  obtain ⟨s', hs⟩ := skidder_runs ⟨3, -4, 0⟩ .o k
  obtain ⟨b, v', hb, hv, e⟩ := C113_slope_partial (mount_drops hf rfl (by norm_num)) (by norm_num) zero_le_one zero_le_one (by
    intro d hd
    rw [(List.mem_replicate.mp hd).2]; norm_num) hs
  refine ⟨_, s', b, v', hf, hs, hb, hv, e.trans (le_of_eq ?_)⟩
  simp [Vec3.len, Vec3.dot_def]

end Fluffy.Props
