import Verif.Props.Bounce
import Verif.Props.Hill
/-
C102, concrete scenes: a ball on a floor that sleeps. With a restitution of 1 it rises higher with every bounce.
-/
set_option linter.unusedSectionVars false
set_option linter.unusedSimpArgs false
namespace Fluffy.Scene
open XReal Demo Step Props InternalEntity

variable {ρ : ℝ}

theorem mount_drops {e : XReal} {G : Vec3 ℝ} {z : Nap} {l : List DebugMsg} {m : ℝ} {v : Vec3 ℝ} (h : Tame' (mount ρ G z l (dot (fin m) ⟨0, 1, 0⟩ v [h1] up) 0 e))
    (hz : z.near = []) (hm : 1 / 1000000 < m) :
    DropsOn (mount ρ G z l (dot (fin m) ⟨0, 1, 0⟩ v [h1] up) 0 e) h1 h0 h1 h0 (dot (fin m) ⟨0, 1, 0⟩ v [h1] up).makePub (dot posInf .o .o [h0] z).makePub
      { roughBall ρ 0 with entity := some h1 } { roughPlane ρ with entity := some h0 } 1 ⟨0, 1, 0⟩ .o ⟨0, 1, 0⟩ G m 0 (ρ * ρ) 1 1 1 v where
  history := h
  alone := mount_alone
  over := mount_over hz rfl rfl rfl
  moves := ⟨rfl, rfl⟩
  mass := ⟨rfl, hm⟩
  moment := ⟨by simp [dot, makePub, Mat3.diag, Mat3.o]; rfl, le_rfl⟩
  smooth := .inl rfl
  sphereOnly := rfl
  planeOnly := rfl
  rest := ⟨by simp [roughBall, roughPlane, rough], mul_self_nonneg ρ⟩
  thr := by simp [roughBall, roughPlane, rough]
  stat := by simp [roughBall, roughPlane, rough]
  dyn := by simp [roughBall, roughPlane, rough]
  tries := by simp [mount, System.new]
  weight := by
    show Vec3.zeros + G.f = _
    rw [Vec3.f_zeros, Vec3.f_add, Vec3.f_inj]
    ext <;> simp
  awake := rfl

end Fluffy.Scene

namespace Fluffy.Props
open Fluffy XReal InternalEntity Step Demo Scene

section
variable {bh fh ch ch' : Handle} {sc : SphereCollider XReal} {pl : PlaneCollider XReal} {q : Orientation ℝ} {r : ℝ} {c P n G : Vec3 ℝ} {m i ρ t μs μd : ℝ}
  {s s' : System XReal (GravityGenerator XReal)}

/-- On a floor that sleeps, and at a height `h` with a speed `u` away from it. No speed is too small to keep it awake. -/
structure Aloft (s : System XReal (GravityGenerator XReal)) (bh fh ch ch' : Handle) (sc : SphereCollider XReal) (pl : PlaneCollider XReal) (q : Orientation ℝ) (r : ℝ)
    (c P n G : Vec3 ℝ) (m i ρ t μs μd h u : ℝ) : Prop where
  drops : ∃ B F o v, Drops s bh fh ch ch' B F sc pl o q r c P n G m i ρ t μs μd v ∧ F.asleep = true ∧ clearance o.position P n r = h ∧ v.dot n = u
  live : NeighborsLive s.entities
  calm : s.energySleepThreshold = fin (-1)

theorem Wakeful.append {ds es : List ℝ} {s s' s'' : System XReal (GravityGenerator XReal)} (h1 : Wakeful bh fh s ds s') (h2 : Wakeful bh fh s' es s'') :
    Wakeful bh fh s (ds ++ es) s'' := by
  induction h1 with
  | nil s => exact h2
  | cons ord first ball floor rest ih => exact .cons ord first ball floor (ih h2)

/-- One more step, whatever it leads to. -/
theorem Aloft.next {h u d : ℝ} (hd : 1 / 1000000 ≤ d) (hA : Aloft s bh fh ch ch' sc pl q r c P n G m i ρ t μs μd h u) :
    ∃ s' h' u', Wakeful bh fh s [d] s' ∧ Aloft s' bh fh ch ch' sc pl q r c P n G m i ρ t μs μd h' u' ∧
      (h' = h + d * (u + d * G.dot n) ∧ u' = u + d * G.dot n ∧
          (-(1 / 1000000) < u + d * G.dot n ∨ 0 < h ∧ (-(1 / 1000000) < d * (u + d * G.dot n) ∨ 0 ≤ h + d * (u + d * G.dot n))) ∨
        ∃ τ, 0 ≤ τ ∧ τ < d ∧ u + d * G.dot n ≤ -(1 / 1000000) ∧ (τ = 0 ∧ h ≤ 0 ∨ 0 < h ∧ h + τ * (u + d * G.dot n) = 0) ∧
          u' = -ρ * (u + d * G.dot n) ∧ h' = h + τ * (u + d * G.dot n) + (d - τ) * u') := by
  obtain ⟨B, F, o, v, hL, hF, rfl, rfl⟩ := hA.drops
  obtain ⟨m', hm, live'⟩ := step_total (ord := .id) (fin d) hA.live (hL.setting.safe hL.alone)
  obtain ⟨B1, F1, o1, v1, gB, gF, hleap, -, -, k1, k2, k3⟩ := drop_step hd hm hL
  have hm0 : 0 < m := lt_trans (by norm_num) hL.mass.2
  have a1 := k2 (by
    rw [hA.calm]
    have : 0 ≤ v1.dot v1 := by rw [Vec3.dot_def]; nlinarith [mul_self_nonneg v1.x, mul_self_nonneg v1.y, mul_self_nonneg v1.z]
    have : 0 ≤ m * v1.dot v1 := mul_nonneg hm0.le this
    simp
    linarith)
  have a2 := k1 hF
  refine ⟨m', clearance o1.position P n r, v1.dot n, .cons .id hm ?_ ?_ (.nil _), ⟨⟨B1, F1, o1, v1, k3 a1 (a2.trans hF.symm), a2, rfl, rfl⟩, live',
    by rw [(step_frame hm).1.energy]; exact hA.calm⟩, ?_⟩
  · intro b hb
    obtain ⟨Y, gY, rfl⟩ := getEntity_iff.mp hb
    rw [gB] at gY; cases gY; exact a1
  · intro f f' hf hf'
    obtain ⟨Y, gY, rfl⟩ := getEntity_iff.mp hf
    obtain ⟨Z, gZ, rfl⟩ := getEntity_iff.mp hf'
    rw [hL.setting.get2] at gY; cases gY
    rw [gF] at gZ; cases gZ
    show F1.asleep = F.asleep
    rw [a2, hF]
  · have hu : (v + G.scale d).dot n = v.dot n + d * G.dot n := by rw [Vec3.add_dot, Vec3.scale_dot, mul_comm]
    have hcl : ∀ (x w : Vec3 ℝ) (a : ℝ), clearance (x + w.scale a) P n r = clearance x P n r + a * w.dot n := by
      intro x w a; simp only [clearance, Vec3.dot_def, Vec3.add_x, Vec3.add_y, Vec3.add_z, Vec3.sub_x, Vec3.sub_y, Vec3.sub_z, Vec3.scale_x, Vec3.scale_y, Vec3.scale_z]; ring
    rcases hleap with ⟨e1, e2, e3⟩ | ⟨τ, t0, t1, e1, e2, e3, e4⟩
    · left
      rw [e1, e2, hcl, hu]
      rw [hcl, hu] at e3
      exact ⟨rfl, rfl, e3⟩
    · right
      rw [hcl, hu] at e2
      rw [hu] at e1
      refine ⟨τ, t0, t1, e1, e2, ?_, ?_⟩
      · rw [e3, Rebound.up hL.setting.one, hu]
      · rw [e4, hcl, hcl, hu]

/-- With a restitution of 1 and a gravity of 1, in steps of length 1: a ball that comes down to the floor with speed `k` leaves it with speed `k + 1`, … -/
theorem Aloft.bounce {k : ℕ} (hG : G.dot n = -1) (hA : Aloft s bh fh ch ch' sc pl q r c P n G m i 1 t μs μd 0 (-k)) :
    ∃ s', Wakeful bh fh s [1] s' ∧ Aloft s' bh fh ch ch' sc pl q r c P n G m i 1 t μs μd (k + 1) (k + 1) := by
  have hk : (0 : ℝ) ≤ k := Nat.cast_nonneg k
  obtain ⟨s', h', u', hw, hA', hc⟩ := hA.next (d := 1) (by norm_num)
  refine ⟨s', hw, ?_⟩
  rw [hG] at hc
  rcases hc with ⟨-, -, h | ⟨h, -⟩⟩ | ⟨τ, t0, t1, -, ⟨rfl, -⟩ | ⟨h, -⟩, rfl, rfl⟩
  · linarith
  · exact absurd h (lt_irrefl _)
  · convert hA' using 1 <;> ring
  · exact absurd h (lt_irrefl _)

/-- … and is in the air for the `2 (k + 1)` steps after that. -/
theorem Aloft.fly {k : ℕ} (hG : G.dot n = -1) (hA : Aloft s bh fh ch ch' sc pl q r c P n G m i 1 t μs μd (k + 1) (k + 1)) (j : ℕ) (hj : j ≤ 2 * (k + 1)) :
    ∃ s', Wakeful bh fh s (List.replicate j 1) s' ∧ Aloft s' bh fh ch ch' sc pl q r c P n G m i 1 t μs μd ((k + 1) * (j + 1) - j * (j + 1) / 2) (k + 1 - j) := by
  induction j with
  | zero => exact ⟨s, .nil s, by convert hA using 1 <;> simp⟩
  | succ j ih =>
    obtain ⟨m1, hw, hM⟩ := ih (by omega)
    obtain ⟨s', h', u', hw', hA', hc⟩ := hM.next (d := 1) (by norm_num)
    refine ⟨s', by rw [List.replicate_succ']; exact hw.append hw', ?_⟩
    rw [hG] at hc
    have hj' : (j : ℝ) + 1 ≤ 2 * (k + 1) := by exact_mod_cast hj
    have hj0 : (0 : ℝ) ≤ j := Nat.cast_nonneg j
    have hpos : 0 ≤ ((k : ℝ) + 1) * (j + 1) - j * (j + 1) / 2 + 1 * ((k : ℝ) + 1 - j + 1 * -1) := by nlinarith
    rcases hc with ⟨rfl, rfl, -⟩ | ⟨τ, t0, t1, hdown, ⟨rfl, h⟩ | ⟨h, h2⟩, rfl, rfl⟩
    · convert hA' using 1 <;> push_cast <;> ring
    · nlinarith
    · nlinarith

/-- So from one bounce to the next the speed grows by 1. -/
theorem Aloft.grows (hG : G.dot n = -1) (hA : Aloft s bh fh ch ch' sc pl q r c P n G m i 1 t μs μd 0 0) (k : ℕ) :
    ∃ (j : ℕ) (s' : System XReal (GravityGenerator XReal)), Wakeful bh fh s (List.replicate j 1) s' ∧ Aloft s' bh fh ch ch' sc pl q r c P n G m i 1 t μs μd 0 (-k) := by
  induction k with
  | zero => exact ⟨0, s, .nil s, by simpa using hA⟩
  | succ k ih =>
    obtain ⟨j, s1, hw, h1⟩ := ih
    obtain ⟨s2, hw2, h2⟩ := h1.bounce hG
    obtain ⟨s3, hw3, h3⟩ := h2.fly hG (2 * (k + 1)) le_rfl
    refine ⟨j + 1 + 2 * (k + 1), s3, ?_, ?_⟩
    · rw [List.replicate_add, List.replicate_add]
      exact (hw.append hw2).append hw3
    · convert h3 using 1 <;> push_cast <;> ring
end

/-- **C102 is false:** a ball that is put at rest on the floor, with a restitution of 1 and in steps of length 1, gets higher than any `H` by bouncing. -/
theorem C102_false (H : ℝ) :
    ∃ (s s' : System XReal (GravityGenerator XReal)) (ball floor ball' : Entity XReal) (sc : SphereCollider XReal) (pl : PlaneCollider XReal) (x' : Vec3 ℝ) (k : Nat),
      DropsOn s h1 h0 h1 h0 ball floor sc pl 1 ⟨0, 1, 0⟩ .o ⟨0, 1, 0⟩ ⟨0, -1, 0⟩ 1 0 1 1 1 1 .o ∧ Wakeful h1 h0 s (List.replicate k 1) s' ∧
      s'.getEntity h1 = some ball' ∧ ball'.position = Vec3.f x' ∧ H < x'.y := by
  have hf := mount_calm (mount_finite (hill_sleeps (ρ := 1) ⟨0, -1, 0⟩) (m := 1) (k := 0) (by norm_num) le_rfl (mount_dot 1 .o)) (fin (-1))
  have hR := mount_drops hf rfl (by norm_num)
  rw [one_mul] at hR
  obtain ⟨B, F, o, q, c, hB, hF, hx, hL⟩ := hR.drops
  have hG : (⟨0, -1, 0⟩ : Vec3 ℝ).dot ⟨0, 1, 0⟩ = -1 := by simp [Vec3.dot_def]
  obtain ⟨k, hk⟩ := exists_nat_gt H
  obtain ⟨j, s1, hw, h1⟩ := Aloft.grows hG ⟨⟨B, F, o, .o, hL, by have := congrArg Entity.asleep hF; exact this.symm, by rw [hx]; simp [clearance, Vec3.dot_def],
    by simp [Vec3.dot_def]⟩, mount_live rfl rfl, rfl⟩ k
  obtain ⟨s2, hw2, h2⟩ := h1.bounce hG
  obtain ⟨B', F', o', v', hL', -, hc, -⟩ := h2.drops
  refine ⟨_, s2, _, _, B'.makePub, _, _, o'.position, j + 1, hR, by rw [List.replicate_succ']; exact hw.append hw2,
    getEntity_iff.mpr ⟨B', hL'.setting.get1, rfl⟩, ?_, ?_⟩
  · show B'.orientation.position = _
    rw [hL'.pose]; rfl
  · simp [clearance, Vec3.dot_def] at hc
    linarith

/-- The hypotheses of `C102_partial` can be met: a ball is thrown up with speed 10, the restitution is 1/4. It never gets higher than 50 over the floor, however often it bounces. -/
example (k : Nat) : ∃ s s' ball' x', Tame' s ∧ Wakeful h1 h0 s (List.replicate k 1) s' ∧ s'.getEntity h1 = some ball' ∧ ball'.position = Vec3.f x' ∧ x'.y ≤ 51 := by
  have hf := mount_calm (mount_finite (hill_sleeps (ρ := 1 / 2) ⟨0, -1, 0⟩) (m := 1) (k := 0) (by norm_num) le_rfl (mount_dot 1 ⟨0, 10, 0⟩)) (fin (-1))
  have hR := mount_drops hf rfl (by norm_num)
  obtain ⟨B, F, o, q, c, hB, hF, hx, hL⟩ := hR.drops
  have hG : (⟨0, -1, 0⟩ : Vec3 ℝ).dot ⟨0, 1, 0⟩ = -1 := by simp [Vec3.dot_def]
  have hA : Aloft (mount (1 / 2) ⟨0, -1, 0⟩ abed [.puttingToSleep h0] (dot (fin 1) ⟨0, 1, 0⟩ ⟨0, 10, 0⟩ [h1] up) 0 (fin (-1))) h1 h0 h1 h0 _ _ q _ c _ _ _ _ _ _ _ _ _ _ _ :=
    ⟨⟨B, F, o, _, hL, by have := congrArg Entity.asleep hF; exact this.symm, rfl, rfl⟩, mount_live rfl rfl, rfl⟩
  have hrun : ∃ s', Wakeful h1 h0 (mount (1 / 2) ⟨0, -1, 0⟩ abed [.puttingToSleep h0] (dot (fin 1) ⟨0, 1, 0⟩ ⟨0, 10, 0⟩ [h1] up) 0 (fin (-1))) (List.replicate k 1) s' := by
    have : ∀ j : ℕ, ∃ s' h u, Wakeful h1 h0 (mount (1 / 2) ⟨0, -1, 0⟩ abed [.puttingToSleep h0] (dot (fin 1) ⟨0, 1, 0⟩ ⟨0, 10, 0⟩ [h1] up) 0 (fin (-1))) (List.replicate j 1) s' ∧
        Aloft s' h1 h0 h1 h0 { roughBall (1 / 2) 0 with entity := some h1 } { roughPlane (1 / 2) with entity := some h0 } q 1 c .o ⟨0, 1, 0⟩ ⟨0, -1, 0⟩ 1 0 (1 / 2 * (1 / 2)) 1 1 1 h u := by
      intro j
      induction j with
      | zero => exact ⟨_, _, _, .nil _, hA⟩
      | succ j ih =>
        obtain ⟨s', h, u, hw, h1⟩ := ih
        obtain ⟨s'', h', u', hw', h2, -⟩ := h1.next (d := 1) (by norm_num)
        exact ⟨s'', h', u', by rw [List.replicate_succ']; exact hw.append hw', h2⟩
    obtain ⟨s', _, _, h, -⟩ := this k
    exact ⟨s', h⟩
  obtain ⟨s', hs⟩ := hrun
  obtain ⟨b, x', hb, hp, hcl⟩ := C102_partial hR (by norm_num) (γ := 1) (D := 1) (by norm_num) hG (by
    intro d hd
    rw [(List.mem_replicate.mp hd).2]; norm_num) hs
  refine ⟨_, s', b, x', hf, hs, hb, hp, ?_⟩
  simp [clearance, Vec3.dot_def] at hcl
  norm_num at hcl
  rcases hcl with h | h <;> linarith

end Fluffy.Props
