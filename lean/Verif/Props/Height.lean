import Verif.Props.Settle
/-
C114: after a bounce a ball rises to no more than the restitution squared times the height it fell from.
-/
set_option linter.unusedSectionVars false
set_option linter.unusedSimpArgs false
namespace Fluffy.Props
open Fluffy XReal InternalEntity Step Demo Scene

section
variable {γ d ρ : ℝ}

/-- The height a ball that fell from the height `h` rises to after a bounce, at most. -/
noncomputable def secondHeight (γ d ρ h : ℝ) : ℝ := ρ ^ 2 * h + ρ * (1 + ρ) * d * (Real.sqrt (2 * γ * (h + 1 / 1000000)) + γ * d)

/-- What a step does to the energy of a ball that falls, … -/
theorem Hop.falls {H w H' w' h : ℝ} (hγ : 0 < γ) (hd : 0 < d) (hρ : 0 ≤ ρ) (hρ1 : ρ < 1) (hq : 1 / 1000000 ≤ γ * d) (hop : Hop γ d ρ H w H' w')
    (hw : w ≤ 0) (hH : -(1 / 1000000) ≤ H) (hl : lift γ H w ≤ γ * h) :
    w' ≤ 0 ∧ -(1 / 1000000) ≤ H' ∧ lift γ H' w' ≤ γ * h ∨ lift γ H' w' ≤ γ * secondHeight γ d ρ h := by
  have ha := mul_pos hγ hd
  rcases hop with ⟨rfl, rfl, c⟩ | ⟨τ, τ0, τ1, hs, hz, rfl, rfl⟩
  · refine .inl ⟨by linarith, ?_, ?_⟩
    · rcases c with c | ⟨c, c' | c'⟩ <;> linarith
    · unfold lift at hl ⊢
      nlinarith
  · right
    set V := Real.sqrt (2 * γ * (h + 1 / 1000000)) with hV
    have hwV : -w ≤ V := by
      apply Real.le_sqrt_of_sq_le
      unfold lift at hl
      have := mul_le_mul_of_nonneg_left hH hγ.le
      nlinarith
    obtain ⟨u, hu⟩ : ∃ u, w - γ * d = -u := ⟨_, (neg_neg _).symm⟩
    have hwu : w = γ * d - u := by linarith
    rw [hu] at hs hz ⊢
    have huV : u ≤ V + γ * d := by linarith
    have hu0 : 0 ≤ u := by linarith
    unfold secondHeight
    rw [← hV]
    have key : lift γ (H + τ * -u + (d - τ) * -(ρ * -u)) (-(ρ * -u)) =
        ρ ^ 2 * lift γ H w + γ * (H + τ * -u) * (1 - ρ ^ 2) + ρ * (1 + ρ) * γ * (d - τ) * u - ρ ^ 2 * (γ * d) ^ 2 / 2 := by
      unfold lift; rw [hwu]; ring
    rw [key]
    have h1 : γ * (H + τ * -u) * (1 - ρ ^ 2) ≤ 0 := mul_nonpos_of_nonpos_of_nonneg (mul_nonpos_of_nonneg_of_nonpos hγ.le hz) (by nlinarith)
    have h2 : ρ ^ 2 * lift γ H w ≤ ρ ^ 2 * (γ * h) := mul_le_mul_of_nonneg_left hl (sq_nonneg ρ)
    have h3 : (d - τ) * u ≤ d * (V + γ * d) := mul_le_mul (by linarith) huV hu0 hd.le
    have h4 : ρ * (1 + ρ) * γ * ((d - τ) * u) ≤ ρ * (1 + ρ) * γ * (d * (V + γ * d)) := mul_le_mul_of_nonneg_left h3 (by positivity)
    have h5 : 0 ≤ ρ ^ 2 * (γ * d) ^ 2 / 2 := by positivity
    nlinarith

/-- … and of one that has bounced. -/
theorem Hop.stays {H w H' w' E : ℝ} (hγ : 0 < γ) (hd : 0 < d) (hρ : 0 ≤ ρ) (hρ1 : ρ < 1) (hop : Hop γ d ρ H w H' w') (hl : lift γ H w ≤ max E (residue γ d ρ)) :
    lift γ H' w' ≤ max E (residue γ d ρ) := by
  refine (hop.cost hγ hd hρ hρ1).trans (max_le ?_ (le_max_right _ _))
  have : 0 ≤ (γ * d) ^ 2 / 2 := by positivity
  linarith
end

section
variable {bh fh ch ch' : Handle} {sc : SphereCollider XReal} {pl : PlaneCollider XReal} {r : ℝ} {x P n G v : Vec3 ℝ} {m i ρ t μs μd γ d h : ℝ}
  {s : System XReal (GravityGenerator XReal)} {ball floor : Entity XReal} {f : ℕ → System XReal (GravityGenerator XReal)}

/-- **C114 (partial).** A ball is let go over a sleeping floor, level or sloping, at the height `h` and with no speed towards it or away from it. `γ` is the part of gravity towards the floor. As soon
as the ball moves away from the floor after a step, it is not higher than `ρ² h` from then on, up to two terms that get small with the length `d` of the steps: the first is the way the ball
goes in about one step, and the second the height of `C102_partial`. Missing: that these terms are there (`C114_false`), that the ball does get as high as that, and what happens once it has fallen asleep. -/
theorem C114_partial (hd : 1 / 1000000 ≤ d) (hγ : 0 < γ) (hq : 1 / 1000000 ≤ γ * d) (hρ1 : ρ < 1) (hG : G.dot n = -γ)
    (hR : DropsOn s bh fh ch ch' ball floor sc pl r x P n G m i ρ t μs μd v) (hv : v.dot n = 0) (hh : clearance x P n r = h) (h0 : 0 ≤ h) (hF : floor.asleep = true)
    (hf : Unrolls d s f) {j k : ℕ} (hjk : j ≤ k) (aw : ∀ i ≤ k, ∀ b, (f i).getEntity bh = some b → b.asleep = false)
    {ball1 : Entity XReal} {v1 : Vec3 ℝ} (g1 : (f j).getEntity bh = some ball1) (gv : ball1.velocity = v1.f) (away : 0 < v1.dot n) :
    ∃ ball2 x2, (f k).getEntity bh = some ball2 ∧ ball2.position = Vec3.f x2 ∧
      clearance x2 P n r ≤ max (ρ ^ 2 * h + ρ * (1 + ρ) * d * (Real.sqrt (2 * γ * (h + 1 / 1000000)) + γ * d)) (2 * ρ * γ * d ^ 2 / (1 - ρ) ^ 2) := by
  have hd0 : 0 < d := lt_of_lt_of_le (by norm_num) hd
  have hρ : 0 ≤ ρ := hR.rest.2
  obtain ⟨B, F, o, q, c, rfl, rfl, rfl, hL⟩ := hR.drops
  have hn := hL.setting.one
  -- until the ball moves away from the floor it falls
  have run : ∀ l, l ≤ k → ∃ B F o v, Drops (f l) bh fh ch ch' B F sc pl o q r c P n G m i ρ t μs μd v ∧ F.asleep = true ∧
      ((v.dot n ≤ 0 ∧ -(1 / 1000000) ≤ clearance o.position P n r ∧ lift γ (clearance o.position P n r) (v.dot n) ≤ γ * h) ∧ l ≤ j ∨
        lift γ (clearance o.position P n r) (v.dot n) ≤ max (γ * secondHeight γ d ρ h) (residue γ d ρ)) := by
    intro l
    induction l with
    | zero =>
      intro _
      rw [hf.1]
      refine ⟨B, F, o, v, hL, hF, .inl ⟨⟨hv.le, by rw [hh]; linarith, ?_⟩, Nat.zero_le _⟩⟩
      rw [hv, hh]; unfold lift; simp
    | succ l ih =>
      intro hl
      obtain ⟨B, F, o, v, hL, hF, hc⟩ := ih (by omega)
      obtain ⟨ord, hstep⟩ := hf.2 l
      obtain ⟨B', F', o', v', gB, gF, hleap, hp, -, k1, -, k3⟩ := drop_step hd hstep hL
      have hL' := k3 (aw (l + 1) hl _ (getEntity_iff.mpr ⟨B', gB, rfl⟩)) ((k1 hF).trans hF.symm)
      have hop := hleap.rise hn hG
      refine ⟨B', F', o', v', hL', k1 hF, ?_⟩
      rcases hc with ⟨⟨c1, c2, c3⟩, c4⟩ | hc
      · rcases hop.falls hγ hd0 hρ hρ1 hq c1 c2 c3 with e | e
        · rcases Nat.lt_or_ge l j with hlt | hge
          · exact .inl ⟨e, hlt⟩
          · -- at `j` the ball did move away
            have : l = j := by omega
            subst this
            obtain ⟨Y, gY, rfl⟩ := getEntity_iff.mp g1
            rw [hL.setting.get1] at gY; cases gY
            have hv1 : B.velocity = v1.f := gv
            rw [hL.moves.1, Vec3.f_inj] at hv1
            rw [hv1] at c1
            linarith
        · exact .inr (le_max_of_le_left e)
      · exact .inr (hop.stays hγ hd0 hρ hρ1 hc)
  obtain ⟨B2, F2, o2, v2, hL2, -, hc⟩ := run k le_rfl
  refine ⟨B2.makePub, o2.position, getEntity_iff.mpr ⟨B2, hL2.setting.get1, rfl⟩, ?_, ?_⟩
  · show B2.orientation.position = _
    rw [hL2.pose]; rfl
  · have hc' : lift γ (clearance o2.position P n r) (v2.dot n) ≤ max (γ * secondHeight γ d ρ h) (residue γ d ρ) := by
      rcases hc with ⟨⟨c1, -, -⟩, c4⟩ | hc
      · have : k = j := by omega
        subst this
        obtain ⟨Y, gY, rfl⟩ := getEntity_iff.mp g1
        rw [hL2.setting.get1] at gY; cases gY
        have hv1 : B2.velocity = v1.f := gv
        rw [hL2.moves.1, Vec3.f_inj] at hv1
        rw [hv1] at c1
        linarith
      · exact hc
    have hq' : 1 - ρ ≠ 0 := by linarith
    have e : residue γ d ρ = γ * (2 * ρ * γ * d ^ 2 / (1 - ρ) ^ 2) := by unfold residue; field_simp
    rw [e, ← mul_max_of_nonneg _ _ hγ.le] at hc'
    unfold lift secondHeight at hc'
    exact le_of_mul_le_mul_left (by nlinarith [sq_nonneg (v2.dot n)]) hγ

end

/-- **C114 is false:** with the settings of a new system, gravity 10, steps of 1/60 and a restitution of 1/4 a ball of mass 3 that is put at rest on a floor, at the height 0, is over
the floor after the first step, and moves away from it. -/
theorem C114_false : ∃ (s : System XReal (GravityGenerator XReal)) (f : ℕ → System XReal (GravityGenerator XReal)) (ball floor ball1 : Entity XReal) (sc : SphereCollider XReal)
    (pl : PlaneCollider XReal) (x1 v1 : Vec3 ℝ),
    DropsOn s h1 h0 h1 h0 ball floor sc pl 1 ⟨0, 1, 0⟩ .o ⟨0, 1, 0⟩ ⟨0, -10, 0⟩ 3 0 (1 / 4) 1 1 1 .o ∧ clearance ⟨0, 1, 0⟩ .o ⟨0, 1, 0⟩ 1 = 0 ∧ floor.asleep = true ∧
      Unrolls (1 / 60) s f ∧ (∀ k b, (f k).getEntity h1 = some b → b.asleep = false) ∧ (f 1).getEntity h1 = some ball1 ∧ ball1.position = Vec3.f x1 ∧ ball1.velocity = Vec3.f v1 ∧
      0 < v1.y ∧ 0 < clearance x1 .o ⟨0, 1, 0⟩ 1 := by
  have hf := mount_finite (hill_sleeps (ρ := 1 / 2) ⟨0, -10, 0⟩) (m := 3) (k := 0) (by norm_num) le_rfl (mount_dot 3 .o)
  have hR := mount_drops hf rfl (by norm_num)
  rw [show (1 / 2 * (1 / 2) : ℝ) = 1 / 4 by norm_num] at hR
  have hG : (⟨0, -10, 0⟩ : Vec3 ℝ) = (⟨0, 1, 0⟩ : Vec3 ℝ).scale (-10) := by ext <;> simp
  have hW : Weighty 10 (1 / 60) (1 / 4) := ⟨by norm_num, by norm_num, by norm_num, by norm_num, by norm_num⟩
  have he : (lit 1 1000 : XReal) = fin (1 / 1000) := by rw [lit_eq]; norm_num
  have hx : clearance ⟨0, 1, 0⟩ .o ⟨0, 1, 0⟩ 1 = 0 := by simp [clearance, Vec3.dot_def]
  have hR' := hR
  rw [hG] at hR'
  obtain ⟨B, F, o, q, c, -, -, -, hL⟩ := hR'.drops
  obtain ⟨f, hu⟩ := unrolls_total (1 / 60) (mount_live rfl rfl) (hL.setting.safe hL.alone)
  have aw : ∀ k b, (f k).getEntity h1 = some b → b.asleep = false := by
    rintro (_ | k) b hb
    · rw [hu.1] at hb
      obtain ⟨Y, gY, rfl⟩ := getEntity_iff.mp hb
      rw [hL.setting.get1] at gY; cases gY
      exact hL.awake
    · obtain ⟨b', w, e1, e2, -⟩ := C103_never hW hR' hx rfl he (by norm_num) hu k
      rw [e1] at hb; cases hb
      exact e2
  obtain ⟨b, x', e1, e2, e3, e4⟩ := C103_course hW hR' hx rfl hu 1 (fun j _ => aw j)
  refine ⟨_, f, _, _, b, _, _, x', _, hR, hx, rfl, by rw [hG]; exact hu, aw, e1, e3, e2, ?_, ?_⟩
  · simp; norm_num
  · rw [e4]; norm_num

/-- The hypotheses of `C114_partial` can be met: this ball never gets higher than a hundredth over the floor. -/
example : ∃ (s : System XReal (GravityGenerator XReal)) (f : ℕ → System XReal (GravityGenerator XReal)), Unrolls (1 / 60) s f ∧
    ∀ k, 1 ≤ k → ∃ ball2 x2, (f k).getEntity h1 = some ball2 ∧ ball2.position = Vec3.f x2 ∧ clearance x2 .o ⟨0, 1, 0⟩ 1 ≤ 1 / 100 := by
  obtain ⟨s, f, ball, floor, b1, sc, pl, x1, v1, hR, hx, hF, hu, aw, g1, -, gv, hv, -⟩ := C114_false
  refine ⟨s, f, hu, fun k hk => ?_⟩
  obtain ⟨b, x2, e1, e2, e3⟩ := C114_partial (γ := 10) (h := 0) (by norm_num) (by norm_num) (by norm_num) (by norm_num) (by simp [Vec3.dot_def]) hR (by simp [Vec3.dot_def]) hx le_rfl hF hu hk
    (fun i _ => aw i) g1 gv (by simpa [Vec3.dot_def] using hv)
  refine ⟨b, x2, e1, e2, e3.trans (max_le ?_ (by norm_num))⟩
  have : Real.sqrt (2 * 10 * (0 + 1 / 1000000)) ≤ 1 := Real.sqrt_le_one.mpr (by norm_num)
  linarith

end Fluffy.Props
