import Verif.Props.Drift
import Verif.Props.Missed

/-! C82: free fall in binary32. -/

set_option linter.unusedSectionVars false
set_option linter.unusedSimpArgs false

namespace Fluffy.Props
open Step

/-! ### One step of free fall, for every number type -/
section Generic
variable {α : Type} [Scalar α] {γ : Type} [ForceGenerator α γ]

theorem integrateAll_kept {P : Arena γ → Prop} (hP : KeptByForces (α := α) P) {dt : α} {gens : List Handle} :
    ∀ {l : List Handle} {s s' : System α γ} {infos : List (StepInfo α)}, integrateAll dt gens l s = .ok (s', infos) → P s.generators → P s'.generators
  | [], s, s', infos, hh, hs => by unfold integrateAll at hh; cases hh; exact hs
  | k :: l, s, s', infos, hh, hs => by
    unfold integrateAll at hh
    obtain ⟨⟨m, i⟩, h1, hh⟩ := Res.bind_eq_ok.mp hh
    obtain ⟨⟨s2, is⟩, h2, hh⟩ := Res.bind_eq_ok.mp hh
    cases hh
    obtain ⟨e, g, a, t, he, hg, rfl, rfl⟩ := integrateOne_spec h1
    exact integrateAll_kept hP h2 (accelerates_kept hP hg hs)

theorem gravity_kept (g0 : Arena (GravityGenerator α)) : KeptByForces (α := α) (fun g => ∀ h, g.get h = g0.get h) := by
  intro g gh x x' dt w h f hg hx hf
  have hx' : x' = x := by
    have hf : (do let e ← unwrap (w.getEntity h)
                  .ok (⟨x.acceleration.scale e.lastTotalMass, e.position⟩, x)) = Except.ok (f, x') := hf
    obtain ⟨e, -, hf⟩ := Res.bind_eq_ok.mp hf
    simp only [Except.ok.injEq, Prod.mk.injEq] at hf
    exact hf.2.symm
  intro k
  rw [Arena.get_set]; split
  · rename_i hh; subst hh; rw [hx, ← hg, hx, hx']; rfl
  · exact hg k

/-- The generators after a step with gravity are those before it. -/
theorem step_gravity {s s' : System α (GravityGenerator α)} {ord : IterOrder} {dt : α} (hp : Proper dt) (hh : s.step ord dt = .ok s') (h : Handle) :
    s'.generators.get h = s.generators.get h := by
  obtain ⟨ph⟩ := step_phases hp hh
  rw [ph.generators]
  exact integrateAll_kept (gravity_kept s.generators) ph.integrate (fun _ => rfl) h

/-- The velocity after a step with a single gravity generator, without a collision. -/
theorem fall_step {s s' : System α (GravityGenerator α)} {ord : IterOrder} {dt : α} (hp : Proper dt) (hh : s.step ord dt = .ok s')
    (hr : s'.collisionRecords = []) (hn : s.iterationMax ≠ 0) {gh : Handle} {g : GravityGenerator α} (hl : s.generators.handles = [gh])
    (hg : s.generators.get gh = some g) {h : Handle} {p : Entity α} (he : s.getEntity h = some p) (ha : p.asleep = false) (hm : Pushable p = true) :
    ∃ p', s'.getEntity h = some p' ∧ p'.lastTotalMass = p.lastTotalMass ∧
      p'.velocity = p.velocity + (Vec3.zeros + (g.acceleration.scale p.lastTotalMass).scale (one / p.lastTotalMass)).scale dt := by
  obtain ⟨w, gs, g', fs, p', -, hw, -, hk, has, hp', hv, -⟩ := C21_free_flight hp hh hr hn he ha
  have hgs : gs.get gh = some g := by rw [← hg]; exact hk _ (gravity_kept s.generators) (fun _ => rfl) gh
  rw [if_pos hm, hl] at has
  refine ⟨p', hp', ?_, ?_⟩
  · obtain ⟨E, gE, rfl⟩ := getEntity_eq_some.mp he
    obtain ⟨E', gE', rfl⟩ := getEntity_eq_some.mp hp'
    obtain ⟨y, gy, hst⟩ := (step_frame hh).1.entities.get gE
    have : s'.entities.get h = some E' := gE'
    rw [this] at gy; cases gy
    exact (staticRel_iff.mp hst).2.2.1
  · cases has with
    | cons q1 q2 q3 =>
      rename_i x x' f fs
      cases q3
      rw [hgs] at q1; cases q1
      have q2 : (do let e ← unwrap (w.getEntity h)
                    .ok (⟨g.acceleration.scale e.lastTotalMass, e.position⟩, g)) = Except.ok (f, x') := q2
      rw [hw] at q2
      cases q2
      rw [hv]; rfl

end Generic

/-! ### Rounded numbers -/
section Binary32
open F32

theorem EPSILON_lower [Libm] : ∃ e : ℚ, Val (EPSILON : F32) e ∧ 2 ^ (-20 : ℤ) ≤ e := by
  have h : ∃ e : ℚ, Val (EPSILON : F32) e := by
    obtain ⟨e, h, -⟩ := val_eps
    exact ⟨e, h⟩
  obtain ⟨e, h⟩ := h
  refine ⟨e, h, ?_⟩
  have h1 : Scalar.le (num 1 1048576) (EPSILON : F32) = true := by kernel_refl
  have h2 : Val (num 1 1048576) (1 / 1048576) := valued_iff.mp (by kernel_refl)
  rw [h2.le h, decide_eq_true_iff] at h1
  refine le_trans ?_ h1
  norm_num [zpow_neg]

/-- What the rounded numbers are in a step of free fall. -/
theorem fall_round {g m d G : ℚ} (hG : |g| ≤ G) (hG0 : 2 ^ (-60 : ℤ) ≤ G) (hm0 : 2 ^ (-20 : ℤ) ≤ m) (hm1 : m ≤ 2 ^ 60) (hd0 : 2 ^ (-20 : ℤ) ≤ d)
    (hG1 : G ≤ 2 ^ 60) (hd1 : G * d ≤ 2 ^ 126) :
    |rnd (g * m)| < 2 ^ 128 ∧ |rnd (1 / m)| < 2 ^ 128 ∧ |rnd (rnd (g * m) * rnd (1 / m))| < 2 ^ 128 ∧
    |rnd (rnd (rnd (g * m) * rnd (1 / m)) * d)| < 2 ^ 128 ∧ |rnd (rnd (rnd (g * m) * rnd (1 / m)) * d) - g * d| ≤ 6 / 2 ^ 24 * (G * d) := by
  have e24 : (2 : ℚ) ^ (-24 : ℤ) = 1 / 16777216 := by norm_num [zpow_neg]
  have hmp : 0 < m := lt_of_lt_of_le (by positivity) hm0
  have hdp : 0 < d := lt_of_lt_of_le (by positivity) hd0
  have hGp : 0 < G := lt_of_lt_of_le (by positivity) hG0
  have p1 : (2 : ℚ) ^ (-126 : ℤ) ≤ G * m := by
    calc (2 : ℚ) ^ (-126 : ℤ) ≤ 2 ^ (-60 : ℤ) * 2 ^ (-20 : ℤ) := by norm_num [zpow_neg]
      _ ≤ G * m := by gcongr
  have p2 : (2 : ℚ) ^ (-126 : ℤ) ≤ 1 / m := by
    rw [le_div_iff₀ hmp]
    calc (2 : ℚ) ^ (-126 : ℤ) * m ≤ 2 ^ (-126 : ℤ) * 2 ^ 60 := by gcongr
      _ ≤ 1 := by norm_num [zpow_neg]
  have p3 : (2 : ℚ) ^ (-126 : ℤ) ≤ G * d := by
    calc (2 : ℚ) ^ (-126 : ℤ) ≤ 2 ^ (-60 : ℤ) * 2 ^ (-20 : ℤ) := by norm_num [zpow_neg]
      _ ≤ G * d := by gcongr
  have q1 : |g * m| ≤ G * m := by rw [abs_mul, abs_of_pos hmp]; gcongr
  have e1 := rnd_error_rel q1 p1
  have e2 := rnd_error_rel (le_of_eq (abs_of_pos (show 0 < 1 / m by positivity))) p2
  rw [e24] at e1 e2
  have c0 : G * m ≤ 2 ^ 120 := by
    calc G * m ≤ 2 ^ 60 * 2 ^ 60 := by gcongr
      _ = 2 ^ 120 := by norm_num
  have c1 : 1 / m ≤ 2 ^ 20 := by
    rw [div_le_iff₀ hmp]
    calc (1 : ℚ) = 2 ^ 20 * 2 ^ (-20 : ℤ) := by norm_num [zpow_neg]
      _ ≤ 2 ^ 20 * m := by gcongr
  generalize hA : rnd (g * m) = A at *
  generalize hB : rnd (1 / m) = B at *
  have a1 : |A| ≤ G * m * (1 + 1 / 16777216) := by
    have : A = g * m + (A - g * m) := by ring
    rw [this]; exact (abs_add_le _ _).trans (by linarith)
  have b1 : |B| ≤ 1 / m * (1 + 1 / 16777216) := by
    have : B = 1 / m + (B - 1 / m) := by ring
    rw [this]; refine (abs_add_le _ _).trans ?_
    rw [abs_of_pos (show 0 < 1 / m by positivity)]; linarith
  have ab : |A * B - g| ≤ G * (2 / 16777216 + 1 / 16777216 ^ 2) := by
    have : A * B - g = (A - g * m) * B + g * m * (B - 1 / m) := by field_simp; ring
    rw [this]
    refine (abs_add_le _ _).trans ?_
    rw [abs_mul, abs_mul (g * m)]
    calc |A - g * m| * |B| + |g * m| * |B - 1 / m| ≤ G * m * (1 / 16777216) * (1 / m * (1 + 1 / 16777216)) + G * m * (1 / m * (1 / 16777216)) := by gcongr
      _ = G * (2 / 16777216 + 1 / 16777216 ^ 2) := by field_simp; ring
  have ab1 : |A * B| ≤ G * (1 + 3 / 16777216) := by
    have : A * B = g + (A * B - g) := by ring
    rw [this]; refine (abs_add_le _ _).trans ?_
    linarith
  have e3 := rnd_error_rel ab1 (show (2 : ℚ) ^ (-126 : ℤ) ≤ G * (1 + 3 / 16777216) by
    refine le_trans ?_ (le_mul_of_one_le_right hGp.le (by norm_num)); exact le_trans (by norm_num [zpow_neg]) hG0)
  rw [e24] at e3
  generalize hC : rnd (A * B) = C at *
  have cg : |C - g| ≤ G * (4 / 16777216) := by
    have : C - g = (C - A * B) + (A * B - g) := by ring
    rw [this]; refine (abs_add_le _ _).trans ?_
    linarith
  have cc : |C| ≤ G * (1 + 4 / 16777216) := by
    have : C = g + (C - g) := by ring
    rw [this]; refine (abs_add_le _ _).trans ?_
    linarith
  have cd : |C * d| ≤ G * d * (1 + 4 / 16777216) := by
    rw [abs_mul, abs_of_pos hdp]
    calc |C| * d ≤ G * (1 + 4 / 16777216) * d := by gcongr
      _ = _ := by ring
  have e4 := rnd_error_rel cd (le_trans p3 (le_mul_of_one_le_right (by positivity) (by norm_num)))
  rw [e24] at e4
  have cgd : |C * d - g * d| ≤ G * d * (4 / 16777216) := by
    rw [← sub_mul, abs_mul, abs_of_pos hdp]
    calc |C - g| * d ≤ G * (4 / 16777216) * d := by gcongr
      _ = _ := by ring
  generalize hD : rnd (C * d) = D at *
  have hGd : 0 < G * d := by positivity
  have dd : |D - g * d| ≤ 6 / 2 ^ 24 * (G * d) := by
    have : D - g * d = (D - C * d) + (C * d - g * d) := by ring
    rw [this]; refine (abs_add_le _ _).trans ?_
    rw [show (2 : ℚ) ^ 24 = 16777216 by norm_num]
    linarith
  refine ⟨?_, ?_, ?_, ?_, dd⟩
  · refine lt_of_le_of_lt a1 ?_
    have : (2 : ℚ) ^ 120 * 2 < 2 ^ 128 := by norm_num
    nlinarith
  · refine lt_of_le_of_lt b1 ?_
    have : (2 : ℚ) ^ 20 * 2 < 2 ^ 128 := by norm_num
    nlinarith
  · refine lt_of_le_of_lt cc ?_
    have : (2 : ℚ) ^ 60 * 2 < 2 ^ 128 := by norm_num
    nlinarith
  · have : D = C * d + (D - C * d) := by ring
    rw [this]
    refine lt_of_le_of_lt ((abs_add_le _ _).trans (add_le_add cd e4)) ?_
    have : (2 : ℚ) ^ 126 * 4 = 2 ^ 128 := by norm_num
    nlinarith

variable [Libm]

/-- One step of free fall along an axis. -/
theorem fall_axis {s s' : System F32 (GravityGenerator F32)} {ord : IterOrder} {dt : F32} {d : ℚ} (hp : Proper dt) (hd : Val dt d) (hd0 : 0 < d)
    (hh : s.step ord dt = .ok s') (hr : s'.collisionRecords = []) (hn : s.iterationMax ≠ 0) {gh : Handle} {g : GravityGenerator F32}
    (hl : s.generators.handles = [gh]) (hg : s.generators.get gh = some g) {h : Handle} {p : Entity F32} (he : s.getEntity h = some p)
    (ha : p.asleep = false) (hm : Pushable p = true) {m : ℚ} (hmv : Val p.lastTotalMass m) (hm1 : m ≤ 2 ^ 60) {a : Axis} {γ G v : ℚ}
    (hγ : Val (a.of g.acceleration) γ) (hv : Val (a.of p.velocity) v) (hG : |γ| ≤ G) (hG0 : 2 ^ (-60 : ℤ) ≤ G) (hG1 : G ≤ 2 ^ 60) (hd1 : G * d ≤ 2 ^ 126) :
    ∃ p' D, s'.getEntity h = some p' ∧ p'.lastTotalMass = p.lastTotalMass ∧ |D - γ * d| ≤ 6 / 2 ^ 24 * (G * d) ∧
      (|rnd (v + D)| < 2 ^ 128 → Val (a.of p'.velocity) (rnd (v + D))) := by
  obtain ⟨p', hp', hmass, hvel⟩ := fall_step hp hh hr hn hl hg he ha hm
  obtain ⟨e, hev, he0⟩ := EPSILON_lower
  have hm0 : 2 ^ (-20 : ℤ) ≤ m := by
    unfold Pushable at hm
    rw [Bool.and_eq_true, hev.lt hmv, decide_eq_true_iff] at hm
    linarith [hm.2]
  have hd0' : 2 ^ (-20 : ℤ) ≤ d := by
    have h1 : Scalar.lt (Scalar.abs dt) EPSILON = false := hp
    rw [hd.abs.lt hev, decide_eq_false_iff_not, abs_of_pos hd0, not_lt] at h1
    linarith
  obtain ⟨c1, c2, c3, c4, hD⟩ := fall_round hG hG0 hm0 hm1 hd0' hG1 hd1
  refine ⟨p', _, hp', hmass, hD, fun c5 => ?_⟩
  rw [hvel, a.add, a.scale, a.add, a.scale, a.scale, a.zeros]
  have hmne : m ≠ 0 := ne_of_gt (lt_of_lt_of_le (by positivity) hm0)
  have h3 := (hγ.mul hmv c1).mul (val_one.div hmv hmne c2) c3
  have h4 : Val ((zero : F32) + a.of g.acceleration * p.lastTotalMass * (one / p.lastTotalMass)) (rnd (rnd (γ * m) * rnd (1 / m))) := by
    have := val_zero.add h3 (by rw [zero_add, h3.rnd]; exact c3)
    rwa [zero_add, h3.rnd] at this
  exact hv.add (h4.mul hd c4) c5

theorem fall_error {h : Handle} {s s' : System F32 (GravityGenerator F32)} {n : Nat} {t : ℚ} (hf : Flight h s n t s') (hn : s.iterationMax ≠ 0)
    {gh : Handle} {g : GravityGenerator F32} (hl : s.generators.handles = [gh]) (hg : s.generators.get gh = some g)
    {p : Entity F32} (he : s.getEntity h = some p) (hm : Pushable p = true) {m : ℚ} (hmv : Val p.lastTotalMass m) (hm1 : m ≤ 2 ^ 60) {a : Axis} {γ G v : ℚ}
    (hγ : Val (a.of g.acceleration) γ) (hv : Val (a.of p.velocity) v) (hG : |γ| ≤ G) (hG0 : 2 ^ (-60 : ℤ) ≤ G) (hG1 : G ≤ 2 ^ 60)
    {o u R E : ℚ} (hu : 0 ≤ u) (hE : |v - (o + γ * u)| ≤ E) (hR : |o| + G * (u + t) ≤ R) (hR0 : 2 ^ (-126 : ℤ) ≤ R)
    (hR1 : (R + E) * (1 + 2 ^ (-21 : ℤ)) ^ n ≤ 2 ^ 126) :
    ∃ p', s'.getEntity h = some p' ∧ ∃ v', Val (a.of p'.velocity) v' ∧ |v' - (o + γ * (u + t))| ≤ (R + E) * (1 + 2 ^ (-21 : ℤ)) ^ n - R := by
  induction hf generalizing p v u E with
  | nil => exact ⟨p, he, v, hv, by rw [add_zero, pow_zero]; linarith⟩
  | @cons s m' s' ord dt d t n hp hd hd0 hh hr ha hfl ih =>
    have ht := flight_nonneg hfl
    have hE0 : 0 ≤ E := (abs_nonneg _).trans hE
    have hRp : 0 < R := lt_of_lt_of_le (by positivity) hR0
    have hGp : 0 < G := lt_of_lt_of_le (by positivity) hG0
    have hpow : (1 : ℚ) ≤ (1 + 2 ^ (-21 : ℤ)) ^ (n + 1) := one_le_pow₀ (by norm_num [zpow_neg])
    have hcap : R + E ≤ 2 ^ 126 := le_trans (le_mul_of_one_le_right (by linarith) hpow) hR1
    have hGd : G * d ≤ R := by
      have : 0 ≤ G * (u + t) := mul_nonneg hGp.le (by linarith)
      have e : G * (u + (d + t)) = G * d + G * (u + t) := by ring
      linarith [abs_nonneg o]
    obtain ⟨p', D, hp', hmass, hD, hval⟩ := fall_axis hp hd hd0 hh hr hn hl hg he (ha p he) hm hmv hm1 hγ hv hG hG0 hG1 (by linarith)
    have hgoal : |o + γ * (u + d)| ≤ R := by
      have h1 : |γ * (u + d)| ≤ G * (u + (d + t)) := by
        rw [abs_mul, abs_of_nonneg (show 0 ≤ u + d by linarith)]
        apply mul_le_mul hG (by linarith) (by linarith) hGp.le
      exact (abs_add_le _ _).trans (by linarith)
    have e24 : (2 : ℚ) ^ (-24 : ℤ) = 1 / 16777216 := by norm_num [zpow_neg]
    have e21 : (2 : ℚ) ^ (-21 : ℤ) = 1 / 2097152 := by norm_num [zpow_neg]
    have hD' : |D - γ * d| ≤ 6 / 16777216 * R := by
      refine hD.trans ?_
      rw [show (2 : ℚ) ^ 24 = 16777216 by norm_num]
      linarith
    have hmid : |v + D - (o + γ * (u + d))| ≤ E + 6 / 16777216 * R := by
      have : v + D - (o + γ * (u + d)) = (v - (o + γ * u)) + (D - γ * d) := by ring
      rw [this]; exact (abs_add_le _ _).trans (by linarith)
    have hsum : |v + D| ≤ R + E + 6 / 16777216 * R := by
      have : v + D = (o + γ * (u + d)) + (v + D - (o + γ * (u + d))) := by ring
      rw [this]; exact (abs_add_le _ _).trans (by linarith)
    have hr2 := rnd_error_rel hsum (le_trans hR0 (by linarith))
    rw [e24] at hr2
    have c2 : |rnd (v + D)| < 2 ^ 128 := by
      have : rnd (v + D) = (v + D) + (rnd (v + D) - (v + D)) := by ring
      rw [this]
      refine lt_of_le_of_lt ((abs_add_le _ _).trans (add_le_add hsum hr2)) ?_
      have : (2 : ℚ) ^ 126 * 4 = 2 ^ 128 := by norm_num
      nlinarith
    have hE' : |rnd (v + D) - (o + γ * (u + d))| ≤ (R + E) * (1 + 2 ^ (-21 : ℤ)) - R := by
      have : rnd (v + D) - (o + γ * (u + d)) = (rnd (v + D) - (v + D)) + (v + D - (o + γ * (u + d))) := by ring
      rw [this, e21]
      refine (abs_add_le _ _).trans ?_
      linarith
    have hfr := step_frame hh
    obtain ⟨p'', hp'', v'', hv'', herr⟩ := ih (u := u + d) (E := (R + E) * (1 + 2 ^ (-21 : ℤ)) - R)
      (by rw [hfr.1.iterationMax]; exact hn) (by rw [hfr.2.handles]; exact hl) (by rw [step_gravity hp hh]; exact hg) hp'
      (by unfold Pushable; rw [hmass]; exact hm) (by rw [hmass]; exact hmv) (hval c2) (by linarith) hE'
      (by rw [show u + d + t = u + (d + t) by ring]; exact hR) (by
        rw [show R + ((R + E) * (1 + 2 ^ (-21 : ℤ)) - R) = (R + E) * (1 + 2 ^ (-21 : ℤ)) by ring, mul_assoc, ← pow_succ']; exact hR1)
    refine ⟨p'', hp'', v'', hv'', ?_⟩
    rw [show R + ((R + E) * (1 + 2 ^ (-21 : ℤ)) - R) = (R + E) * (1 + 2 ^ (-21 : ℤ)) by ring, mul_assoc, ← pow_succ',
      show u + d + t = u + (d + t) by ring] at herr
    exact herr

/-- **C82.** In binary32, a body of mass up to 2^60 kg that falls freely for `n` steps that took the time `t` under a gravity of at most `G` (between 2^-60 and 2^60)
has the velocity `v + γ t` up to `R ((1 + 2^-21)^n - 1)`, `R` being any bound of `|v| + G t`; whatever its mass. -/
theorem C82_fall {h : Handle} {s s' : System F32 (GravityGenerator F32)} {n : Nat} {t : ℚ} (hf : Flight h s n t s') (hn : s.iterationMax ≠ 0)
    {gh : Handle} {g : GravityGenerator F32} (hl : s.generators.handles = [gh]) (hg : s.generators.get gh = some g)
    {p : Entity F32} (he : s.getEntity h = some p) (hm : Pushable p = true) {m : ℚ} (hmv : Val p.lastTotalMass m) (hm1 : m ≤ 2 ^ 60) {a : Axis} {γ G v R : ℚ}
    (hγ : Val (a.of g.acceleration) γ) (hv : Val (a.of p.velocity) v) (hG : |γ| ≤ G) (hG0 : 2 ^ (-60 : ℤ) ≤ G) (hG1 : G ≤ 2 ^ 60)
    (hR : |v| + G * t ≤ R) (hR0 : 2 ^ (-126 : ℤ) ≤ R) (hR1 : R * (1 + 2 ^ (-21 : ℤ)) ^ n ≤ 2 ^ 126) :
    ∃ p', s'.getEntity h = some p' ∧ ∃ v', Val (a.of p'.velocity) v' ∧ |v' - (v + γ * t)| ≤ R * ((1 + 2 ^ (-21 : ℤ)) ^ n - 1) := by
  obtain ⟨p', h1, v', h3, h4⟩ := fall_error hf hn hl hg he hm hmv hm1 hγ hv hG hG0 hG1 (o := v) (u := 0) (R := R) (E := 0) (le_refl 0) (by simp)
    (by rwa [zero_add]) hR0 (by rwa [add_zero])
  refine ⟨p', h1, v', h3, ?_⟩
  rw [zero_add, add_zero] at h4
  linarith

/-- **C82 (all bodies fall alike).** So two bodies that start with the same velocity and fall freely for the same steps have velocities that differ by at most twice
that error, whatever their masses. -/
theorem C82_alike {h k : Handle} {s s' : System F32 (GravityGenerator F32)} {n : Nat} {t : ℚ} (hf : Flight h s n t s') (hf' : Flight k s n t s') (hn : s.iterationMax ≠ 0)
    {gh : Handle} {g : GravityGenerator F32} (hl : s.generators.handles = [gh]) (hg : s.generators.get gh = some g)
    {p q : Entity F32} (he : s.getEntity h = some p) (he' : s.getEntity k = some q) (hm : Pushable p = true) (hm' : Pushable q = true) {m m' : ℚ}
    (hmv : Val p.lastTotalMass m) (hmv' : Val q.lastTotalMass m') (hm1 : m ≤ 2 ^ 60) (hm1' : m' ≤ 2 ^ 60) {a : Axis} {γ G v R : ℚ}
    (hγ : Val (a.of g.acceleration) γ) (hv : Val (a.of p.velocity) v) (hv' : Val (a.of q.velocity) v) (hG : |γ| ≤ G) (hG0 : 2 ^ (-60 : ℤ) ≤ G) (hG1 : G ≤ 2 ^ 60)
    (hR : |v| + G * t ≤ R) (hR0 : 2 ^ (-126 : ℤ) ≤ R) (hR1 : R * (1 + 2 ^ (-21 : ℤ)) ^ n ≤ 2 ^ 126) :
    ∃ p' q', s'.getEntity h = some p' ∧ s'.getEntity k = some q' ∧ ∃ v' w', Val (a.of p'.velocity) v' ∧ Val (a.of q'.velocity) w' ∧
      |v' - w'| ≤ 2 * (R * ((1 + 2 ^ (-21 : ℤ)) ^ n - 1)) := by
  obtain ⟨p', h1, v', h2, h3⟩ := C82_fall hf hn hl hg he hm hmv hm1 hγ hv hG hG0 hG1 hR hR0 hR1
  obtain ⟨q', k1, w', k2, k3⟩ := C82_fall hf' hn hl hg he' hm' hmv' hm1' hγ hv' hG hG0 hG1 hR hR0 hR1
  refine ⟨p', q', h1, k1, v', w', h2, k2, ?_⟩
  have : v' - w' = (v' - (v + γ * t)) - (w' - (v + γ * t)) := by ring
  rw [this]
  exact (abs_sub _ _).trans (by linarith)

/-! ### The bound is needed: bodies do not fall exactly alike, and none falls faster and faster -/
open Demo

/-- Gravity as on earth, and two bodies at rest, 1 kg and 7 kg. -/
def pisaCalls : List (Op F32 (GravityGenerator F32)) :=
  [.addGenerator ⟨⟨num 0, num (-981) 100, num 0⟩⟩, .addEntity (thing (num 1) (vec 0 0 0) (vec 0 0 0)), .addEntity (thing (num 7) (vec 10 0 0) (vec 0 0 0))]

/-- **C82 (not exactly alike).** A body of 1 kg and one of 7 kg that are let go at the same time have different velocities after the first step of 1/64 s. (All
hypotheses of `C82_alike` hold of them.) -/
theorem C82_unequal : ∃ (s s' : System F32 (GravityGenerator F32)) (g : GravityGenerator F32) (p q p' q' : Entity F32) (γ v' w' : ℚ), Reachable s ∧
    Flight h0 s 1 (1 / 64) s' ∧ Flight h1 s 1 (1 / 64) s' ∧ s.iterationMax ≠ 0 ∧ s.generators.handles = [h0] ∧ s.generators.get h0 = some g ∧
    s.getEntity h0 = some p ∧ s.getEntity h1 = some q ∧ Pushable p = true ∧ Pushable q = true ∧ Val p.lastTotalMass 1 ∧ Val q.lastTotalMass 7 ∧
    Val (Axis.y.of g.acceleration) γ ∧ Val (Axis.y.of p.velocity) 0 ∧ Val (Axis.y.of q.velocity) 0 ∧ |γ| ≤ 10 ∧ (2 : ℚ) ^ (-60 : ℤ) ≤ 10 ∧ (10 : ℚ) ≤ 2 ^ 60 ∧
    |(0 : ℚ)| + 10 * (1 / 64) ≤ 1 ∧ (2 : ℚ) ^ (-126 : ℤ) ≤ 1 ∧ (1 : ℚ) * (1 + 2 ^ (-21 : ℤ)) ^ 1 ≤ 2 ^ 126 ∧
    s'.getEntity h0 = some p' ∧ s'.getEntity h1 = some q' ∧ Val p'.velocity.y v' ∧ Val q'.velocity.y w' ∧ v' ≠ w' := by
  have h : ((play (plain pisaCalls) (System.new : System F32 (GravityGenerator F32))).test fun r =>
      (match r.1.getEntity h0, r.1.getEntity h1, r.1.generators.get h0 with
      | some a, some b, some g => (!a.asleep && !b.asleep) && ((Pushable a && Pushable b) && ((valued a.lastTotalMass 1 && valued b.lastTotalMass 7) &&
          ((valued a.velocity.y 0 && valued b.velocity.y 0) && same g.acceleration.y (num (-981) 100))))
      | _, _, _ => false) && (r.1.generators.handles == [h0] && r.1.iterationMax != 0) && (r.1.step .id (num 1 64)).test fun m => m.collisionRecords.isEmpty &&
        (match m.getEntity h0, m.getEntity h1 with
        | some a, some b => Scalar.isFinite a.velocity.y && Scalar.isFinite b.velocity.y && !Scalar.eq a.velocity.y b.velocity.y
        | _, _ => false)) = true := by kernel_refl
  have hd : Val (num 1 64) (1 / 64) := valued_iff.mp (by kernel_refl)
  have hpr : Proper (num 1 64) := by
    have h1 : Scalar.lt (Scalar.abs (num 1 64)) EPSILON = false := by kernel_refl
    exact h1
  have hgam : valued (num (-981) 100) (-10286531 / 1048576) = true := by kernel_refl
  obtain ⟨⟨s, outs⟩, hplay, h⟩ := Res.of_test h
  simp only [Bool.and_eq_true, beq_iff_eq, bne_iff_ne] at h
  obtain ⟨⟨hE, hl, hn⟩, h⟩ := h
  obtain ⟨m, hm, h⟩ := Res.of_test h
  simp only [Bool.and_eq_true, List.isEmpty_iff] at h
  obtain ⟨hr, hE'⟩ := h
  split at hE
  case h_2 => cases hE
  case h_1 a b g ha hb hg =>
  split at hE'
  case h_2 => cases hE'
  case h_1 a' b' ha' hb' =>
  simp only [Bool.and_eq_true, valued_iff, Bool.not_eq_true', same_iff] at hE hE'
  obtain ⟨⟨s1, s2⟩, ⟨p1, p2⟩, ⟨m1, m2⟩, ⟨v1, v2⟩, hgy⟩ := hE
  obtain ⟨⟨f1, f2⟩, hne⟩ := hE'
  obtain ⟨v', hv'⟩ := finite_iff.mp f1
  obtain ⟨w', hw'⟩ := finite_iff.mp f2
  rw [hv'.eq hw', decide_eq_false_iff_not] at hne
  have fl : ∀ k : Handle, (∀ p, s.getEntity k = some p → p.asleep = false) → Flight k s 1 (1 / 64) m := by
    intro k hk
    have := Flight.cons hpr hd (by norm_num) hm hr hk (.nil (s := m))
    rwa [add_zero] at this
  refine ⟨s, m, g, a, b, a', b', -10286531 / 1048576, v', w', play_reachable hplay, fl h0 ?_, fl h1 ?_, hn, hl, hg, ha, hb, p1, p2, m1, m2, ?_, v1, v2, ?_, ?_, ?_, ?_,
    ?_, ?_, ha', hb', hv', hw', hne⟩
  · intro p hp; rw [ha] at hp; cases hp; exact s1
  · intro p hp; rw [hb] at hp; cases hp; exact s2
  · show Val g.acceleration.y _
    rw [hgy]; exact valued_iff.mp hgam
  · rw [abs_le]; constructor <;> norm_num
  all_goals norm_num [zpow_neg]

/-- Steps of the same length one after the other, in which no collision is recorded, and before each of which the entity is awake. -/
inductive FallTicks (dt : F32) (h : Handle) : System F32 (GravityGenerator F32) → Nat → System F32 (GravityGenerator F32) → Prop where
  | nil {s : System F32 (GravityGenerator F32)} : FallTicks dt h s 0 s
  | cons {s m s' : System F32 (GravityGenerator F32)} {ord : IterOrder} {n : Nat} : s.step ord dt = .ok m → m.collisionRecords = [] →
      (∀ p, s.getEntity h = some p → p.asleep = false) → FallTicks dt h m n s' → FallTicks dt h s (n + 1) s'

/-- **C82 (terminal velocity).** In steps of 1/60 s a gravity of 10 m/s² no longer changes the velocity of a body of 1 kg that falls with 4194304 m/s, however long it
falls. -/
theorem C82_terminal {h : Handle} {n : Nat} {s s' : System F32 (GravityGenerator F32)} (hf : FallTicks (num 1 60) h s n s') (hn : s.iterationMax ≠ 0) {gh : Handle}
    {g : GravityGenerator F32} (hl : s.generators.handles = [gh]) (hg : s.generators.get gh = some g) (hy : g.acceleration.y = num (-10)) {p : Entity F32}
    (he : s.getEntity h = some p) (hm : p.lastTotalMass = num 1) (hv : p.velocity.y = num (-4194304)) :
    ∃ p', s'.getEntity h = some p' ∧ p'.velocity.y = num (-4194304) := by
  have hpr : Proper (num 1 60) := by
    have h1 : Scalar.lt (Scalar.abs (num 1 60)) EPSILON = false := by kernel_refl
    exact h1
  have key : same (num (-4194304) + (zero + num (-10) * num 1 * (one / num 1)) * num 1 60) (num (-4194304)) = true := by kernel_refl
  have hpush : Scalar.isFinite (num 1) && Scalar.lt EPSILON (num 1) := by kernel_refl
  induction hf generalizing p with
  | nil => exact ⟨p, he, hv⟩
  | cons hh hr ha hrest ih =>
    have hpu : Pushable p = true := by unfold Pushable; rw [hm]; exact hpush
    obtain ⟨p', hp', hmass, hvel⟩ := fall_step hpr hh hr hn hl hg he (ha p he) hpu
    have hfr := step_frame hh
    refine ih (by rw [hfr.1.iterationMax]; exact hn) (by rw [hfr.2.handles]; exact hl) (by rw [step_gravity hpr hh]; exact hg) hp' (hmass.trans hm) ?_
    rw [hvel]
    show p.velocity.y + (zero + g.acceleration.y * p.lastTotalMass * (one / p.lastTotalMass)) * num 1 60 = _
    rw [hv, hy, hm]
    exact same_iff.mp key

/-- Such a fall of two steps. -/
example : ∃ (s s' : System F32 (GravityGenerator F32)) (g : GravityGenerator F32) (p : Entity F32), Reachable s ∧ FallTicks (num 1 60) h0 s 2 s' ∧ s.iterationMax ≠ 0 ∧
    s.generators.handles = [h0] ∧ s.generators.get h0 = some g ∧ g.acceleration.y = num (-10) ∧ s.getEntity h0 = some p ∧ p.lastTotalMass = num 1 ∧
    p.velocity.y = num (-4194304) := by
  have h : ((play (plain [.addGenerator ⟨vec 0 (-10) 0⟩, .addEntity (thing (num 1) (vec 0 0 0) (vec 0 (-4194304) 0))])
      (System.new : System F32 (GravityGenerator F32))).test fun r =>
      (match r.1.getEntity h0, r.1.generators.get h0 with
      | some a, some g => !a.asleep && (same a.lastTotalMass (num 1) && (same a.velocity.y (num (-4194304)) && same g.acceleration.y (num (-10))))
      | _, _ => false) && (r.1.generators.handles == [h0] && r.1.iterationMax != 0) && (r.1.step .id (num 1 60)).test fun m => m.collisionRecords.isEmpty &&
        (match m.getEntity h0 with
        | some a => !a.asleep
        | _ => false) && (m.step .id (num 1 60)).test fun n => n.collisionRecords.isEmpty) = true := by kernel_refl
  obtain ⟨⟨s, outs⟩, hplay, h⟩ := Res.of_test h
  simp only [Bool.and_eq_true, beq_iff_eq, bne_iff_ne] at h
  obtain ⟨⟨hE, hl, hn⟩, h⟩ := h
  obtain ⟨m, hm, h⟩ := Res.of_test h
  simp only [Bool.and_eq_true, List.isEmpty_iff] at h
  obtain ⟨⟨hr, hE'⟩, h⟩ := h
  obtain ⟨k, hk, h⟩ := Res.of_test h
  simp only [List.isEmpty_iff] at h
  split at hE
  case h_2 => cases hE
  case h_1 a g ha hg =>
  split at hE'
  case h_2 => cases hE'
  case h_1 a' ha' =>
  simp only [Bool.and_eq_true, Bool.not_eq_true', same_iff] at hE hE'
  refine ⟨s, k, g, a, play_reachable hplay, .cons hm hr ?_ (.cons hk h ?_ .nil), hn, hl, hg, hE.2.2.2, ha, hE.2.1, hE.2.2.1⟩
  · intro p hp; rw [ha] at hp; cases hp; exact hE.1
  · intro p hp; rw [ha'] at hp; cases hp; exact hE'

end Binary32
end Fluffy.Props
