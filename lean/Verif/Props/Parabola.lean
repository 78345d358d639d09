import Verif.Props.Fall
import Verif.Props.Drowsy
import Verif.Props.Clock
/-
C88: the path of a thrown body, over any number of steps of any lengths.
-/
set_option linter.unusedSectionVars false
set_option linter.unusedSimpArgs false
namespace Fluffy.Props
open InternalEntity Step XReal Demo

/-- Steps one after the other in which no collision is recorded, and before each of which the entity is awake. `T` is the sum of their lengths and `Q` that of the squares
of their lengths. -/
inductive Thrown (h : Handle) (s : System XReal (GravityGenerator XReal)) : ℕ → ℝ → ℝ → System XReal (GravityGenerator XReal) → Prop where
  | nil : Thrown h s 0 0 0 s
  | snoc {n : ℕ} {m s' : System XReal (GravityGenerator XReal)} {ord : IterOrder} {d T Q : ℝ} : Thrown h s n T Q m → Proper (fin d) → m.step ord (fin d) = .ok s' →
      s'.collisionRecords = [] → (∀ p, m.getEntity h = some p → p.asleep = false) → Thrown h s (n + 1) (T + d) (Q + d * d) s'

/-- Where a body is after the time `T` that starts at `x` with velocity `v` under the constant acceleration `g`. -/
noncomputable def parabola (x v g : Vec3 ℝ) (T : ℝ) : Vec3 ℝ := x + v.scale T + g.scale (T * T / 2)

/-- Kinetic and potential energy per mass. -/
noncomputable def specificEnergy (x v g : Vec3 ℝ) : ℝ := v.dot v / 2 - g.dot x

theorem gravity_congr {a b : Arena (GravityGenerator XReal)} (hl : a.handles = b.handles) (h : ∀ k, a.get k = b.get k) : gravity a = gravity b := by
  unfold gravity; rw [hl, funext h]

/-- **C88.** A thrown body of finite mass above EPSILON has the velocity of its parabola, `v + g T`, and is ahead of the parabola by exactly `g/2` times the sum of the squares
of the step lengths.
Missing from the full statement: that it is on the parabola, which is false unless there is no gravity (`C88_false`). -/
theorem C88_parabola_partial {h : Handle} {s s' : System XReal (GravityGenerator XReal)} {n : ℕ} {T Q : ℝ} (hf : Thrown h s n T Q s') (hn : s.iterationMax ≠ 0)
    {p : Entity XReal} {x v g : Vec3 ℝ} (hp : s.getEntity h = some p) (hm : Pushable p = true) (hx : p.position = x.f) (hv : p.velocity = v.f)
    (hg : gravity s.generators = g.f) :
    ∃ p', s'.getEntity h = some p' ∧ p'.velocity = (v + g.scale T).f ∧ p'.position = (parabola x v g T + g.scale (Q / 2)).f := by
  suffices hs : s'.iterationMax ≠ 0 ∧ gravity s'.generators = g.f ∧ ∃ p', s'.getEntity h = some p' ∧ Pushable p' = true ∧ p'.velocity = (v + g.scale T).f ∧
      p'.position = (parabola x v g T + g.scale (Q / 2)).f by
    obtain ⟨-, -, p', h1, -, h2⟩ := hs
    exact ⟨p', h1, h2⟩
  induction hf with
  | nil =>
    refine ⟨hn, hg, p, hp, hm, ?_, ?_⟩
    · rw [hv]; congr 1; ext <;> simp
    · rw [hx]; congr 1; ext <;> simp [parabola]
  | @snoc n m s' ord d T Q hf hd hh hr ha ih =>
    obtain ⟨i1, i2, q, hq, i3, i4, i5⟩ := ih
    obtain ⟨p', hp', hv', hx'⟩ := C22_step hd hh hr i1 hq (ha q hq) i3
    have hfr := step_frame hh
    refine ⟨by rw [hfr.1.iterationMax]; exact i1, ?_, p', hp', ?_, ?_, ?_⟩
    · rw [← i2]; exact gravity_congr hfr.2.handles (step_gravity hd hh)
    · obtain ⟨E, gE, rfl⟩ := getEntity_eq_some.mp hq
      obtain ⟨E', gE', rfl⟩ := getEntity_eq_some.mp hp'
      obtain ⟨y, gy, hst⟩ := hfr.1.entities.get gE
      have : s'.entities.get h = some E' := gE'
      rw [this] at gy; cases gy
      have : E'.totalMass = E.totalMass := (staticRel_iff.mp hst).2.2.1
      unfold Pushable at i3 ⊢
      rw [show E'.makePub.lastTotalMass = E.makePub.lastTotalMass from this]; exact i3
    · rw [hv', i4, i2]; simp only [Vec3.f_add, Vec3.f_scale, Vec3.f_inj]
      ext <;> simp <;> ring
    · rw [hx', i4, i5, i2]; simp only [Vec3.f_add, Vec3.f_scale, Vec3.f_inj]
      ext <;> simp [parabola] <;> ring

/-- The squares of the steps are positive. -/
theorem Thrown.sq_pos {h : Handle} {s s' : System XReal (GravityGenerator XReal)} {n : ℕ} {T Q : ℝ} (hf : Thrown h s n T Q s') : 0 ≤ Q ∧ (n ≠ 0 → 0 < Q) := by
  induction hf with
  | nil => exact ⟨le_refl 0, fun h => absurd rfl h⟩
  | @snoc n m s' ord d T Q hf hd hh hr ha ih =>
    have hd0 : d ≠ 0 := by
      rintro rfl
      unfold Proper at hd
      simp only [fin_abs, EPSILON_eq, fin_lt, decide_eq_false_iff_not, not_lt, abs_zero] at hd
      norm_num at hd
    have := mul_self_pos.mpr hd0
    exact ⟨by linarith [ih.1], fun _ => by linarith [ih.1]⟩

/-- **C88 is false**: under gravity a thrown body is never on its parabola again after a step. -/
theorem C88_never_on {h : Handle} {s s' : System XReal (GravityGenerator XReal)} {n : ℕ} {T Q : ℝ} (hf : Thrown h s n T Q s') (hn : s.iterationMax ≠ 0) (h0 : n ≠ 0)
    {p p' : Entity XReal} {x v g : Vec3 ℝ} (hp : s.getEntity h = some p) (hm : Pushable p = true) (hx : p.position = x.f) (hv : p.velocity = v.f)
    (hg : gravity s.generators = g.f) (hg0 : g ≠ .o) (hp' : s'.getEntity h = some p') : p'.position ≠ (parabola x v g T).f := by
  obtain ⟨q, hq, -, hx'⟩ := C88_parabola_partial hf hn hp hm hx hv hg
  rw [hp'] at hq; cases hq
  rw [hx']
  intro hc
  rw [Vec3.f_inj] at hc
  have hQ := hf.sq_pos.2 h0
  apply hg0
  have key : ∀ a b : ℝ, a + b * (Q / 2) = a → b = 0 := by
    intro a b hab
    have : b * (Q / 2) = 0 := by linarith
    rcases mul_eq_zero.mp this with h | h
    · exact h
    · linarith
  ext
  · exact key _ _ (congrArg Vec3.x hc)
  · exact key _ _ (congrArg Vec3.y hc)
  · exact key _ _ (congrArg Vec3.z hc)

/-- **C88**, how far off: with steps forward in time of length at most `D`, the distance from the parabola is at most `|g| D T / 2`, so it goes to zero with the length of
the steps. -/
theorem C88_distance {h : Handle} {s s' : System XReal (GravityGenerator XReal)} {n : ℕ} {T Q : ℝ} (hf : Thrown h s n T Q s') (hn : s.iterationMax ≠ 0) {D : ℝ}
    (hD : Q ≤ D * T) {p : Entity XReal} {x v g : Vec3 ℝ} (hp : s.getEntity h = some p) (hm : Pushable p = true) (hx : p.position = x.f)
    (hv : p.velocity = v.f) (hg : gravity s.generators = g.f) :
    ∃ p' x', s'.getEntity h = some p' ∧ p'.position = Vec3.f x' ∧ (x' - parabola x v g T).len ≤ g.len * (D * T) / 2 := by
  obtain ⟨p', hp', -, hx'⟩ := C88_parabola_partial hf hn hp hm hx hv hg
  refine ⟨p', _, hp', hx', ?_⟩
  have hQ := hf.sq_pos.1
  have e : parabola x v g T + g.scale (Q / 2) - parabola x v g T = g.scale (Q / 2) := by ext <;> simp
  rw [e]
  have hl : (g.scale (Q / 2)).len = g.len * (Q / 2) := by
    unfold Vec3.len
    rw [show (g.scale (Q / 2)).dot (g.scale (Q / 2)) = g.dot g * (Q / 2) ^ 2 by simp only [Vec3.dot_def, Vec3.scale_x, Vec3.scale_y, Vec3.scale_z]; ring,
      Real.sqrt_mul (Vec3.dot_self_nonneg g), Real.sqrt_sq (by linarith)]
  rw [hl]
  nlinarith [Vec3.len_nonneg g]

/-- Steps forward in time of length at most `D`. -/
inductive ThrownBy (D : ℝ) (h : Handle) (s : System XReal (GravityGenerator XReal)) : ℝ → System XReal (GravityGenerator XReal) → Prop where
  | nil : ThrownBy D h s 0 s
  | snoc {m s' : System XReal (GravityGenerator XReal)} {ord : IterOrder} {d T : ℝ} : ThrownBy D h s T m → Proper (fin d) → 0 ≤ d → d ≤ D → m.step ord (fin d) = .ok s' →
      s'.collisionRecords = [] → (∀ p, m.getEntity h = some p → p.asleep = false) → ThrownBy D h s (T + d) s'

theorem ThrownBy.thrown {D : ℝ} {h : Handle} {s s' : System XReal (GravityGenerator XReal)} {T : ℝ} (hf : ThrownBy D h s T s') : ∃ n Q, Thrown h s n T Q s' ∧ Q ≤ D * T := by
  induction hf with
  | nil => exact ⟨0, 0, .nil, by simp⟩
  | snoc _ hd h0 hD hh hr ha ih =>
    obtain ⟨n, Q, i1, i2⟩ := ih
    exact ⟨_, _, .snoc i1 hd hh hr ha, by nlinarith⟩

/-- **C88**, with steps of length at most `D`: the body is at most `|g| D T / 2` off its parabola. -/
theorem C88_converges {D : ℝ} {h : Handle} {s s' : System XReal (GravityGenerator XReal)} {T : ℝ} (hf : ThrownBy D h s T s') (hn : s.iterationMax ≠ 0)
    {p : Entity XReal} {x v g : Vec3 ℝ} (hp : s.getEntity h = some p) (hm : Pushable p = true) (hx : p.position = x.f) (hv : p.velocity = v.f)
    (hg : gravity s.generators = g.f) :
    ∃ p' x', s'.getEntity h = some p' ∧ p'.position = Vec3.f x' ∧ (x' - parabola x v g T).len ≤ g.len * (D * T) / 2 := by
  obtain ⟨n, Q, h1, h2⟩ := hf.thrown
  exact C88_distance h1 hn h2 hp hm hx hv hg

/-- **C88**, the energy: it is not kept, but falls by exactly `|g|²/2` times the square of the length in every step. -/
theorem C88_energy {h : Handle} {s s' : System XReal (GravityGenerator XReal)} {n : ℕ} {T Q : ℝ} (hf : Thrown h s n T Q s') (hn : s.iterationMax ≠ 0)
    {p : Entity XReal} {x v g : Vec3 ℝ} (hp : s.getEntity h = some p) (hm : Pushable p = true) (hx : p.position = x.f) (hv : p.velocity = v.f)
    (hg : gravity s.generators = g.f) :
    ∃ p' x' v', s'.getEntity h = some p' ∧ p'.position = Vec3.f x' ∧ p'.velocity = Vec3.f v' ∧
      specificEnergy x' v' g = specificEnergy x v g - g.dot g * Q / 2 := by
  obtain ⟨p', hp', hv', hx'⟩ := C88_parabola_partial hf hn hp hm hx hv hg
  refine ⟨p', _, _, hp', hx', hv', ?_⟩
  simp only [specificEnergy, parabola, Vec3.dot_def, Vec3.add_x, Vec3.add_y, Vec3.add_z, Vec3.scale_x, Vec3.scale_y, Vec3.scale_z]
  ring

/-- **C88**, there and back: a step forward followed by one of the same length backward restores the velocity, and leaves the body `g d²` away from where it was. -/
theorem C88_back {h : Handle} {s m s' : System XReal (GravityGenerator XReal)} {ord ord' : IterOrder} {d : ℝ} (hd : Proper (fin d)) (h1 : s.step ord (fin d) = .ok m)
    (hr : m.collisionRecords = []) (h2 : m.step ord' (fin (-d)) = .ok s') (hr' : s'.collisionRecords = []) (hn : s.iterationMax ≠ 0)
    {p q : Entity XReal} {x v g : Vec3 ℝ} (hp : s.getEntity h = some p) (ha : p.asleep = false) (hq : m.getEntity h = some q) (ha' : q.asleep = false)
    (hm : Pushable p = true) (hx : p.position = x.f) (hv : p.velocity = v.f) (hg : gravity s.generators = g.f) :
    ∃ p', s'.getEntity h = some p' ∧ p'.velocity = p.velocity ∧ p'.position = (x + g.scale (d * d)).f := by
  have hd' : Proper (fin (-d)) := by unfold Proper at hd ⊢; simpa [fin_abs, abs_neg] using hd
  have hf : Thrown h s 2 (0 + d + -d) (0 + d * d + -d * -d) s' :=
    .snoc (.snoc .nil hd h1 hr (fun a hA => by rw [hp] at hA; cases hA; exact ha)) hd' h2 hr' (fun a hA => by rw [hq] at hA; cases hA; exact ha')
  obtain ⟨p', hp', hv', hx'⟩ := C88_parabola_partial hf hn hp hm hx hv hg
  refine ⟨p', hp', ?_, ?_⟩
  · rw [hv', hv, Vec3.f_inj]; ext <;> simp
  · rw [hx', Vec3.f_inj]; ext <;> simp [parabola] <;> ring

/-! ### A body that is thrown for any number of steps -/

section
variable {α : Type} [Scalar α] {γ : Type} [ForceGenerator α γ]

/-- A single body, without colliders. -/
structure Hermit (s : System α γ) : Prop where
  body : ∃ E, s.entities.get h0 = some E
  only : ∀ k E, s.entities.get k = some E → k = h0 ∧ E.colliders = []
  live : NeighborsLive s.entities

/-- A step of a single body meets nothing. -/
theorem Hermit.step [SafeGenerator α γ] {m : System α γ} (hm : Hermit m) {dt : α} (hp : Proper dt) (ord : IterOrder) :
    ∃ s', m.step ord dt = .ok s' ∧ s'.collisionRecords = [] ∧ Hermit s' := by
  obtain ⟨s', hh, hl⟩ := step_total (ord := ord) (s := m) dt hm.live ⟨fun k E c hE hc => by
    rw [(hm.only k E hE).2] at hc; simp at hc, fun k1 k2 E1 E2 c1 c2 C1 C2 hne hE1 hE2 =>
    absurd ((hm.only _ _ hE1).1.trans (hm.only _ _ hE2).1.symm) hne⟩
  have hfr := (step_frame hh).1
  have honly : ∀ k E, s'.entities.get k = some E → k = h0 ∧ E.colliders = [] := by
    intro k E hE
    obtain ⟨x, hx, hst⟩ := hfr.entities.get' hE
    refine ⟨(hm.only k x hx).1, ?_⟩
    rw [← (hm.only k x hx).2]
    exact (staticRel_iff.mp hst).2.2.2.2
  have hrec : s'.collisionRecords = [] := by
    cases hc : s'.collisionRecords with
    | nil => rfl
    | cons r l =>
      obtain ⟨g1, g2, g3⟩ := (C30_records_bounded hp hh).2 r (by rw [hc]; simp)
      have there : ∀ k, s'.getEntity k ≠ none → k = h0 := by
        intro k hk
        cases hy : s'.entities.get k with
        | none => exact absurd (by show (s'.entities.get _).map makePub = none; rw [hy]; rfl) hk
        | some y => exact (honly k y hy).1
      exact absurd ((there _ g2).trans (there _ g3).symm) g1
  obtain ⟨E, hE⟩ := hm.body
  obtain ⟨E', hE', -⟩ := hfr.entities.get hE
  exact ⟨s', hh, hrec, ⟨E', hE'⟩, honly, hl⟩
end

/-- A single body without colliders, awake, in a system in which nothing falls asleep. -/
structure Projectile (s : System XReal (GravityGenerator XReal)) : Prop extends Hermit s where
  awake : ∃ E t, s.entities.get h0 = some E ∧ E.asleep = false ∧ E.fallingAsleepTime = fin t
  time : s.sleepTimeThreshold = posInf

/-- The body flies on. -/
theorem Projectile.fly {m : System XReal (GravityGenerator XReal)} (hm : Projectile m) {d : ℝ} (hp : Proper (fin d)) :
    ∃ s', m.step .id (fin d) = .ok s' ∧ s'.collisionRecords = [] ∧ Projectile s' ∧ ∀ p, m.getEntity h0 = some p → p.asleep = false := by
  obtain ⟨s', hh, hrec, hs'⟩ := hm.toHermit.step hp .id
  have hfr := (step_frame hh).1
  obtain ⟨E, t, hE, ha, ht⟩ := hm.awake
  have awake : ∀ p, m.getEntity h0 = some p → p.asleep = false := by
    intro p hp
    obtain ⟨x, hx, rfl⟩ := getEntity_eq_some.mp hp
    have hx : m.entities.get h0 = some x := hx
    rw [hE] at hx; cases hx; exact ha
  obtain ⟨E', hE', -⟩ := hfr.entities.get hE
  have htime : s'.sleepTimeThreshold = posInf := hfr.time.trans hm.time
  refine ⟨s', hh, hrec, ⟨hs', ?_, htime⟩, awake⟩
  rcases step_dozes hp hh hE hE' with ⟨-, h, -⟩ | ⟨-, -, h1, -, h2⟩ | ⟨-, -, -, h1, h2⟩
  · rw [ha] at h; cases h
  · exact ⟨E', 0, hE', h1, by rw [h2, zero_eq]⟩
  · have : ∃ u, E'.fallingAsleepTime = fin u := by
      rw [h1, ht]; split
      · exact ⟨_, fin_add _ _⟩
      · exact ⟨_, rfl⟩
    obtain ⟨u, hu⟩ := this
    refine ⟨E', u, hE', ?_, hu⟩
    rw [h2, hu, htime]; rfl

/-- The body flies on, for as many steps as one likes. -/
theorem Projectile.flies {s : System XReal (GravityGenerator XReal)} (hs : Projectile s) {d : ℝ} (hd : 1 / 1000000 ≤ d) (n : ℕ) :
    ∃ s', Projectile s' ∧ Thrown h0 s n (n * d) (n * (d * d)) s' ∧ ThrownBy d h0 s (n * d) s' := by
  have hp : Proper (fin d) := proper_fin hd
  have h0d : 0 ≤ d := le_trans (by norm_num) hd
  induction n with
  | zero => exact ⟨s, hs, by simpa using Thrown.nil, by simpa using ThrownBy.nil⟩
  | succ n ih =>
    obtain ⟨m, hm, hf, hb⟩ := ih
    obtain ⟨s', hh, hrec, hs', awake⟩ := hm.fly hp
    refine ⟨s', hs', ?_, ?_⟩
    · have := Thrown.snoc hf hp hh hrec awake
      convert this using 1 <;> push_cast <;> ring
    · have := ThrownBy.snoc hb hp h0d le_rfl hh hrec awake
      convert this using 1; push_cast; ring

/-- A body of 1 kg thrown upwards, with gravity as on earth, and never to fall asleep. -/
theorem throw_system : ∃ (s : System XReal (GravityGenerator XReal)) (p : Entity XReal), Reachable s ∧ Projectile s ∧ s.iterationMax ≠ 0 ∧ s.getEntity h0 = some p ∧
    Pushable p = true ∧ p.position = Vec3.o.f ∧ p.velocity = Vec3.f ⟨3, 20, 0⟩ ∧ gravity s.generators = Vec3.f ⟨0, -10, 0⟩ := by
  have hsrc := Scene.source_newFrom (m := fin 1) (by simp) .o ⟨3, 20, 0⟩
  let s1 : System XReal (GravityGenerator XReal) := ((System.new : System XReal (GravityGenerator XReal)).addGenerator ⟨Vec3.f ⟨0, -10, 0⟩⟩).1
  let s : System XReal (GravityGenerator XReal) := { (s1.addEntity (Scene.source (fin 1) .o ⟨3, 20, 0⟩)).1 with
    iterationMax := 5, energySleepThreshold := fin 1, sleepTimeThreshold := posInf, collisionRecords := [], debug := [] }
  have hreach : Reachable s :=
    ⟨_, .snoc .id (.configure 5 (fin 1) posInf [] []) .unit (.snoc .id (.addEntity (Scene.source (fin 1) .o ⟨3, 20, 0⟩)) _
      (.snoc .id (.addGenerator ⟨Vec3.f ⟨0, -10, 0⟩⟩) _ .nil rfl) rfl) rfl⟩
  have hget : s.entities.get h0 = some (Scene.dot (fin 1) .o ⟨3, 20, 0⟩ [] Scene.up) := by
    simp only [s, s1, System.addGenerator, System.addEntity, hsrc]; rfl
  have hall : ∀ k E, s.entities.get k = some E → k = h0 ∧ E = Scene.dot (fin 1) .o ⟨3, 20, 0⟩ [] Scene.up := by
    intro k E hE
    have hE : ((Arena.new : Arena (InternalEntity XReal)).insert (Scene.dot (fin 1) .o ⟨3, 20, 0⟩ [] Scene.up)).1.get k = some E := by
      simp only [s, s1, System.addGenerator, System.addEntity, hsrc] at hE; exact hE
    rw [Arena.get_insert Arena.wf_new] at hE
    split at hE
    · rename_i hk; cases hE; exact ⟨hk, rfl⟩
    · rw [Arena.get_new] at hE; cases hE
  have hproj : Projectile s := by
    refine ⟨⟨⟨_, hget⟩, fun k E hE => ?_, fun k E m hE hm => ?_⟩, ⟨_, 0, hget, rfl, rfl⟩, rfl⟩
    · obtain ⟨a, rfl⟩ := hall k E hE; exact ⟨a, rfl⟩
    · obtain ⟨-, rfl⟩ := hall k E hE; cases hm
  have hp : s.getEntity h0 = some (Scene.dot (fin 1) .o ⟨3, 20, 0⟩ [] Scene.up).makePub := getEntity_eq_some.mpr ⟨_, hget, rfl⟩
  have hpush : Pushable (Scene.dot (fin 1) .o ⟨3, 20, 0⟩ [] Scene.up).makePub = true := by
    show (Scalar.isFinite (fin 1) && Scalar.lt EPSILON (fin 1)) = true
    simp [EPSILON_eq]; norm_num
  have hg : gravity s.generators = Vec3.f ⟨0, -10, 0⟩ := by
    have hgs : gravity s.generators = gravity s1.generators := by
      simp only [s, System.addEntity, hsrc]
    rw [hgs]
    show Vec3.zeros + Vec3.f ⟨0, -10, 0⟩ = _
    rw [Vec3.f_zeros, Vec3.f_add, Vec3.f_inj]; ext <;> simp
  exact ⟨s, _, hreach, hproj, by decide, hp, hpush, rfl, rfl, hg⟩

/-- The hypotheses of the theorems above are met, for any number of steps: after `n` steps of 1/100 s the body is `n/2000` m below its parabola. -/
theorem C88_applies (n : ℕ) : ∃ (s s' : System XReal (GravityGenerator XReal)) (p p' : Entity XReal), Reachable s ∧ Thrown h0 s n (n * (1 / 100)) (n * (1 / 100 * (1 / 100))) s' ∧
    ThrownBy (1 / 100) h0 s (n * (1 / 100)) s' ∧ s.iterationMax ≠ 0 ∧ s.getEntity h0 = some p ∧ Pushable p = true ∧ p.position = Vec3.o.f ∧
    p.velocity = Vec3.f ⟨3, 20, 0⟩ ∧ gravity s.generators = Vec3.f ⟨0, -10, 0⟩ ∧ s'.getEntity h0 = some p' ∧
    p'.position = (parabola .o ⟨3, 20, 0⟩ ⟨0, -10, 0⟩ (n * (1 / 100)) + ⟨0, -(n / 2000), 0⟩).f := by
  obtain ⟨s, p, hr, hproj, hn, hp, hm, hx, hv, hg⟩ := throw_system
  obtain ⟨s', -, hf, hb⟩ := hproj.flies (d := 1 / 100) (by norm_num) n
  obtain ⟨p', hp', -, hx'⟩ := C88_parabola_partial hf hn hp hm hx hv hg
  refine ⟨s, s', p, p', hr, hf, hb, hn, hp, hm, hx, hv, hg, hp', ?_⟩
  rw [hx', Vec3.f_inj]; ext <;> simp <;> ring

/-- **C88 is false**: a body thrown for any number `n ≠ 0` of steps, and nowhere near anything, that is not on its parabola. -/
theorem C88_false (n : ℕ) (h : n ≠ 0) : ∃ (s s' : System XReal (GravityGenerator XReal)) (p p' : Entity XReal) (x v g : Vec3 ℝ) (T Q : ℝ), Reachable s ∧ Thrown h0 s n T Q s' ∧
    s.iterationMax ≠ 0 ∧ s.getEntity h0 = some p ∧ Pushable p = true ∧ p.position = x.f ∧ p.velocity = v.f ∧ gravity s.generators = g.f ∧ s'.getEntity h0 = some p' ∧
    p'.position ≠ (parabola x v g T).f := by
  obtain ⟨s, s', p, p', hr, hf, -, hn, hp, hm, hx, hv, hg, hp', -⟩ := C88_applies n
  refine ⟨s, s', p, p', _, _, _, _, _, hr, hf, hn, hp, hm, hx, hv, hg, hp', C88_never_on hf hn h hp hm hx hv hg ?_ hp'⟩
  intro hc
  have := congrArg Vec3.y hc
  norm_num at this

/-- The hypotheses of `C88_back` are met: there and back in steps of 1 s leaves the body 10 m too low. -/
theorem C88_back_applies : ∃ (s m s' : System XReal (GravityGenerator XReal)) (p p' : Entity XReal), Reachable s ∧ s.step .id (fin 1) = .ok m ∧ m.collisionRecords = [] ∧
    m.step .id (fin (-1)) = .ok s' ∧ s'.collisionRecords = [] ∧ s.getEntity h0 = some p ∧ s'.getEntity h0 = some p' ∧ p.position = Vec3.o.f ∧
    p'.velocity = p.velocity ∧ p'.position = Vec3.f ⟨0, -10, 0⟩ := by
  obtain ⟨s, p, hr, hproj, hn, hp, hm, hx, hv, hg⟩ := throw_system
  have hd : Proper (fin 1 : XReal) := proper_fin (by norm_num)
  have hd' : Proper (fin (-1) : XReal) := by
    unfold Proper at hd ⊢; simpa [fin_abs, abs_neg] using hd
  obtain ⟨m, h1, hr1, hproj1, aw⟩ := hproj.fly hd
  obtain ⟨s', h2, hr2, -, aw'⟩ := hproj1.fly hd'
  obtain ⟨E, hE⟩ := hproj1.body
  have hq : m.getEntity h0 = some E.makePub := getEntity_eq_some.mpr ⟨E, hE, rfl⟩
  obtain ⟨p', hp', k1, k2⟩ := C88_back hd h1 hr1 h2 hr2 hn hp (aw p hp) hq (aw' _ hq) hm hx hv hg
  refine ⟨s, m, s', p, p', hr, h1, hr1, h2, hr2, hp, hp', hx, k1, ?_⟩
  rw [k2, Vec3.f_inj]; ext <;> simp

end Fluffy.Props
