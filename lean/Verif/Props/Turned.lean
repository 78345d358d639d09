import Verif.Props.Alone
import Verif.Num.LogExp
import Mathlib.Analysis.Quaternion
/-
How far bodies turn during a step (C53, C78).
-/
set_option linter.unusedSectionVars false
set_option linter.unusedSimpArgs false
namespace Fluffy

namespace Quat
open XReal

/-- The rotation about the direction of `r` by the angle `|r|`, with no cut-off. -/
noncomputable def turn (r : Vec3 ℝ) : Quat ℝ :=
  let s := r.scale (r.len⁻¹ * Real.sin (r.len / 2))
  ⟨Real.cos (r.len / 2), s.x, s.y, s.z⟩

/-- As one of Mathlib's quaternions. -/
def toH (q : Quat ℝ) : Quaternion ℝ := ⟨q.w, q.i, q.j, q.k⟩

@[simp] theorem toH_re (q : Quat ℝ) : (toH q).re = q.w := rfl
@[simp] theorem toH_imI (q : Quat ℝ) : (toH q).imI = q.i := rfl
@[simp] theorem toH_imJ (q : Quat ℝ) : (toH q).imJ = q.j := rfl
@[simp] theorem toH_imK (q : Quat ℝ) : (toH q).imK = q.k := rfl

theorem toH_mul (p q : Quat ℝ) : toH (p.mul q) = toH p * toH q := by
  ext <;> simp [mul]

theorem toH_norm (q : Quat ℝ) : ‖toH q‖ * ‖toH q‖ = q.normSq := by
  rw [← Quaternion.normSq_eq_norm_mul_self, Quaternion.normSq_def']
  simp only [toH, normSq]; ring

theorem toH_unit {q : Quat ℝ} (h : q.normSq = 1) : ‖toH q‖ = 1 := by
  have := toH_norm q
  rw [h] at this
  nlinarith [norm_nonneg (toH q)]

theorem gap_eq (p q : Quat ℝ) : gap p q = ‖toH p - toH q‖ := by
  unfold gap
  rw [← Real.sqrt_mul_self (norm_nonneg (toH p - toH q)), ← Quaternion.normSq_eq_norm_mul_self, Quaternion.normSq_def']
  simp

theorem gap_triangle (p q r : Quat ℝ) : gap p r ≤ gap p q + gap q r := by
  simp only [gap_eq]
  have : toH p - toH r = (toH p - toH q) + (toH q - toH r) := by abel
  rw [this]; exact norm_add_le _ _

theorem gap_symm (p q : Quat ℝ) : gap p q = gap q p := by
  simp only [gap_eq]; exact norm_sub_rev _ _

theorem gap_mul_left {p : Quat ℝ} (hp : p.normSq = 1) (a b : Quat ℝ) : gap (p.mul a) (p.mul b) = gap a b := by
  simp only [gap_eq, toH_mul]
  rw [← mul_sub, norm_mul, toH_unit hp, one_mul]

theorem gap_mul_right {q : Quat ℝ} (hq : q.normSq = 1) (a b : Quat ℝ) : gap (a.mul q) (b.mul q) = gap a b := by
  simp only [gap_eq, toH_mul]
  rw [← sub_mul, norm_mul, toH_unit hq, mul_one]

theorem turn_o : turn Vec3.o = e := by simp [turn, e]

/-- In terms of a unit axis and an angle of either sign. -/
theorem turn_axis {k : Vec3 ℝ} (hk : k.dot k = 1) (θ : ℝ) :
    turn (k.scale θ) = ⟨Real.cos (θ / 2), k.x * Real.sin (θ / 2), k.y * Real.sin (θ / 2), k.z * Real.sin (θ / 2)⟩ := by
  have hl : k.len = 1 := by show Real.sqrt _ = 1; rw [hk]; simp
  have hs : (k.scale θ).len = |θ| := by rw [Vec3.len_scale, hl, one_mul]
  unfold turn
  rw [hs]
  have hc : Real.cos (|θ| / 2) = Real.cos (θ / 2) := by
    rcases abs_cases θ with ⟨h, -⟩ | ⟨h, -⟩ <;> rw [h]
    rw [neg_div, Real.cos_neg]
  have hsn : θ * (|θ|⁻¹ * Real.sin (|θ| / 2)) = Real.sin (θ / 2) := by
    by_cases h0 : θ = 0
    · simp [h0]
    · rcases abs_cases θ with ⟨h, -⟩ | ⟨h, -⟩ <;> rw [h]
      · field_simp
      · rw [neg_div, Real.sin_neg]; field_simp
  simp only [Vec3.scale_x, Vec3.scale_y, Vec3.scale_z, hc, mul_assoc, hsn]

theorem axis_exists (r : Vec3 ℝ) : ∃ k : Vec3 ℝ, k.dot k = 1 ∧ r = k.scale r.len := by
  by_cases h : r = Vec3.o
  · exact ⟨⟨1, 0, 0⟩, by simp [Vec3.dot_def], by rw [h]; simp⟩
  · refine ⟨r.scale r.len⁻¹, Vec3.unit_normalize h, ?_⟩
    rw [Vec3.scale_scale, inv_mul_cancel₀ (Vec3.len_pos h).ne', Vec3.scale_one]

theorem turn_normSq (r : Vec3 ℝ) : (turn r).normSq = 1 := by
  obtain ⟨k, hk, hr⟩ := axis_exists r
  rw [hr, turn_axis hk]
  rw [Vec3.dot_def] at hk
  have := Real.sin_sq_add_cos_sq (r.len / 2)
  simp only [normSq]
  linear_combination this + hk * Real.sin (r.len / 2) ^ 2

/-- Turns about one axis add up. -/
theorem turn_add (w : Vec3 ℝ) (a b : ℝ) : (turn (w.scale a)).mul (turn (w.scale b)) = turn (w.scale (a + b)) := by
  obtain ⟨k, hk, hr⟩ := axis_exists w
  rw [hr, Vec3.scale_scale, Vec3.scale_scale, Vec3.scale_scale, turn_axis hk, turn_axis hk, turn_axis hk]
  rw [Vec3.dot_def] at hk
  have e : w.len * (a + b) / 2 = w.len * a / 2 + w.len * b / 2 := by ring
  rw [e, Real.cos_add, Real.sin_add]
  ext <;> simp only [mul] <;> first | ring1 | linear_combination (-(Real.sin (w.len * a / 2) * Real.sin (w.len * b / 2))) * hk

/-- The code's rotation is the turn, but for very small angles. -/
theorem exp_eq_turn {r : Vec3 ℝ} (h : 2 * meps < r.len) : exp r = turn r := by
  have hm := meps_pos
  have hl : (r.scale 2⁻¹).len = r.len / 2 := by rw [Vec3.len_scale, abs_of_pos (by norm_num)]; ring
  unfold exp
  rw [if_neg]
  · simp only [hl]
    unfold turn
    have : r.len ≠ 0 := by linarith
    ext <;> simp <;> field_simp
  · rw [← Vec3.len_sq, hl]; nlinarith

theorem exp_turn_gap (r : Vec3 ℝ) : gap (exp r) (turn r) ≤ meps := by
  have hm := meps_pos
  by_cases h : 2 * meps < r.len
  · rw [exp_eq_turn h, gap_self]; exact hm.le
  · rw [exp_small (not_lt.mp h)]
    have h1 := Real.one_sub_sq_div_two_le_cos (x := r.len / 2)
    have hq := turn_normSq r
    unfold gap
    rw [← Real.sqrt_sq hm.le]
    apply Real.sqrt_le_sqrt
    have : (e.w - (turn r).w) ^ 2 + (e.i - (turn r).i) ^ 2 + (e.j - (turn r).j) ^ 2 + (e.k - (turn r).k) ^ 2 = 2 * (1 - Real.cos (r.len / 2)) := by
      have hw : (turn r).w = Real.cos (r.len / 2) := rfl
      simp only [e, normSq] at hq ⊢
      rw [hw] at hq ⊢
      linear_combination hq
    rw [this]
    have := Vec3.len_nonneg r
    nlinarith
end Quat

namespace Props
open InternalEntity Step XReal
section
variable {γ : Type} [ForceGenerator XReal γ]

/-- An awake entity that no record names keeps its angular velocity `w` and has turned with it from the rotation `R` on, up to `n` dropped small turns. -/
def Turning (h : Handle) (R : Quat ℝ) (w : Vec3 ℝ) (d c : ℝ) (n : ℕ) (st : LoopState XReal) : Prop :=
  (∃ r ∈ st.world.collisionRecords, Names r h) ∨
  ∃ e q, st.world.entities.get h = some e ∧ e.asleep = false ∧ e.angularVelocity = w.f ∧ e.orientation.rotation = Quat.f q ∧
    Quat.gap q ((Quat.turn (w.scale (c * d))).mul R) ≤ n * Quat.meps

theorem Turning.advance {s : System XReal γ} {d c p : ℝ} {ord : IterOrder} {st st1 : LoopState XReal} {h : Handle} {R : Quat ℝ} {v : Vec3 ℝ} {n : ℕ}
    {best : Option (Candidate XReal)} {w : World XReal} (hr : Running s d c st) (hR : R.normSq = 1) (hs : Turning h R v d c n st)
    (hh : h ∈ s.entities.handles) (hp : percentOf best = fin p)
    (h2 : wakeColliding ord best st.world = .ok w) (h3 : advance best { st with world := w } = .ok st1) :
    Turning h R v d (c + (1 - c) * p) (n + 1) st1 ∧ st1.world.collisionRecords = st.world.collisionRecords := by
  have hnd : (st.infos.map StepInfo.handle).Nodup := by rw [hr.inv.handles]; exact Arena.handles_nodup _
  obtain ⟨a1, -, -, a4⟩ := advance_spec (st := { st with world := w }) hnd h3
  have hw : st1.world.collisionRecords = st.world.collisionRecords := by
    rw [a1]; show w.collisionRecords = _; rw [(wakeColliding_evolves h2).1]
  refine ⟨?_, hw⟩
  rcases hs with hs | ⟨e, q, he, ha, hv, hx, hg⟩
  · left; rw [hw]; exact hs
  · right
    rw [← hr.inv.handles] at hh
    obtain ⟨i, hi, rfl⟩ := List.mem_map.mp hh
    obtain ⟨m, hn⟩ := List.getElem?_of_mem hi
    obtain ⟨e0, he0, -, m1⟩ := hr.course m i hn
    rw [he] at he0; cases he0
    obtain ⟨y, hy, hy'⟩ := a4 i hi
    have hy : w.entities.get i.handle = some y := hy
    obtain ⟨y0, hy0, hrel⟩ := (wakeColliding_evolves h2).2.get he
    rw [hy] at hy0; cases hy0
    have hay : y.asleep = false := wakeColliding_awake h2 he hy ha
    refine ⟨_, (Quat.exp (v.scale ((1 - c) * d * p))).mul q, hy', ?_, ?_, ?_, ?_⟩
    · unfold moved; rw [if_neg (by simp [hay])]; exact hay
    · unfold moved; rw [if_neg (by simp [hay])]; show y.angularVelocity = _; rw [hrel]; exact hv
    · unfold moved; rw [if_neg (by simp [hay])]
      show (Quat.fromScaledAxis (i.angularMovement.scale _)).mul y.orientation.rotation = _
      have : y.orientation = e.orientation := by rw [hrel]
      rw [this, hx, m1, hv, hr.clock.left, hp]
      simp only [Vec3.f_scale, Quat.f_fromScaledAxis, Quat.f_mul, Vec3.scale_scale]
    · have e1 : v.scale ((c + (1 - c) * p) * d) = v.scale ((1 - c) * d * p + c * d) := by congr 1; ring
      rw [e1, ← Quat.turn_add]
      generalize hA : v.scale ((1 - c) * d * p) = A
      generalize hT : Quat.turn (v.scale (c * d)) = T at hg
      have hT1 : T.normSq = 1 := by rw [← hT]; exact Quat.turn_normSq _
      have hTR : (T.mul R).normSq = 1 := by rw [Quat.mul_mul_normSq, hT1, hR, one_mul]
      have hassoc : ((Quat.turn A).mul T).mul R = (Quat.turn A).mul (T.mul R) := by
        ext <;> simp only [Quat.mul] <;> ring
      rw [hassoc]
      have t1 := Quat.gap_triangle ((Quat.exp A).mul q) ((Quat.exp A).mul (T.mul R)) ((Quat.turn A).mul (T.mul R))
      rw [Quat.gap_mul_left (Quat.exp_normSq A), Quat.gap_mul_right hTR] at t1
      have t2 := Quat.exp_turn_gap A
      push_cast
      linarith

theorem Turning.respond {h : Handle} {R : Quat ℝ} {w : Vec3 ℝ} {d c : ℝ} {n : ℕ} {dt : XReal} {k : Candidate XReal} {st st' : LoopState XReal}
    (hs : Turning h R w d c n st) (hh : respond dt k st = .ok st') : Turning h R w d c n st' ∧
      st'.world.collisionRecords.length = st.world.collisionRecords.length + 1 := by
  obtain ⟨first, second, i1, i2, hne, hf, hs', g1, g2, rfl⟩ := respond_spec hh
  refine ⟨?_, by simp⟩
  by_cases hn : k.firstHandle = h ∨ k.secondHandle = h
  · left
    exact ⟨_, List.mem_append_right _ (List.mem_singleton.mpr rfl), hn⟩
  · rcases hs with ⟨r, hr, hr'⟩ | ⟨e, q, he, hrest⟩
    · left; exact ⟨r, List.mem_append_left _ hr, hr'⟩
    · right
      refine ⟨e, q, ?_, hrest⟩
      simp only
      rw [respond_get hne hf hs', if_neg (fun hc => hn (Or.inr hc.symm)), if_neg (fun hc => hn (Or.inl hc.symm))]
      exact he

/-- The angular velocity after integration is kept by an awake entity that no record names. -/
def KeptSpin (h : Handle) (u : Vec3 XReal) (st : LoopState XReal) : Prop :=
  (∃ r ∈ st.world.collisionRecords, Names r h) ∨ ∃ e, st.world.entities.get h = some e ∧ e.asleep = false ∧ e.angularVelocity = u

theorem KeptSpin.advance {s : System XReal γ} {d c : ℝ} {ord : IterOrder} {st st1 : LoopState XReal} {h : Handle} {u : Vec3 XReal}
    {best : Option (Candidate XReal)} {w : World XReal} (hr : Running s d c st) (hs : KeptSpin h u st)
    (hh : h ∈ s.entities.handles) (h2 : wakeColliding ord best st.world = .ok w)
    (h3 : advance best { st with world := w } = .ok st1) : KeptSpin h u st1 := by
  have hnd : (st.infos.map StepInfo.handle).Nodup := by rw [hr.inv.handles]; exact Arena.handles_nodup _
  obtain ⟨a1, -, -, a4⟩ := advance_spec (st := { st with world := w }) hnd h3
  have hw : st1.world.collisionRecords = st.world.collisionRecords := by
    rw [a1]; show w.collisionRecords = _; rw [(wakeColliding_evolves h2).1]
  rcases hs with hs | ⟨e, he, ha, hv⟩
  · left; rw [hw]; exact hs
  · right
    rw [← hr.inv.handles] at hh
    obtain ⟨i, hi, rfl⟩ := List.mem_map.mp hh
    obtain ⟨y, hy, hy'⟩ := a4 i hi
    have hy : w.entities.get i.handle = some y := hy
    obtain ⟨y0, hy0, hrel⟩ := (wakeColliding_evolves h2).2.get he
    rw [hy] at hy0; cases hy0
    have hay : y.asleep = false := wakeColliding_awake h2 he hy ha
    refine ⟨_, hy', ?_, ?_⟩
    · unfold moved; rw [if_neg (by simp [hay])]; exact hay
    · unfold moved; rw [if_neg (by simp [hay])]; show y.angularVelocity = _; rw [hrel]; exact hv

theorem KeptSpin.respond {h : Handle} {u : Vec3 XReal} {dt : XReal} {k : Candidate XReal} {st st' : LoopState XReal}
    (hs : KeptSpin h u st) (hh : respond dt k st = .ok st') : KeptSpin h u st' := by
  obtain ⟨first, second, i1, i2, hne, hf, hs', g1, g2, rfl⟩ := respond_spec hh
  by_cases hn : k.firstHandle = h ∨ k.secondHandle = h
  · left
    exact ⟨_, List.mem_append_right _ (List.mem_singleton.mpr rfl), hn⟩
  · rcases hs with ⟨r, hr, hr'⟩ | ⟨e, he, hrest⟩
    · left; exact ⟨r, List.mem_append_left _ hr, hr'⟩
    · right
      refine ⟨e, ?_, hrest⟩
      simp only
      rw [respond_get hne hf hs', if_neg (fun hc => hn (Or.inr hc.symm)), if_neg (fun hc => hn (Or.inl hc.symm))]
      exact he

/-- What was settled at the end of a step. -/
theorem settled_awake {s s' : System XReal γ} {ord : IterOrder} {d : ℝ} (ph : Phases ord s s' (fin d)) {k : Handle} {X E' : InternalEntity XReal}
    (hX : ph.final.world.entities.get k = some X) (hXa : X.asleep = false) (hE' : s'.entities.get k = some E') :
    E'.angularVelocity = X.angularVelocity ∧ E'.orientation = X.orientation := by
  obtain ⟨dd, hdb, hdd, hend⟩ := ph.ending
  have hr := (hend k X E' hX hE').2
  unfold settle at hr
  rw [if_neg (by simp [hXa])] at hr
  split at hr <;> (rw [hr]; exact ⟨rfl, rfl⟩)

theorem spin_kept {s s' : System XReal γ} {ord : IterOrder} {d : ℝ} (h0 : 0 ≤ d) (ph : Phases ord s s' (fin d)) {k : Handle}
    {M E' : InternalEntity XReal} (hh : k ∈ s.entities.handles) (hM : ph.mid.entities.get k = some M) (hMa : M.asleep = false)
    (hE' : s'.entities.get k = some E') (hn : ∀ r ∈ s'.collisionRecords, r.firstEntity ≠ k ∧ r.secondEntity ≠ k) :
    E'.angularVelocity = M.angularVelocity := by
  rw [ph.records] at hn
  have := iterate_induct (ord := ord) (dt := fin d) (P := fun st => (∃ c, Running s d c st) ∧ KeptSpin k M.angularVelocity st) ?_
    ⟨⟨0, ph.running.1⟩, Or.inr ⟨M, hM, hMa, rfl⟩⟩ ph.iterate
  · obtain ⟨-, ⟨r, hr, hr'⟩ | ⟨X, hX, hXa, hXv⟩⟩ := this
    · rcases hr' with hr' | hr'
      · exact absurd hr' (hn r hr).1
      · exact absurd hr' (hn r hr).2
    · rw [← hXv]; exact (settled_awake ph hX hXa hE').1
  · rintro st best w st1 ⟨⟨c, hc⟩, hk⟩ q1 q2 q3
    obtain ⟨p, -, -, -, -, r1, r2⟩ := hc.body h0 q1 q2 q3
    have hk1 := hk.advance hc hh q2 q3
    exact ⟨fun _ => ⟨⟨_, r1⟩, hk1⟩, fun k st2 hb q4 => ⟨⟨_, (r2 k st2 hb q4).1⟩, hk1.respond q4⟩⟩

/-- **C53**, how far entities turn: an awake entity that no record of the step names has turned with its new angular velocity, for the time of the latest record if the step
ran out of iterations, and for the whole step otherwise.  For each iteration the code may drop a turn by an angle of at most `2^-22`, so the quaternion may be off by up to
`2^-23` for each. -/
theorem C53_turned {s s' : System XReal γ} {ord : IterOrder} {d : ℝ} (hd : 1 / 1000000 ≤ d) (h : s.step ord (fin d) = .ok s')
    {k : Handle} {e e' : Entity XReal} {R : Quat ℝ} {w : Vec3 ℝ} (he : s.getEntity k = some e) (ha : e.asleep = false)
    (he' : s'.getEntity k = some e') (hR : e.lastOrientation.rotation = Quat.f R) (hR1 : R.normSq = 1) (hw : e'.angularVelocity = w.f)
    (hn : ∀ r ∈ s'.collisionRecords, r.firstEntity ≠ k ∧ r.secondEntity ≠ k) :
    ∃ q, e'.lastOrientation.rotation = Quat.f q ∧
      (.ranOut ∉ s'.debug → Quat.gap q ((Quat.turn (w.scale d)).mul R) ≤ (s'.collisionRecords.length + 1) / 2 ^ 23) ∧
      (.ranOut ∈ s'.debug → s'.collisionRecords = [] → q = R) ∧
      (.ranOut ∈ s'.debug → ∀ r t, s'.collisionRecords.getLast? = some r → r.time = fin t →
        Quat.gap q ((Quat.turn (w.scale t)).mul R) ≤ s'.collisionRecords.length / 2 ^ 23) := by
  have h0 : 0 ≤ d := le_trans (by norm_num) hd
  obtain ⟨ph⟩ := step_phases (proper_fin hd) h
  obtain ⟨E, hE, rfl⟩ := getEntity_eq_some.mp he
  obtain ⟨E', hE', rfl⟩ := getEntity_eq_some.mp he'
  obtain ⟨k1, -, k3, -, k5, k6⟩ := integrateAll_spec (Arena.handles_nodup _) ph.integrate
  have hh : k ∈ s.entities.handles := Arena.mem_handles.mpr ⟨E, hE⟩
  obtain ⟨M, hM, hrel⟩ := k3.get hE
  have hMa : M.asleep = false := by rw [hrel]; exact ha
  have hMx : M.orientation.rotation = Quat.f R := by rw [hrel]; exact hR
  obtain ⟨dd, hdb, hdd, hend⟩ := ph.ending
  have hran : (DebugMsg.ranOut ∈ s'.debug) ↔ ph.concluded = false := by
    obtain ⟨hmsg, -⟩ := ph.watch hE
    rw [hdb]
    simp only [List.mem_append]
    constructor
    · rintro ((hm | hm) | hm)
      · exact (hmsg _ hm).elim
      · split at hm
        · simp at hm
        · rename_i hc; simpa using hc
      · obtain ⟨q, hq⟩ := hdd _ hm; cases hq
    · intro hc; left; right; rw [hc]; simp
  have hMw : M.angularVelocity = w.f := by rw [← spin_kept h0 ph hh hM hMa hE' hn]; exact hw
  have hrec := ph.records
  rw [hrec] at hn
  have hmid : ph.mid.collisionRecords = [] := by show ph.mid.toWorld.collisionRecords = []; rw [k1]
  have main := iterate_cases (ord := ord) (dt := fin d)
    (P := fun st => ∃ c, Running s d c st ∧ Latest d c st ∧ Turning k R w d c st.world.collisionRecords.length st)
    (Q := fun st => Turning k R w d 1 (st.world.collisionRecords.length + 1) st) ?_
    ⟨0, ph.running.1, ph.running.2, Or.inr ⟨M, R, hM, hMa, hMw, hMx, by
      show Quat.gap R _ ≤ (ph.mid.collisionRecords.length : ℕ) * Quat.meps
      rw [hmid, zero_mul, Vec3.scale_zero, Quat.turn_o]
      have : Quat.e.mul R = R := by ext <;> simp [Quat.e, Quat.mul]
      rw [this, Quat.gap_self]; simp⟩⟩ ph.iterate
  · have fin_rot : ∀ c n, Turning k R w d c n ph.final → ∃ q, E'.orientation.rotation = Quat.f q ∧ Quat.gap q ((Quat.turn (w.scale (c * d))).mul R) ≤ n * Quat.meps := by
      rintro c n (⟨r, hr, hr'⟩ | ⟨X, q, hX, hXa, -, hXx, hg⟩)
      · rcases hr' with hr' | hr'
        · exact absurd hr' (hn r hr).1
        · exact absurd hr' (hn r hr).2
      · exact ⟨q, by rw [← hXx, (settled_awake ph hX hXa hE').2], hg⟩
    have e23 : ∀ x : ℝ, x * Quat.meps = x / 2 ^ 23 := by intro x; unfold Quat.meps; norm_num [div_eq_mul_inv]
    rw [hran, hrec]
    cases hcon : ph.concluded with
    | true =>
      obtain ⟨q, q1, q2⟩ := fin_rot _ _ (main.2 hcon)
      rw [one_mul, e23] at q2
      push_cast at q2
      exact ⟨q, q1, fun _ => q2, by simp, by simp⟩
    | false =>
      obtain ⟨c, -, hl, hs⟩ := main.1 hcon
      obtain ⟨q, q1, q2⟩ := fin_rot _ _ hs
      refine ⟨q, q1, by simp, fun _ hr => ?_, fun _ r t hr ht => ?_⟩
      · rw [hl.1 hr, hr] at q2
        have : Quat.e.mul R = R := by ext <;> simp [Quat.e, Quat.mul]
        simp only [zero_mul, Vec3.scale_zero, Quat.turn_o, this, List.length_nil, Nat.cast_zero] at q2
        have hz : Quat.gap q R = 0 := le_antisymm q2 (by unfold Quat.gap; exact Real.sqrt_nonneg _)
        rw [Quat.gap_eq, norm_sub_eq_zero_iff] at hz
        simp only [Quat.toH] at hz
        have hz := QuaternionAlgebra.ext_iff.mp hz
        ext
        · exact hz.1
        · exact hz.2.1
        · exact hz.2.2.1
        · exact hz.2.2.2
      · have h1 := hl.2 r hr
        rw [ht] at h1
        rw [← fin_inj.mp h1, e23] at q2
        exact q2
  · rintro st best w' st1 ⟨c, hc, hl, hs⟩ q1 q2 q3
    obtain ⟨p, hp, -, -, pn, r1, r2⟩ := hc.body h0 q1 q2 q3
    obtain ⟨hs1, hcr⟩ := hs.advance hc hR1 hh hp q2 q3
    refine ⟨fun hb => ?_, fun k st2 hb q4 => ?_⟩
    · rw [pn hb, show c + (1 - c) * 1 = 1 by ring] at hs1
      rw [hcr]; exact hs1
    · obtain ⟨z1, z2⟩ := hs1.respond q4
      refine ⟨_, (r2 k st2 hb q4).1, (r2 k st2 hb q4).2, ?_⟩
      rw [z2, hcr]; exact z1

/-- The state after integration of an awake entity, with generators that look only at the entity they are asked about. -/
theorem unnamed_spin {s s' : System XReal γ} {ord : IterOrder} {d : ℝ} (hd : 1 / 1000000 ≤ d) (h : s.step ord (fin d) = .ok s') (hg : Solitary XReal γ) {k : Handle}
    {E E' : InternalEntity XReal} (hE : s.entities.get k = some E) (ha : E.asleep = false) (hE' : s'.entities.get k = some E')
    (hn : ∀ r ∈ s'.collisionRecords, r.firstEntity ≠ k ∧ r.secondEntity ≠ k) :
    ∃ a q, Accelerates (fin d) s.generators.handles s k E s.generators a q ∧ E'.angularVelocity = (integrateVelocity (fin d) a q E).angularVelocity := by
  have h0 : 0 ≤ d := le_trans (by norm_num) hd
  obtain ⟨ph⟩ := step_phases (proper_fin hd) h
  have hh : k ∈ s.entities.handles := Arena.mem_handles.mpr ⟨E, hE⟩
  obtain ⟨a, q, hacc, hM⟩ := (integrateAll_solitary hg ph.integrate (Arena.handles_nodup _) hE).2 hh
  exact ⟨a, q, (Accelerates.solitary hg hacc).2 s rfl rfl, spin_kept h0 ph hh hM ha hE' hn⟩

/-- **C78** for the exact arithmetic and steps that do not run out of iterations, the rotation: two systems have an entity in common, and the same generators.  A step of the
one and a step of the other, neither with a collision of the entity, leave it with the same angular velocity, and with rotations that differ by at most `2^-23` for each
iteration of the two steps, since in each the code may drop a very small turn. -/
theorem C78_turned_partial (hg : Solitary XReal γ) {s t s' t' : System XReal γ} {ord ord' : IterOrder} {d : ℝ} (hd : 1 / 1000000 ≤ d) (h : s.step ord (fin d) = .ok s')
    (h' : t.step ord' (fin d) = .ok t') {k : Handle} {E : InternalEntity XReal} {R : Quat ℝ} {w : Vec3 ℝ} (hE : s.entities.get k = some E) (hE' : t.entities.get k = some E)
    (hgen : t.generators = s.generators) (ha : E.asleep = false) {e e' : Entity XReal} (he : s'.getEntity k = some e) (he' : t'.getEntity k = some e')
    (hR : E.orientation.rotation = Quat.f R) (hR1 : R.normSq = 1) (hw : e.angularVelocity = w.f)
    (hn : ∀ r ∈ s'.collisionRecords, r.firstEntity ≠ k ∧ r.secondEntity ≠ k) (hn' : ∀ r ∈ t'.collisionRecords, r.firstEntity ≠ k ∧ r.secondEntity ≠ k)
    (hc : .ranOut ∉ s'.debug) (hc' : .ranOut ∉ t'.debug) :
    e'.angularVelocity = e.angularVelocity ∧ ∃ q q', e.lastOrientation.rotation = Quat.f q ∧ e'.lastOrientation.rotation = Quat.f q' ∧
      Quat.gap q q' ≤ (s'.collisionRecords.length + t'.collisionRecords.length + 2) / 2 ^ 23 := by
  obtain ⟨F, hF, rfl⟩ := getEntity_eq_some.mp he
  obtain ⟨F', hF', rfl⟩ := getEntity_eq_some.mp he'
  obtain ⟨a, q, b1, b2⟩ := unnamed_spin hd h hg hE ha hF hn
  obtain ⟨a', q', c1, c2⟩ := unnamed_spin hd h' hg hE' ha hF' hn'
  have hpub : s.getEntity k = t.getEntity k := by unfold World.getEntity; rw [hE, hE']
  rw [hgen] at c1
  obtain ⟨rfl, rfl⟩ := accelerates_inj b1 ((Accelerates.solitary hg c1).2 s hgen.symm hpub)
  have hvel : F'.makePub.angularVelocity = F.makePub.angularVelocity := c2.trans b2.symm
  refine ⟨hvel, ?_⟩
  obtain ⟨r1, u1, u2, -⟩ := C53_turned hd h (getEntity_eq_some.mpr ⟨E, hE, rfl⟩) ha he hR hR1 hw hn
  obtain ⟨r2, w1, w2, -⟩ := C53_turned hd h' (getEntity_eq_some.mpr ⟨E, hE', rfl⟩) ha he' hR hR1 (hvel.trans hw) hn'
  refine ⟨r1, r2, u1, w1, ?_⟩
  have g1 := u2 hc
  have g2 := w2 hc'
  rw [Quat.gap_symm] at g2
  refine (Quat.gap_triangle _ _ _).trans ((add_le_add g1 g2).trans (le_of_eq ?_))
  ring

end

section
open Demo

/-- A spinning top, as a user describes it. -/
noncomputable def topSource : Entity XReal := { Scene.source (fin 1) .o ⟨2, 0, 0⟩ with angularVelocity := (⟨0, 0, 3⟩ : Vec3 ℝ).f }
/-- The stored top. -/
noncomputable def top : InternalEntity XReal := { Scene.dot (fin 1) .o ⟨2, 0, 0⟩ [] Scene.up with angularVelocity := (⟨0, 0, 3⟩ : Vec3 ℝ).f }

theorem top_newFrom : InternalEntity.newFrom topSource = some top := by
  have hm' : ¬ Scalar.lt topSource.ownMass zero = true := by
    show ¬ Scalar.lt (fin 1) zero = true
    simp
  unfold InternalEntity.newFrom
  rw [if_neg hm']
  simp only [topSource, top, Scene.source, Entity.new, Entity.makeOrientation, Vec3.f_zeros, Mat3.f_zeros, Orientation.f_new, Quat.exp_o, Scene.dot, Scene.up, Scene.pose, zero_eq,
    Orientation.f_offset]

theorem top_inertia : top.inverseMomentOfInertia = (Mat3.o).f := by
  have : top.inverseMomentOfInertia = (Scene.dot (Scene.mx (some 1)) .o ⟨2, 0, 0⟩ [] Scene.up).inverseMomentOfInertia := rfl
  rw [this, (Scene.dot_of (some 1) .o ⟨2, 0, 0⟩ [] Scene.up).W, Scene.body_W]

/-- The hypotheses of `C53_turned` and `C78_turned_partial` are met by a spinning top alone and the same with another one: it turns by three radians. -/
example (ord : IterOrder) : ∃ (s t s' t' : System XReal (GravityGenerator XReal)) (e e' : Entity XReal), s.step ord (fin 1) = .ok s' ∧
    t.step ord (fin 1) = .ok t' ∧ s.entities.get h0 = some top ∧ t.entities.get h0 = some top ∧ t.entities.get h1 ≠ none ∧ s.entities.get h1 = none ∧
    s'.getEntity h0 = some e ∧ t'.getEntity h0 = some e' ∧ e.angularVelocity = (⟨0, 0, 3⟩ : Vec3 ℝ).f ∧
    (∃ q q', e.lastOrientation.rotation = Quat.f q ∧ e'.lastOrientation.rotation = Quat.f q' ∧ Quat.gap q q' ≤ 2 / 2 ^ 23 ∧
      Quat.gap q ⟨Real.cos (3 / 2), 0, 0, Real.sin (3 / 2)⟩ ≤ 1 / 2 ^ 23) := by
  obtain ⟨s', hs⟩ := plainStep_ok (γ := GravityGenerator XReal) ord [topSource]
  obtain ⟨t', ht⟩ := plainStep_ok (γ := GravityGenerator XReal) ord [topSource, topSource]
  have hs2 := plainStep_quiet gravity_solitary ord _ hs
  have ht2 := plainStep_quiet gravity_solitary ord _ ht
  simp only [List.foldl_cons, List.foldl_nil, System.addEntity, top_newFrom] at hs ht
  have hd : Proper (fin 1 : XReal) := proper_fin (by norm_num)
  have run : ∀ {s s' : System XReal (GravityGenerator XReal)}, s.step ord (fin 1) = .ok s' → s.iterationMax = 5 → s'.collisionRecords = [] → .ranOut ∉ s'.debug := by
    intro s s' h h5 hr
    rw [C53_ran_out_iff hd h, hr, h5]
    simp
  have there : ∀ {s s' : System XReal (GravityGenerator XReal)} {E : InternalEntity XReal}, s.step ord (fin 1) = .ok s' → s.entities.get h0 = some E →
      ∃ e, s'.entities.get h0 = some e := by
    intro s s' E h hE
    obtain ⟨x, hx, -⟩ := ((step_frame h).1.entities).get hE
    exact ⟨_, hx⟩
  obtain ⟨E, hE⟩ := there hs (E := top) rfl
  obtain ⟨E', hE'⟩ := there ht (E := top) rfl
  have he := getEntity_eq_some.mpr ⟨E, hE, rfl⟩
  have he' := getEntity_eq_some.mpr ⟨E', hE', rfl⟩
  obtain ⟨a, q, b1, b2⟩ := unnamed_spin (by norm_num) hs gravity_solitary (k := h0) (E := top) rfl rfl hE (by simp [hs2])
  have hq : q = Vec3.zeros := by
    unfold Accelerates at b1
    split at b1
    · have b1 : (generatorLoop (fin 1) _ h0 top.makePub [] _ Vec3.zeros Vec3.zeros) = _ := b1
      unfold generatorLoop at b1
      cases b1; rfl
    · cases b1; rfl
  have hw : E.makePub.angularVelocity = (⟨0, 0, 3⟩ : Vec3 ℝ).f := by
    show E.angularVelocity = _
    rw [b2, hq]
    show top.angularVelocity + top.inverseMomentOfInertia.mulVec (Vec3.zeros.scale (fin 1)) = _
    rw [top_inertia, Vec3.f_zeros, Vec3.f_scale, Mat3.f_mulVec]
    show (⟨0, 0, 3⟩ : Vec3 ℝ).f + _ = _
    rw [Vec3.f_add]
    congr 1
    ext <;> simp [Mat3.mulVec, Mat3.o]
  have hR : top.orientation.rotation = Quat.f Quat.e := rfl
  obtain ⟨-, q1, q2, z1, z2, z3⟩ := C78_turned_partial gravity_solitary (by norm_num) hs ht (k := h0) (E := top) rfl rfl rfl rfl he he' hR (by simp) hw (by simp [hs2]) (by simp [ht2])
    (run hs rfl hs2) (run ht rfl ht2)
  obtain ⟨q3, y1, y2, -⟩ := C53_turned (by norm_num) hs (getEntity_eq_some.mpr ⟨top, rfl, rfl⟩) rfl he hR (by simp) hw (by simp [hs2])
  rw [z1] at y1
  rw [Quat.f_inj] at y1
  have y2 := y2 (run hs rfl hs2)
  rw [← y1] at y2
  refine ⟨_, _, s', t', _, _, hs, ht, rfl, rfl, (fun h => by cases h), rfl, he, he', hw, q1, q2, z1, z2, ?_, ?_⟩
  · rw [hs2, ht2] at z3; simpa using z3
  · rw [hs2] at y2
    have : (Quat.turn ((⟨0, 0, 3⟩ : Vec3 ℝ).scale 1)).mul Quat.e = ⟨Real.cos (3 / 2), 0, 0, Real.sin (3 / 2)⟩ := by
      have h1 : (⟨0, 0, 3⟩ : Vec3 ℝ).scale 1 = (⟨0, 0, 1⟩ : Vec3 ℝ).scale 3 := by ext <;> simp
      rw [h1, Quat.turn_axis (by simp [Vec3.dot_def])]
      ext <;> simp [Quat.mul, Quat.e]
    rw [this] at y2
    simpa using y2

end
end Props
end Fluffy
