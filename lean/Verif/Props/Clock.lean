import Verif.Props.Earliest
import Verif.Props.Motion
/- The passing of time during a step, in exact arithmetic. -/
set_option linter.unusedSectionVars false
set_option linter.unusedSimpArgs false
namespace Fluffy.Step
variable {α : Type} [Scalar α]

/-- Induction over the iterations, with different properties for a loop that is cut off and one that concludes. -/
theorem iterate_cases {ord : IterOrder} {dt : α} {P Q : LoopState α → Prop}
    (body : ∀ st best w st1, P st → searchFirst ord st.world 0 st.infos none = .ok best →
      wakeColliding ord best st.world = .ok w → advance best { st with world := w } = .ok st1 →
      (best = none → Q st1) ∧ (∀ k st2, best = some k → respond dt k st1 = .ok st2 → P st2)) :
    ∀ {n : Nat} {st st' : LoopState α} {c : Bool}, P st → iterate ord dt n st = .ok (st', c) →
      (c = false → P st') ∧ (c = true → Q st')
  | 0, st, st', c, hp, hh => by unfold iterate at hh; cases hh; exact ⟨fun _ => hp, by simp⟩
  | n + 1, st, st', c, hp, hh => by
    unfold iterate at hh
    obtain ⟨best, h1, hh⟩ := Res.bind_eq_ok.mp hh
    obtain ⟨w, h2, hh⟩ := Res.bind_eq_ok.mp hh
    obtain ⟨st1, h3, hh⟩ := Res.bind_eq_ok.mp hh
    obtain ⟨b1, b2⟩ := body st best w st1 hp h1 h2 h3
    split at hh
    · cases hh; exact ⟨by simp, fun _ => b1 rfl⟩
    · obtain ⟨st2, h4, hh⟩ := Res.bind_eq_ok.mp hh
      exact iterate_cases body (b2 _ _ rfl h4) hh

theorem wakeIfFinite_awake {ord : IterOrder} {h k : Handle} {w w' : World α} (hh : wakeIfFinite ord h w = .ok w') {x y : InternalEntity α}
    (hx : w.entities.get k = some x) (hy : w'.entities.get k = some y) (ha : x.asleep = false) : y.asleep = false := by
  unfold wakeIfFinite at hh
  obtain ⟨e, -, hh⟩ := Res.bind_eq_ok.mp hh
  split at hh
  · obtain ⟨⟨b, d⟩, hb, hh⟩ := Res.bind_eq_ok.mp hh
    cases hh
    obtain ⟨-, h2, -⟩ := InternalEntity.wakeUp_spec hb
    obtain ⟨c1, c2, -⟩ := h2 k x y hx hy
    by_cases hc : InternalEntity.Cluster w.entities h k
    · exact (c1 hc).1
    · rw [(c2 hc).1]; exact ha
  · cases hh; rw [hx] at hy; cases hy; exact ha

theorem wakeColliding_awake {ord : IterOrder} {best : Option (Candidate α)} {k : Handle} {w w' : World α}
    (hh : wakeColliding ord best w = .ok w') {x y : InternalEntity α}
    (hx : w.entities.get k = some x) (hy : w'.entities.get k = some y) (ha : x.asleep = false) : y.asleep = false := by
  unfold wakeColliding at hh
  split at hh
  · cases hh; rw [hx] at hy; cases hy; exact ha
  · obtain ⟨m, h1, h2⟩ := Res.bind_eq_ok.mp hh
    obtain ⟨z, hz, -⟩ := (wakeIfFinite_evolves h1).2.get hx
    exact wakeIfFinite_awake h2 hz hy (wakeIfFinite_awake h1 hx hz ha)

end Fluffy.Step

namespace Fluffy.Props
open InternalEntity Step XReal
variable {γ : Type}

/-- Where in the step an iteration's collision is. -/
theorem search_percent {ord : IterOrder} {w : World XReal} {infos : List (StepInfo XReal)} {k : Candidate XReal}
    (h : searchFirst ord w 0 infos none = .ok (some k)) : ∃ p : ℝ, k.percent = fin p ∧ 0 ≤ p ∧ p < 1 := by
  obtain ⟨hc, hb, -⟩ := C55_search h
  obtain ⟨n, m, i1, i2, -, -, -, first, second, -, -, -, -, -, ch1, -, ch2, -, c1, c2, c, -, -, hcol, -, rfl⟩ := hc
  obtain ⟨-, t1, -⟩ := C52_times hcol
  simp only at hb ⊢
  revert hb t1
  cases c.times.min with
  | fin p => simp only [zero_eq, one_eq, fin_le, fin_lt, decide_eq_true_eq]; exact fun a b => ⟨p, rfl, b, a⟩
  | nan => simp
  | posInf => simp
  | negInf => simp

theorem percentOf_search {ord : IterOrder} {w : World XReal} {infos : List (StepInfo XReal)} {best : Option (Candidate XReal)}
    (h : searchFirst ord w 0 infos none = .ok best) :
    ∃ p : ℝ, percentOf best = fin p ∧ 0 ≤ p ∧ p ≤ 1 ∧ (best = none → p = 1) := by
  cases best with
  | none => exact ⟨1, by simp [percentOf], by norm_num, by norm_num, fun _ => rfl⟩
  | some k =>
    obtain ⟨p, h1, h2, h3⟩ := search_percent h
    exact ⟨p, h1, h2, h3.le, by simp⟩

/-- The part of the step that has passed is `c`, the step has length `d`, and the records are in order of time. -/
structure Clock (d c : ℝ) (st : LoopState XReal) : Prop where
  percent : st.currentPercent = fin c
  nonneg : 0 ≤ c
  le_one : c ≤ 1
  left : st.timeLeft = fin ((1 - c) * d)
  range : ∀ r ∈ st.world.collisionRecords, ∃ t : ℝ, r.time = fin t ∧ 0 ≤ t ∧ t ≤ c * d
  sorted : st.world.collisionRecords.Pairwise (fun a b => Scalar.le a.time b.time = true)

/-- The step has got as far as its latest record. -/
def Latest (d c : ℝ) (st : LoopState XReal) : Prop :=
  (st.world.collisionRecords = [] → c = 0) ∧ ∀ r, st.world.collisionRecords.getLast? = some r → r.time = fin (c * d)

theorem Clock.advance {d c : ℝ} (hd : 0 ≤ d) {ord : IterOrder} {st st1 : LoopState XReal} {best : Option (Candidate XReal)} {w : World XReal}
    (hc : Clock d c st) (h1 : searchFirst ord st.world 0 st.infos none = .ok best)
    (h2 : wakeColliding ord best st.world = .ok w) (h3 : advance best { st with world := w } = .ok st1) :
    ∃ p : ℝ, percentOf best = fin p ∧ 0 ≤ p ∧ p ≤ 1 ∧ (best = none → p = 1) ∧ Clock d (c + (1 - c) * p) st1 ∧
      st1.world.collisionRecords = st.world.collisionRecords := by
  obtain ⟨p, hp, p0, p1, pn⟩ := percentOf_search h1
  have hw : w.collisionRecords = st.world.collisionRecords := by rw [(wakeColliding_evolves h2).1]
  unfold Step.advance at h3
  obtain ⟨⟨a, is⟩, -, h3⟩ := Res.bind_eq_ok.mp h3
  simp only [Except.ok.injEq] at h3
  subst h3
  have hle : c ≤ c + (1 - c) * p := by
    have := mul_nonneg (sub_nonneg.mpr hc.le_one) p0
    linarith
  refine ⟨p, hp, p0, p1, pn, ⟨?_, ?_, ?_, ?_, ?_, ?_⟩, hw⟩
  · simp [hc.percent, hp]
  · exact le_trans hc.nonneg hle
  · nlinarith [hc.le_one]
  · simp only [hc.left, hp, one_eq, fin_sub, fin_mul, fin_inj]; ring
  · intro r hr
    simp only [hw] at hr
    obtain ⟨t, t1, t2, t3⟩ := hc.range r hr
    exact ⟨t, t1, t2, le_trans t3 (mul_le_mul_of_nonneg_right hle hd)⟩
  · simp only [hw]; exact hc.sorted

theorem Clock.respond {d c : ℝ} (hd : 0 ≤ d) {k : Candidate XReal} {st st' : LoopState XReal} (hc : Clock d c st)
    (h : respond (fin d) k st = .ok st') : Clock d c st' ∧ Latest d c st' := by
  obtain ⟨first, second, i1, i2, -, -, -, -, -, rfl⟩ := respond_spec h
  have ht : (respondPair k (st.currentPercent * fin d) st.timeLeft first second i1 i2).record.time = fin (c * d) := by
    show st.currentPercent * fin d = _
    rw [hc.percent, fin_mul]
  refine ⟨⟨hc.percent, hc.nonneg, hc.le_one, hc.left, ?_, ?_⟩, by simp, ?_⟩
  · intro r hr
    simp only [List.mem_append, List.mem_singleton] at hr
    rcases hr with hr | rfl
    · exact hc.range r hr
    · exact ⟨_, ht, mul_nonneg hc.nonneg hd, le_refl _⟩
  · simp only [List.pairwise_append]
    refine ⟨hc.sorted, List.pairwise_singleton _ _, ?_⟩
    intro a ha b hb
    rw [List.mem_singleton] at hb
    subst hb
    obtain ⟨t, t1, -, t3⟩ := hc.range a ha
    rw [t1, ht]
    simpa using t3
  · intro r hr
    simp only [List.getLast?_append, List.getLast?_singleton, Option.some_or, Option.some.injEq] at hr
    rw [← hr]; exact ht

/-- The records of the loop are in order; a loop that is cut off has got as far as its latest record, one that concludes to
the end of the step. -/
theorem iterate_clock {d : ℝ} (hd : 0 ≤ d) {ord : IterOrder} {n : Nat} {st st' : LoopState XReal} {b : Bool} {c : ℝ}
    (hc : Clock d c st) (hl : Latest d c st) (h : iterate ord (fin d) n st = .ok (st', b)) :
    ∃ c', Clock d c' st' ∧ (b = false → Latest d c' st') ∧ (b = true → c' = 1) := by
  have := iterate_cases (ord := ord) (dt := fin d) (P := fun st => ∃ c, Clock d c st ∧ Latest d c st) (Q := Clock d 1) ?_ ⟨c, hc, hl⟩ h
  · cases b with
    | false => obtain ⟨c, h1, h2⟩ := this.1 rfl; exact ⟨c, h1, fun _ => h2, by simp⟩
    | true => exact ⟨1, this.2 rfl, by simp, fun _ => rfl⟩
  · rintro st best w st1 ⟨c, hc, hl⟩ h1 h2 h3
    obtain ⟨p, hp, p0, p1, pn, hc1, -⟩ := hc.advance hd h1 h2 h3
    refine ⟨fun hb => ?_, fun k st2 hb h4 => ⟨_, hc1.respond hd h4⟩⟩
    rw [pn hb] at hc1
    rw [show c + (1 - c) * 1 = 1 by ring] at hc1
    exact hc1

variable [ForceGenerator XReal γ]

theorem _root_.Fluffy.Step.Phases.clock {ord : IterOrder} {s s' : System XReal γ} {d : ℝ} (hd : 0 ≤ d) (p : Phases ord s s' (fin d)) :
    ∃ c, Clock d c p.final ∧ (p.concluded = false → Latest d c p.final) ∧ (p.concluded = true → c = 1) := by
  obtain ⟨k1, -⟩ := integrateAll_spec (Arena.handles_nodup _) p.integrate
  have hmid : p.mid.collisionRecords = [] := by show p.mid.toWorld.collisionRecords = []; rw [k1]
  refine iterate_clock hd (c := 0) ⟨by simp, le_refl _, by norm_num, by simp, ?_, ?_⟩ ?_ p.iterate
  · simp [hmid]
  · simp [hmid]
  · exact ⟨fun _ => rfl, by simp [hmid]⟩

theorem _root_.Fluffy.Step.Phases.records {ord : IterOrder} {s s' : System XReal γ} {dt : XReal} (p : Phases ord s s' dt) :
    s'.collisionRecords = p.final.world.collisionRecords := by
  have := (sleepLoop_frame p.selfless p.sleep).2
  cases hc : p.concluded <;> rw [hc] at this <;> simpa using this

theorem proper_fin {d : ℝ} (hd : 1 / 1000000 ≤ d) : Proper (fin d : XReal) := by
  unfold Proper
  simp only [fin_abs, EPSILON_eq, fin_lt, decide_eq_false_iff_not, not_lt]
  rw [abs_of_nonneg (by linarith [show (0 : ℝ) < 1 / 1000000 by norm_num])]
  exact hd

/-- **C30**, the times: over a step of length `d > 0` (not so short that nothing happens) the times of the records lie between
0 and `d` and do not decrease. -/
theorem C30_times {s s' : System XReal γ} {ord : IterOrder} {d : ℝ} (hd : 1 / 1000000 ≤ d) (h : s.step ord (fin d) = .ok s') :
    (∀ r ∈ s'.collisionRecords, ∃ t : ℝ, r.time = fin t ∧ 0 ≤ t ∧ t ≤ d) ∧
    s'.collisionRecords.Pairwise (fun a b => Scalar.le a.time b.time = true) := by
  have h0 : 0 ≤ d := le_trans (by norm_num) hd
  obtain ⟨ph⟩ := step_phases (proper_fin hd) h
  obtain ⟨c, hc, -⟩ := ph.clock h0
  rw [ph.records]
  refine ⟨fun r hr => ?_, hc.sorted⟩
  obtain ⟨t, t1, t2, t3⟩ := hc.range r hr
  exact ⟨t, t1, t2, le_trans t3 (mul_le_of_le_one_left h0 hc.le_one)⟩

/-! ### The movement that is left -/

theorem mul_mul_fin (a : XReal) (t q : ℝ) : a * fin t * fin q = a * fin (t * q) := by
  have key : ∀ s : ℝ, infSign s * fin q = infSign (s * q) := by
    intro s
    unfold infSign
    by_cases hs : s = 0
    · simp [hs]
    · by_cases hq : q = 0
      · rw [if_neg hs]
        subst hq
        split <;> (show infSign _ = _; simp [infSign])
      · have hsq : s * q ≠ 0 := mul_ne_zero hs hq
        rw [if_neg hs, if_neg hsq]
        rcases lt_or_gt_of_ne hs with h1 | h1 <;> rcases lt_or_gt_of_ne hq with h2 | h2
        · rw [if_neg h1.not_gt, if_pos (mul_pos_of_neg_of_neg h1 h2)]
          show infSign (-q) = _
          unfold infSign; rw [if_neg (by simpa using hq), if_pos (by linarith)]
        · rw [if_neg h1.not_gt, if_neg (mul_neg_of_neg_of_pos h1 h2).not_gt]
          show infSign (-q) = _
          unfold infSign; rw [if_neg (by simpa using hq), if_neg (by linarith)]
        · rw [if_pos h1, if_neg (mul_neg_of_pos_of_neg h1 h2).not_gt]
          show infSign q = _
          unfold infSign; rw [if_neg hq, if_neg (by linarith)]
        · rw [if_pos h1, if_pos (mul_pos h1 h2)]
          show infSign q = _
          unfold infSign; rw [if_neg hq, if_pos h2]
  cases a with
  | nan => rfl
  | fin r => simp [mul_assoc]
  | posInf => exact key t
  | negInf => show infSign (-t) * fin q = infSign (-(t * q)); rw [key]; congr 1; ring

theorem scale_scale_fin (v : Vec3 XReal) (t q : ℝ) : (v.scale (fin t)).scale (fin q) = v.scale (fin (t * q)) := by
  unfold Vec3.scale
  simp only [mul_mul_fin]

/-- What is left of each entity's movement is its velocity times the time that is left. -/
def OnCourse (st : LoopState XReal) : Prop :=
  ∀ (n : Nat) (i : StepInfo XReal), st.infos[n]? = some i → ∃ e, st.world.entities.get i.handle = some e ∧
    i.linearMovement = e.velocity.scale st.timeLeft ∧ i.angularMovement = e.angularVelocity.scale st.timeLeft

theorem OnCourse.advance {d c : ℝ} {ord : IterOrder} {st st1 : LoopState XReal} {best : Option (Candidate XReal)} {w : World XReal}
    (hnd : (st.infos.map StepInfo.handle).Nodup) (hc : Clock d c st) (ho : OnCourse st)
    (h1 : searchFirst ord st.world 0 st.infos none = .ok best)
    (h2 : wakeColliding ord best st.world = .ok w) (h3 : advance best { st with world := w } = .ok st1) : OnCourse st1 := by
  obtain ⟨p, hp, -⟩ := percentOf_search h1
  obtain ⟨a1, -, -, a4⟩ := advance_spec (st := { st with world := w }) hnd h3
  intro n i hi
  have hinf : st1.infos = st.infos.map (shrink (percentOf best)) := by rw [a1]
  have htl : st1.timeLeft = fin ((1 - c) * d * (1 - p)) := by
    rw [a1]; simp only [hc.left, hp, one_eq, fin_sub, fin_mul]
  rw [hinf, List.getElem?_map, Option.map_eq_some_iff] at hi
  obtain ⟨j, hj, rfl⟩ := hi
  obtain ⟨e, he, e1, e2⟩ := ho n j hj
  obtain ⟨e', he', hr⟩ := (wakeColliding_evolves h2).2.get he
  obtain ⟨x, hx, hx'⟩ := a4 j (List.mem_of_getElem? hj)
  have hxe : x = e' := by
    have hx : w.entities.get j.handle = some x := hx
    rw [he'] at hx; cases hx; rfl
  subst hxe
  have v1 : (moved (percentOf best) j x).velocity = e.velocity := by
    unfold moved; split <;> rw [hr]
  have v2 : (moved (percentOf best) j x).angularVelocity = e.angularVelocity := by
    unfold moved; split <;> rw [hr]
  refine ⟨_, hx', ?_, ?_⟩
  · rw [v1, htl]
    simp only [shrink, e1, hc.left, hp, one_eq, fin_sub, scale_scale_fin]
  · rw [v2, htl]
    simp only [shrink, e2, hc.left, hp, one_eq, fin_sub, scale_scale_fin]

theorem OnCourse.respond {dt : XReal} {k : Candidate XReal} {st st' : LoopState XReal}
    (hnd : (st.infos.map StepInfo.handle).Nodup) (ho : OnCourse st)
    (hk : (∃ i1 i2, st.infos[k.firstIndex]? = some i1 ∧ st.infos[k.secondIndex]? = some i2 ∧
      i1.handle = k.firstHandle ∧ i2.handle = k.secondHandle) ∧ k.firstIndex ≠ k.secondIndex)
    (h : respond dt k st = .ok st') : OnCourse st' := by
  obtain ⟨first, second, i1, i2, hne, hf, hs, g1, g2, rfl⟩ := respond_spec h
  obtain ⟨⟨j1, j2, q1, q2, q3, q4⟩, hix⟩ := hk
  rw [g1] at q1; cases q1
  rw [g2] at q2; cases q2
  obtain ⟨b, r1, r2⟩ := respondPair_firstInfo k (st.currentPercent * dt) st.timeLeft first second i1 i2
  intro n i hi
  simp only at hi ⊢
  rw [List.getElem?_set] at hi
  by_cases hn2 : k.secondIndex = n
  · rw [if_pos hn2] at hi
    split at hi
    · cases hi
      rw [r2]
      refine ⟨_, ?_, rfl, rfl⟩
      rw [respond_get hne hf hs, if_pos q4]
    · cases hi
  · rw [if_neg hn2, List.getElem?_set] at hi
    by_cases hn1 : k.firstIndex = n
    · rw [if_pos hn1] at hi
      split at hi
      · cases hi
        rw [r1]
        refine ⟨_, ?_, rfl, rfl⟩
        rw [respond_get hne hf hs, if_neg (by rw [q3]; exact hne), if_pos q3]
      · cases hi
    · rw [if_neg hn1] at hi
      obtain ⟨e, he, e1, e2⟩ := ho n i hi
      have other : ∀ {m : Nat} {j : StepInfo XReal}, st.infos[m]? = some j → m ≠ n → i.handle ≠ j.handle := by
        intro m j hj hmn hc
        have hm : (st.infos.map StepInfo.handle)[m]? = some j.handle := by rw [List.getElem?_map, hj]; rfl
        have hn : (st.infos.map StepInfo.handle)[n]? = some j.handle := by rw [List.getElem?_map, hi, ← hc]; rfl
        have hml : m < (st.infos.map StepInfo.handle).length := (List.getElem?_eq_some_iff.mp hm).1
        exact hmn ((List.getElem?_inj hml hnd).mp (by rw [hm, hn]))
      refine ⟨e, ?_, e1, e2⟩
      rw [respond_get hne hf hs, if_neg (by rw [← q4]; exact other g2 hn2), if_neg (by rw [← q3]; exact other g1 hn1)]
      exact he

/-- What holds between the iterations of a step of length `d`. -/
structure Running (s : System XReal γ) (d c : ℝ) (st : LoopState XReal) : Prop where
  inv : LoopInv s.toWorld s.entities.handles st
  clock : Clock d c st
  course : OnCourse st

/-- One iteration, up to the response and with it. -/
theorem Running.body {s : System XReal γ} {d c : ℝ} (hd : 0 ≤ d) {ord : IterOrder} {st st1 : LoopState XReal}
    {best : Option (Candidate XReal)} {w : World XReal} (hr : Running s d c st)
    (h1 : searchFirst ord st.world 0 st.infos none = .ok best)
    (h2 : wakeColliding ord best st.world = .ok w) (h3 : advance best { st with world := w } = .ok st1) :
    ∃ p : ℝ, percentOf best = fin p ∧ 0 ≤ p ∧ p ≤ 1 ∧ (best = none → p = 1) ∧ Running s d (c + (1 - c) * p) st1 ∧
      ∀ k st2, best = some k → respond (fin d) k st1 = .ok st2 →
        Running s d (c + (1 - c) * p) st2 ∧ Latest d (c + (1 - c) * p) st2 := by
  have hnd : (st.infos.map StepInfo.handle).Nodup := by rw [hr.inv.handles]; exact Arena.handles_nodup _
  obtain ⟨p, hp, p0, p1, pn, hc, -⟩ := hr.clock.advance hd h1 h2 h3
  obtain ⟨b1, b2⟩ := loopInv_body (dt := fin d) (Arena.handles_nodup _) hr.inv h1 h2 h3
  have ho := hr.course.advance hnd hr.clock h1 h2 h3
  refine ⟨p, hp, p0, p1, pn, ⟨b1, hc, ho⟩, ?_⟩
  rintro k st2 rfl h4
  obtain ⟨c1, c2⟩ := hc.respond hd h4
  have hnd1 : (st1.infos.map StepInfo.handle).Nodup := by rw [b1.handles]; exact Arena.handles_nodup _
  exact ⟨⟨b2 k st2 rfl h4, c1, ho.respond hnd1 (contact_infos hnd h1 h3) h4⟩, c2⟩

theorem _root_.Fluffy.Step.Phases.running {ord : IterOrder} {s s' : System XReal γ} {d : ℝ} (p : Phases ord s s' (fin d)) :
    Running s d 0 ⟨p.mid.toWorld, p.infos, fin d, zero⟩ ∧ Latest d 0 ⟨p.mid.toWorld, p.infos, fin d, zero⟩ := by
  obtain ⟨k1, -, -, -, -, k6⟩ := integrateAll_spec (Arena.handles_nodup _) p.integrate
  have hmid : p.mid.collisionRecords = [] := by show p.mid.toWorld.collisionRecords = []; rw [k1]
  refine ⟨⟨p.inv0, ⟨by simp, le_refl _, by norm_num, by simp, by simp [hmid], by simp [hmid]⟩, ?_⟩, fun _ => rfl, by simp [hmid]⟩
  intro n i hi
  obtain ⟨e, he, hie⟩ := k6 i (List.mem_of_getElem? hi)
  exact ⟨e, he, by rw [hie], by rw [hie]⟩

/-- **C59.** At every iteration of a step of length `d`, the time left is what remains of `d`, and the movement the
collision search looks at is, for every entity, its velocity and angular velocity at that moment times the time left. -/
theorem C59_on_course {s s' : System XReal γ} {ord : IterOrder} {d : ℝ} (hd : 1 / 1000000 ≤ d) (h : s.step ord (fin d) = .ok s')
    {mid : System XReal γ} {infos : List (StepInfo XReal)}
    (hi : integrateAll (fin d) s.generators.handles s.entities.handles { s with collisionRecords := [], debug := [] } = .ok (mid, infos))
    {n : Nat} {st : LoopState XReal} {b : Bool} (hn : iterate ord (fin d) n ⟨mid.toWorld, infos, fin d, zero⟩ = .ok (st, b)) :
    ∃ c : ℝ, 0 ≤ c ∧ c ≤ 1 ∧ st.currentPercent = fin c ∧ st.timeLeft = fin (d - c * d) ∧
    ∀ i ∈ st.infos, ∃ e, st.world.entities.get i.handle = some e ∧
      i.linearMovement = e.velocity.scale (fin (d - c * d)) ∧ i.angularMovement = e.angularVelocity.scale (fin (d - c * d)) := by
  have h0 : 0 ≤ d := le_trans (by norm_num) hd
  obtain ⟨ph⟩ := step_phases (proper_fin hd) h
  have hm : mid = ph.mid ∧ infos = ph.infos := by
    have := ph.integrate; rw [hi] at this; cases this; exact ⟨rfl, rfl⟩
  obtain ⟨rfl, rfl⟩ := hm
  have : ∃ c, Running s d c st := by
    have := iterate_cases (ord := ord) (dt := fin d) (P := fun st => ∃ c, Running s d c st) (Q := fun st => ∃ c, Running s d c st) ?_
      ⟨0, ph.running.1⟩ hn
    · cases b with
      | false => exact this.1 rfl
      | true => exact this.2 rfl
    · rintro st best w st1 ⟨c, hc⟩ h1 h2 h3
      obtain ⟨p, -, -, -, -, r1, r2⟩ := hc.body h0 h1 h2 h3
      exact ⟨fun _ => ⟨_, r1⟩, fun k st2 hb h4 => ⟨_, (r2 k st2 hb h4).1⟩⟩
  obtain ⟨c, hr⟩ := this
  have hl : st.timeLeft = fin (d - c * d) := by rw [hr.clock.left]; congr 1; ring
  refine ⟨c, hr.clock.nonneg, hr.clock.le_one, hr.clock.percent, hl, fun i hi => ?_⟩
  obtain ⟨n, hn⟩ := List.getElem?_of_mem hi
  obtain ⟨e, e0, e1, e2⟩ := hr.course n i hn
  rw [hl] at e1 e2
  exact ⟨e, e0, e1, e2⟩

/-! ### C53: how far the entities get -/

/-- The record names the entity. -/
def Names (r : CollisionRecord XReal) (h : Handle) : Prop := r.firstEntity = h ∨ r.secondEntity = h

/-- An awake entity that no record names has moved straight on from `x` with the velocity `v`. -/
def Straight (h : Handle) (x v : Vec3 ℝ) (d c : ℝ) (st : LoopState XReal) : Prop :=
  (∃ r ∈ st.world.collisionRecords, Names r h) ∨
  ∃ e, st.world.entities.get h = some e ∧ e.asleep = false ∧ e.velocity = v.f ∧ e.orientation.position = (x + v.scale (c * d)).f

theorem Straight.advance {s : System XReal γ} {d c p : ℝ} {ord : IterOrder} {st st1 : LoopState XReal} {h : Handle} {x v : Vec3 ℝ}
    {best : Option (Candidate XReal)} {w : World XReal} (hr : Running s d c st) (hs : Straight h x v d c st)
    (hh : h ∈ s.entities.handles) (hp : percentOf best = fin p)
    (h2 : wakeColliding ord best st.world = .ok w) (h3 : advance best { st with world := w } = .ok st1) :
    Straight h x v d (c + (1 - c) * p) st1 := by
  have hnd : (st.infos.map StepInfo.handle).Nodup := by rw [hr.inv.handles]; exact Arena.handles_nodup _
  obtain ⟨a1, -, -, a4⟩ := advance_spec (st := { st with world := w }) hnd h3
  have hw : st1.world.collisionRecords = st.world.collisionRecords := by
    rw [a1]; show w.collisionRecords = _; rw [(wakeColliding_evolves h2).1]
  rcases hs with hs | ⟨e, he, ha, hv, hx⟩
  · left; rw [hw]; exact hs
  · right
    rw [← hr.inv.handles] at hh
    obtain ⟨i, hi, rfl⟩ := List.mem_map.mp hh
    obtain ⟨n, hn⟩ := List.getElem?_of_mem hi
    obtain ⟨e0, he0, m1, -⟩ := hr.course n i hn
    rw [he] at he0; cases he0
    obtain ⟨y, hy, hy'⟩ := a4 i hi
    have hy : w.entities.get i.handle = some y := hy
    obtain ⟨y0, hy0, hrel⟩ := (wakeColliding_evolves h2).2.get he
    rw [hy] at hy0; cases hy0
    have hay : y.asleep = false := wakeColliding_awake h2 he hy ha
    refine ⟨_, hy', ?_, ?_, ?_⟩
    · unfold moved; rw [if_neg (by simp [hay])]; exact hay
    · unfold moved; rw [if_neg (by simp [hay])]; show y.velocity = _; rw [hrel]; exact hv
    · unfold moved; rw [if_neg (by simp [hay])]
      show y.orientation.position + i.linearMovement.scale _ = _
      have : y.orientation = e.orientation := by rw [hrel]
      rw [this, hx, m1, hv, hr.clock.left, hp]
      simp only [Vec3.f_scale, Vec3.f_add, Vec3.f_inj]
      ext <;> simp <;> ring

theorem Straight.respond {h : Handle} {x v : Vec3 ℝ} {d c : ℝ} {dt : XReal} {k : Candidate XReal} {st st' : LoopState XReal}
    (hs : Straight h x v d c st) (hh : respond dt k st = .ok st') : Straight h x v d c st' := by
  obtain ⟨first, second, i1, i2, hne, hf, hs', g1, g2, rfl⟩ := respond_spec hh
  by_cases hn : k.firstHandle = h ∨ k.secondHandle = h
  · left
    exact ⟨_, List.mem_append_right _ (List.mem_singleton.mpr rfl), hn⟩
  · rcases hs with ⟨r, hr, hr'⟩ | ⟨e, he, hrest⟩
    · left; exact ⟨r, List.mem_append_left _ hr, hr'⟩
    · right
      refine ⟨e, ?_, hrest⟩
      simp only
      rw [respond_get hne hf hs', if_neg (fun hc => hn (Or.inr hc.symm)), if_neg (fun hc => hn (Or.inl hc.symm))]
      exact he

/-- An awake entity that no record names keeps its velocity. -/
def Kept (h : Handle) (u : Vec3 XReal) (st : LoopState XReal) : Prop :=
  (∃ r ∈ st.world.collisionRecords, Names r h) ∨ ∃ e, st.world.entities.get h = some e ∧ e.asleep = false ∧ e.velocity = u

theorem Kept.advance {s : System XReal γ} {d c : ℝ} {ord : IterOrder} {st st1 : LoopState XReal} {h : Handle} {u : Vec3 XReal}
    {best : Option (Candidate XReal)} {w : World XReal} (hr : Running s d c st) (hs : Kept h u st)
    (hh : h ∈ s.entities.handles) (h2 : wakeColliding ord best st.world = .ok w)
    (h3 : advance best { st with world := w } = .ok st1) : Kept h u st1 := by
  have hnd : (st.infos.map StepInfo.handle).Nodup := by rw [hr.inv.handles]; exact Arena.handles_nodup _
  obtain ⟨a1, -, -, a4⟩ := advance_spec (st := { st with world := w }) hnd h3
  have hw : st1.world.collisionRecords = st.world.collisionRecords := by
    rw [a1]; show w.collisionRecords = _; rw [(wakeColliding_evolves h2).1]
  rcases hs with hs | ⟨e, he, ha, hv⟩
  · left; rw [hw]; exact hs
  · right
    rw [← hr.inv.handles] at hh
    obtain ⟨i, hi, rfl⟩ := List.mem_map.mp hh
    obtain ⟨y, hy, hy'⟩ := a4 i hi
    have hy : w.entities.get i.handle = some y := hy
    obtain ⟨y0, hy0, hrel⟩ := (wakeColliding_evolves h2).2.get he
    rw [hy] at hy0; cases hy0
    have hay : y.asleep = false := wakeColliding_awake h2 he hy ha
    refine ⟨_, hy', ?_, ?_⟩
    · unfold moved; rw [if_neg (by simp [hay])]; exact hay
    · unfold moved; rw [if_neg (by simp [hay])]; show y.velocity = _; rw [hrel]; exact hv

theorem Kept.respond {h : Handle} {u : Vec3 XReal} {dt : XReal} {k : Candidate XReal} {st st' : LoopState XReal}
    (hs : Kept h u st) (hh : respond dt k st = .ok st') : Kept h u st' := by
  obtain ⟨first, second, i1, i2, hne, hf, hs', g1, g2, rfl⟩ := respond_spec hh
  by_cases hn : k.firstHandle = h ∨ k.secondHandle = h
  · left
    exact ⟨_, List.mem_append_right _ (List.mem_singleton.mpr rfl), hn⟩
  · rcases hs with ⟨r, hr, hr'⟩ | ⟨e, he, hrest⟩
    · left; exact ⟨r, List.mem_append_left _ hr, hr'⟩
    · right
      refine ⟨e, ?_, hrest⟩
      simp only
      rw [respond_get hne hf hs', if_neg (fun hc => hn (Or.inr hc.symm)), if_neg (fun hc => hn (Or.inl hc.symm))]
      exact he

/-- **C53**, how far entities get: an awake entity that no record of the step names has moved straight on with its new
velocity, for the time of the latest record if the step ran out of iterations, and for the whole step otherwise. -/
theorem C53_advanced {s s' : System XReal γ} {ord : IterOrder} {d : ℝ} (hd : 1 / 1000000 ≤ d) (h : s.step ord (fin d) = .ok s')
    {k : Handle} {e e' : Entity XReal} {x v : Vec3 ℝ} (he : s.getEntity k = some e) (ha : e.asleep = false)
    (he' : s'.getEntity k = some e') (hx : e.position = x.f) (hv : e'.velocity = v.f)
    (hn : ∀ r ∈ s'.collisionRecords, r.firstEntity ≠ k ∧ r.secondEntity ≠ k) :
    (.ranOut ∉ s'.debug → e'.position = (x + v.scale d).f) ∧
    (.ranOut ∈ s'.debug → s'.collisionRecords = [] → e'.position = x.f) ∧
    (.ranOut ∈ s'.debug → ∀ r t, s'.collisionRecords.getLast? = some r → r.time = fin t → e'.position = (x + v.scale t).f) := by
  have h0 : 0 ≤ d := le_trans (by norm_num) hd
  obtain ⟨ph⟩ := step_phases (proper_fin hd) h
  obtain ⟨E, hE, rfl⟩ := getEntity_eq_some.mp he
  obtain ⟨E', hE', rfl⟩ := getEntity_eq_some.mp he'
  obtain ⟨k1, -, k3, -, k5, k6⟩ := integrateAll_spec (Arena.handles_nodup _) ph.integrate
  have hh : k ∈ s.entities.handles := Arena.mem_handles.mpr ⟨E, hE⟩
  obtain ⟨M, hM, hrel⟩ := k3.get hE
  -- the velocity after integration
  have hMa : M.asleep = false := by rw [hrel]; exact ha
  have hMx : M.orientation.position = x.f := by rw [hrel]; exact hx
  obtain ⟨dd, hdb, hdd, hend⟩ := ph.ending
  have hran : (DebugMsg.ranOut ∈ s'.debug) ↔ ph.concluded = false := by
    obtain ⟨hmsg, -⟩ := ph.watch hE
    rw [hdb]
    simp only [List.mem_append]
    constructor
    · rintro ((hm | hm) | hm)
      · exact (hmsg _ hm).elim
      · split at hm
        · simp at hm
        · rename_i hc; simpa using hc
      · obtain ⟨q, hq⟩ := hdd _ hm; cases hq
    · intro hc; left; right; rw [hc]; simp
  rw [ph.records] at hn
  -- the entity keeps its velocity
  have settled : ∀ X, ph.final.world.entities.get k = some X → X.asleep = false →
      E'.velocity = X.velocity ∧ E'.orientation = X.orientation := by
    intro X hX hXa
    have hr := (hend k X E' hX hE').2
    unfold settle at hr
    rw [if_neg (by simp [hXa])] at hr
    split at hr <;> (rw [hr]; exact ⟨rfl, rfl⟩)
  have kept : E'.velocity = M.velocity := by
    have := iterate_induct (ord := ord) (dt := fin d) (P := fun st => (∃ c, Running s d c st) ∧ Kept k M.velocity st) ?_
      ⟨⟨0, ph.running.1⟩, Or.inr ⟨M, hM, hMa, rfl⟩⟩ ph.iterate
    · obtain ⟨-, ⟨r, hr, hr'⟩ | ⟨X, hX, hXa, hXv⟩⟩ := this
      · rcases hr' with hr' | hr'
        · exact absurd hr' (hn r hr).1
        · exact absurd hr' (hn r hr).2
      · rw [← hXv]; exact (settled X hX hXa).1
    · rintro st best w st1 ⟨⟨c, hc⟩, hk⟩ q1 q2 q3
      obtain ⟨p, -, -, -, -, r1, r2⟩ := hc.body h0 q1 q2 q3
      have hk1 := hk.advance hc hh q2 q3
      exact ⟨fun _ => ⟨⟨_, r1⟩, hk1⟩, fun k st2 hb q4 => ⟨⟨_, (r2 k st2 hb q4).1⟩, hk1.respond q4⟩⟩
  have hMv : M.velocity = v.f := by rw [← kept]; exact hv
  have main := iterate_cases (ord := ord) (dt := fin d)
    (P := fun st => ∃ c, Running s d c st ∧ Latest d c st ∧ Straight k x v d c st) (Q := fun st => Running s d 1 st ∧ Straight k x v d 1 st) ?_
    ⟨0, ph.running.1, ph.running.2, Or.inr ⟨M, hM, hMa, hMv, by rw [hMx]; congr 1; ext <;> simp⟩⟩ ph.iterate
  · have fin_pos : ∀ c, Straight k x v d c ph.final → E'.orientation.position = (x + v.scale (c * d)).f := by
      rintro c (⟨r, hr, hr'⟩ | ⟨X, hX, hXa, -, hXx⟩)
      · rcases hr' with hr' | hr'
        · exact absurd hr' (hn r hr).1
        · exact absurd hr' (hn r hr).2
      · rw [← hXx, (settled X hX hXa).2]
    rw [hran, ph.records]
    refine ⟨fun hc => ?_, fun hc hr => ?_, fun hc r t hr ht => ?_⟩
    · have := fin_pos 1 (main.2 (by simpa using hc)).2
      rw [one_mul] at this; exact this
    · obtain ⟨c, -, hl, hs⟩ := main.1 hc
      have := fin_pos c hs
      rw [hl.1 hr] at this
      refine this.trans ?_
      congr 1; ext <;> simp
    · obtain ⟨c, -, hl, hs⟩ := main.1 hc
      have h1 := hl.2 r hr
      rw [ht] at h1
      have := fin_pos c hs
      rw [← fin_inj.mp h1] at this
      exact this
  · rintro st best w st1 ⟨c, hc, hl, hs⟩ q1 q2 q3
    obtain ⟨p, hp, -, -, pn, r1, r2⟩ := hc.body h0 q1 q2 q3
    have hs1 := hs.advance hc hh hp q2 q3
    refine ⟨fun hb => ?_, fun k st2 hb q4 => ⟨_, (r2 k st2 hb q4).1, (r2 k st2 hb q4).2, hs1.respond q4⟩⟩
    rw [pn hb, show c + (1 - c) * 1 = 1 by ring] at r1 hs1
    exact ⟨r1, hs1⟩

/-! ### The hypotheses can be met -/

/-- A single entity, moving. -/
theorem coast [SafeGenerator XReal γ] (ord : IterOrder) (v : Vec3 ℝ) : ∃ s s' : System XReal γ, s.step ord (fin 1) = .ok s' ∧
    s.getEntity Demo.h0 = some (Scene.dot (fin 1) .o v [] Scene.up).makePub ∧ s'.collisionRecords = [] ∧
    ∃ e', s'.getEntity Demo.h0 = some e' ∧ e'.velocity = v.f := by
  obtain ⟨s2, hs⟩ := C29_plain_partial (α := XReal) (γ := γ) [(.id, .addEntity (Scene.source (fin 1) .o v)), (ord, .step (fin 1))]
    (by simp [Plain])
  have hnew := Scene.source_newFrom (m := fin 1) (by simp) .o v
  simp only [runAll, System.exec, System.addEntity, hnew] at hs
  obtain ⟨⟨s1, o1⟩, hs1, hs⟩ := Res.bind_eq_ok.mp hs
  simp only [Except.ok.injEq, Prod.mk.injEq] at hs1
  obtain ⟨rfl, -⟩ := hs1
  obtain ⟨⟨s2', o2⟩, hs2, -⟩ := Res.bind_eq_ok.mp hs
  obtain ⟨s3, hs3, -⟩ := Res.bind_eq_ok.mp hs2
  refine ⟨_, s3, hs3, rfl, ?_⟩
  have hd : Proper (fin 1 : XReal) := proper_fin (by norm_num)
  have honly : ∀ k, s3.getEntity k ≠ none → k = Demo.h0 := by
    intro k hk
    have : ∃ y, s3.entities.get k = some y := by
      cases hy : s3.entities.get k with
      | none => exact absurd (by show (s3.entities.get k).map makePub = none; rw [hy]; rfl) hk
      | some y => exact ⟨y, rfl⟩
    obtain ⟨y, hy⟩ := this
    obtain ⟨x, hx, -⟩ := ((step_frame hs3).1.entities).get' hy
    have hx : (⟨[some (0, Scene.dot (fin 1) .o v [] Scene.up), none, none, none], [1, 2, 3], 0⟩ : Arena (InternalEntity XReal)).get k = some x := hx
    obtain ⟨i, g⟩ := k
    unfold Arena.get at hx
    match i with
    | 0 => simp at hx; rw [Demo.h0, hx.1]
    | 1 => simp at hx
    | 2 => simp at hx
    | 3 => simp at hx
    | i + 4 => simp at hx
  have hrec : s3.collisionRecords = [] := by
    cases hc : s3.collisionRecords with
    | nil => rfl
    | cons r l =>
      obtain ⟨g1, g2, g3⟩ := (C30_records_bounded hd hs3).2 r (by rw [hc]; simp)
      rw [honly _ g2, honly _ g3] at g1
      exact absurd rfl g1
  refine ⟨hrec, ?_⟩
  obtain ⟨w, g, g', fs, p', -, -, -, -, h4, h5, h6, -⟩ := C21_exact hd hs3 hrec (by simp [System.new]) (k := Demo.h0) rfl rfl (by simp [Pushable, makePub, Scene.dot]; norm_num)
  refine ⟨p', h5, ?_⟩
  cases h4
  rw [h6]
  simp only [totalForce, makePub, Scene.dot, List.foldl_nil, Vec3.f_zeros, one_eq, fin_div one_ne_zero, Vec3.f_scale, Vec3.f_add, Vec3.f_inj]
  ext <;> simp

/-- `C53_advanced` applies to it. -/
example [SafeGenerator XReal γ] (ord : IterOrder) : ∃ (s s' : System XReal γ) (e' : Entity XReal), s.step ord (fin 1) = .ok s' ∧
    s'.getEntity Demo.h0 = some e' ∧ (.ranOut ∉ s'.debug → e'.position = (⟨2, 0, 0⟩ : Vec3 ℝ).f) := by
  obtain ⟨s, s', h, h1, h2, e', h3, h4⟩ := coast (γ := γ) ord ⟨2, 0, 0⟩
  refine ⟨s, s', e', h, h3, fun hn => ?_⟩
  have := (C53_advanced (x := .o) (by norm_num) h h1 rfl h3 rfl h4 (by simp [h2])).1 hn
  rw [this]
  congr 1
  ext <;> simp

/-- A step with a record, for `C30_times`, `C55_records` and `C59_on_course`. -/
example (ord : IterOrder) : ∃ (s s' : System XReal γ) (r : CollisionRecord XReal), Reachable s ∧ s.step ord (fin 1) = .ok s' ∧
    s'.collisionRecords = [r] ∧ r.time = fin (1 / 2) := by
  obtain ⟨s', hs, -, -, -, hr⟩ := Scene.rest (γ := γ) ord (k := 1) (by norm_num) (u := ⟨1, 0, 0⟩) (by ext <;> norm_num) (E := 1)
    (by norm_num [Vec3.dot_def]) (by norm_num [Vec3.dot_def]) 3
  exact ⟨_, s', _, Scene.start_reachable (by norm_num) (by norm_num) _ _ _ _ _ _ _ _ _, hs, hr, rfl⟩

end Fluffy.Props
