import Verif.Props.Sleep
import Verif.Props.Wake
/- Falling asleep: the time that counts, and when an entity is put to sleep. -/
set_option linter.unusedSectionVars false
set_option linter.unusedSimpArgs false
namespace Fluffy.Props
open InternalEntity Step
variable {α : Type} [Scalar α] {γ : Type} [ForceGenerator α γ]

/-! ### C25, the statement -/

/-- A history of calls, each with the state it led to; the latest call comes first. -/
inductive Past : List (Op α γ × System α γ) → System α γ → Prop
  | nil : Past [] System.new
  | snoc {tr : List (Op α γ × System α γ)} {m s : System α γ} (ord : IterOrder) (op : Op α γ) (out : Out γ) :
      Past tr m → m.exec ord op = .ok (s, out) → Past ((op, s) :: tr) s

/-- The entity is asleep, and was not put to sleep in this step: it slept through the end of the step. -/
def SleptThrough (s : System α γ) (h : Handle) (e : InternalEntity α) : Prop :=
  e.asleep = true ∧ .puttingToSleep h ∉ s.debug

instance (s : System α γ) (h : Handle) (e : InternalEntity α) : Decidable (SleptThrough s h e) := by
  unfold SleptThrough; infer_instance

/-- The durations, latest first, of the unbroken run of low-energy steps that the history ends with: from the end of the
history back to the last step that ended with the entity's energy above the threshold.  Steps that are too short to do
anything and steps slept through do not count. -/
def lowRun (h : Handle) : List (Op α γ × System α γ) → List α
  | [] => []
  | (.step dt, s) :: tr =>
    if Scalar.lt (Scalar.abs dt) EPSILON then lowRun h tr
    else match s.entities.get h with
      | none => []
      | some e =>
        if SleptThrough s h e then lowRun h tr
        else if Scalar.lt s.energySleepThreshold e.totalEnergy then []
        else dt :: lowRun h tr
  | _ :: tr => lowRun h tr

/-- The sum of all but the earliest of these durations, in the order in which they are added. -/
def lowTime (run : List α) : α := run.dropLast.foldr (fun dt t => t + dt) zero

/-! ### The bookkeeping -/

/-- The bookkeeping for falling asleep is as before. -/
def Dozes (e e' : InternalEntity α) : Prop :=
  e'.fallingAsleep = e.fallingAsleep ∧ e'.fallingAsleepTime = e.fallingAsleepTime

theorem Dozes.refl (e : InternalEntity α) : Dozes e e := ⟨rfl, rfl⟩
theorem Dozes.of_wake {e e' : InternalEntity α} (h : WakeRel e e') : Dozes e e' := by
  constructor <;> rw [h]
theorem Dozes.of_mass {e e' : InternalEntity α} (h : MassRel e e') : Dozes e e' := by
  constructor <;> rw [h]
theorem Dozes.trans {a b c : InternalEntity α} (h : Dozes a b) (h' : Dozes b c) : Dozes a c :=
  ⟨h'.1.trans h.1, h'.2.trans h.2⟩

/-- Only `step` touches the bookkeeping, and a new entity starts awake and not falling asleep. -/
theorem exec_dozes {ord : IterOrder} {s s' : System α γ} {op : Op α γ} {out : Out γ} (inv : System.Inv s)
    (hop : ∀ dt, op ≠ .step dt) (hh : s.exec ord op = .ok (s', out)) {k : Handle} {e' : InternalEntity α}
    (hk : s'.entities.get k = some e') :
    (∃ e, s.entities.get k = some e ∧ Dozes e e') ∨
    (s.entities.get k = none ∧ s.entities.generation ≤ k.generation ∧ e'.fallingAsleep = false ∧
      e'.fallingAsleepTime = zero ∧ e'.asleep = false) := by
  have put : ∀ {h : Handle} {e x : InternalEntity α}, s.entities.get h = some e → Dozes e x →
      (s.entities.set h x).get k = some e' → ∃ e, s.entities.get k = some e ∧ Dozes e e' := by
    intro h e x he hd hk
    obtain ⟨e0, h1, h2⟩ := (Arena.Evolves.set Dozes.refl he hd).get' hk
    exact ⟨e0, h1, h2⟩
  cases op with
  | addEntity e =>
    simp only [System.exec] at hh; cases hh
    cases h : InternalEntity.newFrom e with
    | none => rw [System.addEntity_none h] at hk; exact Or.inl ⟨_, hk, .refl _⟩
    | some x =>
      rw [System.addEntity_some h] at hk
      simp only [Arena.get_insert inv.wfE] at hk
      have fresh := Arena.insert_spec inv.wfE x
      split at hk
      · rename_i hnew
        cases hk
        refine Or.inr ⟨by rw [hnew]; exact fresh.2.2.2.1, by rw [hnew, fresh.2.1], ?_⟩
        unfold InternalEntity.newFrom at h
        split at h
        · cases h
        · cases h; exact ⟨rfl, rfl, rfl⟩
      · exact Or.inl ⟨_, hk, .refl _⟩
  | removeEntity h =>
    simp only [System.exec] at hh
    obtain ⟨⟨m, b⟩, hr, hh⟩ := Res.bind_eq_ok.mp hh
    cases hh
    cases hE : s.entities.get h with
    | none => rw [System.removeEntity_none hE] at hr; cases hr; exact Or.inl ⟨_, hk, .refl _⟩
    | some E =>
      rw [System.removeEntity_some inv hE] at hr
      cases hr
      simp only [Arena.get_remove] at hk
      split at hk
      · cases hk
      · exact Or.inl ⟨_, hk, .refl _⟩
  | updateEntity h e =>
    simp only [System.exec] at hh
    obtain ⟨⟨m, b⟩, hr, hh⟩ := Res.bind_eq_ok.mp hh
    cases hh
    rcases System.updateEntity_spec hr with ⟨-, rfl, -⟩ | ⟨-, E, E1, E2, w, hE, hu, hm, hw⟩
    · exact Or.inl ⟨_, hk, .refl _⟩
    · obtain ⟨-, -, hE1⟩ := System.updateFrom_fields hu
      have hm' := recalculateMass_massRel hm
      have hq : Dozes E E2 := Dozes.trans (by rw [hE1]; exact ⟨rfl, rfl⟩) (.of_mass hm')
      rcases hw with ⟨-, rfl⟩ | ⟨-, a, d, hwk, rfl⟩
      · exact Or.inl (put hE hq hk)
      · obtain ⟨F, hF, hr⟩ := (wakeUp_spec hwk).1.get' hk
        obtain ⟨e0, h1, h2⟩ := (Arena.Evolves.set Dozes.refl hE hq).get' hF
        exact Or.inl ⟨e0, h1, h2.trans (.of_wake hr)⟩
  | addCollider c =>
    simp only [System.exec] at hh; cases hh
    cases h : c.newFrom with
    | none => rw [System.addCollider_none h] at hk; exact Or.inl ⟨_, hk, .refl _⟩
    | some x => rw [System.addCollider_some h] at hk; exact Or.inl ⟨_, hk, .refl _⟩
  | removeCollider h =>
    simp only [System.exec] at hh
    obtain ⟨m, hr, hh⟩ := Res.bind_eq_ok.mp hh
    cases hh
    have := System.removeCollider_ok hr
    subst this
    exact Or.inl ⟨_, hk, .refl _⟩
  | updateCollider h c =>
    simp only [System.exec] at hh
    obtain ⟨⟨m, b⟩, hr, hh⟩ := Res.bind_eq_ok.mp hh
    cases hh
    left
    have key : ∀ {s1 : System α γ} {eh}, s1.entities = s.entities → System.refreshEntity ord s1 eh = .ok m →
        ∃ e, s.entities.get k = some e ∧ Dozes e e' := by
      intro s1 eh h1 hf
      rcases System.refreshEntity_spec hf with ⟨rfl, -⟩ | ⟨h, E, E2, -, hE, hm, rfl⟩
      · rw [h1] at hk; exact ⟨_, hk, .refl _⟩
      · rw [h1] at hE
        simp only [h1] at hk
        exact put hE (.of_mass (recalculateMass_massRel hm)) hk
    rcases System.updateCollider_spec hr with ⟨-, rfl, -⟩ | ⟨-, C, hC, hu, hr⟩ | ⟨-, C, C', hC, hu, hr⟩
    · exact ⟨_, hk, .refl _⟩
    · exact key rfl hr
    · exact key (s1 := { s with colliders := s.colliders.set h C' }) rfl hr
  | linkCollider c e =>
    simp only [System.exec] at hh
    obtain ⟨⟨m, b⟩, hr, hh⟩ := Res.bind_eq_ok.mp hh
    cases hh
    left
    rcases System.linkCollider_spec inv hr with ⟨-, rfl, -⟩ | ⟨-, C, hC, -, hs', hshape, hev⟩
    · exact ⟨_, hk, .refl _⟩
    · have hsome := hshape.isSome k
      rw [hk] at hsome
      obtain ⟨F, hF⟩ := Option.isSome_iff_exists.mp hsome.symm
      refine ⟨F, hF, ?_⟩
      obtain ⟨G', hG', hsame, hr⟩ := hev k F hF
      rw [hk] at hG'; cases hG'
      by_cases h1 : e = some k
      · exact Dozes.trans (by exact ⟨rfl, rfl⟩) (.of_mass (recalculateMass_massRel (hr.1 h1)))
      · by_cases h2 : C.entity = some k
        · exact Dozes.trans (by exact ⟨rfl, rfl⟩) (.of_mass (recalculateMass_massRel (hr.2 h1 h2)))
        · rw [hsame h1 h2]; exact .refl _
  | addGenerator g => simp only [System.exec] at hh; cases hh; exact Or.inl ⟨_, hk, .refl _⟩
  | removeGenerator h => simp only [System.exec] at hh; cases hh; exact Or.inl ⟨_, hk, .refl _⟩
  | step dt => exact absurd rfl (hop dt)
  | configure n e t rs d => simp only [System.exec] at hh; cases hh; exact Or.inl ⟨_, hk, .refl _⟩

/-- The energy of an entity does not depend on the bookkeeping. -/
theorem settle_energy {w : World α} {dt : α} {x y : InternalEntity α} (ha : x.asleep = false)
    (h : NeighborRel (settle w dt x) y) : y.totalEnergy = x.totalEnergy := by
  have hs : (settle w dt x).totalEnergy = x.totalEnergy := by
    unfold settle
    rw [if_neg (by simp [ha])]
    split <;> rfl
  rw [← hs, h]; rfl

/-- What a step does to the bookkeeping of an entity, and whether it puts it to sleep. -/
theorem step_dozes {ord : IterOrder} {s s' : System α γ} {dt : α} (hdt : Proper dt) (hh : s.step ord dt = .ok s')
    {k : Handle} {e e' : InternalEntity α} (hk : s.entities.get k = some e) (hk' : s'.entities.get k = some e') :
    (SleptThrough s' k e' ∧ e.asleep = true ∧ Dozes e e' ∧ e'.velocity = Vec3.zeros ∧ e'.angularVelocity = Vec3.zeros) ∨
    (¬ SleptThrough s' k e' ∧ Scalar.lt s'.energySleepThreshold e'.totalEnergy = true ∧ e'.asleep = false ∧
      e'.fallingAsleep = false ∧ e'.fallingAsleepTime = zero) ∨
    (¬ SleptThrough s' k e' ∧ Scalar.lt s'.energySleepThreshold e'.totalEnergy = false ∧ e'.fallingAsleep = true ∧
      e'.fallingAsleepTime = (if e.fallingAsleep then e.fallingAsleepTime + dt else e.fallingAsleepTime) ∧
      e'.asleep = !Scalar.lt e'.fallingAsleepTime s'.sleepTimeThreshold) := by
  obtain ⟨ph⟩ := step_phases hdt hh
  obtain ⟨hmsg, x, hx, w1, w2, hawake, -⟩ := ph.watch hk
  obtain ⟨d, hd, -, hend⟩ := ph.ending
  obtain ⟨hput, hr⟩ := hend k x e' hx hk'
  have hmem : DebugMsg.puttingToSleep k ∈ s'.debug ↔ x.asleep = false ∧ e'.asleep = true := by
    rw [← hput, hd, List.mem_append, List.mem_append]
    constructor
    · rintro ((h | h) | h)
      · exact absurd (hmsg _ h) id
      · split at h <;> simp at h
      · exact h
    · exact Or.inr
  have ht1 : s'.energySleepThreshold = s.energySleepThreshold := (step_frame hh).1.energy
  have ht2 : s'.sleepTimeThreshold = s.sleepTimeThreshold := (step_frame hh).1.time
  cases ha : x.asleep with
  | true =>
    left
    have hset : settle s.toWorld dt x = { x with velocity := Vec3.zeros, angularVelocity := Vec3.zeros } := by
      unfold settle; rw [if_pos ha]
    rw [hset] at hr
    refine ⟨⟨by rw [hr]; exact ha, fun h => ?_⟩, ?_, ⟨by rw [hr]; exact w1, by rw [hr]; exact w2⟩, by rw [hr], by rw [hr]⟩
    · have := (hmem.mp h).1
      rw [ha] at this; cases this
    · cases he : e.asleep with
      | true => rfl
      | false => rw [hawake he] at ha; cases ha
  | false =>
    right
    have hen := settle_energy ha hr
    have hns : ¬ SleptThrough s' k e' := fun h => h.2 (hmem.mpr ⟨ha, h.1⟩)
    rw [hen, ht1, ht2]
    unfold settle at hr
    rw [if_neg (by simp [ha])] at hr
    cases hc : Scalar.lt s.energySleepThreshold x.totalEnergy with
    | true =>
      left
      rw [if_pos hc] at hr
      exact ⟨hns, rfl, by rw [hr]; exact ha, by rw [hr], by rw [hr]⟩
    | false =>
      right
      rw [if_neg (by simp [hc])] at hr
      simp only at hr
      refine ⟨hns, rfl, by rw [hr], by rw [hr, ← w1, ← w2], by rw [hr]⟩

theorem Past.steps {tr : List (Op α γ × System α γ)} {s : System α γ} (h : Past tr s) : Reachable s := by
  induction h with
  | nil => exact ⟨[], .nil⟩
  | snoc ord op out _ hx ih =>
    obtain ⟨tr, ht⟩ := ih
    exact ⟨_, .snoc ord op out ht hx⟩

/-- A handle that has not been handed out has no run. -/
theorem lowRun_fresh {tr : List (Op α γ × System α γ)} {s : System α γ} (hp : Past tr s) {h : Handle}
    (hn : s.entities.get h = none) (hg : s.entities.generation ≤ h.generation) : lowRun h tr = [] := by
  induction hp with
  | nil => rfl
  | @snoc tr m s ord op out hp hx ih =>
    have gr := (System.exec_grows hp.steps.inv hx).1
    have hm : m.entities.get h = none := by
      refine Classical.byContradiction fun hc => ?_
      have := gr.died h hc hn
      omega
    have ih := ih hm (Nat.le_trans gr.gen hg)
    cases op <;> unfold lowRun <;> try exact ih
    rw [hn, ih]
    simp

/-- The bookkeeping is that of the unbroken run of low-energy steps. -/
theorem past_dozes {tr : List (Op α γ × System α γ)} {s : System α γ} (hp : Past tr s) {h : Handle}
    {e : InternalEntity α} (he : s.entities.get h = some e) :
    e.fallingAsleep = !(lowRun h tr).isEmpty ∧ e.fallingAsleepTime = lowTime (lowRun h tr) := by
  induction hp generalizing e with
  | nil => simp [System.new, Arena.get_new] at he
  | @snoc tr m s ord op out hp hx ih =>
    by_cases hop : ∃ dt, op = .step dt
    · obtain ⟨dt, rfl⟩ := hop
      simp only [System.exec] at hx
      obtain ⟨s', hs, hx⟩ := Res.bind_eq_ok.mp hx
      cases hx
      unfold lowRun
      cases hdt : Scalar.lt (Scalar.abs dt) EPSILON with
      | true =>
        rw [if_pos rfl]
        unfold System.step at hs
        rw [if_pos hdt] at hs; cases hs
        exact ih he
      | false =>
        rw [if_neg (by simp)]
        obtain ⟨e0, he0, -⟩ := (step_frame hs).1.entities.get' he
        obtain ⟨i1, i2⟩ := ih he0
        simp only [he]
        rcases step_dozes hdt hs he0 he with ⟨a1, -, a2, -⟩ | ⟨a1, a2, -, a3, a4⟩ | ⟨a1, a2, a3, a4, -⟩
        · rw [if_pos a1, a2.1, a2.2]
          exact ⟨i1, i2⟩
        · rw [if_neg a1, if_pos a2, a3, a4]
          exact ⟨rfl, rfl⟩
        · rw [if_neg a1, if_neg (by simp [a2]), a3, a4, i1, i2]
          refine ⟨rfl, ?_⟩
          cases lowRun h tr with
          | nil => rfl
          | cons a l => rfl
    · have hlow : lowRun h ((op, s) :: tr) = lowRun h tr := by
        cases op <;> first | rfl | exact absurd ⟨_, rfl⟩ hop
      rw [hlow]
      rcases exec_dozes hp.steps.inv (fun dt hc => hop ⟨dt, hc⟩) hx he with ⟨e0, he0, d1, d2⟩ | ⟨h1, h2, h3, h4, -⟩
      · rw [d1, d2]; exact ih he0
      · rw [lowRun_fresh hp h1 h2, h3, h4]
        exact ⟨rfl, rfl⟩

/-! ### C25, the theorems -/

/-- **C25.** An entity that is awake before a step is asleep after it exactly if its energy at the end of the step is not
above the threshold and the time of the unbroken run of low-energy steps that ends with this one (not counting the
earliest of them) has reached the sleep time threshold. -/
theorem C25_falls_asleep_iff {tr : List (Op α γ × System α γ)} {m s : System α γ} {ord : IterOrder} {dt : α}
    (hp : Past tr m) (hdt : Proper dt) (hs : m.step ord dt = .ok s) {h : Handle} {e e' : InternalEntity α}
    (he : m.entities.get h = some e) (he' : s.entities.get h = some e') (ha : e.asleep = false) :
    e'.asleep = true ↔ Scalar.lt s.energySleepThreshold e'.totalEnergy = false ∧
      Scalar.lt (lowTime (lowRun h ((.step dt, s) :: tr))) s.sleepTimeThreshold = false := by
  have ht := (past_dozes (.snoc ord (.step dt) .unit hp (by simp only [System.exec, hs, Res.ok_bind])) he').2
  rw [← ht]
  rcases step_dozes hdt hs he he' with ⟨-, a1, -⟩ | ⟨-, a1, a2, -⟩ | ⟨-, a1, -, -, a2⟩
  · rw [ha] at a1; cases a1
  · simp [a1, a2]
  · rw [a1, a2]; simp

/-- **C25**, the run: the step that puts an entity to sleep belongs to the run, so the time above is that of the low-energy
steps before it and of this one. -/
theorem C25_run_ends_here {tr : List (Op α γ × System α γ)} {m s : System α γ} {ord : IterOrder} {dt : α}
    (hp : Past tr m) (hdt : Proper dt) (hs : m.step ord dt = .ok s) {h : Handle} {e e' : InternalEntity α}
    (he : m.entities.get h = some e) (he' : s.entities.get h = some e') (ha : e.asleep = false)
    (ha' : e'.asleep = true) : lowRun h ((.step dt, s) :: tr) = dt :: lowRun h tr := by
  conv_lhs => unfold lowRun
  rw [if_neg (by rw [show Scalar.lt (Scalar.abs dt) EPSILON = false from hdt]; simp)]
  simp only [he']
  rcases step_dozes hdt hs he he' with ⟨-, a1, -⟩ | ⟨-, -, a2, -⟩ | ⟨a1, a2, -, -, -⟩
  · rw [ha] at a1; cases a1
  · rw [ha'] at a2; cases a2
  · rw [if_neg a1, if_neg (by simp [a2])]

/-- Nought or not a number. -/
def Nil (x : XReal) : Prop := x = .fin 0 ∨ x = .nan

theorem Nil.add {x y : XReal} (hx : Nil x) (hy : Nil y) : Nil (x + y) := by
  rcases hx with rfl | rfl <;> rcases hy with rfl | rfl
  · left; simp
  all_goals right; rfl

theorem Nil.mul {x y : XReal} (hy : Nil y) : Nil (x * y) := by
  rcases hy with rfl | rfl
  · cases x with
    | nan => right; rfl
    | negInf => right; show XReal.infSign _ = _; simp [XReal.infSign]
    | fin r => left; simp
    | posInf => right; show XReal.infSign _ = _; simp [XReal.infSign]
  · cases x <;> (right; rfl)

theorem Nil.half {x : XReal} (hx : Nil x) : Nil (x / two) := by
  rcases hx with rfl | rfl
  · left; rw [XReal.two_eq, XReal.fin_div (by norm_num)]; norm_num
  · right; rfl

theorem Nil.dot (u : Vec3 XReal) {v : Vec3 XReal} (h : v = Vec3.zeros) : Nil (u.dot v) := by
  have hz : Nil (zero : XReal) := Or.inl (by simp)
  subst h
  exact ((hz.mul).add hz.mul).add hz.mul

theorem Nil.not_above {x t : XReal} (hx : Nil x) (ht : Scalar.lt t zero = false) : Scalar.lt t x = false := by
  rcases hx with rfl | rfl
  · simpa using ht
  · cases t <;> rfl

/-- **C25**, the last clause: with a threshold that is not below zero, an entity whose energy is above the threshold at the
end of a step is awake. -/
theorem C25_energetic_is_awake {γ : Type} [ForceGenerator XReal γ] {m s : System XReal γ} {ord : IterOrder} {dt : XReal}
    (hdt : Proper dt) (hs : m.step ord dt = .ok s) (ht : Scalar.lt s.energySleepThreshold zero = false) {h : Handle}
    {e' : InternalEntity XReal} (he' : s.entities.get h = some e')
    (hE : Scalar.lt s.energySleepThreshold e'.totalEnergy = true) : e'.asleep = false := by
  obtain ⟨e, he, -⟩ := (step_frame hs).1.entities.get' he'
  rcases step_dozes hdt hs he he' with ⟨-, -, -, a1, a2⟩ | ⟨-, -, a2, -⟩ | ⟨-, a1, -, -, -⟩
  · have hz : Nil e'.totalEnergy := by
      unfold InternalEntity.totalEnergy
      split
      · left
        rw [a1, a2, if_pos]
        · simp
        · norm_num [Vec3.f_zeros, XReal.EPSILON_eq]
      · exact (Nil.dot _ a1).half.add (Nil.dot _ a2).half
    rw [hz.not_above ht] at hE; cases hE
  · exact a2
  · rw [hE] at a1; cases a1

/-- A history that meets the hypotheses: one entity at rest, with both thresholds zero, sleeps after its first step; its
energy is above the threshold of no step, so the run is that one step, of which nothing is counted. -/
example (γ : Type) [ForceGenerator XReal γ] (ord : IterOrder) : ∃ (tr : List (Op XReal γ × System XReal γ)) (m s : System XReal γ)
    (h : Handle) (e e' : InternalEntity XReal), Past tr m ∧ Proper (.fin 1 : XReal) ∧ m.step ord (.fin 1) = .ok s ∧
    m.entities.get h = some e ∧ s.entities.get h = some e' ∧ e.asleep = false ∧ e'.asleep = true ∧
    lowRun h ((.step (.fin 1), s) :: tr) = [.fin 1] := by
  have r1 : (System.new : System XReal γ).exec .id (.addEntity turnedSource) =
      .ok ((System.new.addEntity turnedSource).1, .entity (some Demo.h0)) := by
    simp only [System.exec, System.addEntity, turned_newFrom]; rfl
  have hp : Past [(.configure 5 (.fin 0) (.fin 0) [] [], lone (γ := γ) turned []), (.addEntity turnedSource, (System.new.addEntity turnedSource).1)]
      (lone (γ := γ) turned []) := by
    refine .snoc .id _ .unit (.snoc .id _ _ .nil r1) ?_
    simp only [System.exec, System.addEntity, turned_newFrom]
    rfl
  have hd : Proper (.fin 1 : XReal) := by unfold Proper; norm_num
  refine ⟨_, _, _, Demo.h0, _, _, hp, hd, turned_sleeps ord, rfl, rfl, rfl, rfl, ?_⟩
  exact C25_run_ends_here hp hd (turned_sleeps ord) rfl rfl rfl rfl

end Fluffy.Props
