import Verif.Props.Bystander
import Verif.Props.Clock
/-
C78: what is touched by nothing moves as if it were alone.
-/
set_option linter.unusedSectionVars false
set_option linter.unusedSimpArgs false
namespace Fluffy.Props
open InternalEntity Step
section
variable {α : Type} [Scalar α] {γ : Type} [ForceGenerator α γ]

/-- With generators that look only at the entity they are asked about, the integration of one entity has nothing to do with the others. -/
theorem integrateAll_solitary (hg : Solitary α γ) {dt : α} {gens : List Handle} {k : Handle} {e : InternalEntity α} : ∀ {l : List Handle} {s s' : System α γ} {is : List (StepInfo α)},
    integrateAll dt gens l s = .ok (s', is) → l.Nodup → s.entities.get k = some e →
    (k ∉ l → s'.entities.get k = some e) ∧
    (k ∈ l → ∃ a q, Accelerates dt gens s k e s.generators a q ∧ s'.entities.get k = some (integrateVelocity dt a q e))
  | [], s, s', is, hh, _, he => by
    unfold integrateAll at hh
    cases hh
    exact ⟨fun _ => he, fun h => by cases h⟩
  | h :: l, s, s', is, hh, hd, he => by
    unfold integrateAll at hh
    obtain ⟨⟨s1, i⟩, h1, hh⟩ := Res.bind_eq_ok.mp hh
    obtain ⟨⟨s2, is'⟩, h2, hh⟩ := Res.bind_eq_ok.mp hh
    cases hh
    obtain ⟨x, g, a, q, hx, hacc, rfl, rfl⟩ := integrateOne_spec h1
    obtain ⟨rfl, hsol⟩ := Accelerates.solitary hg hacc
    obtain ⟨hd1, hd2⟩ := List.nodup_cons.mp hd
    by_cases hk : k = h
    · subst hk
      rw [he] at hx; cases hx
      refine ⟨fun hn => absurd (by simp) hn, fun _ => ⟨a, q, hacc, ?_⟩⟩
      have hset : ({ s with generators := s.generators, entities := s.entities.set k (integrateVelocity dt a q e) } : System α γ).entities.get k = some (integrateVelocity dt a q e) :=
        Arena.get_set_self he _
      exact (integrateAll_solitary hg h2 hd2 hset).1 hd1
    · have hset : ({ s with generators := s.generators, entities := s.entities.set h (integrateVelocity dt a q x) } : System α γ).entities.get k = some e := by
        show (s.entities.set h _).get k = some e
        rw [Arena.get_set_ne hk]; exact he
      obtain ⟨i1, i2⟩ := integrateAll_solitary hg h2 hd2 hset
      refine ⟨fun hn => i1 (fun hc => hn (by simp [hc])), fun hm => ?_⟩
      have hm : k ∈ l := by
        rcases List.mem_cons.mp hm with h' | h'
        · exact absurd h' hk
        · exact h'
      obtain ⟨a', q', b1, b2⟩ := i2 hm
      refine ⟨a', q', (Accelerates.solitary hg b1).2 s rfl ?_, b2⟩
      unfold World.getEntity
      rw [he, hset]

theorem accelerates_inj {dt : α} {gens : List Handle} {s : System α γ} {h : Handle} {e : InternalEntity α} {g g' : Arena γ} {a q a' q' : Vec3 α}
    (h1 : Accelerates dt gens s h e g a q) (h2 : Accelerates dt gens s h e g' a' q') : a' = a ∧ q' = q := by
  unfold Accelerates at h1 h2
  split at h1
  · rename_i hf
    rw [if_pos hf, h1] at h2
    cases h2; exact ⟨rfl, rfl⟩
  · rename_i hf
    rw [if_neg hf] at h2
    cases h1; cases h2; exact ⟨rfl, rfl⟩
end

section
open XReal
variable {γ : Type} [ForceGenerator XReal γ]

/-- An awake entity that no record names has the velocity that the forces gave it. -/
theorem unnamed_velocity {s s' : System XReal γ} {ord : IterOrder} {d : ℝ} (hd : 1 / 1000000 ≤ d) (h : s.step ord (fin d) = .ok s') (hg : Solitary XReal γ) {k : Handle}
    {E E' : InternalEntity XReal} (hE : s.entities.get k = some E) (ha : E.asleep = false) (hE' : s'.entities.get k = some E')
    (hn : ∀ r ∈ s'.collisionRecords, r.firstEntity ≠ k ∧ r.secondEntity ≠ k) :
    ∃ a q, Accelerates (fin d) s.generators.handles s k E s.generators a q ∧ E'.velocity = E.velocity + a.scale (fin d) := by
  have h0 : 0 ≤ d := le_trans (by norm_num) hd
  obtain ⟨ph⟩ := step_phases (proper_fin hd) h
  have hh : k ∈ s.entities.handles := Arena.mem_handles.mpr ⟨E, hE⟩
  obtain ⟨a, q, hacc, hM⟩ := (integrateAll_solitary hg ph.integrate (Arena.handles_nodup _) hE).2 hh
  refine ⟨a, q, (Accelerates.solitary hg hacc).2 s rfl rfl, ?_⟩
  obtain ⟨dd, hdb, hdd, hend⟩ := ph.ending
  rw [ph.records] at hn
  have settled : ∀ X, ph.final.world.entities.get k = some X → X.asleep = false → E'.velocity = X.velocity := by
    intro X hX hXa
    have hr := (hend k X E' hX hE').2
    unfold settle at hr
    rw [if_neg (by simp [hXa])] at hr
    split at hr <;> rw [hr]
  have := iterate_induct (ord := ord) (dt := fin d) (P := fun st => (∃ c, Running s d c st) ∧ Kept k (E.velocity + a.scale (fin d)) st) ?_
    ⟨⟨0, ph.running.1⟩, Or.inr ⟨_, hM, ha, rfl⟩⟩ ph.iterate
  · obtain ⟨-, ⟨r, hr, hr'⟩ | ⟨X, hX, hXa, hXv⟩⟩ := this
    · rcases hr' with hr' | hr'
      · exact absurd hr' (hn r hr).1
      · exact absurd hr' (hn r hr).2
    · rw [← hXv]; exact settled X hX hXa
  · rintro st best w st1 ⟨⟨c, hc⟩, hk⟩ q1 q2 q3
    obtain ⟨p, -, -, -, -, r1, r2⟩ := hc.body h0 q1 q2 q3
    have hk1 := hk.advance hc hh q2 q3
    exact ⟨fun _ => ⟨⟨_, r1⟩, hk1⟩, fun k st2 hb q4 => ⟨⟨_, (r2 k st2 hb q4).1⟩, hk1.respond q4⟩⟩

/-- **C78** for the exact arithmetic and steps that do not run out of iterations: two systems have an entity in common, and the same generators.  A step of the one and a step
of the other, neither with a collision of the entity, leave it at the same place with the same velocity, whatever else there is in the two systems.  For the
rotation see `C78_turned_partial`. -/
theorem C78_partial (hg : Solitary XReal γ) {s t s' t' : System XReal γ} {ord ord' : IterOrder} {d : ℝ} (hd : 1 / 1000000 ≤ d) (h : s.step ord (fin d) = .ok s')
    (h' : t.step ord' (fin d) = .ok t') {k : Handle} {E : InternalEntity XReal} {x v : Vec3 ℝ} (hE : s.entities.get k = some E) (hE' : t.entities.get k = some E)
    (hgen : t.generators = s.generators) (ha : E.asleep = false) {e e' : Entity XReal} (he : s'.getEntity k = some e) (he' : t'.getEntity k = some e')
    (hx : E.orientation.position = x.f) (hv : e.velocity = v.f)
    (hn : ∀ r ∈ s'.collisionRecords, r.firstEntity ≠ k ∧ r.secondEntity ≠ k) (hn' : ∀ r ∈ t'.collisionRecords, r.firstEntity ≠ k ∧ r.secondEntity ≠ k)
    (hc : .ranOut ∉ s'.debug) (hc' : .ranOut ∉ t'.debug) : e'.velocity = e.velocity ∧ e'.position = e.position := by
  obtain ⟨F, hF, rfl⟩ := getEntity_eq_some.mp he
  obtain ⟨F', hF', rfl⟩ := getEntity_eq_some.mp he'
  obtain ⟨a, q, b1, b2⟩ := unnamed_velocity hd h hg hE ha hF hn
  obtain ⟨a', q', c1, c2⟩ := unnamed_velocity hd h' hg hE' ha hF' hn'
  have hpub : s.getEntity k = t.getEntity k := by unfold World.getEntity; rw [hE, hE']
  rw [hgen] at c1
  obtain ⟨rfl, rfl⟩ := accelerates_inj b1 ((Accelerates.solitary hg c1).2 s hgen.symm hpub)
  have hvel : F'.makePub.velocity = F.makePub.velocity := c2.trans b2.symm
  refine ⟨hvel, ?_⟩
  have k1 := (C53_advanced hd h (getEntity_eq_some.mpr ⟨E, hE, rfl⟩) ha he hx hv hn).1 hc
  have k2 := (C53_advanced hd h' (getEntity_eq_some.mpr ⟨E, hE', rfl⟩) ha he' hx (hvel.trans hv) hn').1 hc'
  rw [k1, k2]
end

section
open F32 Demo Scene
variable [Libm]

/-- A ball between two planes, and something without colliders. -/
def rattleCalls : List (Op F32 (GravityGenerator F32)) :=
  [.addEntity (thing (num 1) (vec 0 0 0) (vec 20 0 0)), .addCollider (ball (vec 0 0 0) (num 1) (num 1) (num 1)), .linkCollider h0 (some h0),
   .addEntity (thing (.inf false) (vec 2 0 0) (vec 0 0 0)), .addCollider (.plane ⟨none, vec 0 0 0, vec (-1) 0 0, num 0, ⟨num 1, num 0, num 0, num 0⟩⟩), .linkCollider h1 (some h1),
   .addEntity (thing (.inf false) (vec (-2) 0 0) (vec 0 0 0)), .addCollider (.plane ⟨none, vec 0 0 0, vec 1 0 0, num 0, ⟨num 1, num 0, num 0, num 0⟩⟩), .linkCollider h2 (some h2),
   .addEntity (thing (num 1) (vec 1000 0 0) (vec 0 0 8))]

/-- The full statement of **C78** fails, with the number of iterations that a new system has: something without any colliders moves less than half as far while a ball bounces
between two planes far away as it does once the ball has been removed. -/
theorem C78_false : ∃ (s t s' t' : System F32 (GravityGenerator F32)) (k h : Handle) (p e e' : Entity F32), Reachable s ∧ s.getEntity k = some p ∧ p.colliders = [] ∧ p.asleep = false ∧
    s.removeEntity .id h = .ok (t, true) ∧ t.getEntity k = some p ∧ s.step .id (num 1) = .ok s' ∧ t.step .id (num 1) = .ok t' ∧ s'.getEntity k = some e ∧ t'.getEntity k = some e' ∧
    s.iterationMax = 5 ∧ Val p.position.z 0 ∧ Val e.position.z (15099495 / 4194304) ∧ Val e'.position.z 8 := by
  have h : ((play (plain rattleCalls) (System.new : System F32 (GravityGenerator F32))).test fun r => (r.1.removeEntity .id h0).test fun t => (r.1.step .id (num 1)).test fun s' =>
      (t.1.step .id (num 1)).test fun t' => t.2 && (r.1.iterationMax == 5) && match r.1.entities.get ⟨3, 0⟩, s'.entities.get ⟨3, 0⟩, t'.entities.get ⟨3, 0⟩ with
      | some p, some e, some e' => p.colliders == [] && !p.asleep && valued p.orientation.position.z 0 && valued e.orientation.position.z (15099495 / 4194304) &&
          valued e'.orientation.position.z 8
      | _, _, _ => false) = true := by kernel_refl
  obtain ⟨⟨s, outs⟩, h1', h⟩ := Res.of_test h
  obtain ⟨⟨t, b⟩, h2', h⟩ := Res.of_test h
  obtain ⟨s', h3', h⟩ := Res.of_test h
  obtain ⟨t', h4', h⟩ := Res.of_test h
  simp only [Bool.and_eq_true, beq_iff_eq] at h
  obtain ⟨⟨a1, a2⟩, a3⟩ := h
  subst a1
  split at a3
  · rename_i p e e' hp he he'
    simp only [Bool.and_eq_true, Bool.not_eq_true', beq_iff_eq] at a3
    obtain ⟨⟨⟨⟨b1, b2⟩, b3⟩, b4⟩, b5⟩ := a3
    have hr := play_reachable h1'
    have ht : t.entities.get ⟨3, 0⟩ = some p := by
      have inv := hr.inv
      cases hb : s.entities.get h0 with
      | none => rw [System.removeEntity_none hb] at h2'; cases h2'
      | some x =>
        rw [System.removeEntity_some inv hb] at h2'
        cases h2'
        show ((s.entities.remove h0).1).get _ = _
        rw [Arena.get_remove, if_neg (by decide)]
        exact hp
    exact ⟨s, t, s', t', ⟨3, 0⟩, h0, p.makePub, e.makePub, e'.makePub, hr, getEntity_eq_some.mpr ⟨p, hp, rfl⟩, b1, b2, h2', getEntity_eq_some.mpr ⟨p, ht, rfl⟩, h3', h4',
      getEntity_eq_some.mpr ⟨e, he, rfl⟩, getEntity_eq_some.mpr ⟨e', he', rfl⟩, a2, valued_iff.mp b3, valued_iff.mp b4, valued_iff.mp b5⟩
  · cases a3
end

section
open XReal Demo

theorem plainStep_ok {γ : Type} [ForceGenerator XReal γ] [SafeGenerator XReal γ] (ord : IterOrder) (l : List (Entity XReal)) : ∃ s' : System XReal γ,
    (l.foldl (fun s e => (s.addEntity e).1) (System.new : System XReal γ)).step ord (fin 1) = .ok s' := by
  obtain ⟨s2, hs⟩ := C29_plain_partial (α := XReal) (γ := γ) (l.map (fun e => (.id, .addEntity e)) ++ [(ord, .step (fin 1))]) (by
    intro c hc
    rcases List.mem_append.mp hc with hc | hc
    · obtain ⟨e, -, rfl⟩ := List.mem_map.mp hc; exact trivial
    · rw [List.mem_singleton.mp hc]; exact trivial)
  have : ∀ (l : List (Entity XReal)) (s : System XReal γ) (r : System XReal γ), runAll s (l.map (fun e => (.id, .addEntity e)) ++ [(ord, .step (fin 1))]) = .ok r →
      ∃ s', (l.foldl (fun s e => (s.addEntity e).1) s).step ord (fin 1) = .ok s' := by
    intro l
    induction l with
    | nil =>
      intro s r hr
      simp only [List.map_nil, List.nil_append, runAll, System.exec] at hr
      obtain ⟨m, h1, -⟩ := Res.bind_eq_ok.mp hr
      obtain ⟨m', h2, -⟩ := Res.bind_eq_ok.mp h1
      exact ⟨m', h2⟩
    | cons e l ih =>
      intro s r hr
      simp only [List.map_cons, List.cons_append, runAll, System.exec, Res.ok_bind] at hr
      exact ih _ r hr
  exact this l _ _ hs

/-- Nothing happens to a system of entities without colliders. -/
theorem plainStep_quiet {γ : Type} [ForceGenerator XReal γ] [SafeGenerator XReal γ] (hg : Solitary XReal γ) (ord : IterOrder) : ∀ (l : List (Entity XReal)) {s' : System XReal γ},
    (l.foldl (fun s e => (s.addEntity e).1) (System.new : System XReal γ)).step ord (fin 1) = .ok s' → s'.collisionRecords = [] := by
  intro l
  induction l using List.reverseRecOn with
  | nil =>
    intro s' h
    simp only [List.foldl_nil] at h
    cases hc : s'.collisionRecords with
    | nil => rfl
    | cons r l =>
      obtain ⟨g1, g2, g3⟩ := (C30_records_bounded (proper_fin (by norm_num)) h).2 r (by rw [hc]; simp)
      obtain ⟨y, hy⟩ : ∃ y, s'.entities.get r.firstEntity = some y := by
        cases hy : s'.entities.get r.firstEntity with
        | none => exact absurd (by show (s'.entities.get _).map makePub = none; rw [hy]; rfl) g2
        | some y => exact ⟨y, rfl⟩
      obtain ⟨x, hx, -⟩ := ((step_frame h).1.entities).get' hy
      have hx : (Arena.new : Arena (InternalEntity XReal)).get r.firstEntity = some x := hx
      rw [Arena.get_new] at hx; cases hx
  | append_singleton l e ih =>
    intro s' h
    rw [List.foldl_append] at h
    simp only [List.foldl_cons, List.foldl_nil] at h
    have hr : Reachable (l.foldl (fun s e => (s.addEntity e).1) (System.new : System XReal γ)) := by
      clear ih h
      induction l using List.reverseRecOn with
      | nil => exact ⟨[], .nil⟩
      | append_singleton l e ih =>
        obtain ⟨tr, ih⟩ := ih
        rw [List.foldl_append]
        exact ⟨_, .snoc .id (.addEntity e) _ ih rfl⟩
    generalize hm : l.foldl (fun s e => (s.addEntity e).1) (System.new : System XReal γ) = m at h hr
    cases hk : m.addEntity e with
    | mk t k =>
      rw [hk] at h
      cases k with
      | none =>
        have : t = m := by
          cases hnf : InternalEntity.newFrom e with
          | none => rw [System.addEntity_none hnf] at hk; cases hk; rfl
          | some x => rw [System.addEntity_some hnf] at hk; cases hk
        rw [this, ← hm] at h
        exact ih h
      | some k =>
        obtain ⟨s2, h1, -, h3⟩ := C77_added hg hr hk (l := [(ord, fin 1)]) (t' := s') (by simp only [stepAll]; simp only at h; rw [h]; rfl)
        simp only [stepAll] at h1
        obtain ⟨s3, h4, h5⟩ := Res.bind_eq_ok.mp h1
        cases h5
        rw [← h3]
        rw [← hm] at h4
        exact ih h4

/-- The hypotheses of `C78_partial` are met by an entity alone and the same with another one. -/
example (ord : IterOrder) : ∃ (s t s' t' : System XReal (GravityGenerator XReal)) (E : InternalEntity XReal) (e e' : Entity XReal), s.step ord (fin 1) = .ok s' ∧
    t.step ord (fin 1) = .ok t' ∧ s.entities.get h0 = some E ∧ t.entities.get h0 = some E ∧ t.entities.get h1 ≠ none ∧ s.entities.get h1 = none ∧ t.generators = s.generators ∧
    E.asleep = false ∧ s'.getEntity h0 = some e ∧ t'.getEntity h0 = some e' ∧ s'.collisionRecords = [] ∧ t'.collisionRecords = [] ∧ .ranOut ∉ s'.debug ∧ .ranOut ∉ t'.debug := by
  have hsrc := Scene.source_newFrom (m := fin 1) (by simp) .o ⟨2, 0, 0⟩
  obtain ⟨s', hs⟩ := plainStep_ok (γ := GravityGenerator XReal) ord [Scene.source (fin 1) .o ⟨2, 0, 0⟩]
  obtain ⟨t', ht⟩ := plainStep_ok (γ := GravityGenerator XReal) ord [Scene.source (fin 1) .o ⟨2, 0, 0⟩, Scene.source (fin 1) .o ⟨2, 0, 0⟩]
  have hs2 := plainStep_quiet gravity_solitary ord _ hs
  have ht2 := plainStep_quiet gravity_solitary ord _ ht
  simp only [List.foldl_cons, List.foldl_nil, System.addEntity, hsrc] at hs ht
  have hd : Proper (fin 1 : XReal) := proper_fin (by norm_num)
  have run : ∀ {s s' : System XReal (GravityGenerator XReal)}, s.step ord (fin 1) = .ok s' → s.iterationMax = 5 → s'.collisionRecords = [] → .ranOut ∉ s'.debug := by
    intro s s' h h5 hr
    rw [C53_ran_out_iff hd h, hr, h5]
    simp
  have there : ∀ {s s' : System XReal (GravityGenerator XReal)} {E : InternalEntity XReal}, s.step ord (fin 1) = .ok s' → s.entities.get h0 = some E → ∃ e, s'.getEntity h0 = some e := by
    intro s s' E h hE
    obtain ⟨x, hx, -⟩ := ((step_frame h).1.entities).get hE
    exact ⟨_, getEntity_eq_some.mpr ⟨x, hx, rfl⟩⟩
  obtain ⟨e, he⟩ := there hs (E := Scene.dot (fin 1) .o ⟨2, 0, 0⟩ [] Scene.up) rfl
  obtain ⟨e', he'⟩ := there ht (E := Scene.dot (fin 1) .o ⟨2, 0, 0⟩ [] Scene.up) rfl
  exact ⟨_, _, s', t', _, e, e', hs, ht, rfl, rfl, (fun h => by cases h), rfl, rfl, rfl, he, he', hs2, ht2, run hs rfl hs2, run ht rfl ht2⟩
end
end Fluffy.Props
