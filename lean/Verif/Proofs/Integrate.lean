import Verif.Proofs.Sleep
/- The integration phase entity by entity, and the free flight of a step without collisions; for every number type. -/
set_option linter.unusedSectionVars false
set_option linter.unusedSimpArgs false
namespace Fluffy.Step
open InternalEntity
variable {α : Type} [Scalar α] {γ : Type} [ForceGenerator α γ]

/-- A property of the generators that asking one of them for a force does not change. -/
def KeptByForces (P : Arena γ → Prop) : Prop :=
  ∀ (g : Arena γ) (gh : Handle) (x x' : γ) (dt : α) (w : World α) (h : Handle) (f : Force α), P g → g.get gh = some x →
    ForceGenerator.makeForce x dt w h = .ok (f, x') → P (g.set gh x')

theorem generatorLoop_kept {P : Arena γ → Prop} (hP : KeptByForces (α := α) P) {dt : α} {w : World α} {h : Handle}
    {copy : Entity α} : ∀ {l : List Handle} {g g' : Arena γ} {a t a' t' : Vec3 α}, P g →
    generatorLoop dt w h copy l g a t = .ok (g', a', t') → P g'
  | [], g, g', a, t, a', t', hg, hh => by unfold generatorLoop at hh; cases hh; exact hg
  | x :: l, g, g', a, t, a', t', hg, hh => by
    unfold generatorLoop at hh
    obtain ⟨v, hv, hh⟩ := Res.bind_eq_ok.mp hh
    obtain ⟨⟨f, v'⟩, hf, hh⟩ := Res.bind_eq_ok.mp hh
    rw [unwrap_eq_ok] at hv
    exact generatorLoop_kept hP (hP _ _ _ _ _ _ _ _ hg hv hf) hh

theorem accelerates_kept {P : Arena γ → Prop} (hP : KeptByForces (α := α) P) {dt : α} {gens : List Handle}
    {s : System α γ} {h : Handle} {e : InternalEntity α} {g : Arena γ} {a t : Vec3 α}
    (hh : Accelerates dt gens s h e g a t) (hs : P s.generators) : P g := by
  unfold Accelerates at hh
  split at hh
  · exact generatorLoop_kept hP hs hh
  · cases hh; exact hs

/-- What the integration phase does to one entity: at some moment `m`, when only velocities of other entities and the
states of the generators may have changed, its accelerations are computed and integrated. -/
theorem integrateAll_each {dt : α} {gens : List Handle} :
    ∀ {l : List Handle} {s s' : System α γ} {infos : List (StepInfo α)}, l.Nodup →
    integrateAll dt gens l s = .ok (s', infos) → ∀ h ∈ l, ∃ (m : System α γ) (e : InternalEntity α) (g : Arena γ)
      (a t : Vec3 α), m.toWorld = { s.toWorld with entities := m.entities } ∧
      Arena.SameShape m.generators s.generators ∧
      (∀ P : Arena γ → Prop, KeptByForces (α := α) P → P s.generators → P m.generators) ∧ Arena.Evolves VelRel s.entities m.entities ∧
      s.entities.get h = some e ∧ m.entities.get h = some e ∧ Accelerates dt gens m h e g a t ∧
      s'.entities.get h = some (integrateVelocity dt a t e)
  | [], s, s', infos, _, _ => by simp
  | k :: l, s, s', infos, hnd, hh => by
    unfold integrateAll at hh
    obtain ⟨⟨m, i⟩, h1, hh⟩ := Res.bind_eq_ok.mp hh
    obtain ⟨⟨s2, is⟩, h2, hh⟩ := Res.bind_eq_ok.mp hh
    cases hh
    obtain ⟨e, g, a, t, he, hg, rfl, rfl⟩ := integrateOne_spec h1
    rw [List.nodup_cons] at hnd
    intro h hm
    rcases List.mem_cons.mp hm with rfl | hm
    · refine ⟨s, e, g, a, t, rfl, .refl _, fun _ _ h => h, .refl VelRel.refl _, he, he, hg, ?_⟩
      rw [(integrateAll_spec hnd.2 h2).2.2.2.1 _ hnd.1]
      exact Arena.get_set_self he _
    · have hne : h ≠ k := fun hc => hnd.1 (hc ▸ hm)
      obtain ⟨m, e', g', a', t', q1, q2, q0, q3, q4, q5, q6, q7⟩ := integrateAll_each hnd.2 h2 h hm
      refine ⟨m, e', g', a', t', by rw [q1], q2.trans (accelerates_shape hg),
        fun P hP hs => q0 P hP (accelerates_kept hP hg hs), ?_, ?_, q5, q6, q7⟩
      · refine Arena.Evolves.trans (R := VelRel) (S := VelRel) ?_
          (Arena.Evolves.set VelRel.refl he (y := integrateVelocity dt a t e) rfl) q3
        intro x y z hxy hyz
        rw [VelRel] at *; rw [hyz, hxy]
      · rw [← q4]; exact (Arena.get_set_ne hne _).symm

/-- A step whose records are empty after it, seen from one entity: it is integrated and then moved along its whole
movement (unless it is asleep or there are no iterations). -/
theorem Phases.free {ord : IterOrder} {s s' : System α γ} {dt : α} (p : Phases ord s s' dt)
    (hr : s'.collisionRecords = []) (hn : s.iterationMax ≠ 0) {k : Handle} {e x : InternalEntity α}
    (h : s.entities.get k = some e) (ha : e.asleep = false) (hx : p.mid.entities.get k = some x) :
    ∃ y, s'.entities.get k = some y ∧ y.velocity = x.velocity ∧ y.angularVelocity = x.angularVelocity ∧
      y.orientation = e.orientation.afterAffected ((x.velocity.scale dt).scale one) ((x.angularVelocity.scale dt).scale one) := by
  obtain ⟨k1, -, k3, -, k5, k6⟩ := integrateAll_spec (Arena.handles_nodup _) p.integrate
  have hrec : p.final.world.collisionRecords = [] := by
    have := (sleepLoop_frame p.selfless p.sleep).2
    rw [hr] at this
    cases hc : p.concluded <;> rw [hc] at this <;> simpa using this.symm
  obtain ⟨d, -, -, hend⟩ := p.ending
  have hke : k ∈ s.entities.handles := Arena.mem_handles.mpr ⟨e, h⟩
  have hxe : x.orientation = e.orientation ∧ x.asleep = e.asleep := by
    obtain ⟨x', hx', hv⟩ := k3.get h
    rw [hx] at hx'; cases hx'
    rw [hv]; exact ⟨rfl, rfl⟩
  rcases iterate_quiet p.iterate (by rw [hrec]; simp only; rw [k1]) with ⟨h0, -, -⟩ | ⟨-, hadv, -⟩
  · exact absurd h0 hn
  · obtain ⟨-, a2, -, a4⟩ := advance_spec (by simp only; rw [k5]; exact Arena.handles_nodup _) hadv
    rw [← k5] at hke
    obtain ⟨i, hi, hik⟩ := List.mem_map.mp hke
    obtain ⟨z, hz, hz'⟩ := a4 i hi
    obtain ⟨x', hx', hi'⟩ := k6 i hi
    rw [hik] at hx' hz hz'
    simp only at hz
    have : p.mid.toWorld.entities.get k = some x := hx
    rw [this] at hz hx'; cases hz; cases hx'
    obtain ⟨y, hy, -⟩ : ∃ y, s'.entities.get k = some y ∧ True := by
      have fr := (sleepLoop_frame p.selfless p.sleep).1
      have hent : (if p.concluded then p.final.world else
          { p.final.world with debug := p.final.world.debug ++ [.ranOut] }).entities = p.final.world.entities := by
        split <;> rfl
      obtain ⟨y, hy, -⟩ := fr.entities.get (by rw [hent]; exact hz')
      exact ⟨y, hy, trivial⟩
    have hs := (hend k _ y hz' hy).2
    have hpc : percentOf (none : Option (Candidate α)) = one := rfl
    have hm : (moved (percentOf none) i x) =
        { x with
          orientation := e.orientation.afterAffected ((x.velocity.scale dt).scale one) ((x.angularVelocity.scale dt).scale one) } := by
      unfold moved
      rw [hxe.2, ha, hpc, hxe.1]
      simp only [Bool.false_eq_true, if_false]
      rw [hi']
    rw [hm] at hs
    refine ⟨y, hy, ?_⟩
    unfold NeighborRel at hs
    rw [hs]
    unfold settle
    simp only [hxe.2, ha, Bool.false_eq_true, if_false]
    split <;> exact ⟨rfl, rfl, rfl⟩

end Fluffy.Step
