import Verif.Num.MassState
import Verif.Props.Motion
/-
C38: momentum over a whole step.
-/
set_option linter.unusedSectionVars false
set_option linter.unusedSimpArgs false
namespace Fluffy.Props
open Fluffy InternalEntity Step XReal
variable {γ : Type} [ForceGenerator XReal γ]

/-! ### Specification -/

/-- All entities of the system, as `get_entity` reports them. -/
noncomputable def entitiesOf (s : World XReal) : List (Entity XReal) := s.entities.handles.filterMap s.getEntity
/-- The sum of velocity times total mass over all entities. -/
noncomputable def totalMomentum (s : World XReal) : Vec3 XReal :=
  ((entitiesOf s).map fun p => p.velocity.scale p.lastTotalMass).foldr (· + ·) Vec3.zeros

/-! ### Lemmas -/

theorem sum_change {g g' : Handle → Vec3 ℝ} {h : Handle} : ∀ {l : List Handle}, l.Nodup → h ∈ l →
    (∀ k ∈ l, k ≠ h → g' k = g k) → Vec3.sum (l.map g') + g h = Vec3.sum (l.map g) + g' h
  | x :: l, hnd, hm, hg => by
    rw [List.nodup_cons] at hnd
    rw [List.map_cons, List.map_cons, Vec3.sum_cons, Vec3.sum_cons]
    by_cases hx : x = h
    · subst hx
      have : l.map g' = l.map g := by
        apply List.map_congr_left
        intro k hk
        exact hg k (by simp [hk]) (by rintro rfl; exact hnd.1 hk)
      rw [this]
      ext <;> simp <;> ring
    · have hm : h ∈ l := by
        rcases List.mem_cons.mp hm with rfl | hm
        · exact absurd rfl hx
        · exact hm
      have ih := sum_change hnd.2 hm (fun k hk => hg k (by simp [hk]))
      rw [hg x (by simp) hx]
      have h1 := congrArg Vec3.x ih
      have h2 := congrArg Vec3.y ih
      have h3 := congrArg Vec3.z ih
      simp at h1 h2 h3
      ext <;> simp <;> linarith

theorem sum_change2 {g g' : Handle → Vec3 ℝ} {h1 h2 : Handle} {l : List Handle} (hnd : l.Nodup) (hm1 : h1 ∈ l) (hm2 : h2 ∈ l)
    (hne : h1 ≠ h2) (hg : ∀ k ∈ l, k ≠ h1 → k ≠ h2 → g' k = g k) (hs : g' h1 + g' h2 = g h1 + g h2) :
    Vec3.sum (l.map g') = Vec3.sum (l.map g) := by
  let g1 : Handle → Vec3 ℝ := fun k => if k = h1 then g' h1 else g k
  have e1 := sum_change (g := g) (g' := g1) hnd hm1 (by intro k _ hk; simp [g1, hk])
  have e2 := sum_change (g := g1) (g' := g') hnd hm2 (by
    intro k hk hk2
    by_cases hk1 : k = h1
    · subst hk1; simp [g1]
    · simp [g1, hk1]; exact hg k hk hk1 hk2)
  have g11 : g1 h1 = g' h1 := by simp [g1]
  have g12 : g1 h2 = g h2 := by simp [g1, hne.symm]
  rw [g11] at e1
  rw [g12] at e2
  have x1 := congrArg Vec3.x e1
  have x2 := congrArg Vec3.x e2
  have x3 := congrArg Vec3.x hs
  have y1 := congrArg Vec3.y e1
  have y2 := congrArg Vec3.y e2
  have y3 := congrArg Vec3.y hs
  have z1 := congrArg Vec3.z e1
  have z2 := congrArg Vec3.z e2
  have z3 := congrArg Vec3.z hs
  simp at x1 x2 x3 y1 y2 y3 z1 z2 z3
  ext <;> linarith

/-- All velocities are finite, the masses are `m`, and the total momentum is `P`. -/
def Mom (m : Handle → ℝ) (hs : List Handle) (a : Arena (InternalEntity XReal)) (P : Vec3 ℝ) : Prop :=
  ∃ v : Handle → Vec3 ℝ, (∀ k ∈ hs, ∃ e, a.get k = some e ∧ e.velocity = (v k).f ∧ e.totalMass = fin (m k)) ∧
    P = Vec3.sum (hs.map fun k => (v k).scale (m k))

theorem Mom.congr {m : Handle → ℝ} {hs : List Handle} {a b : Arena (InternalEntity XReal)} {P : Vec3 ℝ}
    (h : Mom m hs b P) (hab : ∀ k ∈ hs, ∀ y, b.get k = some y →
      ∃ x, a.get k = some x ∧ y.velocity = x.velocity ∧ y.totalMass = x.totalMass) : Mom m hs a P := by
  obtain ⟨v, h1, h2⟩ := h
  refine ⟨v, ?_, h2⟩
  intro k hk
  obtain ⟨e, he, e1, e2⟩ := h1 k hk
  obtain ⟨x, hx, x1, x2⟩ := hab k hk e he
  exact ⟨x, hx, by rw [← x1, e1], by rw [← x2, e2]⟩

theorem Vec3.fin_of_add' {u v : Vec3 XReal} (h : (u + v).Fin) : u.Fin ∧ v.Fin := by
  rw [Vec3.fin_iff] at h
  have hx := XReal.fin_of_add h.1
  have hy := XReal.fin_of_add h.2.1
  have hz := XReal.fin_of_add h.2.2
  exact ⟨Vec3.fin_iff.mpr ⟨hx.1, hy.1, hz.1⟩, Vec3.fin_iff.mpr ⟨hx.2, hy.2, hz.2⟩⟩
theorem Vec3.fin_of_scale' {u : Vec3 XReal} {k : XReal} (h : (u.scale k).Fin) : u.Fin := by
  rw [Vec3.fin_iff] at h
  exact Vec3.fin_iff.mpr ⟨(XReal.fin_of_mul h.1).1, (XReal.fin_of_mul h.2.1).1, (XReal.fin_of_mul h.2.2).1⟩

theorem respond_mom {m : Handle → ℝ} {hs : List Handle} (hnd : hs.Nodup) (hm : ∀ k ∈ hs, 0 < m k)
    {dt : XReal} {k : Candidate XReal} {st st' : LoopState XReal} (hh : respond dt k st = .ok st')
    (hall : ∀ h e, st.world.entities.get h = some e → h ∈ hs) {P : Vec3 ℝ} (h : Mom m hs st'.world.entities P) :
    Mom m hs st.world.entities P := by
  obtain ⟨x1, x2, i1, i2, hne, hf, hs2, -, -, rfl⟩ := respond_spec hh
  have hm1 := hall _ _ hf
  have hm2 := hall _ _ hs2
  obtain ⟨v, h1, h2⟩ := h
  simp only [respond_get hne hf hs2] at h1
  obtain ⟨y1, g1, gv1, gm1⟩ := h1 _ hm1
  obtain ⟨y2, g2, gv2, gm2⟩ := h1 _ hm2
  rw [if_neg hne, if_pos rfl] at g1
  rw [if_pos rfl] at g2
  injection g1 with g1
  injection g2 with g2
  have mass1 : x1.totalMass = fin (m k.firstHandle) := by rw [← gm1, ← g1]; rfl
  have mass2 : x2.totalMass = fin (m k.secondHandle) := by rw [← gm2, ← g2]; rfl
  have p1 := hm _ hm1
  have p2 := hm _ hm2
  obtain ⟨J, F, e1, e2⟩ : ∃ J F : Vec3 XReal,
      (respondPair k (st.currentPercent * dt) st.timeLeft x1 x2 i1 i2).first.velocity =
        x1.velocity + J.scale (one / x1.totalMass) + F.scale (one / x1.totalMass) ∧
      (respondPair k (st.currentPercent * dt) st.timeLeft x1 x2 i1 i2).second.velocity =
        x2.velocity + (-J).scale (one / x2.totalMass) + (-F).scale (one / x2.totalMass) := ⟨_, _, rfl, rfl⟩
  rw [g1, gv1] at e1
  rw [g2, gv2] at e2
  have f1 := Vec3.fin_of_add' (u := x1.velocity + J.scale (one / x1.totalMass)) ⟨_, e1.symm⟩
  have f2 := Vec3.fin_of_add' (u := x2.velocity + (-J).scale (one / x2.totalMass)) ⟨_, e2.symm⟩
  obtain ⟨F', hF⟩ := Vec3.fin_of_scale' f1.2
  obtain ⟨⟨u1, hu1⟩, hJ⟩ := Vec3.fin_of_add' f1.1
  obtain ⟨J', hJ⟩ := Vec3.fin_of_scale' hJ
  obtain ⟨⟨u2, hu2⟩, -⟩ := Vec3.fin_of_add' f2.1
  rw [hu1, hJ, hF, mass1, one_eq, fin_div p1.ne'] at e1
  rw [hu2, hJ, hF, mass2, one_eq, fin_div p2.ne'] at e2
  simp only [Vec3.f_scale, Vec3.f_add, Vec3.f_neg, Vec3.f_inj] at e1 e2
  refine ⟨fun h => if h = k.firstHandle then u1 else if h = k.secondHandle then u2 else v h, ?_, ?_⟩
  · intro h hh
    simp only
    by_cases q1 : h = k.firstHandle
    · subst q1; rw [if_pos rfl]; exact ⟨x1, hf, hu1, mass1⟩
    · rw [if_neg q1]
      by_cases q2 : h = k.secondHandle
      · subst q2; rw [if_pos rfl]; exact ⟨x2, hs2, hu2, mass2⟩
      · rw [if_neg q2]
        obtain ⟨e, he, r⟩ := h1 h hh
        rw [if_neg q2, if_neg q1] at he
        exact ⟨e, he, r⟩
  · rw [h2]
    refine sum_change2 hnd hm1 hm2 hne ?_ ?_
    · intro h _ q1 q2; simp [q1, q2]
    · simp only [if_true, if_neg hne.symm, e1, e2]
      have n1 := p1.ne'
      have n2 := p2.ne'
      ext <;> simp <;> field_simp <;> ring

theorem mom_total {m : Handle → ℝ} {s : World XReal} {P : Vec3 ℝ} (h : Mom m s.entities.handles s.entities P) :
    totalMomentum s = P.f := by
  obtain ⟨v, h1, rfl⟩ := h
  unfold totalMomentum entitiesOf
  revert h1
  generalize s.entities.handles = l
  intro h1
  induction l with
  | nil => simp
  | cons k l ih =>
    obtain ⟨e, he, e1, e2⟩ := h1 k (by simp)
    have hg : s.getEntity k = some e.makePub := getEntity_eq_some.mpr ⟨e, he, rfl⟩
    rw [List.filterMap_cons, hg, List.map_cons, List.foldr_cons, ih (fun k hk => h1 k (by simp [hk])), List.map_cons,
      Vec3.sum_cons]
    have q1 : e.makePub.velocity = e.velocity := rfl
    have q2 : e.makePub.lastTotalMass = e.totalMass := rfl
    rw [q1, q2, e1, e2]
    simp

/-- **C38.** Without force generators, over a step in which no entity is asleep, all total masses are finite and positive
and the velocities after it are finite numbers, the sum of mass times velocity over all entities is unchanged, however many
entities and collisions there are. -/
theorem C38_momentum {s s' : System XReal γ} {ord : IterOrder} {dt : XReal} (h : s.step ord dt = .ok s')
    (hg : s.generators.handles = [])
    (hs : ∀ k p, s.getEntity k = some p → p.asleep = false ∧ ∃ m : ℝ, p.lastTotalMass = fin m ∧ 0 < m)
    (hf : ∀ k p', s'.getEntity k = some p' → Finite3 p'.velocity) :
    totalMomentum s'.toWorld = totalMomentum s.toWorld := by
  by_cases hdt : Proper dt
  swap
  · unfold System.step at h
    unfold Proper at hdt
    rw [if_pos (by simpa using hdt)] at h
    cases h; rfl
  obtain ⟨ph⟩ := step_phases hdt h
  have hfr := step_frame h
  have hE : ∀ k e, s.entities.get k = some e → e.asleep = false ∧ ∃ m : ℝ, e.totalMass = fin m ∧ 0 < m := by
    intro k e he
    exact hs k e.makePub (getEntity_eq_some.mpr ⟨e, he, rfl⟩)
  have hex : ∀ k ∈ s.entities.handles, ∃ m : ℝ, ∀ e, s.entities.get k = some e → e.totalMass = fin m ∧ 0 < m := by
    intro k hk
    obtain ⟨e, he⟩ := Arena.mem_handles.mp hk
    obtain ⟨m, h1⟩ := (hE k e he).2
    refine ⟨m, fun e' he' => ?_⟩
    rw [he] at he'; cases he'; exact h1
  choose! m hm using hex
  have hm' : ∀ k e, s.entities.get k = some e → e.totalMass = fin (m k) ∧ 0 < m k :=
    fun k e he => hm k (Arena.mem_handles.mpr ⟨e, he⟩) e he
  have hmpos : ∀ k ∈ s.entities.handles, 0 < m k := fun k hk => by
    obtain ⟨e, he⟩ := Arena.mem_handles.mp hk; exact (hm' k e he).2
  have hnd := Arena.handles_nodup s.entities
  -- the end
  obtain ⟨P, hP⟩ : ∃ P, Mom m s.entities.handles s'.entities P := by
    have : ∀ k ∈ s.entities.handles, ∃ v : Vec3 ℝ, ∃ e, s'.entities.get k = some e ∧ e.velocity = v.f ∧
        e.totalMass = fin (m k) := by
      intro k hk
      obtain ⟨e, he⟩ := Arena.mem_handles.mp hk
      obtain ⟨e', he', hst⟩ := hfr.1.entities.get he
      obtain ⟨v, hv⟩ := (hf k e'.makePub (getEntity_eq_some.mpr ⟨e', he', rfl⟩)).f
      refine ⟨v, e', he', hv, ?_⟩
      rw [show e'.totalMass = e.totalMass by rw [hst]]
      exact (hm' k e he).1
    haveI hne : Nonempty (Vec3 ℝ) := ⟨Vec3.o⟩
    choose! v hv using this
    exact ⟨_, v, hv, rfl⟩
  have hT' : totalMomentum s'.toWorld = P.f := by
    apply mom_total (m := m)
    have : s'.entities.handles = s.entities.handles := hfr.1.handles
    rw [this]; exact hP
  -- before the sleep loop
  have h1 : Mom m s.entities.handles ph.final.world.entities P := by
    refine hP.congr ?_
    intro k hk y hy
    obtain ⟨d, -, -, hend⟩ := ph.ending
    obtain ⟨e, he⟩ := Arena.mem_handles.mp hk
    obtain ⟨x, hx, hxs⟩ := ph.inv.frame.entities.get he
    have hxa : x.asleep = false := by
      obtain ⟨x', hx', -, -, ha, -⟩ := (ph.watch he).entity
      rw [hx] at hx'; cases hx'
      exact ha (hE k e he).1
    have := (hend k x y hx hy).2
    refine ⟨x, hx, ?_⟩
    rw [this]
    unfold settle
    simp only [hxa, Bool.false_eq_true, if_false]
    split <;> exact ⟨rfl, rfl⟩
  -- before the iterations
  have h2 : Mom m s.entities.handles ph.mid.entities P := by
    have := iterate_induct (ord := ord) (dt := dt) (P := fun st => LoopInv s.toWorld s.entities.handles st ∧
        (∀ P, Mom m s.entities.handles st.world.entities P → Mom m s.entities.handles ph.mid.entities P)) ?_
        ⟨ph.inv0, fun P hp => hp⟩ ph.iterate
    · exact this.2 P h1
    · intro st best w st1 hp q1 q2 q3
      have b := loopInv_body (dt := dt) hnd hp.1 q1 q2 q3
      have hback : ∀ P, Mom m s.entities.handles st1.world.entities P → Mom m s.entities.handles st.world.entities P := by
        intro P hmom
        obtain ⟨-, wev⟩ := wakeColliding_evolves q2
        obtain ⟨-, aev, a3, a4⟩ := advance_spec (st := { st with world := w }) (by
          simp only; rw [hp.1.handles]; exact hnd) q3
        have hm1 : Mom m s.entities.handles w.entities P := by
          refine hmom.congr ?_
          intro k hk y hy
          have hk' : k ∈ st.infos.map StepInfo.handle := by rw [hp.1.handles]; exact hk
          obtain ⟨i, hi, rfl⟩ := List.mem_map.mp hk'
          obtain ⟨x, hx, hx'⟩ := a4 i hi
          rw [hy] at hx'; cases hx'
          refine ⟨x, hx, ?_⟩
          unfold moved; split <;> exact ⟨rfl, rfl⟩
        refine hm1.congr ?_
        intro k hk y hy
        obtain ⟨x, hx, hr⟩ := wev.get' hy
        refine ⟨x, hx, ?_⟩
        rw [hr]; exact ⟨rfl, rfl⟩
      refine ⟨fun _ => ⟨b.1, fun P hmom => hp.2 P (hback P hmom)⟩, fun k st2 hb q4 => ⟨b.2 k st2 hb q4, fun P hmom => ?_⟩⟩
      refine hp.2 P (hback P (respond_mom hnd hmpos q4 ?_ hmom))
      intro h e he
      obtain ⟨e0, he0, -⟩ := b.1.frame.entities.get' he
      exact Arena.mem_handles.mpr ⟨e0, he0⟩
  -- before the integration
  have h3 : Mom m s.entities.handles s.entities P := by
    obtain ⟨v, v1, v2⟩ := h2
    refine ⟨v, ?_, v2⟩
    intro k hk
    obtain ⟨e, he⟩ := Arena.mem_handles.mp hk
    obtain ⟨e', he', ev, -⟩ := v1 k hk
    obtain ⟨w, g, g', fs, -, -, -, -, q4, q5⟩ := integrated (s := { s with collisionRecords := [], debug := [] })
      ph.integrate (k := k) (p := e.makePub) (getEntity_eq_some.mpr ⟨e, he, rfl⟩)
    have hl : (if Pushable e.makePub = true then s.generators.handles else []) = [] := by rw [hg]; split <;> rfl
    have q4 : Asked dt w k (if Pushable e.makePub = true then s.generators.handles else []) g fs g' := q4
    rw [hl] at q4
    cases q4
    obtain ⟨x, hx, hxe⟩ := getEntity_eq_some.mp q5
    rw [he'] at hx; cases hx
    have hv : e'.velocity = e.velocity + (Vec3.zeros : Vec3 XReal).scale dt := by
      have := congrArg Entity.velocity hxe; exact this
    refine ⟨e, he, ?_, (hm' k e he).1⟩
    have hfin : (e.velocity + (Vec3.zeros : Vec3 XReal).scale dt).Fin := by rw [← hv, ev]; exact ⟨_, rfl⟩
    have hd := (XReal.fin_of_mul (Vec3.fin_iff.mp (Vec3.fin_of_add' hfin).2).1).2
    obtain ⟨t, rfl⟩ := isFinite_iff.mp hd
    have : (Vec3.zeros : Vec3 XReal).scale (fin t) = Vec3.o.f := by simp
    rw [this, vec_add_o] at hv
    rw [← hv, ev]
  rw [hT', mom_total h3]

end Fluffy.Props
