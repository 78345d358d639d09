import Verif.Props.PlaceStep
/-
C71, continued: every call on a moved scene is the moved call, and so is every history of calls.
-/
set_option linter.unusedSectionVars false
set_option linter.unusedSimpArgs false
namespace Fluffy.Props
open Fluffy XReal Step InternalEntity
variable (d : Vec3 ℝ) {γ : Type}

/-- Calls that give no plane an infinite normal. -/
def TameOp : Op XReal γ → Prop
  | .updateCollider _ (.plane p) => p.normal.Tame
  | _ => True

/-- What `collide_shift` needs of a whole system. -/
structure Sane (s : System XReal γ) : Prop where
  posed : Posed s.entities
  tamed : Tamed s.colliders

theorem Tamed.set {a : Arena (Collider XReal)} (ht : Tamed a) (h : Handle) {c : Collider XReal} (hc : TameShape c) : Tamed (a.set h c) := by
  intro k x hx
  rw [Arena.get_set] at hx
  split at hx
  · cases hg : a.get h with
    | none => rw [hg] at hx; cases hx
    | some y => rw [hg] at hx; cases hx; exact hc
  · exact ht k x hx

theorem tameRadius {r : XReal} (h : Scalar.lt MINIMUM_RADIUS r = true) : r ≠ fin 0 ∧ ∀ q : ℝ, r = fin q → 0 < q := by
  have key : ∀ q : ℝ, r = fin q → 0 < q := by
    rintro q rfl
    unfold MINIMUM_RADIUS at h
    simp [lit_eq] at h
    linarith
  exact ⟨fun h0 => absurd (key 0 h0) (lt_irrefl _), key⟩

theorem newFrom_tame {c c' : Collider XReal} (h : c.newFrom = some c') : TameShape c' := by
  cases c with
  | sphere s =>
    simp only [Collider.newFrom] at h
    split at h
    · cases h
    · rename_i hv; cases h
      simp only [Bool.not_eq_true, Bool.not_eq_false', SphereCollider.isValid, Bool.and_eq_true] at hv
      exact tameRadius hv.1
  | plane s =>
    simp only [Collider.newFrom] at h
    split at h
    · cases h
    · cases h; exact Vec3.tame_normalize _
  | null s => simp only [Collider.newFrom] at h; split at h <;> cases h; trivial
  | mesh s => simp only [Collider.newFrom] at h; split at h <;> cases h; trivial
  | box s => simp only [Collider.newFrom] at h; split at h <;> cases h; trivial

theorem updateFrom_tame {c x c' : Collider XReal} (hx : ∀ p, x = .plane p → p.normal.Tame) (h : c.updateFrom x = .updated c') : TameShape c' := by
  cases c <;> cases x <;> simp only [Collider.updateFrom] at h <;> (try (cases h; done)) <;> split at h <;> cases h <;> try trivial
  · rename_i hv
    simp only [Bool.not_eq_true, Bool.not_eq_false', SphereCollider.isValid, Bool.and_eq_true] at hv
    exact tameRadius hv.1
  · rename_i p _; exact hx p rfl

theorem setEntity_tame {c : Collider XReal} (h : Option Handle) (hc : TameShape c) : TameShape (c.setEntity h) := by cases c <;> exact hc

theorem removeCollider_shift (s : System XReal γ) (h : Handle) : (s.shift d).removeCollider h = (s.removeCollider h).map (System.shift d) := by
  unfold System.removeCollider
  rw [show (s.shift d).colliders = s.colliders from rfl]
  dsimp only
  cases (s.colliders.remove h).2 with
  | none => rfl
  | some c =>
    cases hc : c.entity with
    | none => simp only [hc]; rfl
    | some eh =>
      simp only [hc]
      rw [show (s.shift d).entities = moveAll d s.entities from rfl, get_map]
      cases s.entities.get eh <;> rfl

theorem removeColliders_shift : ∀ (l : List Handle) (s : System XReal γ), System.removeColliders l (s.shift d) = (System.removeColliders l s).map (System.shift d)
  | [], _ => rfl
  | h :: l, s => by
    unfold System.removeColliders
    rw [removeCollider_shift]
    cases s.removeCollider h with
    | error x => rfl
    | ok t => exact removeColliders_shift l t

theorem removeEntity_shift (ord : IterOrder) (s : System XReal γ) (h : Handle) :
    (s.shift d).removeEntity ord h = (s.removeEntity ord h).map (Prod.map (System.shift d) id) := by
  unfold System.removeEntity
  rw [show (s.shift d).entities = moveAll d s.entities from rfl, remove_map]
  cases hr : s.entities.remove h with
  | mk a o =>
    cases o with
    | none => rfl
    | some e =>
      have := removeColliders_shift d (ord.colliders h e.colliders) { s with entities := a }
      refine Eq.trans (congrArg (fun R => R >>= _) this) ?_
      dsimp only
      cases System.removeColliders (ord.colliders h e.colliders) { s with entities := a } <;> rfl

theorem setEntities_shift (s : System XReal γ) (h : Handle) (e : InternalEntity XReal) :
    ({ s.shift d with entities := (moveAll d s.entities).set h (e.shift d) } : System XReal γ) = System.shift d { s with entities := s.entities.set h e } := by
  rw [set_map]; rfl

theorem updateEntity_shift (ord : IterOrder) {s : System XReal γ} (hs : Sane s) (h : Handle) (x : Entity XReal) :
    (s.shift d).updateEntity ord h (x.shift d) = (s.updateEntity ord h x).map (Prod.map (System.shift d) id) := by
  unfold System.updateEntity
  rw [show (s.shift d).entities = moveAll d s.entities from rfl, get_map]
  cases hg : s.entities.get h with
  | none => rfl
  | some e =>
    simp only [Option.map_some]
    rw [updateFrom_shift]
    cases hu : e.updateFrom x with
    | none => rfl
    | some r =>
      obtain ⟨e1, woke⟩ := r
      simp only [Option.map_some, Prod.map, id]
      have hok : e1.orientation.rotation.Ok := by
        unfold InternalEntity.updateFrom at hu
        split at hu
        · cases hu
        · cases hu; exact Quat.ok_fromScaledAxis _
      rw [recalculateMass_shift d hok, show (e1.shift d).colliders = e1.colliders from rfl, show (s.shift d).colliders = s.colliders from rfl]
      cases recalculateMass (ord.colliders h e1.colliders) s.colliders e1 with
      | error y => rfl
      | ok e2 =>
        simp only [Except.map, Res.ok_bind]
        rw [set_map]
        cases woke with
        | false => rfl
        | true =>
          simp only [if_true]
          rw [wakeUp_shift d, show (s.shift d).debug = s.debug from rfl]
          cases wakeUp ord h (s.entities.set h e2) s.debug <;> rfl

theorem refreshEntity_shift (ord : IterOrder) {s : System XReal γ} (hs : Posed s.entities) (o : Option Handle) :
    System.refreshEntity ord (s.shift d) o = (System.refreshEntity ord s o).map (System.shift d) := by
  cases o with
  | none => rfl
  | some h =>
    unfold System.refreshEntity
    simp only
    rw [show (s.shift d).entities = moveAll d s.entities from rfl, get_map]
    cases hg : s.entities.get h with
    | none => rfl
    | some e =>
      simp only [Option.map_some]
      rw [recalculateMass_shift d (hs h e hg), show (e.shift d).colliders = e.colliders from rfl, show (s.shift d).colliders = s.colliders from rfl]
      cases recalculateMass (ord.colliders h e.colliders) s.colliders e with
      | error y => rfl
      | ok e2 => exact congrArg Except.ok (setEntities_shift d s h e2)

theorem updateCollider_shift (ord : IterOrder) {s : System XReal γ} (hs : Sane s) (h : Handle) (x : Collider XReal) :
    (s.shift d).updateCollider ord h x = (s.updateCollider ord h x).map (Prod.map (System.shift d) id) := by
  unfold System.updateCollider
  rw [show (s.shift d).colliders = s.colliders from rfl]
  cases s.colliders.get h with
  | none => rfl
  | some c =>
    simp only
    cases c.updateFrom x with
    | wrongType => rfl
    | invalid =>
      simp only
      rw [refreshEntity_shift d ord hs.posed]
      cases System.refreshEntity ord s c.entity <;> rfl
    | updated c' =>
      simp only
      have := refreshEntity_shift d ord (s := { s with colliders := s.colliders.set h c' }) hs.posed c.entity
      refine Eq.trans (congrArg (fun R => R >>= _) this) ?_
      cases System.refreshEntity ord { s with colliders := s.colliders.set h c' } c.entity <;> rfl

theorem unlinkPrior_shift (ord : IterOrder) {s : System XReal γ} (hs : Posed s.entities) (ch : Handle) (o : Option Handle) :
    System.unlinkPrior ord (s.shift d) ch o = (System.unlinkPrior ord s ch o).map (System.shift d) := by
  cases o with
  | none => rfl
  | some h =>
    unfold System.unlinkPrior
    simp only
    rw [show (s.shift d).entities = moveAll d s.entities from rfl, get_map]
    cases hg : s.entities.get h with
    | none => rfl
    | some e =>
      simp only [Option.map_some]
      have := recalculateMass_shift d (e := { e with colliders := hsRemove e.colliders ch }) (hs h e hg) (ord.colliders h (hsRemove e.colliders ch)) s.colliders
      refine Eq.trans (congrArg (fun R => R >>= _) this) ?_
      cases recalculateMass (ord.colliders h (hsRemove e.colliders ch)) s.colliders { e with colliders := hsRemove e.colliders ch } with
      | error y => rfl
      | ok e2 => exact congrArg Except.ok (setEntities_shift d s h e2)

theorem switchLink_shift (ord : IterOrder) {s : System XReal γ} (hs : Posed s.entities) (ch : Handle) (o : Option Handle) :
    System.switchLink ord (s.shift d) ch o = (System.switchLink ord s ch o).map (Prod.map (System.shift d) id) := by
  unfold System.switchLink
  rw [show (s.shift d).colliders = s.colliders from rfl]
  cases s.colliders.get ch with
  | none => rfl
  | some c =>
    simp only
    by_cases hp : c.entity ≠ o
    · rw [if_pos hp, if_pos hp]
      have := unlinkPrior_shift d ord (s := { s with colliders := s.colliders.set ch (c.setEntity o) }) hs ch c.entity
      refine Eq.trans (congrArg (fun R => R >>= _) this) ?_
      cases System.unlinkPrior ord { s with colliders := s.colliders.set ch (c.setEntity o) } ch c.entity <;> rfl
    · rw [if_neg hp, if_neg hp]; rfl

theorem linkCollider_shift (ord : IterOrder) {s : System XReal γ} (hs : Sane s) (ch : Handle) (o : Option Handle) :
    (s.shift d).linkCollider ord ch o = (s.linkCollider ord ch o).map (Prod.map (System.shift d) id) := by
  unfold System.linkCollider
  rw [show (s.shift d).colliders = s.colliders from rfl]
  by_cases hc : (!s.colliders.contains ch) = true
  · rw [if_pos hc, if_pos hc]; rfl
  · rw [if_neg hc, if_neg hc]
    cases o with
    | none => exact switchLink_shift d ord hs.posed ch none
    | some h =>
      simp only
      rw [show (s.shift d).entities = moveAll d s.entities from rfl, get_map]
      cases hg : s.entities.get h with
      | none => rfl
      | some e =>
        simp only [Option.map_some]
        have := recalculateMass_shift d (e := { e with colliders := hsInsert e.colliders ch }) (hs.posed h e hg) (ord.colliders h (hsInsert e.colliders ch)) s.colliders
        refine Eq.trans (congrArg (fun R => R >>= _) this) ?_
        cases hr : recalculateMass (ord.colliders h (hsInsert e.colliders ch)) s.colliders { e with colliders := hsInsert e.colliders ch } with
        | error y => rfl
        | ok e2 =>
          have h2 := switchLink_shift d ord (s := { s with entities := s.entities.set h e2 }) (hs.posed.set h (recalculateMass_ok (by exact hs.posed h e hg) hr)) ch (some h)
          rw [← setEntities_shift] at h2
          exact h2

section
variable [ForceGenerator XReal γ]

/-- **A step of a moved scene is the moved step**: the same panics, the same records, every entity where it was, moved along. -/
theorem C71_step (hg : Homeless γ) (ord : IterOrder) {s : System XReal γ} (hs : Sane s) (dt : XReal) :
    (s.shift d).step ord dt = (s.step ord dt).map (System.shift d) := by
  unfold System.step
  by_cases hd : Scalar.lt (Scalar.abs dt) EPSILON = true
  · rw [if_pos hd, if_pos hd]; rfl
  · rw [if_neg hd, if_neg hd]
    have h1 := integrateAll_shift d hg dt s.generators.handles s.entities.handles { s with collisionRecords := [], debug := [] }
    have h0 : (moveAll d s.entities).handles = s.entities.handles := handles_map _ _
    dsimp only
    rw [show (s.shift d).entities = moveAll d s.entities from rfl, h0]
    refine Eq.trans (congrArg (fun R => R >>= _) h1) ?_
    cases hi : integrateAll dt s.generators.handles s.entities.handles { s with collisionRecords := [], debug := [] } with
    | error x => rfl
    | ok r =>
      obtain ⟨s1, infos⟩ := r
      obtain ⟨hp1, hc1⟩ := integrateAll_posed hi hs.posed
      simp only [Except.map, Prod.map, id, Res.ok_bind]
      have h2 := iterate_shift d ord dt s1.iterationMax ⟨s1.toWorld, infos, dt, zero⟩ (by rw [hc1]; exact hs.tamed) hp1
      refine Eq.trans (congrArg (fun R => R >>= _) h2) ?_
      cases iterate ord dt s1.iterationMax ⟨s1.toWorld, infos, dt, zero⟩ with
      | error x => rfl
      | ok q =>
        obtain ⟨st, b⟩ := q
        simp only [Except.map, Prod.map, id, Res.ok_bind]
        cases b with
        | true =>
          simp only [if_true]
          rw [show (st.shift d).world = st.world.shift d from rfl, show (st.shift d).infos = st.infos from rfl, sleepLoop_shift]
          cases sleepLoop ord dt st.infos st.world <;> rfl
        | false =>
          simp only [Bool.false_eq_true, if_false]
          have h3 := sleepLoop_shift d ord dt st.infos { st.world with debug := st.world.debug ++ [.ranOut] }
          refine Eq.trans (congrArg (fun R => R >>= _) h3) ?_
          cases sleepLoop ord dt st.infos { st.world with debug := st.world.debug ++ [.ranOut] } <;> rfl

/-- **Every call on a moved scene is the moved call**, with the same result. -/
theorem C71_exec (hg : Homeless γ) (ord : IterOrder) {s : System XReal γ} (hs : Sane s) (op : Op XReal γ) :
    (s.shift d).exec ord (op.shift d) = (s.exec ord op).map (Prod.map (System.shift d) id) := by
  cases op with
  | addEntity e =>
    unfold System.exec Op.shift System.addEntity
    simp only
    rw [newFrom_shift]
    cases InternalEntity.newFrom e with
    | none => rfl
    | some i =>
      simp only [Option.map_some]
      rw [show (s.shift d).entities = moveAll d s.entities from rfl, insert_map]
      rfl
  | removeEntity h =>
    unfold System.exec Op.shift
    simp only
    rw [removeEntity_shift]
    cases s.removeEntity ord h <;> rfl
  | updateEntity h e =>
    unfold System.exec Op.shift
    simp only
    rw [updateEntity_shift d ord hs]
    cases s.updateEntity ord h e <;> rfl
  | addCollider c =>
    unfold System.exec Op.shift System.addCollider
    simp only
    cases c.newFrom <;> rfl
  | removeCollider h =>
    unfold System.exec Op.shift
    simp only
    rw [removeCollider_shift]
    cases s.removeCollider h <;> rfl
  | updateCollider h c =>
    unfold System.exec Op.shift
    simp only
    rw [updateCollider_shift d ord hs]
    cases s.updateCollider ord h c <;> rfl
  | linkCollider c h =>
    unfold System.exec Op.shift
    simp only
    rw [linkCollider_shift d ord hs]
    cases s.linkCollider ord c h <;> rfl
  | addGenerator g => rfl
  | removeGenerator h => rfl
  | step dt =>
    unfold System.exec Op.shift
    simp only
    rw [C71_step d hg ord hs]
    cases s.step ord dt <;> rfl
  | configure n e t rs m => rfl
end

/-! ### The invariant -/

theorem Sane.new : Sane (System.new : System XReal γ) := by
  constructor
  · intro h e he; simp [System.new, Arena.get_new] at he
  · intro h e he; simp [System.new, Arena.get_new] at he

theorem refreshEntity_sane {ord : IterOrder} {s s' : System XReal γ} {o : Option Handle} (h : System.refreshEntity ord s o = .ok s') (hs : Sane s) : Sane s' := by
  rcases System.refreshEntity_spec h with ⟨rfl, -⟩ | ⟨k, E, E', -, hE, hr, rfl⟩
  · exact hs
  · exact ⟨hs.posed.set k (recalculateMass_ok (hs.posed k E hE) hr), hs.tamed⟩

theorem switchLink_sane {ord : IterOrder} {s : System XReal γ} {r : System XReal γ × Bool} {ch : Handle} {o : Option Handle}
    (h : System.switchLink ord s ch o = .ok r) (hs : Sane s) : Sane r.1 := by
  unfold System.switchLink at h
  split at h
  · cases h; exact hs
  · rename_i c hc
    have h1 : Sane ({ s with colliders := s.colliders.set ch (c.setEntity o) } : System XReal γ) := ⟨hs.posed, hs.tamed.set ch (setEntity_tame o (hs.tamed ch c hc))⟩
    dsimp only at h
    split at h
    · obtain ⟨t, h2, h⟩ := Res.bind_eq_ok.mp h
      cases h
      rcases System.unlinkPrior_spec h2 with ⟨rfl, -⟩ | ⟨k, E, E', -, hE, hr, rfl⟩
      · exact h1
      · exact ⟨h1.posed.set k (recalculateMass_ok (by exact hs.posed k E hE) hr), h1.tamed⟩
    · cases h; exact h1

theorem linkCollider_sane {ord : IterOrder} {s : System XReal γ} {r : System XReal γ × Bool} {ch : Handle} {o : Option Handle}
    (h : s.linkCollider ord ch o = .ok r) (hs : Sane s) : Sane r.1 := by
  unfold System.linkCollider at h
  split at h
  · cases h; exact hs
  · split at h
    · exact switchLink_sane h hs
    · rename_i k
      split at h
      · cases h; exact hs
      · rename_i e he
        obtain ⟨e2, hr, h⟩ := Res.bind_eq_ok.mp h
        exact switchLink_sane h ⟨hs.posed.set k (recalculateMass_ok (by exact hs.posed k e he) hr), hs.tamed⟩

theorem updateEntity_sane {ord : IterOrder} {s : System XReal γ} {r : System XReal γ × Bool} {h : Handle} {x : Entity XReal}
    (hh : s.updateEntity ord h x = .ok r) (hs : Sane s) : Sane r.1 := by
  unfold System.updateEntity at hh
  split at hh
  · cases hh; exact hs
  · rename_i e he
    split at hh
    · cases hh; exact hs
    · rename_i e1 woke hu
      have hok : e1.orientation.rotation.Ok := by
        unfold InternalEntity.updateFrom at hu
        split at hu
        · cases hu
        · cases hu; exact Quat.ok_fromScaledAxis _
      obtain ⟨e2, hr, hh⟩ := Res.bind_eq_ok.mp hh
      have hp := hs.posed.set h (recalculateMass_ok hok hr)
      dsimp only at hh
      split at hh
      · obtain ⟨⟨a, m⟩, hw, hh⟩ := Res.bind_eq_ok.mp hh
        cases hh
        exact ⟨hp.evolves (fun _ _ => WakeRel.orientation) (wakeUp_spec hw).1, hs.tamed⟩
      · cases hh; exact ⟨hp, hs.tamed⟩

section
variable [ForceGenerator XReal γ]

theorem step_sane {ord : IterOrder} {s s' : System XReal γ} {dt : XReal} (h : s.step ord dt = .ok s') (hs : Sane s) : Sane s' := by
  unfold System.step at h
  split at h
  · cases h; exact hs
  · obtain ⟨⟨s1, infos⟩, h1, h⟩ := Res.bind_eq_ok.mp h
    obtain ⟨⟨st, b⟩, h2, h⟩ := Res.bind_eq_ok.mp h
    obtain ⟨w, h3, h⟩ := Res.bind_eq_ok.mp h
    cases h
    obtain ⟨p1, c1⟩ := integrateAll_posed h1 hs.posed
    obtain ⟨p2, c2⟩ := iterate_posed ord h2 p1
    have h4 : Posed w.entities ∧ w.colliders = st.world.colliders := by
      cases b
      · have := sleepLoop_posed ord h3
        exact this p2
      · exact sleepLoop_posed ord h3 p2
    refine ⟨h4.1, ?_⟩
    show Tamed w.colliders
    rw [h4.2, c2, c1]; exact hs.tamed

theorem exec_sane {ord : IterOrder} {s s' : System XReal γ} {op : Op XReal γ} {out : Out γ} (hi : System.Inv s) (hs : Sane s) (ho : TameOp op)
    (h : s.exec ord op = .ok (s', out)) : Sane s' := by
  cases op with
  | addEntity e =>
    unfold System.exec System.addEntity at h
    simp only at h
    cases hn : InternalEntity.newFrom e with
    | none => rw [hn] at h; cases h; exact hs
    | some i =>
      rw [hn] at h; cases h
      refine ⟨?_, hs.tamed⟩
      intro k x hx
      rw [show (({ s with entities := (s.entities.insert i).1 } : System XReal γ)).entities.get k = (s.entities.insert i).1.get k from rfl, Arena.get_insert hi.wfE] at hx
      split at hx
      · cases hx
        unfold InternalEntity.newFrom at hn
        split at hn
        · cases hn
        · cases hn; exact Quat.ok_fromScaledAxis _
      · exact hs.posed k x hx
  | removeEntity h0 =>
    unfold System.exec at h
    obtain ⟨r, h1, h⟩ := Res.bind_eq_ok.mp h
    cases h
    unfold System.removeEntity at h1
    dsimp only at h1
    split at h1
    · obtain ⟨t, h2, h1⟩ := Res.bind_eq_ok.mp h1
      cases h1
      rw [System.removeColliders_ok h2]
      constructor
      · intro k x hx
        have hx : (s.entities.remove h0).1.get k = some x := hx
        rw [Arena.get_remove] at hx
        split at hx
        · cases hx
        · exact hs.posed k x hx
      · intro k x hx
        have hx : (System.removeAll s.colliders _).get k = some x := hx
        rw [System.get_removeAll] at hx
        split at hx
        · cases hx
        · exact hs.tamed k x hx
    · cases h1; exact hs
  | updateEntity h0 e =>
    unfold System.exec at h
    obtain ⟨r, h1, h⟩ := Res.bind_eq_ok.mp h
    cases h
    exact updateEntity_sane h1 hs
  | addCollider c =>
    unfold System.exec System.addCollider at h
    simp only at h
    cases hn : c.newFrom with
    | none => rw [hn] at h; cases h; exact hs
    | some i =>
      rw [hn] at h; cases h
      refine ⟨hs.posed, ?_⟩
      intro k x hx
      rw [show (({ s with colliders := (s.colliders.insert i).1 } : System XReal γ)).colliders.get k = (s.colliders.insert i).1.get k from rfl, Arena.get_insert hi.wfC] at hx
      split at hx
      · cases hx; exact newFrom_tame hn
      · exact hs.tamed k x hx
  | removeCollider h0 =>
    unfold System.exec at h
    obtain ⟨r, h1, h⟩ := Res.bind_eq_ok.mp h
    cases h
    have := System.removeCollider_ok h1
    rw [this]
    refine ⟨hs.posed, ?_⟩
    intro k x hx
    have hx : (s.colliders.remove h0).1.get k = some x := hx
    rw [Arena.get_remove] at hx
    split at hx
    · cases hx
    · exact hs.tamed k x hx
  | updateCollider h0 c =>
    unfold System.exec at h
    obtain ⟨r, h1, h⟩ := Res.bind_eq_ok.mp h
    cases h
    unfold System.updateCollider at h1
    split at h1
    · cases h1; exact hs
    · rename_i c0 hc0
      split at h1
      · cases h1; exact hs
      · obtain ⟨t, h2, h1⟩ := Res.bind_eq_ok.mp h1
        cases h1
        exact refreshEntity_sane h2 hs
      · rename_i c' hu
        obtain ⟨t, h2, h1⟩ := Res.bind_eq_ok.mp h1
        cases h1
        exact refreshEntity_sane h2 ⟨hs.posed, hs.tamed.set h0 (updateFrom_tame (fun p hp => by subst hp; exact ho) hu)⟩
  | linkCollider c o =>
    unfold System.exec at h
    obtain ⟨r, h1, h⟩ := Res.bind_eq_ok.mp h
    cases h
    exact linkCollider_sane h1 hs
  | addGenerator g => unfold System.exec at h; cases h; exact ⟨hs.posed, hs.tamed⟩
  | removeGenerator g => unfold System.exec at h; cases h; exact ⟨hs.posed, hs.tamed⟩
  | step dt =>
    unfold System.exec at h
    obtain ⟨r, h1, h⟩ := Res.bind_eq_ok.mp h
    cases h
    exact step_sane h1 hs
  | configure n e t rs m => unfold System.exec at h; cases h; exact ⟨hs.posed, hs.tamed⟩

theorem play_shift (hg : Homeless γ) : ∀ {l : List (IterOrder × Op XReal γ)} {s : System XReal γ}, System.Inv s → Sane s → (∀ x ∈ l, TameOp x.2) →
    play (l.map (Prod.map id (Op.shift d))) (s.shift d) = (play l s).map (Prod.map (System.shift d) id)
  | [], _, _, _, _ => rfl
  | (o, op) :: l, s, hi, hs, hl => by
    rw [List.map_cons, Prod.map]
    unfold play
    dsimp only [id]
    rw [C71_exec d hg o hs op]
    cases hx : s.exec o op with
    | error x => rfl
    | ok r =>
      obtain ⟨s1, out⟩ := r
      simp only [Except.map, Prod.map, id, Res.ok_bind]
      have := play_shift hg (System.exec_inv hi hx) (exec_sane hi hs (hl (o, op) (by simp)) hx) (fun x h => hl x (List.mem_cons_of_mem _ h))
      refine Eq.trans (congrArg (fun R => R >>= _) this) ?_
      cases play l s1 <;> rfl

/-- **Nothing depends on where the origin is.**  Whatever calls a program makes on a new system, making them with every given position moved by
`d` panics in the same place or gives the same results (the same handles, the same acceptances), and ends in the same state moved by `d`. -/
theorem C71_history (hg : Homeless γ) (l : List (IterOrder × Op XReal γ)) (hl : ∀ x ∈ l, TameOp x.2) :
    play (l.map (Prod.map id (Op.shift d))) (System.new : System XReal γ) = (play l System.new).map (Prod.map (System.shift d) id) :=
  play_shift d hg System.inv_new Sane.new hl

/-- What the moved program reads from the moved system is what the program reads from the system, with the positions moved. -/
theorem C71_view (s : System XReal γ) (h : Handle) :
    (s.shift d).getEntity h = (s.getEntity h).map (Entity.shift d) ∧ (s.shift d).getCollider h = s.getCollider h ∧
    (s.shift d).collisionRecords = s.collisionRecords.map (CollisionRecord.shift d) := ⟨getEntity_shift d s.toWorld h, rfl, rfl⟩
end

/-- Gravity does not know where the origin is. -/
theorem C71_gravity : Homeless (GravityGenerator XReal) := by
  intro d g dt w h
  show (unwrap ((w.shift d).getEntity h) >>= _) = Except.map _ (unwrap (w.getEntity h) >>= _)
  rw [getEntity_shift]
  cases w.getEntity h <;> rfl

/-- A program: a floor, a ball three above it, gravity, an update of the floor's plane, and two steps. -/
noncomputable def ballOnFloor : List (IterOrder × Op XReal (GravityGenerator XReal)) :=
  [.addEntity { (Entity.new : Entity XReal) with ownMass := posInf },
   .addEntity { (Entity.new : Entity XReal) with ownMass := fin 1, position := ⟨fin 0, fin 3, fin 0⟩ },
   .addCollider (.plane PlaneCollider.new), .addCollider (.sphere (SphereCollider.new (fin 1))),
   .linkCollider ⟨0, 0⟩ (some ⟨0, 0⟩), .linkCollider ⟨1, 0⟩ (some ⟨1, 0⟩),
   .updateCollider ⟨0, 0⟩ (.plane { (PlaneCollider.new : PlaneCollider XReal) with normal := ⟨fin 0, fin 2, fin 0⟩ }),
   .addGenerator ⟨⟨fin 0, fin (-10), fin 0⟩⟩, .step (fin 1), .step (fin 1)].map (fun op => (IterOrder.id, op))

/-- The hypotheses of `C71_history` hold for that program and gravity. -/
theorem C71_history_applies : Homeless (GravityGenerator XReal) ∧ ∀ x ∈ ballOnFloor, TameOp x.2 := by
  refine ⟨C71_gravity, ?_⟩
  intro x hx
  simp only [ballOnFloor, List.map_cons, List.map_nil, List.mem_cons, List.not_mem_nil, or_false] at hx
  rcases hx with rfl | rfl | rfl | rfl | rfl | rfl | rfl | rfl | rfl | rfl <;> try trivial
  refine ⟨?_, ?_, ?_⟩ <;> constructor <;> intro h <;> cases h

/-- Moving is not doing nothing: the ball of that program, added at `(0, 3, 0)`, is added at `(5, 3, 0)` when everything is moved by `(5, 0, 0)`. -/
theorem C71_moves : ((({ (Entity.new : Entity XReal) with position := ⟨fin 0, fin 3, fin 0⟩ } : Entity XReal).shift ⟨5, 0, 0⟩).position) = ⟨fin 5, fin 3, fin 0⟩ := by
  show (⟨fin 0 + fin 5, fin 3 + fin 0, fin 0 + fin 0⟩ : Vec3 XReal) = _
  simp

end Fluffy.Props
