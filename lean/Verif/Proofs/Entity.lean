import Verif.Proofs.Basic
/- Generic lemmas (any scalar type) about `recalculate_mass` and `wake_up`. -/
set_option linter.unusedSectionVars false
set_option linter.unusedSimpArgs false
namespace Fluffy.InternalEntity
variable {α : Type} [Scalar α]

/-! ### recalculate_mass -/

/-- `e'` differs from `e` at most in the mass properties, the position and the origin offset. -/
def MassRel (e e' : InternalEntity α) : Prop :=
  e' = { e with
    totalMass := e'.totalMass, preppedMoment := e'.preppedMoment
    orientation := { e.orientation with
      position := e'.orientation.position, internalOriginOffset := e'.orientation.internalOriginOffset } }

theorem MassRel.refl (e : InternalEntity α) : MassRel e e := rfl

theorem MassRel.colliders {e e' : InternalEntity α} (h : MassRel e e') : e'.colliders = e.colliders := by rw [h]
theorem MassRel.neighbors {e e' : InternalEntity α} (h : MassRel e e') : e'.neighbors = e.neighbors := by rw [h]
theorem MassRel.ownMass {e e' : InternalEntity α} (h : MassRel e e') : e'.ownMass = e.ownMass := by rw [h]
theorem MassRel.asleep {e e' : InternalEntity α} (h : MassRel e e') : e'.asleep = e.asleep := by rw [h]
theorem MassRel.velocity {e e' : InternalEntity α} (h : MassRel e e') : e'.velocity = e.velocity := by rw [h]
theorem MassRel.angularVelocity {e e' : InternalEntity α} (h : MassRel e e') :
    e'.angularVelocity = e.angularVelocity := by rw [h]
theorem MassRel.rotation {e e' : InternalEntity α} (h : MassRel e e') :
    e'.orientation.rotation = e.orientation.rotation := by rw [h]

theorem recenter_massRel (e : InternalEntity α) (s : MassSum α) : MassRel e (e.recenter s) := by
  unfold recenter MassRel
  split <;> split <;> rfl

theorem recalculateMass_massRel {order : List Handle} {cs : Arena (Collider α)} {e e' : InternalEntity α}
    (h : recalculateMass order cs e = .ok e') : MassRel e e' := by
  unfold recalculateMass at h
  obtain ⟨s, -, h⟩ := Res.bind_eq_ok.mp h
  have hr := recenter_massRel e s
  have key : ∀ m, MassRel e { e.recenter s with preppedMoment := m } := by
    intro m; unfold MassRel at *; rw [hr]
  split at h
  · cases h; exact key _
  · obtain ⟨m, -, h⟩ := Res.bind_eq_ok.mp h
    cases h; exact key _

theorem massLoop_ok {o : Orientation α} {cs : Arena (Collider α)} :
    ∀ {order : List Handle} (acc : MassSum α), (∀ h ∈ order, ∃ c, cs.get h = some c) →
      ∃ s, massLoop o cs order acc = .ok s
  | [], acc, _ => ⟨acc, rfl⟩
  | h :: hs, acc, hl => by
    obtain ⟨c, hc⟩ := hl h (by simp)
    unfold massLoop
    rw [hc]
    simp only [unwrap_some, Res.ok_bind]
    split
    · exact ⟨_, rfl⟩
    · exact massLoop_ok _ (fun k hk => hl k (by simp [hk]))

theorem momentLoop_ok {o : Orientation α} {cs : Arena (Collider α)} :
    ∀ {order : List Handle} (acc : Mat3 α), (∀ h ∈ order, ∃ c, cs.get h = some c) →
      ∃ s, momentLoop o cs order acc = .ok s
  | [], acc, _ => ⟨acc, rfl⟩
  | h :: hs, acc, hl => by
    obtain ⟨c, hc⟩ := hl h (by simp)
    unfold momentLoop
    rw [hc]
    simp only [unwrap_some, Res.ok_bind]
    exact momentLoop_ok _ (fun k hk => hl k (by simp [hk]))

theorem recalculateMass_ok {order : List Handle} {cs : Arena (Collider α)} (e : InternalEntity α)
    (hl : ∀ h ∈ order, ∃ c, cs.get h = some c) : ∃ e', recalculateMass order cs e = .ok e' := by
  unfold recalculateMass
  obtain ⟨s, hs⟩ := massLoop_ok (o := e.orientation) ⟨Vec3.zeros, zero, false⟩ hl
  rw [hs]
  simp only [Res.ok_bind]
  split
  · exact ⟨_, rfl⟩
  · obtain ⟨m, hm⟩ := momentLoop_ok (o := (e.recenter s).orientation) Mat3.zeros hl
    rw [hm]
    exact ⟨_, rfl⟩

/-- The masses of the given colliders, in the given order. -/
def massesOf (cs : Arena (Collider α)) (order : List Handle) : List α :=
  order.filterMap (fun h => (cs.get h).map Collider.mass)

theorem massLoop_spec {o : Orientation α} {cs : Arena (Collider α)} :
    ∀ {order : List Handle} {acc s : MassSum α}, massLoop o cs order acc = .ok s →
      s.foundInfinite = (acc.foundInfinite || (massesOf cs order).any Scalar.isInfinite) ∧
      ((massesOf cs order).any Scalar.isInfinite = false →
        s.totalOtherMass = (massesOf cs order).foldl (· + ·) acc.totalOtherMass)
  | [], acc, s, h => by
    unfold massLoop at h; cases h; simp [massesOf]
  | k :: ks, acc, s, h => by
    unfold massLoop at h
    obtain ⟨c, hc, h⟩ := Res.bind_eq_ok.mp h
    rw [unwrap_eq_ok] at hc
    have hm : massesOf cs (k :: ks) = c.mass :: massesOf cs ks := by
      simp [massesOf, hc]
    rw [hm]
    split at h
    · rename_i hi
      cases h
      simp [hi]
    · rename_i hi
      obtain ⟨h1, h2⟩ := massLoop_spec h
      simp only [Bool.not_eq_true] at hi
      refine ⟨by simpa [hi] using h1, ?_⟩
      intro hany
      simp only [List.any_cons, hi, Bool.false_or] at hany
      simpa using h2 hany

/-- Own mass plus collider masses, summed in the given order as the code does. -/
def specMass (own : α) (masses : List α) : α :=
  if masses.any Scalar.isInfinite then Scalar.inf
  else
    let sum := masses.foldl (· + ·) zero
    if Scalar.lt zero sum then own + sum else own

theorem recalculateMass_totalMass {order : List Handle} {cs : Arena (Collider α)} {e e' : InternalEntity α}
    (h : recalculateMass order cs e = .ok e') : e'.totalMass = specMass e.ownMass (massesOf cs order) := by
  unfold recalculateMass at h
  obtain ⟨s, hs, h⟩ := Res.bind_eq_ok.mp h
  obtain ⟨h1, h2⟩ := massLoop_spec hs
  have key : (e.recenter s).totalMass = specMass e.ownMass (massesOf cs order) := by
    unfold recenter specMass
    simp only [Bool.false_or] at h1
    rw [h1]
    cases hany : (massesOf cs order).any Scalar.isInfinite
    · rw [h2 hany]
      simp only [Bool.not_false, Bool.and_true, Bool.false_eq_true, if_false]
      split <;> rfl
    · simp
  split at h
  · cases h; exact key
  · obtain ⟨m, -, h⟩ := Res.bind_eq_ok.mp h
    cases h; exact key

/-! ### wake_up -/

/-- `e'` differs from `e` at most in the sleep flag and the neighbour set. -/
def WakeRel (e e' : InternalEntity α) : Prop :=
  e' = { e with asleep := e'.asleep, neighbors := e'.neighbors }

theorem WakeRel.refl (e : InternalEntity α) : WakeRel e e := rfl
theorem WakeRel.trans {a b c : InternalEntity α} (h : WakeRel a b) (h' : WakeRel b c) : WakeRel a c := by
  unfold WakeRel at *; rw [h', h]
theorem WakeRel.totalMass {e e' : InternalEntity α} (h : WakeRel e e') : e'.totalMass = e.totalMass := by rw [h]
theorem WakeRel.colliders {e e' : InternalEntity α} (h : WakeRel e e') : e'.colliders = e.colliders := by rw [h]

theorem WakeRel.ext {e x y : InternalEntity α} (hx : WakeRel e x) (hy : WakeRel e y)
    (h1 : x.asleep = y.asleep) (h2 : x.neighbors = y.neighbors) : x = y := by
  rw [hx, hy, h1, h2]

/-- What the neighbour loop does to the state. -/
theorem wakeNeighbors_spec {target : Handle} : ∀ {ns : List Handle} {st st' : WakeState α},
    target ∈ st.completed → wakeNeighbors target ns st = .ok st' →
      st'.completed = st.completed ∧
      Arena.Evolves WakeRel st.entities st'.entities ∧
      (∀ h e e', st.entities.get h = some e → st'.entities.get h = some e' →
        e'.asleep = e.asleep ∧
        e'.neighbors = if h ∈ ns ∧ h ∉ st.completed ∧ Scalar.isInfinite e.totalMass = true
          then hsRemove e.neighbors target else e.neighbors) ∧
      (∃ q, st'.queue = st.queue ++ q ∧ q.length ≤ ns.length ∧
        ∀ n, n ∈ q ↔ n ∈ ns ∧ n ∉ st.completed ∧
          ∃ e, st.entities.get n = some e ∧ Scalar.isInfinite e.totalMass = false) ∧
      (∀ n ∈ ns, n ∉ st.completed → ∃ e, st.entities.get n = some e)
  | [], st, st', _, h => by
    unfold wakeNeighbors at h
    cases h
    refine ⟨rfl, .refl WakeRel.refl _, ?_, ⟨[], by simp⟩, by simp⟩
    intro h e e' he he'
    rw [he] at he'; cases he'
    simp
  | n :: ns, st, st', ht, h => by
    unfold wakeNeighbors at h
    split at h
    · rename_i hn
      obtain ⟨h1, h2, h3, ⟨q, hq, hql, hqm⟩, h5⟩ := wakeNeighbors_spec ht h
      refine ⟨h1, h2, ?_, ⟨q, hq, by simp; omega, ?_⟩, ?_⟩
      · intro h e e' he he'
        obtain ⟨ha, hb⟩ := h3 h e e' he he'
        refine ⟨ha, ?_⟩
        rw [hb]
        congr 1
        simp only [List.mem_cons, eq_iff_iff]
        constructor
        · rintro ⟨a, b⟩; exact ⟨Or.inr a, b⟩
        · rintro ⟨a | a, b, c⟩
          · subst a; exact absurd hn b
          · exact ⟨a, b, c⟩
      · intro m
        rw [hqm m]
        simp only [List.mem_cons]
        constructor
        · rintro ⟨a, b⟩; exact ⟨Or.inr a, b⟩
        · rintro ⟨a | a, b, c⟩
          · subst a; exact absurd hn b
          · exact ⟨a, b, c⟩
      · intro m hm hmc
        rcases List.mem_cons.mp hm with rfl | hm
        · exact absurd hn hmc
        · exact h5 m hm hmc
    · rename_i hn
      obtain ⟨e0, he0, h⟩ := Res.bind_eq_ok.mp h
      rw [unwrap_eq_ok] at he0
      split at h
      · rename_i hinf
        have hrel : WakeRel e0 { e0 with neighbors := hsRemove e0.neighbors target } := rfl
        have hev : Arena.Evolves WakeRel st.entities
            (st.entities.set n { e0 with neighbors := hsRemove e0.neighbors target }) :=
          .set WakeRel.refl he0 hrel
        obtain ⟨h1, h2, h3, ⟨q, hq, hql, hqm⟩, h5⟩ := wakeNeighbors_spec (st := { st with
          entities := st.entities.set n { e0 with neighbors := hsRemove e0.neighbors target }
          debug := st.debug ++ [DebugMsg.removedFrom target n] }) ht h
        simp only at h1 h2 h3 hq hqm h5
        refine ⟨h1, Arena.Evolves.trans (fun x y z => WakeRel.trans (a := x) (b := y) (c := z)) hev h2, ?_, ⟨q, hq, by simp; omega, ?_⟩, ?_⟩
        · intro h e e' he he'
          obtain ⟨m, hm, hmr⟩ := hev.get he
          obtain ⟨ha, hb⟩ := h3 h m e' hm he'
          by_cases hhn : h = n
          · subst hhn
            rw [Arena.get_set_self he0] at hm
            rw [he0] at he
            cases he
            cases hm
            refine ⟨ha, ?_⟩
            rw [hb]
            simp only [List.mem_cons, true_or, true_and, hn, not_false_eq_true, hinf, and_self, if_true]
            split
            · simp [hsRemove]
            · rfl
          · rw [Arena.get_set_ne hhn] at hm
            rw [he] at hm
            cases hm
            refine ⟨ha, ?_⟩
            rw [hb]
            simp [hhn]
        · intro m
          rw [hqm m]
          simp only [List.mem_cons]
          by_cases hmn : m = n
          · subst hmn
            constructor
            · rintro ⟨a, b, e, he, hef⟩
              rw [Arena.get_set_self he0] at he
              cases he
              simp only at hef
              rw [hinf] at hef
              cases hef
            · rintro ⟨a, b, e, he, hef⟩
              rw [he0] at he; cases he
              rw [hinf] at hef
              cases hef
          · simp only [hmn, false_or]
            rw [Arena.get_set_ne hmn]
        · intro m hm hmc
          rcases List.mem_cons.mp hm with rfl | hm
          · exact ⟨e0, he0⟩
          · obtain ⟨e, he⟩ := h5 m hm hmc
            obtain ⟨x, hx, -⟩ := hev.get' he
            exact ⟨x, hx⟩
      · rename_i hinf
        simp only [Bool.not_eq_true] at hinf
        obtain ⟨h1, h2, h3, ⟨q, hq, hql, hqm⟩, h5⟩ := wakeNeighbors_spec (st := { st with
          queue := st.queue ++ [n] }) ht h
        simp only at h1 h2 h3 hq hqm h5
        refine ⟨h1, h2, ?_, ⟨n :: q, by rw [hq]; simp, by simp; omega, ?_⟩, ?_⟩
        · intro h e e' he he'
          obtain ⟨ha, hb⟩ := h3 h e e' he he'
          refine ⟨ha, ?_⟩
          rw [hb]
          by_cases hhn : h = n
          · subst hhn
            rw [he0] at he; cases he
            simp [hinf]
          · simp [hhn]
        · intro m
          simp only [List.mem_cons, hqm m]
          constructor
          · rintro (rfl | ⟨a, b⟩)
            · exact ⟨Or.inl rfl, hn, e0, he0, hinf⟩
            · exact ⟨Or.inr a, b⟩
          · rintro ⟨a | a, b⟩
            · exact Or.inl a
            · exact Or.inr ⟨a, b⟩
        · intro m hm hmc
          rcases List.mem_cons.mp hm with rfl | hm
          · exact ⟨e0, he0⟩
          · exact h5 m hm hmc

/-- The neighbour loop succeeds if the neighbours are live. -/
theorem wakeNeighbors_ok {target : Handle} : ∀ {ns : List Handle} (st : WakeState α),
    (∀ n ∈ ns, ∃ e, st.entities.get n = some e) → ∃ st', wakeNeighbors target ns st = .ok st'
  | [], st, _ => ⟨st, rfl⟩
  | n :: ns, st, hl => by
    unfold wakeNeighbors
    split
    · exact wakeNeighbors_ok st (fun m hm => hl m (by simp [hm]))
    · obtain ⟨e, he⟩ := hl n (by simp)
      rw [he]
      simp only [unwrap_some, Res.ok_bind]
      split
      · refine wakeNeighbors_ok _ (fun m hm => ?_)
        obtain ⟨e', he'⟩ := hl m (by simp [hm])
        simp only [Arena.get_set]
        split
        · rw [he]; exact ⟨_, rfl⟩
        · exact ⟨e', he'⟩
      · exact wakeNeighbors_ok _ (fun m hm => hl m (by simp [hm]))

theorem wakeNeighbors_not_diverge {target : Handle} : ∀ {ns : List Handle} (st : WakeState α),
    wakeNeighbors target ns st ≠ .error .diverge
  | [], st => by simp [wakeNeighbors]
  | n :: ns, st => by
    unfold wakeNeighbors
    split
    · exact wakeNeighbors_not_diverge st
    · cases he : st.entities.get n with
      | none => simp [unwrap]
      | some e =>
        simp only [unwrap_some, Res.ok_bind]
        split
        · exact wakeNeighbors_not_diverge _
        · exact wakeNeighbors_not_diverge _

/-! The termination measure. -/

/-- the summand of `linkCount` -/
def slotLinks : Option (Nat × InternalEntity α) → Nat
  | some (_, e) => e.neighbors.length
  | none => 0

theorem linkCount_eq (a : Arena (InternalEntity α)) : linkCount a = (a.items.map slotLinks).sum := by
  unfold linkCount
  congr 1

theorem sum_map_set {τ : Type} (f : τ → Nat) : ∀ (l : List τ) (i : Nat) (x y : τ), l[i]? = some x →
    ((l.set i y).map f).sum + f x = (l.map f).sum + f y
  | [], i, x, y, h => by simp at h
  | a :: l, 0, x, y, h => by
    simp at h; subst h; simp; omega
  | a :: l, i + 1, x, y, h => by
    simp at h
    have := sum_map_set f l i x y h
    simp only [List.set_cons_succ, List.map_cons, List.sum_cons]; omega

theorem linkCount_set {a : Arena (InternalEntity α)} {h : Handle} {e : InternalEntity α}
    (he : a.get h = some e) (e' : InternalEntity α) :
    linkCount (a.set h e') + e.neighbors.length = linkCount a + e'.neighbors.length := by
  rw [Arena.set_of_some he, linkCount_eq, linkCount_eq]
  exact sum_map_set slotLinks a.items h.index _ _ (Arena.get_eq_some.mp he)

theorem wakeNeighbors_linkCount {target : Handle} : ∀ {ns : List Handle} {st st' : WakeState α},
    wakeNeighbors target ns st = .ok st' → linkCount st'.entities ≤ linkCount st.entities
  | [], st, st', h => by unfold wakeNeighbors at h; cases h; exact Nat.le_refl _
  | n :: ns, st, st', h => by
    unfold wakeNeighbors at h
    split at h
    · exact wakeNeighbors_linkCount h
    · obtain ⟨e, he, h⟩ := Res.bind_eq_ok.mp h
      rw [unwrap_eq_ok] at he
      split at h
      · have h1 := wakeNeighbors_linkCount h
        have h2 := linkCount_set he { e with neighbors := hsRemove e.neighbors target }
        have h3 : (hsRemove e.neighbors target).length ≤ e.neighbors.length := List.length_filter_le _ _
        simp only at h1 h2
        omega
      · have h1 := wakeNeighbors_linkCount h
        exact h1

/-- The `while` loop of `wake_up` always ends: the fuel never runs out. -/
theorem wakeLoop_not_diverge (ord : IterOrder) : ∀ (fuel : Nat) (st : WakeState α),
    st.queue.length + linkCount st.entities ≤ fuel → wakeLoop ord fuel st ≠ .error .diverge := by
  intro fuel
  induction fuel with
  | zero =>
    intro st h
    unfold wakeLoop
    split
    · simp
    · rename_i hq; rw [hq] at h; simp at h
  | succ fuel ih =>
    intro st h
    unfold wakeLoop
    split
    · simp
    · rename_i target rest hq
      simp only
      cases he : st.entities.get target with
      | none => simp [unwrap]
      | some e =>
        simp only [unwrap_some, Res.ok_bind]
        cases hn : wakeNeighbors target (ord.neighbors target e.neighbors)
            { st with queue := rest, completed := hsInsert st.completed target } with
        | error p =>
          simp only [Res.error_bind]
          intro hc
          cases hc
          exact wakeNeighbors_not_diverge _ hn
        | ok st' =>
          simp only [Res.ok_bind]
          obtain ⟨h1, h2, h3, ⟨q, hqe, hql, -⟩, -⟩ :=
            wakeNeighbors_spec (by simp [mem_hsInsert]) hn
          have hlc := wakeNeighbors_linkCount hn
          simp only at hlc hqe
          cases he' : st'.entities.get target with
          | none => simp [unwrap]
          | some e' =>
            simp only [unwrap_some, Res.ok_bind]
            apply ih
            simp only
            obtain ⟨-, hnb⟩ := h3 target e e' he he'
            rw [if_neg (by simp [mem_hsInsert])] at hnb
            have hset := linkCount_set he' { e' with asleep := false, neighbors := [] }
            simp only [List.length_nil, hnb] at hset
            have hperm := (ord.neighbors_perm target e.neighbors).length_eq
            rw [hq] at h
            rw [hqe]
            simp only [List.length_cons, List.length_append] at h ⊢
            omega

theorem wakeUp_not_diverge (ord : IterOrder) (start : Handle) (a : Arena (InternalEntity α)) (d : List DebugMsg) :
    wakeUp ord start a d ≠ .error .diverge := by
  unfold wakeUp
  cases h : wakeLoop ord (1 + linkCount a) ⟨a, [], [start], d⟩ with
  | ok st => simp
  | error p =>
    intro hc
    simp only [Res.error_bind] at hc
    cases hc
    exact wakeLoop_not_diverge ord _ _ (by simp) h

/-! What `wake_up` computes. -/

/-- The resting cluster of `start`: `start` itself and whatever can be reached from it through
neighbour links that lead to entities whose mass is not infinite. -/
inductive Cluster (a : Arena (InternalEntity α)) (start : Handle) : Handle → Prop
  | start : Cluster a start start
  | link {t n : Handle} {e m : InternalEntity α} : Cluster a start t → a.get t = some e → n ∈ e.neighbors →
      a.get n = some m → Scalar.isInfinite m.totalMass = false → Cluster a start n

/-- `h` lies on the neighbour list of `t` in `a` -/
def Lists (a : Arena (InternalEntity α)) (t h : Handle) : Prop := ∃ e, a.get t = some e ∧ h ∈ e.neighbors

/-- Loop invariant of `wake_up`. -/
structure WakeInv (a : Arena (InternalEntity α)) (start : Handle) (st : WakeState α) : Prop where
  rel : Arena.Evolves WakeRel a st.entities
  done : ∀ h e, h ∈ st.completed → st.entities.get h = some e → e.asleep = false ∧ e.neighbors = []
  todo : ∀ h e e', h ∉ st.completed → a.get h = some e → st.entities.get h = some e' → e'.asleep = e.asleep ∧
    (Scalar.isInfinite e.totalMass = false → e'.neighbors = e.neighbors) ∧
    (Scalar.isInfinite e.totalMass = true → ∀ t, t ∈ e'.neighbors ↔ t ∈ e.neighbors ∧ ¬(t ∈ st.completed ∧ Lists a t h)) ∧
    (st.completed = [] → e'.neighbors = e.neighbors) ∧ List.Sublist e'.neighbors e.neighbors
  sub : ∀ h, h ∈ st.completed ∨ h ∈ st.queue → Cluster a start h
  started : start ∈ st.completed ∨ start ∈ st.queue
  closed : ∀ t n e, t ∈ st.completed → a.get t = some e → n ∈ e.neighbors → ∃ m, a.get n = some m ∧
    (Scalar.isInfinite m.totalMass = false → n ∈ st.completed ∨ n ∈ st.queue)
  live : ∀ h, h ∈ st.completed → ∃ e, a.get h = some e
  queued : (st.completed = [] ∧ st.queue = [start]) ∨
    ∀ h ∈ st.queue, ∀ e, a.get h = some e → Scalar.isInfinite e.totalMass = false ∨ h ∈ st.completed

theorem wakeInv_init (a : Arena (InternalEntity α)) (start : Handle) (d : List DebugMsg) :
    WakeInv a start ⟨a, [], [start], d⟩ := by
  refine ⟨.refl WakeRel.refl a, by simp, ?_, ?_, by simp, by simp, by simp, by simp⟩
  · intro h e e' _ he he'
    rw [he] at he'; cases he'
    simp
  · intro h hh
    simp only [List.not_mem_nil, List.mem_singleton, false_or] at hh
    subst hh; exact .start

/-- The invariant after one iteration. -/
theorem wakeInv_step {ord : IterOrder} {a : Arena (InternalEntity α)} {start target : Handle} {rest : List Handle}
    {st st2 : WakeState α} {e e2 : InternalEntity α} {d : List DebugMsg}
    (inv : WakeInv a start st) (hq : st.queue = target :: rest)
    (he : st.entities.get target = some e)
    (hn : wakeNeighbors target (ord.neighbors target e.neighbors)
      { st with queue := rest, completed := hsInsert st.completed target } = .ok st2)
    (he2 : st2.entities.get target = some e2) :
    WakeInv a start { st2 with
      entities := st2.entities.set target { e2 with asleep := false, neighbors := [] }, debug := d } := by
  obtain ⟨hc, hev, hnb, ⟨q, hqe, -, hqm⟩, hlv⟩ := wakeNeighbors_spec (by simp [mem_hsInsert]) hn
  simp only at hc hev hnb hqe hqm hlv
  obtain ⟨E, hE, hEe⟩ := inv.rel.get' he
  have hset : Arena.Evolves WakeRel st2.entities
      (st2.entities.set target { e2 with asleep := false, neighbors := [] }) := .set WakeRel.refl he2 rfl
  have hperm : ∀ n, n ∈ ord.neighbors target e.neighbors ↔ n ∈ e.neighbors :=
    fun n => (ord.neighbors_perm target e.neighbors).mem_iff
  -- the neighbours read in this iteration
  have hNnew : target ∉ st.completed → e.neighbors = E.neighbors := by
    intro ht
    obtain ⟨-, h2, -, h4, -⟩ := inv.todo target E e ht hE he
    rcases inv.queued with ⟨h, -⟩ | h
    · exact h4 h
    · rcases h target (by rw [hq]; simp) E hE with h | h
      · exact h2 h
      · exact absurd h ht
  have hNold : target ∈ st.completed → e.neighbors = [] := fun ht => (inv.done target e ht he).2
  have hmem : ∀ h, h ∈ st2.completed ↔ h ∈ st.completed ∨ h = target := by
    intro h; rw [hc]; exact mem_hsInsert
  have hrelS : Arena.Evolves WakeRel a st2.entities :=
    Arena.Evolves.trans (fun x y z => WakeRel.trans (a := x) (b := y) (c := z)) inv.rel hev
  -- entities other than the target
  have hget : ∀ h, h ≠ target →
      (st2.entities.set target { e2 with asleep := false, neighbors := [] }).get h = st2.entities.get h :=
    fun h hh => Arena.get_set_ne hh _
  refine ⟨Arena.Evolves.trans (fun x y z => WakeRel.trans (a := x) (b := y) (c := z)) hrelS hset,
    ?_, ?_, ?_, ?_, ?_, ?_, ?_⟩
  · -- done
    intro h x hh hx
    simp only at hh hx
    by_cases hht : h = target
    · subst hht
      rw [Arena.get_set_self he2] at hx
      cases hx; exact ⟨rfl, rfl⟩
    · rw [hget h hht] at hx
      have hcomp : h ∈ st.completed := by
        rcases (hmem h).mp hh with h' | h'
        · exact h'
        · exact absurd h' hht
      obtain ⟨y, hy, -⟩ := hev.get' hx
      obtain ⟨d1, d2⟩ := inv.done h y hcomp hy
      obtain ⟨n1, n2⟩ := hnb h y x hy hx
      rw [if_neg (by simp [mem_hsInsert, hcomp])] at n2
      exact ⟨by rw [n1, d1], by rw [n2, d2]⟩
  · -- todo
    intro h H x hh hH hx
    simp only at hh hx
    have hht : h ≠ target := fun hc' => hh ((hmem h).mpr (Or.inr hc'))
    have hcomp : h ∉ st.completed := fun hc' => hh ((hmem h).mpr (Or.inl hc'))
    rw [hget h hht] at hx
    obtain ⟨y, hy, -⟩ := hev.get' hx
    obtain ⟨t1, t2, t3, t4, t5⟩ := inv.todo h H y hcomp hH hy
    obtain ⟨n1, n2⟩ := hnb h y x hy hx
    have hym : y.totalMass = H.totalMass := (inv.rel.rel h H y hH hy).totalMass
    refine ⟨by rw [n1, t1], ?_, ?_, ?_, ?_⟩
    · intro hfin
      rw [if_neg (by rw [hym, hfin]; simp)] at n2
      rw [n2, t2 hfin]
    · intro hinf t
      have hin : h ∈ e.neighbors ↔ target ∉ st.completed ∧ Lists a target h := by
        by_cases ht : target ∈ st.completed
        · rw [hNold ht]; simp [ht]
        · rw [hNnew ht]
          constructor
          · intro hh'; exact ⟨ht, E, hE, hh'⟩
          · rintro ⟨-, E', hE', hh'⟩
            rw [hE] at hE'; cases hE'; exact hh'
      have hcond : (h ∈ ord.neighbors target e.neighbors ∧ h ∉ hsInsert st.completed target ∧
          Scalar.isInfinite y.totalMass = true) ↔ (target ∉ st.completed ∧ Lists a target h) := by
        rw [hperm, hin, hym, hinf]
        simp [mem_hsInsert, hcomp, hht]
      rw [hmem t]
      by_cases hcd : target ∉ st.completed ∧ Lists a target h
      · rw [if_pos (hcond.mpr hcd)] at n2
        rw [n2, mem_hsRemove, t3 hinf t]
        constructor
        · rintro ⟨⟨a1, a2⟩, a3⟩
          refine ⟨a1, ?_⟩
          rintro ⟨b1 | b1, b2⟩
          · exact a2 ⟨b1, b2⟩
          · exact a3 b1
        · rintro ⟨a1, a2⟩
          refine ⟨⟨a1, fun hh' => a2 ⟨Or.inl hh'.1, hh'.2⟩⟩, ?_⟩
          intro hh'
          subst hh'
          exact a2 ⟨Or.inr rfl, hcd.2⟩
      · rw [if_neg (fun hh' => hcd (hcond.mp hh'))] at n2
        rw [n2, t3 hinf t]
        constructor
        · rintro ⟨a1, a2⟩
          refine ⟨a1, ?_⟩
          rintro ⟨b1 | b1, b2⟩
          · exact a2 ⟨b1, b2⟩
          · subst b1
            by_cases ht : t ∈ st.completed
            · exact a2 ⟨ht, b2⟩
            · exact hcd ⟨ht, b2⟩
        · rintro ⟨a1, a2⟩
          exact ⟨a1, fun hh' => a2 ⟨Or.inl hh'.1, hh'.2⟩⟩
    · intro hnil
      exfalso
      simp only at hnil
      have := (hmem target).mpr (Or.inr rfl)
      rw [hnil] at this
      cases this
    · rw [n2]
      split
      · exact List.Sublist.trans (List.filter_sublist) t5
      · exact t5
  · -- sub
    intro h hh
    simp only at hh
    rcases hh with hh | hh
    · rcases (hmem h).mp hh with h' | h'
      · exact inv.sub h (Or.inl h')
      · subst h'; exact inv.sub h (Or.inr (by rw [hq]; simp))
    · rw [hqe, List.mem_append] at hh
      rcases hh with hh | hh
      · exact inv.sub h (Or.inr (by rw [hq]; simp [hh]))
      · obtain ⟨h1, -, m, hm, hmf⟩ := (hqm h).mp hh
        rw [hperm] at h1
        obtain ⟨M, hM, hMm⟩ := inv.rel.get' hm
        have hEn : h ∈ E.neighbors := by
          by_cases ht : target ∈ st.completed
          · rw [hNold ht] at h1; cases h1
          · rw [← hNnew ht]; exact h1
        exact .link (inv.sub target (Or.inr (by rw [hq]; simp))) hE hEn hM (by rw [← hMm.totalMass]; exact hmf)
  · -- start
    simp only
    rcases inv.started with h | h
    · exact Or.inl ((hmem _).mpr (Or.inl h))
    · rw [hq] at h
      rcases List.mem_cons.mp h with h | h
      · exact Or.inl ((hmem _).mpr (Or.inr h))
      · exact Or.inr (by rw [hqe]; simp [h])
  · -- closed
    intro t n T ht hT hnT
    simp only at ht ⊢
    have lift : ∀ x, x ∈ st.completed ∨ x ∈ st.queue → x ∈ st2.completed ∨ x ∈ st2.queue := by
      rintro x (hx | hx)
      · exact Or.inl ((hmem x).mpr (Or.inl hx))
      · rw [hq] at hx
        rcases List.mem_cons.mp hx with hx | hx
        · exact Or.inl ((hmem x).mpr (Or.inr hx))
        · exact Or.inr (by rw [hqe]; simp [hx])
    by_cases htc : t ∈ st.completed
    · obtain ⟨m, hm, hmf⟩ := inv.closed t n T htc hT hnT
      exact ⟨m, hm, fun hf => lift n (hmf hf)⟩
    · have htt : t = target := by
        rcases (hmem t).mp ht with h | h
        · exact absurd h htc
        · exact h
      subst htt
      rw [hE] at hT; cases hT
      rw [← hNnew htc] at hnT
      by_cases hncomp : n ∈ hsInsert st.completed t
      · have hn2 : n ∈ st2.completed := by rw [hc]; exact hncomp
        have : ∃ m, a.get n = some m := by
          rcases mem_hsInsert.mp hncomp with h | h
          · exact inv.live n h
          · subst h; exact ⟨E, hE⟩
        obtain ⟨m, hm⟩ := this
        exact ⟨m, hm, fun _ => Or.inl hn2⟩
      · obtain ⟨m, hm⟩ := hlv n ((hperm n).mpr hnT) hncomp
        obtain ⟨M, hM, hMm⟩ := inv.rel.get' hm
        refine ⟨M, hM, fun hf => Or.inr ?_⟩
        rw [hqe, List.mem_append]
        right
        exact (hqm n).mpr ⟨(hperm n).mpr hnT, hncomp, m, hm, by rw [hMm.totalMass]; exact hf⟩
  · -- live
    intro h hh
    simp only at hh
    rcases (hmem h).mp hh with h' | h'
    · exact inv.live h h'
    · subst h'; exact ⟨E, hE⟩
  · -- queued
    right
    intro h hh x hx
    simp only at hh ⊢
    rw [hqe, List.mem_append] at hh
    rcases hh with hh | hh
    · rcases inv.queued with ⟨h1, h2⟩ | h1
      · rw [hq] at h2
        simp only [List.cons.injEq] at h2
        rw [h2.2] at hh; cases hh
      · rcases h1 h (by rw [hq]; simp [hh]) x hx with h' | h'
        · exact Or.inl h'
        · exact Or.inr ((hmem h).mpr (Or.inl h'))
    · obtain ⟨-, -, m, hm, hmf⟩ := (hqm h).mp hh
      left
      rw [← (inv.rel.rel h x m hx hm).totalMass]; exact hmf

theorem wakeLoop_inv (ord : IterOrder) {a : Arena (InternalEntity α)} {start : Handle} :
    ∀ (fuel : Nat) {st st' : WakeState α}, WakeInv a start st → wakeLoop ord fuel st = .ok st' →
      WakeInv a start st' ∧ st'.queue = [] := by
  intro fuel
  induction fuel with
  | zero =>
    intro st st' inv h
    unfold wakeLoop at h
    split at h
    · rename_i hq; cases h; exact ⟨inv, hq⟩
    · cases h
  | succ fuel ih =>
    intro st st' inv h
    unfold wakeLoop at h
    split at h
    · rename_i hq; cases h; exact ⟨inv, hq⟩
    · rename_i target rest hq
      simp only at h
      obtain ⟨e, he, h⟩ := Res.bind_eq_ok.mp h
      obtain ⟨st2, hst2, h⟩ := Res.bind_eq_ok.mp h
      obtain ⟨e2, he2, h⟩ := Res.bind_eq_ok.mp h
      rw [unwrap_eq_ok] at he he2
      exact ih (wakeInv_step inv hq he hst2 he2) h

/-- If every neighbour of the resting cluster is live, `wake_up` does not panic. -/
theorem wakeLoop_ok (ord : IterOrder) {a : Arena (InternalEntity α)} {start : Handle}
    (hs : ∃ e, a.get start = some e)
    (hl : ∀ t e n, Cluster a start t → a.get t = some e → n ∈ e.neighbors → ∃ m, a.get n = some m) :
    ∀ (fuel : Nat) {st : WakeState α}, WakeInv a start st → st.queue.length + linkCount st.entities ≤ fuel →
      ∃ st', wakeLoop ord fuel st = .ok st' := by
  intro fuel st inv hm
  cases h : wakeLoop ord fuel st with
  | ok st' => exact ⟨st', rfl⟩
  | error p =>
    exfalso
    have hnd := wakeLoop_not_diverge ord fuel st hm
    have : p = .diverge := by
      clear hnd hm
      induction fuel generalizing st with
      | zero =>
        unfold wakeLoop at h
        split at h
        · cases h
        · cases h; rfl
      | succ fuel ih =>
        unfold wakeLoop at h
        split at h
        · cases h
        · rename_i target rest hq
          simp only at h
          have hcl : Cluster a start target := inv.sub target (Or.inr (by rw [hq]; simp))
          have hlive : ∃ E, a.get target = some E := by
            cases hcl with
            | start => exact hs
            | link h1 h2 h3 h4 h5 => exact ⟨_, h4⟩
          obtain ⟨E, hE⟩ := hlive
          obtain ⟨e, he, hEe⟩ := inv.rel.get hE
          rw [he] at h
          simp only [unwrap_some, Res.ok_bind] at h
          have hsub : ∀ n ∈ e.neighbors, n ∈ E.neighbors := by
            intro n hn
            by_cases ht : target ∈ st.completed
            · rw [(inv.done target e ht he).2] at hn; cases hn
            · exact (inv.todo target E e ht hE he).2.2.2.2.subset hn
          obtain ⟨st2, hst2⟩ := wakeNeighbors_ok (target := target)
            (ns := ord.neighbors target e.neighbors)
            { st with queue := rest, completed := hsInsert st.completed target } (by
              intro n hn
              rw [(ord.neighbors_perm target e.neighbors).mem_iff] at hn
              obtain ⟨M, hM⟩ := hl target E n hcl hE (hsub n hn)
              obtain ⟨m, hm, -⟩ := inv.rel.get hM
              exact ⟨m, hm⟩)
          rw [hst2] at h
          simp only [Res.ok_bind] at h
          obtain ⟨-, hev, -⟩ := wakeNeighbors_spec (by simp [mem_hsInsert]) hst2
          obtain ⟨e2, he2, -⟩ := hev.get he
          rw [he2] at h
          simp only [unwrap_some, Res.ok_bind] at h
          exact ih (wakeInv_step inv hq he hst2 he2) h
    rw [h, this] at hnd
    exact hnd rfl

/-- Full description of `wake_up`. -/
theorem wakeUp_spec {ord : IterOrder} {start : Handle} {a b : Arena (InternalEntity α)} {d d' : List DebugMsg}
    (h : wakeUp ord start a d = .ok (b, d')) :
    Arena.Evolves WakeRel a b ∧
    (∀ k e e', a.get k = some e → b.get k = some e' →
      (Cluster a start k → e'.asleep = false ∧ e'.neighbors = []) ∧
      (¬Cluster a start k → e'.asleep = e.asleep ∧
        (Scalar.isInfinite e.totalMass = false → e'.neighbors = e.neighbors) ∧
        (Scalar.isInfinite e.totalMass = true → ∀ t, t ∈ e'.neighbors ↔ t ∈ e.neighbors ∧ ¬(Cluster a start t ∧ Lists a t k))) ∧
      List.Sublist e'.neighbors e.neighbors) ∧
    (∀ t, Cluster a start t → ∃ e, a.get t = some e ∧ ∀ n ∈ e.neighbors, ∃ m, a.get n = some m) := by
  unfold wakeUp at h
  obtain ⟨st, hst, h⟩ := Res.bind_eq_ok.mp h
  cases h
  obtain ⟨inv, hq⟩ := wakeLoop_inv ord _ (wakeInv_init a start d) hst
  have hcl : ∀ k, k ∈ st.completed ↔ Cluster a start k := by
    intro k
    constructor
    · intro hk; exact inv.sub k (Or.inl hk)
    · intro hk
      induction hk with
      | start =>
        rcases inv.started with h | h
        · exact h
        · rw [hq] at h; cases h
      | link h1 h2 h3 h4 h5 ih =>
        obtain ⟨m', hm', hmf⟩ := inv.closed _ _ _ ih h2 h3
        rw [h4] at hm'
        cases hm'
        rcases hmf h5 with h | h
        · exact h
        · rw [hq] at h; cases h
  refine ⟨inv.rel, ?_, ?_⟩
  · intro k e e' he he'
    refine ⟨?_, ?_, ?_⟩
    · intro hk
      exact inv.done k e' ((hcl k).mpr hk) he'
    · intro hk
      obtain ⟨t1, t2, t3, -, -⟩ := inv.todo k e e' (fun hc => hk ((hcl k).mp hc)) he he'
      refine ⟨t1, t2, ?_⟩
      intro hi t
      rw [t3 hi t, hcl t]
    · by_cases hk : k ∈ st.completed
      · rw [(inv.done k e' hk he').2]; exact List.nil_sublist _
      · exact (inv.todo k e e' hk he he').2.2.2.2
  · intro t ht
    obtain ⟨e, he⟩ := inv.live t ((hcl t).mpr ht)
    refine ⟨e, he, ?_⟩
    intro n hn
    obtain ⟨m, hm, -⟩ := inv.closed t n e ((hcl t).mpr ht) he hn
    exact ⟨m, hm⟩

theorem wakeUp_ok {ord : IterOrder} {start : Handle} {a : Arena (InternalEntity α)} (d : List DebugMsg)
    (hs : ∃ e, a.get start = some e)
    (hl : ∀ t e n, Cluster a start t → a.get t = some e → n ∈ e.neighbors → ∃ m, a.get n = some m) :
    ∃ b d', wakeUp ord start a d = .ok (b, d') := by
  obtain ⟨st, hst⟩ := wakeLoop_ok ord hs hl (1 + linkCount a) (wakeInv_init a start d) (by simp)
  unfold wakeUp
  rw [hst]
  exact ⟨_, _, rfl⟩

end Fluffy.InternalEntity
