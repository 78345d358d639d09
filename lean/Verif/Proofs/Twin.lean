import Verif.Proofs.StepTotal
/-
Two runs of the same calls with different iteration orders of the hash sets: the states stay the same up to the order
of the neighbour sets and the debug messages, as long as the colliders of each entity are visited in the same order.
-/
set_option linter.unusedSectionVars false
set_option linter.unusedSimpArgs false
namespace Fluffy

namespace Arena
variable {τ : Type}

theorem SameShape.handles_eq {σ : Type} {a : Arena τ} {b : Arena σ} (h : SameShape a b) : a.handles = b.handles :=
  handlesFrom_congr 0 _ _ h.items

theorem SameShape.set {σ : Type} {a : Arena τ} {b : Arena σ} (h : SameShape a b) (k : Handle) (v : τ) (w : σ) : SameShape (a.set k v) (b.set k w) :=
  (sameShape_set a k v).trans (h.trans (sameShape_set b k w).symm)

theorem SameShape.length {σ : Type} {a : Arena τ} {b : Arena σ} (h : SameShape a b) : a.items.length = b.items.length := by
  simpa using congrArg List.length h.items

theorem SameShape.remove {σ : Type} {a : Arena τ} {b : Arena σ} (h : SameShape a b) (k : Handle) : SameShape (a.remove k).1 (b.remove k).1 := by
  have hs := h.isSome k
  unfold Arena.remove
  cases ha : a.get k with
  | none =>
    cases hb : b.get k with
    | none => exact h
    | some y => rw [ha, hb] at hs; cases hs
  | some x =>
    cases hb : b.get k with
    | none => rw [ha, hb] at hs; cases hs
    | some y =>
      refine ⟨?_, by simp only [h.free], by simp only [h.generation]⟩
      simp only [List.map_set, Option.map_none, h.items]

theorem SameShape.tryInsert {σ : Type} {a : Arena τ} {b : Arena σ} (h : SameShape a b) (v : τ) (w : σ) :
    (a.tryInsert v = none ∧ b.tryInsert w = none) ∨
      ∃ a' b' k, a.tryInsert v = some (a', k) ∧ b.tryInsert w = some (b', k) ∧ SameShape a' b' := by
  unfold Arena.tryInsert
  rw [h.free]
  cases hf : b.free with
  | nil => exact .inl ⟨rfl, rfl⟩
  | cons i rest =>
    refine .inr ⟨_, { b with items := b.items.set i (some (b.generation, w)), free := rest }, _, rfl, ?_, ?_, rfl, ?_⟩
    · rw [h.generation]
    · simp only [List.map_set, Option.map_some, h.items, h.generation]
    · exact h.generation

theorem SameShape.grow {σ : Type} {a : Arena τ} {b : Arena σ} (h : SameShape a b) : SameShape a.grow b.grow := by
  refine ⟨?_, ?_, h.generation⟩
  · simp only [Arena.grow, List.map_append, h.items, List.map_replicate, h.length, Option.map_none]
  · simp only [Arena.grow, h.free, h.length]

theorem SameShape.insert {σ : Type} {a : Arena τ} {b : Arena σ} (h : SameShape a b) (v : τ) (w : σ) :
    (a.insert v).2 = (b.insert w).2 ∧ SameShape (a.insert v).1 (b.insert w).1 := by
  unfold Arena.insert
  rcases h.tryInsert v w with ⟨h1, h2⟩ | ⟨a', b', k, h1, h2, h3⟩
  · rw [h1, h2]
    simp only
    rcases h.grow.tryInsert v w with ⟨g1, g2⟩ | ⟨a', b', k, g1, g2, g3⟩
    · rw [g1, g2]; exact ⟨by simp only [h.generation], h⟩
    · rw [g1, g2]; exact ⟨rfl, g3⟩
  · rw [h1, h2]; exact ⟨rfl, h3⟩

theorem Evolves.set2 {R : τ → τ → Prop} {a b : Arena τ} (e : Evolves R a b) (h : Handle) {x y : τ} (hxy : R x y) : Evolves R (a.set h x) (b.set h y) := by
  refine ⟨e.shape.set h y x, fun k u v hu hv => ?_⟩
  rw [get_set] at hu hv
  split at hu
  · rename_i hk
    rw [if_pos hk] at hv
    cases ha : a.get h with
    | none => rw [ha] at hu; cases hu
    | some a' =>
      cases hb : b.get h with
      | none => rw [hb] at hv; cases hv
      | some b' => rw [ha] at hu; rw [hb] at hv; cases hu; cases hv; exact hxy
  · rename_i hk
    rw [if_neg hk] at hv
    exact e.rel k u v hu hv

theorem Evolves.insert2 {R : τ → τ → Prop} {a b : Arena τ} (wa : a.WF) (wb : b.WF) (e : Evolves R a b) {x y : τ} (hxy : R x y) :
    (a.insert x).2 = (b.insert y).2 ∧ Evolves R (a.insert x).1 (b.insert y).1 := by
  obtain ⟨h1, h2⟩ := e.shape.insert y x
  refine ⟨h1.symm, h2, fun k u v hu hv => ?_⟩
  rw [get_insert wa] at hu
  rw [get_insert wb] at hv
  rw [← h1] at hu
  split at hu
  · rename_i hk
    rw [if_pos hk] at hv
    cases hu; cases hv; exact hxy
  · rename_i hk
    rw [if_neg hk] at hv
    exact e.rel k u v hu hv

theorem Evolves.remove2 {R : τ → τ → Prop} {a b : Arena τ} (e : Evolves R a b) (h : Handle) : Evolves R (a.remove h).1 (b.remove h).1 := by
  refine ⟨e.shape.remove h, fun k u v hu hv => ?_⟩
  rw [get_remove] at hu hv
  split at hu
  · cases hu
  · rename_i hk
    rw [if_neg hk] at hv
    exact e.rel k u v hu hv
end Arena

variable {α : Type} [Scalar α] {γ : Type}
open Step InternalEntity

/-- The same entity but for the order of the neighbour set. -/
structure Twin (e e' : InternalEntity α) : Prop where
  rest : NeighborRel e e'
  neighbors : ∀ h, h ∈ e.neighbors ↔ h ∈ e'.neighbors

theorem Twin.refl (e : InternalEntity α) : Twin e e := ⟨rfl, fun _ => Iff.rfl⟩
theorem Twin.with (e : InternalEntity α) {n : List Handle} (h : ∀ k, k ∈ e.neighbors ↔ k ∈ n) : Twin e { e with neighbors := n } := ⟨rfl, h⟩

/-- The same world but for the order of neighbour sets, and for debug messages. -/
structure TwinWorld (w w' : World α) : Prop where
  entities : Arena.Evolves Twin w.entities w'.entities
  rest : w' = { w with entities := w'.entities, debug := w'.debug }

theorem TwinWorld.refl (w : World α) : TwinWorld w w := ⟨.refl Twin.refl _, rfl⟩

/-- The same system but for the order of neighbour sets, and for debug messages. -/
structure TwinSystem (s s' : System α γ) : Prop where
  world : TwinWorld s.toWorld s'.toWorld
  generators : s'.generators = s.generators

theorem TwinSystem.refl (s : System α γ) : TwinSystem s s := ⟨.refl _, rfl⟩

/-- Force generators that do not look at the order of neighbour sets or at debug messages. -/
def Blind (α γ : Type) [Scalar α] [ForceGenerator α γ] : Prop :=
  ∀ (g : γ) (dt : α) (w w' : World α) (h : Handle), TwinWorld w w' → ForceGenerator.makeForce g dt w h = ForceGenerator.makeForce g dt w' h

theorem Twin.makePub {e e' : InternalEntity α} (h : Twin e e') : e.makePub = e'.makePub := by rw [h.rest]; rfl

theorem TwinWorld.getEntity {w w' : World α} (h : TwinWorld w w') (k : Handle) : w.getEntity k = w'.getEntity k := by
  unfold World.getEntity
  cases hk : w.entities.get k with
  | none => rw [(h.entities.none_iff k).mpr hk]
  | some e =>
    obtain ⟨e', he', ht⟩ := h.entities.get hk
    rw [he']; simp only [Option.map_some, ht.makePub]

theorem gravity_blind : Blind α (GravityGenerator α) := by
  intro g dt w w' h hw
  show (do let e ← unwrap (w.getEntity h); _) = (do let e ← unwrap (w'.getEntity h); _)
  rw [hw.getEntity]

/-- Colliders of the entities are visited in the same order. -/
def Agree (o o' : IterOrder) (a : Arena (InternalEntity α)) : Prop := ∀ h e, a.get h = some e → o.colliders h e.colliders = o'.colliders h e.colliders

/-! ### Waking up -/

theorem Twin.isInfinite {e e' : InternalEntity α} (h : Twin e e') : Scalar.isInfinite e'.totalMass = Scalar.isInfinite e.totalMass := by rw [h.rest]

theorem cluster_twin {a b : Arena (InternalEntity α)} (h : Arena.Evolves Twin a b) {start k : Handle} (hk : Cluster a start k) : Cluster b start k := by
  induction hk with
  | start => exact .start
  | link hc h1 h2 h3 h4 ih =>
    obtain ⟨e', he', t1⟩ := h.get h1
    obtain ⟨m', hm', t2⟩ := h.get h3
    exact .link ih he' ((t1.neighbors _).mp h2) hm' (by rw [t2.isInfinite]; exact h4)

theorem cluster_twin' {a b : Arena (InternalEntity α)} (h : Arena.Evolves Twin a b) {start k : Handle} (hk : Cluster b start k) : Cluster a start k := by
  induction hk with
  | start => exact .start
  | link hc h1 h2 h3 h4 ih =>
    obtain ⟨e', he', t1⟩ := h.get' h1
    obtain ⟨m', hm', t2⟩ := h.get' h3
    exact .link ih he' ((t1.neighbors _).mpr h2) hm' (by rw [← t2.isInfinite]; exact h4)

theorem cluster_iff {a b : Arena (InternalEntity α)} (h : Arena.Evolves Twin a b) (start k : Handle) : Cluster a start k ↔ Cluster b start k :=
  ⟨cluster_twin h, cluster_twin' h⟩

theorem lists_iff {a b : Arena (InternalEntity α)} (h : Arena.Evolves Twin a b) (t k : Handle) : Lists a t k ↔ Lists b t k := by
  constructor
  · rintro ⟨e, he, hk⟩
    obtain ⟨e', he', t1⟩ := h.get he
    exact ⟨e', he', (t1.neighbors _).mp hk⟩
  · rintro ⟨e, he, hk⟩
    obtain ⟨e', he', t1⟩ := h.get' he
    exact ⟨e', he', (t1.neighbors _).mpr hk⟩

theorem wakeUp_twin {o o' : IterOrder} {start : Handle} {a b a' : Arena (InternalEntity α)} {d d' : List DebugMsg} (h : Arena.Evolves Twin a b)
    (ha : wakeUp o start a d = .ok (a', d')) (dd : List DebugMsg) : ∃ b' dd', wakeUp o' start b dd = .ok (b', dd') ∧ Arena.Evolves Twin a' b' := by
  obtain ⟨ev, sp, live⟩ := wakeUp_spec ha
  have hb : ∃ b' dd', wakeUp o' start b dd = .ok (b', dd') := by
    refine wakeUp_ok dd ?_ ?_
    · obtain ⟨e, he, -⟩ := live start .start
      obtain ⟨e', he', -⟩ := h.get he
      exact ⟨e', he'⟩
    · intro t e n hc he hn
      obtain ⟨x, hx, hl⟩ := live t (cluster_twin' h hc)
      obtain ⟨e', he', t1⟩ := h.get hx
      rw [he] at he'; cases he'
      obtain ⟨m, hm⟩ := hl n ((t1.neighbors n).mpr hn)
      obtain ⟨m', hm', -⟩ := h.get hm
      exact ⟨m', hm'⟩
  obtain ⟨b', dd', hb⟩ := hb
  obtain ⟨ev', sp', -⟩ := wakeUp_spec hb
  refine ⟨b', dd', hb, ev'.shape.trans (h.shape.trans ev.shape.symm), fun k x y hx hy => ?_⟩
  obtain ⟨x0, hx0, hxr⟩ := ev.get' hx
  obtain ⟨y0, hy0, hyr⟩ := ev'.get' hy
  have ht := h.rel k x0 y0 hx0 hy0
  obtain ⟨c1, c2, -⟩ := sp k x0 x hx0 hx
  obtain ⟨e1, e2, -⟩ := sp' k y0 y hy0 hy
  unfold WakeRel at hxr hyr
  have hr := ht.rest
  unfold NeighborRel at hr
  by_cases hc : Cluster a start k
  · obtain ⟨p1, p2⟩ := c1 hc
    obtain ⟨q1, q2⟩ := e1 (cluster_twin h hc)
    refine ⟨?_, by rw [p2, q2]; exact fun _ => Iff.rfl⟩
    unfold NeighborRel
    rw [hyr, hxr, q1, p1, hr]
  · obtain ⟨p1, p2, p3⟩ := c2 hc
    obtain ⟨q1, q2, q3⟩ := e2 (fun h' => hc (cluster_twin' h h'))
    have hs : y0.asleep = x0.asleep := by rw [hr]
    refine ⟨?_, ?_⟩
    · unfold NeighborRel
      rw [hyr, hxr, q1, p1, hs, hr]
    · intro t
      cases hi : Scalar.isInfinite x0.totalMass with
      | false => rw [p2 hi, q2 (by rw [ht.isInfinite]; exact hi)]; exact ht.neighbors t
      | true =>
        rw [p3 hi, q3 (by rw [ht.isInfinite]; exact hi), ht.neighbors, ← cluster_iff h, ← lists_iff h]

/-! ### Mass -/

theorem recenter_twin (e : InternalEntity α) (n : List Handle) (x : MassSum α) : { e with neighbors := n }.recenter x = { e.recenter x with neighbors := n } := by
  unfold recenter
  simp only
  split <;> rfl

theorem recalculateMass_neighbors {order : List Handle} {cs : Arena (Collider α)} {e r : InternalEntity α} (n : List Handle)
    (h : recalculateMass order cs e = .ok r) : recalculateMass order cs { e with neighbors := n } = .ok { r with neighbors := n } := by
  unfold recalculateMass at h ⊢
  obtain ⟨x, hx, h⟩ := Res.bind_eq_ok.mp h
  rw [show ({ e with neighbors := n } : InternalEntity α).orientation = e.orientation from rfl, hx]
  simp only [Res.ok_bind, recenter_twin]
  by_cases hf : x.foundInfinite = true
  · rw [if_pos hf] at h ⊢
    cases h; rfl
  · rw [if_neg hf] at h ⊢
    obtain ⟨m, hm, h⟩ := Res.bind_eq_ok.mp h
    cases h
    rw [hm]
    rfl

theorem recalculateMass_twin {order : List Handle} {cs : Arena (Collider α)} {e e' r : InternalEntity α} (ht : Twin e e') (h : recalculateMass order cs e = .ok r)
    (hn : r.neighbors = e.neighbors) : ∃ r', recalculateMass order cs e' = .ok r' ∧ Twin r r' := by
  have hr := ht.rest
  unfold NeighborRel at hr
  refine ⟨{ r with neighbors := e'.neighbors }, ?_, rfl, by rw [hn]; exact ht.neighbors⟩
  rw [hr]
  exact recalculateMass_neighbors _ h

/-! ### The step -/

theorem TwinSystem.iff {s t : System α γ} : TwinSystem s t ↔ ∃ b d, Arena.Evolves Twin s.entities b ∧ t = { s with entities := b, debug := d } := by
  constructor
  · rintro ⟨⟨h1, h2⟩, h3⟩
    refine ⟨t.entities, t.debug, h1, ?_⟩
    obtain ⟨⟨te, tc, ti, tr, tn, tt, td⟩, tg⟩ := t
    simp only [World.mk.injEq, true_and] at h2 h3 ⊢
    obtain ⟨rfl, rfl, rfl, rfl, rfl, -⟩ := h2
    rw [h3]
  · rintro ⟨b, d, h, rfl⟩
    exact ⟨⟨h, rfl⟩, rfl⟩

theorem TwinWorld.iff {w t : World α} : TwinWorld w t ↔ ∃ b d, Arena.Evolves Twin w.entities b ∧ t = { w with entities := b, debug := d } := by
  constructor
  · rintro ⟨h1, h2⟩
    exact ⟨t.entities, t.debug, h1, h2⟩
  · rintro ⟨b, d, h, rfl⟩
    exact ⟨h, rfl⟩

section
variable [ForceGenerator α γ]

theorem generatorLoop_twin (hb : Blind α γ) {dt : α} {w w' : World α} (hw : TwinWorld w w') {h : Handle} {copy : Entity α} : ∀ {l : List Handle} {g : Arena γ} {a t : Vec3 α},
    generatorLoop dt w h copy l g a t = generatorLoop dt w' h copy l g a t
  | [], _, _, _ => rfl
  | k :: l, g, a, t => by
    unfold generatorLoop
    cases hg : g.get k with
    | none => rfl
    | some x =>
      simp only [unwrap_some, Res.ok_bind]
      rw [hb x dt w w' h hw]
      cases ForceGenerator.makeForce x dt w' h with
      | error e => rfl
      | ok r =>
        simp only [Res.ok_bind]
        exact generatorLoop_twin hb hw

theorem integrateVelocity_twin {dt : α} {a t : Vec3 α} {e e' : InternalEntity α} (h : Twin e e') : Twin (integrateVelocity dt a t e) (integrateVelocity dt a t e') := by
  have hr := h.rest
  unfold NeighborRel at hr
  obtain ⟨n, rfl⟩ : ∃ n, e' = { e with neighbors := n } := ⟨_, hr⟩
  exact ⟨rfl, h.neighbors⟩

theorem integrateOne_mk {dt : α} {gens : List Handle} {s : System α γ} {h : Handle} {e : InternalEntity α} {g : Arena γ} {a q : Vec3 α} (he : s.entities.get h = some e)
    (hacc : Accelerates dt gens s h e g a q) : integrateOne dt gens s h =
      .ok ({ s with generators := g, entities := s.entities.set h (integrateVelocity dt a q e) },
        ⟨h, (integrateVelocity dt a q e).velocity.scale dt, (integrateVelocity dt a q e).angularVelocity.scale dt, []⟩) := by
  have hc : s.getEntity h = some e.makePub := by unfold World.getEntity; rw [he]; rfl
  unfold Accelerates at hacc
  unfold integrateOne
  rw [hc, he]
  simp only [unwrap_some, Res.ok_bind]
  rw [show e.makePub.lastTotalMass = e.totalMass from rfl]
  split
  · rename_i hf
    rw [if_pos hf] at hacc
    rw [hacc]; rfl
  · rename_i hf
    rw [if_neg hf] at hacc
    cases hacc; rfl

theorem integrateOne_twin (hb : Blind α γ) {dt : α} {gens : List Handle} {s t s' : System α γ} (hs : TwinSystem s t) {h : Handle} {i : StepInfo α}
    (hh : integrateOne dt gens s h = .ok (s', i)) : ∃ t', integrateOne dt gens t h = .ok (t', i) ∧ TwinSystem s' t' := by
  obtain ⟨e, g, a, q, he, hacc, rfl, rfl⟩ := integrateOne_spec hh
  obtain ⟨e', he', ht⟩ := hs.world.entities.get he
  have hm : e'.totalMass = e.totalMass := by rw [ht.rest]
  have hacc' : Accelerates dt gens t h e' g a q := by
    unfold Accelerates at hacc ⊢
    rw [hm, ← ht.makePub, hs.generators, ← generatorLoop_twin hb hs.world]
    exact hacc
  have hi := integrateVelocity_twin (dt := dt) (a := a) (t := q) ht
  have hr := hi.rest
  unfold NeighborRel at hr
  have e1 : (integrateVelocity dt a q e').velocity = (integrateVelocity dt a q e).velocity := by rw [hr]
  have e2 : (integrateVelocity dt a q e').angularVelocity = (integrateVelocity dt a q e).angularVelocity := by rw [hr]
  have hmk := integrateOne_mk he' hacc'
  rw [e1, e2] at hmk
  refine ⟨_, hmk, TwinSystem.iff.mpr ⟨t.entities.set h (integrateVelocity dt a q e'), t.debug, hs.world.entities.set2 h hi, ?_⟩⟩
  obtain ⟨b, d, -, rfl⟩ := TwinSystem.iff.mp hs
  rfl

theorem integrateAll_twin (hb : Blind α γ) {dt : α} {gens : List Handle} : ∀ {l : List Handle} {s t s' : System α γ} {is : List (StepInfo α)}, TwinSystem s t →
    integrateAll dt gens l s = .ok (s', is) → ∃ t', integrateAll dt gens l t = .ok (t', is) ∧ TwinSystem s' t'
  | [], s, t, s', is, hs, hh => by
    unfold integrateAll at hh ⊢
    cases hh
    exact ⟨t, rfl, hs⟩
  | h :: l, s, t, s', is, hs, hh => by
    unfold integrateAll at hh ⊢
    obtain ⟨⟨s1, i⟩, h1, hh⟩ := Res.bind_eq_ok.mp hh
    obtain ⟨⟨s2, is'⟩, h2, hh⟩ := Res.bind_eq_ok.mp hh
    cases hh
    obtain ⟨t1, g1, k1⟩ := integrateOne_twin hb hs h1
    obtain ⟨t2, g2, k2⟩ := integrateAll_twin hb k1 h2
    exact ⟨t2, by simp only [g1, g2, Res.ok_bind], k2⟩
end

theorem considerPair_twin {cs : Arena (Collider α)} {f f' g g' : InternalEntity α} (hf : Twin f f') (hg : Twin g g') (i1 i2 : StepInfo α) (n1 n2 : Nat) (c1 c2 : Handle)
    (best : Option (Candidate α)) : considerPair cs f' g' i1 i2 n1 n2 c1 c2 best = considerPair cs f g i1 i2 n1 n2 c1 c2 best := by
  have h1 := hf.rest
  have h2 := hg.rest
  unfold NeighborRel at h1 h2
  rw [h1, h2]
  rfl

theorem secondColliderLoop_twin {cs : Arena (Collider α)} {f f' g g' : InternalEntity α} (hf : Twin f f') (hg : Twin g g') (i1 i2 : StepInfo α) (n1 n2 : Nat) (c1 : Handle) :
    ∀ (l : List Handle) (best : Option (Candidate α)), secondColliderLoop cs f' g' i1 i2 n1 n2 c1 l best = secondColliderLoop cs f g i1 i2 n1 n2 c1 l best
  | [], _ => rfl
  | c :: l, best => by
    unfold secondColliderLoop
    rw [considerPair_twin hf hg]
    congr 1
    funext b
    exact secondColliderLoop_twin hf hg i1 i2 n1 n2 c1 l b

theorem firstColliderLoop_twin {cs : Arena (Collider α)} {f f' g g' : InternalEntity α} (hf : Twin f f') (hg : Twin g g') (i1 i2 : StepInfo α) (n1 n2 : Nat) (l2 : List Handle) :
    ∀ (l : List Handle) (best : Option (Candidate α)), firstColliderLoop cs f' g' i1 i2 n1 n2 l2 l best = firstColliderLoop cs f g i1 i2 n1 n2 l2 l best
  | [], _ => rfl
  | c :: l, best => by
    unfold firstColliderLoop
    rw [secondColliderLoop_twin hf hg]
    congr 1
    funext b
    exact firstColliderLoop_twin hf hg i1 i2 n1 n2 l2 l b

theorem TwinWorld.colliders {w t : World α} (h : TwinWorld w t) : t.colliders = w.colliders := by rw [h.rest]

theorem searchPair_twin {o o' : IterOrder} {w t : World α} (hw : TwinWorld w t) (ha : Agree o o' w.entities) (i1 i2 : StepInfo α) (n1 n2 : Nat) (best : Option (Candidate α)) :
    searchPair o' t i1 i2 n1 n2 best = searchPair o w i1 i2 n1 n2 best := by
  unfold searchPair get2
  by_cases hh : i1.handle = i2.handle
  · rw [if_pos hh, if_pos hh]; rfl
  · rw [if_neg hh, if_neg hh]
    cases h1 : w.entities.get i1.handle with
    | none => rw [(hw.entities.none_iff _).mpr h1]; rfl
    | some f =>
      obtain ⟨f', hf', tf⟩ := hw.entities.get h1
      cases h2 : w.entities.get i2.handle with
      | none => rw [(hw.entities.none_iff _).mpr h2, hf']; rfl
      | some g =>
        obtain ⟨g', hg', tg⟩ := hw.entities.get h2
        rw [hf', hg']
        have c1 : f'.colliders = f.colliders := by rw [tf.rest]
        have c2 : g'.colliders = g.colliders := by rw [tg.rest]
        simp only [unwrap_some, Res.ok_bind, ← tf.neighbors, ← tg.neighbors, hw.colliders, firstColliderLoop_twin tf tg, c1, c2, ha _ _ h1, ha _ _ h2]

theorem searchSecond_twin {o o' : IterOrder} {w t : World α} (hw : TwinWorld w t) (ha : Agree o o' w.entities) (i1 : StepInfo α) (n1 : Nat) :
    ∀ (n2 : Nat) (l : List (StepInfo α)) (best : Option (Candidate α)), searchSecond o' t i1 n1 n2 l best = searchSecond o w i1 n1 n2 l best
  | _, [], _ => rfl
  | n2, i2 :: l, best => by
    unfold searchSecond
    rw [searchPair_twin hw ha]
    congr 1
    funext b
    exact searchSecond_twin hw ha i1 n1 _ l b

theorem searchFirst_twin {o o' : IterOrder} {w t : World α} (hw : TwinWorld w t) (ha : Agree o o' w.entities) :
    ∀ (n1 : Nat) (l : List (StepInfo α)) (best : Option (Candidate α)), searchFirst o' t n1 l best = searchFirst o w n1 l best
  | _, [], _ => rfl
  | n1, i1 :: l, best => by
    unfold searchFirst
    rw [searchSecond_twin hw ha]
    congr 1
    funext b
    exact searchFirst_twin hw ha _ l b

theorem wakeIfFinite_twin {o o' : IterOrder} {h : Handle} {w t w' : World α} (hw : TwinWorld w t) (hh : wakeIfFinite o h w = .ok w') :
    ∃ t', wakeIfFinite o' h t = .ok t' ∧ TwinWorld w' t' := by
  unfold wakeIfFinite at hh ⊢
  obtain ⟨e, he, hh⟩ := Res.bind_eq_ok.mp hh
  rw [unwrap_eq_ok] at he
  obtain ⟨e', he', te⟩ := hw.entities.get he
  have hm : e'.totalMass = e.totalMass := by rw [te.rest]
  simp only [he', unwrap_some, Res.ok_bind, hm]
  by_cases hf : Scalar.isFinite e.totalMass = true
  · rw [if_pos hf] at hh ⊢
    obtain ⟨⟨a, d⟩, h1, hh⟩ := Res.bind_eq_ok.mp hh
    cases hh
    obtain ⟨b, dd, h2, h3⟩ := wakeUp_twin (o' := o') hw.entities h1 t.debug
    refine ⟨_, by rw [h2]; rfl, TwinWorld.iff.mpr ⟨b, dd, h3, ?_⟩⟩
    simp only
    rw [hw.rest]
  · rw [if_neg hf] at hh ⊢
    cases hh
    exact ⟨t, rfl, hw⟩

theorem wakeColliding_twin {o o' : IterOrder} {best : Option (Candidate α)} {w t w' : World α} (hw : TwinWorld w t) (hh : wakeColliding o best w = .ok w') :
    ∃ t', wakeColliding o' best t = .ok t' ∧ TwinWorld w' t' := by
  unfold wakeColliding at hh ⊢
  cases best with
  | none => cases hh; exact ⟨t, rfl, hw⟩
  | some k =>
    obtain ⟨w1, h1, hh⟩ := Res.bind_eq_ok.mp hh
    obtain ⟨t1, g1, k1⟩ := wakeIfFinite_twin (o' := o') hw h1
    obtain ⟨t2, g2, k2⟩ := wakeIfFinite_twin (o' := o') k1 hh
    exact ⟨t2, by simp only [g1, g2, Res.ok_bind], k2⟩

theorem advanceLoop_twin {p : α} : ∀ {l l' : List (StepInfo α)} {a b a' : Arena (InternalEntity α)}, Arena.Evolves Twin a b → advanceLoop p l a = .ok (a', l') →
    ∃ b', advanceLoop p l b = .ok (b', l') ∧ Arena.Evolves Twin a' b'
  | [], l', a, b, a', h, hh => by
    unfold advanceLoop at hh ⊢
    cases hh
    exact ⟨b, rfl, h⟩
  | i :: l, l', a, b, a', h, hh => by
    unfold advanceLoop at hh ⊢
    obtain ⟨e, he, hh⟩ := Res.bind_eq_ok.mp hh
    rw [unwrap_eq_ok] at he
    obtain ⟨e', he', te⟩ := h.get he
    obtain ⟨⟨a1, l1⟩, h1, hh⟩ := Res.bind_eq_ok.mp hh
    cases hh
    have hr := te.rest
    unfold NeighborRel at hr
    have hs : e'.asleep = e.asleep := by rw [hr]
    have ho : e'.orientation = e.orientation := by rw [hr]
    have key : Arena.Evolves Twin
        (if (!e.asleep) = true then a.set i.handle { e with orientation := e.orientation.afterAffected (i.linearMovement.scale p) (i.angularMovement.scale p) } else a)
        (if (!e'.asleep) = true then b.set i.handle { e' with orientation := e'.orientation.afterAffected (i.linearMovement.scale p) (i.angularMovement.scale p) } else b) := by
      rw [hs]
      split
      · refine h.set2 _ ⟨?_, te.neighbors⟩
        obtain ⟨n, rfl⟩ : ∃ n, e' = { e with neighbors := n } := ⟨_, hr⟩
        rfl
      · exact h
    obtain ⟨b1, g1, k1⟩ := advanceLoop_twin key h1
    refine ⟨b1, ?_, k1⟩
    simp only [he', unwrap_some, Res.ok_bind]
    rw [g1]
    rfl

theorem advance_twin {best : Option (Candidate α)} {st st' : LoopState α} {t : World α} (hw : TwinWorld st.world t) (hh : advance best st = .ok st') :
    ∃ t', advance best { st with world := t } = .ok { st' with world := t' } ∧ TwinWorld st'.world t' := by
  unfold advance at hh ⊢
  obtain ⟨⟨a, is⟩, h1, hh⟩ := Res.bind_eq_ok.mp hh
  cases hh
  obtain ⟨b, g1, k1⟩ := advanceLoop_twin hw.entities h1
  refine ⟨{ t with entities := b }, by simp only [g1, Res.ok_bind], TwinWorld.iff.mpr ⟨b, t.debug, k1, ?_⟩⟩
  rw [hw.rest]

theorem applyImpulse_neighbors (e : InternalEntity α) (n : List Handle) (p j : Vec3 α) :
    { e with neighbors := n }.applyImpulse p j = { e.applyImpulse p j with neighbors := n } := rfl
theorem collisionImpulse_neighbors (e g : InternalEntity α) (n m : List Handle) (r : α) (c : Collision α) :
    collisionImpulse { e with neighbors := n } { g with neighbors := m } r c = collisionImpulse e g r c := rfl
theorem frictionImpulse_neighbors (e g : InternalEntity α) (n m : List Handle) (j : Vec3 α) (k : Candidate α) :
    frictionImpulse { e with neighbors := n } { g with neighbors := m } j k = frictionImpulse e g j k := rfl

/-- `respondPair` after the impulses have been computed. -/
def respondWith (k : Candidate α) (rt ta : α) (j : Vec3 α) (b : Bool) (f g : InternalEntity α) (i1 i2 : StepInfo α) : Response α :=
  let n1 := if b then hsInsert i1.neighbors k.secondHandle else i1.neighbors
  let n2 := if b then hsInsert i2.neighbors k.firstHandle else i2.neighbors
  ⟨f, g, ⟨i1.handle, f.velocity.scale ta, f.angularVelocity.scale ta, n1⟩, ⟨i2.handle, g.velocity.scale ta, g.angularVelocity.scale ta, n2⟩,
    ⟨k.firstHandle, k.secondHandle, k.collision.position, rt, k.collision.normal, k.restitution, j.magnitude⟩⟩

theorem respondPair_with (k : Candidate α) (rt ta : α) (f g : InternalEntity α) (i1 i2 : StepInfo α) :
    respondPair k rt ta f g i1 i2 =
      (let j := collisionImpulse f g k.restitution k.collision
      let f1 := f.applyImpulse k.collision.position j
      let g1 := g.applyImpulse k.collision.position (-j)
      let fr := frictionImpulse f1 g1 j k
      respondWith k rt ta j fr.2 (f1.applyImpulse k.collision.position fr.1) (g1.applyImpulse k.collision.position (-fr.1)) i1 i2) := by
  unfold respondPair respondWith applyCollisionImpulse
  simp only
  split <;> rfl

theorem respondPair_neighbors (k : Candidate α) (rt ta : α) (f g : InternalEntity α) (n m : List Handle) (i1 i2 : StepInfo α) :
    respondPair k rt ta { f with neighbors := n } { g with neighbors := m } i1 i2 =
      { respondPair k rt ta f g i1 i2 with
        first := { (respondPair k rt ta f g i1 i2).first with neighbors := n }
        second := { (respondPair k rt ta f g i1 i2).second with neighbors := m } } := by
  rw [respondPair_with, respondPair_with]
  simp only [collisionImpulse_neighbors, applyImpulse_neighbors, frictionImpulse_neighbors]
  rfl

theorem respond_twin {dt : α} {k : Candidate α} {st st' : LoopState α} {t : World α} (hw : TwinWorld st.world t) (hh : respond dt k st = .ok st') :
    ∃ t', respond dt k { st with world := t } = .ok { st' with world := t' } ∧ TwinWorld st'.world t' := by
  unfold respond at hh ⊢
  obtain ⟨⟨f, g⟩, h1, hh⟩ := Res.bind_eq_ok.mp hh
  obtain ⟨i1, h2, hh⟩ := Res.bind_eq_ok.mp hh
  obtain ⟨i2, h3, hh⟩ := Res.bind_eq_ok.mp hh
  cases hh
  rw [get2_eq_ok] at h1
  obtain ⟨hne, hf, hg⟩ := h1
  obtain ⟨f', hf', tf⟩ := hw.entities.get hf
  obtain ⟨g', hg', tg⟩ := hw.entities.get hg
  have e1 := tf.rest
  have e2 := tg.rest
  unfold NeighborRel at e1 e2
  have h1' : get2 t.entities k.firstHandle k.secondHandle = .ok (f', g') := get2_eq_ok.mpr ⟨hne, hf', hg'⟩
  let r := respondPair k (st.currentPercent * dt) st.timeLeft f g i1 i2
  have hr : respondPair k (st.currentPercent * dt) st.timeLeft f' g' i1 i2 =
      { r with first := { r.first with neighbors := f'.neighbors }, second := { r.second with neighbors := g'.neighbors } } := by
    rw [e1, e2]; exact respondPair_neighbors _ _ _ _ _ _ _ _ _
  have n1 : r.first.neighbors = f.neighbors := by rw [respondPair_first k (st.currentPercent * dt) st.timeLeft f g i1 i2]
  have n2 : r.second.neighbors = g.neighbors := by rw [respondPair_second k (st.currentPercent * dt) st.timeLeft f g i1 i2]
  refine ⟨{ t with
    entities := (t.entities.set k.firstHandle { r.first with neighbors := f'.neighbors }).set k.secondHandle { r.second with neighbors := g'.neighbors }
    collisionRecords := t.collisionRecords ++ [r.record] }, ?_, TwinWorld.iff.mpr
      ⟨(t.entities.set k.firstHandle { r.first with neighbors := f'.neighbors }).set k.secondHandle { r.second with neighbors := g'.neighbors }, t.debug, ?_, ?_⟩⟩
  · simp only [h1', h2, h3, Res.ok_bind, hr]
    rfl
  · have t1 : Twin r.first { r.first with neighbors := f'.neighbors } := ⟨(rfl : _ = _), by rw [n1]; exact tf.neighbors⟩
    have t2 : Twin r.second { r.second with neighbors := g'.neighbors } := ⟨(rfl : _ = _), by rw [n2]; exact tg.neighbors⟩
    exact (hw.entities.set2 _ t1).set2 _ t2
  · obtain ⟨b, d, -, rfl⟩ := TwinWorld.iff.mp hw
    rfl

theorem Agree.evolves {o o' : IterOrder} {a b : Arena (InternalEntity α)} (h : Agree o o' a) (ev : Arena.Evolves StaticRel a b) : Agree o o' b := by
  intro k e he
  obtain ⟨e0, he0, hr⟩ := ev.get' he
  rw [StaticRel.colliders hr]
  exact h k e0 he0

theorem iterate_twin {o o' : IterOrder} {dt : α} {w0 : World α} {hs : List Handle} (hnd : hs.Nodup) (ha : Agree o o' w0.entities) :
    ∀ {n : Nat} {st st' : LoopState α} {t : World α} {c : Bool}, LoopInv w0 hs st → TwinWorld st.world t → iterate o dt n st = .ok (st', c) →
    ∃ t', iterate o' dt n { st with world := t } = .ok ({ st' with world := t' }, c) ∧ TwinWorld st'.world t'
  | 0, st, st', t, c, _, hw, hh => by
    unfold iterate at hh ⊢
    cases hh
    exact ⟨t, rfl, hw⟩
  | n + 1, st, st', t, c, inv, hw, hh => by
    unfold iterate at hh ⊢
    obtain ⟨best, h1, hh⟩ := Res.bind_eq_ok.mp hh
    obtain ⟨w, h2, hh⟩ := Res.bind_eq_ok.mp hh
    obtain ⟨st1, h3, hh⟩ := Res.bind_eq_ok.mp hh
    obtain ⟨t1, g1, k1⟩ := wakeColliding_twin (o' := o') hw h2
    obtain ⟨t2, g2, k2⟩ := advance_twin (t := t1) k1 h3
    have b := loopInv_body (dt := dt) hnd inv h1 h2 h3
    simp only [searchFirst_twin hw (ha.evolves inv.frame.entities), h1, Res.ok_bind, g1]
    rw [show advance best { st with world := t1 } = .ok { st1 with world := t2 } from g2]
    simp only [Res.ok_bind]
    cases best with
    | none => cases hh; exact ⟨t2, rfl, k2⟩
    | some k =>
      simp only at hh ⊢
      obtain ⟨st2, h4, hh⟩ := Res.bind_eq_ok.mp hh
      obtain ⟨t3, g3, k3⟩ := respond_twin k2 h4
      rw [g3]
      simp only [Res.ok_bind]
      exact iterate_twin hnd ha (b.2 k st2 rfl h4) k3 hh

theorem linkNeighbors_live {h : Handle} : ∀ {l : List Handle} {a b : Arena (InternalEntity α)}, linkNeighbors h l a = .ok b → ∀ n ∈ l, ∃ e, a.get n = some e
  | [], _, _, _ => by intro n hn; cases hn
  | k :: l, a, b, hh => by
    unfold linkNeighbors at hh
    obtain ⟨e, he, hh⟩ := Res.bind_eq_ok.mp hh
    rw [unwrap_eq_ok] at he
    intro n hn
    rcases List.mem_cons.mp hn with rfl | hn
    · exact ⟨e, he⟩
    · obtain ⟨x, hx⟩ := linkNeighbors_live hh n hn
      rw [Arena.get_set] at hx
      split at hx
      · rename_i hk; subst hk; exact ⟨e, he⟩
      · exact ⟨x, hx⟩

theorem linkNeighbors_twin {h : Handle} {l l' : List Handle} (hl : ∀ n, n ∈ l ↔ n ∈ l') {a b a' : Arena (InternalEntity α)} (ht : Arena.Evolves Twin a b)
    (hh : linkNeighbors h l a = .ok a') : ∃ b', linkNeighbors h l' b = .ok b' ∧ Arena.Evolves Twin a' b' := by
  obtain ⟨b', hb⟩ := linkNeighbors_ok (h := h) (l := l') b (by
    intro n hn
    obtain ⟨e, he⟩ := linkNeighbors_live hh n ((hl n).mpr hn)
    obtain ⟨e', he', -⟩ := ht.get he
    exact ⟨e', he'⟩)
  obtain ⟨ev, sp⟩ := linkNeighbors_spec hh
  obtain ⟨ev', sp'⟩ := linkNeighbors_spec hb
  refine ⟨b', hb, ev'.shape.trans (ht.shape.trans ev.shape.symm), fun k x y hx hy => ?_⟩
  obtain ⟨x0, hx0, hxr⟩ := ev.get' hx
  obtain ⟨y0, hy0, hyr⟩ := ev'.get' hy
  have t0 := ht.rel k x0 y0 hx0 hy0
  have e0 := t0.rest
  unfold NeighborRel at hxr hyr e0
  refine ⟨?_, ?_⟩
  · unfold NeighborRel
    rw [hyr, hxr, e0]
  · intro m
    rw [sp k x0 x hx0 hx, sp' k y0 y hy0 hy]
    by_cases hk : k ∈ l
    · rw [if_pos hk, if_pos ((hl k).mp hk), mem_hsInsert, mem_hsInsert, t0.neighbors]
    · rw [if_neg hk, if_neg (fun h' => hk ((hl k).mpr h')), t0.neighbors]

theorem sleepOne_twin {o o' : IterOrder} {dt : α} {i : StepInfo α} {w t w' : World α} (hw : TwinWorld w t) (hh : sleepOne o dt i w = .ok w') :
    ∃ t', sleepOne o' dt i t = .ok t' ∧ TwinWorld w' t' := by
  obtain ⟨b, d, hev, rfl⟩ := TwinWorld.iff.mp hw
  unfold sleepOne at hh ⊢
  obtain ⟨e, he, hh⟩ := Res.bind_eq_ok.mp hh
  rw [unwrap_eq_ok] at he
  obtain ⟨e', he', te⟩ := hev.get he
  simp only [he', unwrap_some, Res.ok_bind]
  have hr := te.rest
  unfold NeighborRel at hr
  obtain ⟨n, rfl⟩ : ∃ n, e' = { e with neighbors := n } := ⟨_, hr⟩
  have hn : ∀ k, k ∈ e.neighbors ↔ k ∈ n := te.neighbors
  have hE : ({ e with neighbors := n } : InternalEntity α).totalEnergy = e.totalEnergy := rfl
  simp only [hE]
  by_cases h1 : e.asleep = true
  · rw [if_pos h1] at hh ⊢
    cases hh
    exact ⟨_, rfl, TwinWorld.iff.mpr ⟨_, d, hev.set2 _ (.with _ hn), rfl⟩⟩
  · rw [if_neg h1] at hh ⊢
    by_cases h2 : Scalar.lt w.energySleepThreshold e.totalEnergy = true
    · rw [if_pos h2] at hh ⊢
      cases hh
      exact ⟨_, rfl, TwinWorld.iff.mpr ⟨_, d, hev.set2 _ (.with _ hn), rfl⟩⟩
    · rw [if_neg h2] at hh ⊢
      by_cases h3 : Scalar.lt (if e.fallingAsleep = true then e.fallingAsleepTime + dt else e.fallingAsleepTime) w.sleepTimeThreshold = true
      · rw [if_pos h3] at hh ⊢
        cases hh
        exact ⟨_, rfl, TwinWorld.iff.mpr ⟨_, d, hev.set2 _ (.with _ hn), rfl⟩⟩
      · rw [if_neg h3] at hh ⊢
        obtain ⟨a', h4, hh⟩ := Res.bind_eq_ok.mp hh
        cases hh
        obtain ⟨b', h5, k5⟩ := linkNeighbors_twin (l' := o'.stepNeighbors i.handle i.neighbors)
          (fun n => (o.stepNeighbors_perm i.handle i.neighbors).mem_iff.trans (o'.stepNeighbors_perm i.handle i.neighbors).mem_iff.symm)
          (hev.set2 i.handle (Twin.refl _)) h4
        rw [h5]
        exact ⟨_, rfl, TwinWorld.iff.mpr ⟨b', d ++ [.puttingToSleep i.handle], k5, rfl⟩⟩

theorem sleepLoop_twin {o o' : IterOrder} {dt : α} : ∀ {l : List (StepInfo α)} {w t w' : World α}, TwinWorld w t → sleepLoop o dt l w = .ok w' →
    ∃ t', sleepLoop o' dt l t = .ok t' ∧ TwinWorld w' t'
  | [], w, t, w', hw, hh => by
    unfold sleepLoop at hh ⊢
    cases hh
    exact ⟨t, rfl, hw⟩
  | i :: l, w, t, w', hw, hh => by
    unfold sleepLoop at hh ⊢
    obtain ⟨w1, h1, hh⟩ := Res.bind_eq_ok.mp hh
    obtain ⟨t1, g1, k1⟩ := sleepOne_twin (o' := o') hw h1
    rw [g1]
    exact sleepLoop_twin k1 hh

section
variable [ForceGenerator α γ]

theorem step_twin (hb : Blind α γ) {o o' : IterOrder} {dt : α} {s t s' : System α γ} (hs : TwinSystem s t) (ha : Agree o o' s.entities) (hh : s.step o dt = .ok s') :
    ∃ t', t.step o' dt = .ok t' ∧ TwinSystem s' t' := by
  cases hdt : Scalar.lt (Scalar.abs dt) EPSILON with
  | true =>
    unfold System.step at hh ⊢
    rw [if_pos hdt] at hh ⊢
    cases hh
    exact ⟨t, rfl, hs⟩
  | false =>
    obtain ⟨p⟩ := step_phases hdt hh
    have hev := hs.world.entities
    have h0 : TwinSystem { s with collisionRecords := [], debug := [] } { t with collisionRecords := [], debug := [] } := by
      obtain ⟨b, d, hb, rfl⟩ := TwinSystem.iff.mp hs
      exact TwinSystem.iff.mpr ⟨b, [], hb, rfl⟩
    obtain ⟨m, g1, k1⟩ := integrateAll_twin hb h0 p.integrate
    obtain ⟨f, g2, k2⟩ := iterate_twin (o' := o') (Arena.handles_nodup _) ha p.inv0 k1.world p.iterate
    have k3 : TwinWorld (if p.concluded then p.final.world else { p.final.world with debug := p.final.world.debug ++ [.ranOut] })
        (if p.concluded then f else { f with debug := f.debug ++ [.ranOut] }) := by
      split
      · exact k2
      · obtain ⟨b, d, hb, rfl⟩ := TwinWorld.iff.mp k2
        exact TwinWorld.iff.mpr ⟨b, d ++ [.ranOut], hb, rfl⟩
    obtain ⟨w, g4, k4⟩ := sleepLoop_twin (o' := o') k3 p.sleep
    refine ⟨{ m with toWorld := w }, ?_, k4, ?_⟩
    · unfold System.step
      rw [if_neg (by simp [hdt])]
      have e1 : m.iterationMax = s.iterationMax := by
        have e2 := (integrateAll_spec (Arena.handles_nodup _) p.integrate).1
        have e3 := k1.world.rest
        have e4 : m.iterationMax = p.mid.iterationMax := by rw [e3]
        rw [e4, e2]
      simp only [hs.generators, hev.shape.handles_eq]
      rw [show ({ t with collisionRecords := [], debug := [] } : System α γ) = { t with collisionRecords := [], debug := [], generators := s.generators } from by rw [← hs.generators]] at g1
      rw [g1]
      simp only [Res.ok_bind, e1]
      rw [show iterate o' dt s.iterationMax ⟨m.toWorld, p.infos, dt, zero⟩ = _ from g2]
      simp only [Res.ok_bind, g4]
    · rw [p.generators]; exact k1.generators
end

/-! ### The other calls -/

theorem TwinSystem.entities {s t : System α γ} (h : TwinSystem s t) : Arena.Evolves Twin s.entities t.entities := h.world.entities

theorem addEntity_twin {s t : System α γ} (hs : TwinSystem s t) (wf : s.entities.WF) (x : Entity α) :
    (t.addEntity x).2 = (s.addEntity x).2 ∧ TwinSystem (s.addEntity x).1 (t.addEntity x).1 := by
  obtain ⟨b, d, hb, rfl⟩ := TwinSystem.iff.mp hs
  unfold System.addEntity
  cases InternalEntity.newFrom x with
  | none => exact ⟨rfl, hs⟩
  | some e =>
    obtain ⟨h1, h2⟩ := hb.insert2 wf (hb.shape.wf wf) (Twin.refl e)
    exact ⟨congrArg some h1.symm, TwinSystem.iff.mpr ⟨_, d, h2, rfl⟩⟩

theorem removeCollider_twin {s t s' : System α γ} {h : Handle} (hs : TwinSystem s t) (hh : s.removeCollider h = .ok s') :
    ∃ t', t.removeCollider h = .ok t' ∧ TwinSystem s' t' := by
  obtain ⟨b, d, hb, rfl⟩ := TwinSystem.iff.mp hs
  unfold System.removeCollider at hh ⊢
  simp only at hh ⊢
  cases hr : (s.colliders.remove h).2 with
  | none => rw [hr] at hh; cases hh; exact ⟨_, rfl, hs⟩
  | some c =>
    rw [hr] at hh
    simp only at hh ⊢
    cases hc : c.entity with
    | none => rw [hc] at hh; cases hh; exact ⟨_, rfl, TwinSystem.iff.mpr ⟨b, d, hb, rfl⟩⟩
    | some eh =>
      rw [hc] at hh
      simp only at hh ⊢
      cases he : s.entities.get eh with
      | some e => rw [he] at hh; cases hh
      | none =>
        rw [he] at hh
        rw [(hb.none_iff eh).mpr he]
        cases hh
        exact ⟨_, rfl, TwinSystem.iff.mpr ⟨b, d, hb, rfl⟩⟩

theorem removeColliders_twin : ∀ {l : List Handle} {s t s' : System α γ}, TwinSystem s t → System.removeColliders l s = .ok s' →
    ∃ t', System.removeColliders l t = .ok t' ∧ TwinSystem s' t'
  | [], s, t, s', hs, hh => by
    unfold System.removeColliders at hh ⊢
    cases hh
    exact ⟨t, rfl, hs⟩
  | h :: l, s, t, s', hs, hh => by
    unfold System.removeColliders at hh ⊢
    obtain ⟨s1, h1, hh⟩ := Res.bind_eq_ok.mp hh
    obtain ⟨t1, g1, k1⟩ := removeCollider_twin hs h1
    rw [g1]
    exact removeColliders_twin k1 hh

theorem removeEntity_twin {o o' : IterOrder} {s t : System α γ} {h : Handle} {r : System α γ × Bool} (hs : TwinSystem s t) (ha : Agree o o' s.entities)
    (hh : s.removeEntity o h = .ok r) : ∃ t', t.removeEntity o' h = .ok (t', r.2) ∧ TwinSystem r.1 t' := by
  obtain ⟨b, d, hb, rfl⟩ := TwinSystem.iff.mp hs
  unfold System.removeEntity at hh ⊢
  simp only at hh ⊢
  cases he : s.entities.get h with
  | none =>
    have e1 : (s.entities.remove h).2 = none := by rw [Arena.remove_snd, he]
    have e2 : (b.remove h).2 = none := by rw [Arena.remove_snd, (hb.none_iff h).mpr he]
    rw [e1] at hh
    rw [e2]
    cases hh
    exact ⟨_, rfl, hs⟩
  | some e =>
    obtain ⟨e', he', te⟩ := hb.get he
    have e1 : (s.entities.remove h).2 = some e := by rw [Arena.remove_snd, he]
    have e2 : (b.remove h).2 = some e' := by rw [Arena.remove_snd, he']
    have hc : e'.colliders = e.colliders := by rw [te.rest]
    rw [e1] at hh
    rw [e2]
    simp only at hh ⊢
    obtain ⟨s1, h1, hh⟩ := Res.bind_eq_ok.mp hh
    cases hh
    obtain ⟨t1, g1, k1⟩ := removeColliders_twin (t := { s with entities := (b.remove h).1, debug := d })
      (by exact TwinSystem.iff.mpr ⟨(b.remove h).1, d, hb.remove2 h, rfl⟩) h1
    rw [hc, ← ha h e he, g1]
    exact ⟨t1, rfl, k1⟩

theorem updateEntity_twin {o o' : IterOrder} {s t : System α γ} {h : Handle} {x : Entity α} {r : System α γ × Bool} (hs : TwinSystem s t) (ha : Agree o o' s.entities)
    (hh : s.updateEntity o h x = .ok r) : ∃ t', t.updateEntity o' h x = .ok (t', r.2) ∧ TwinSystem r.1 t' := by
  obtain ⟨b, d, hb, rfl⟩ := TwinSystem.iff.mp hs
  unfold System.updateEntity at hh ⊢
  simp only at hh ⊢
  cases he : s.entities.get h with
  | none =>
    rw [he] at hh
    rw [(hb.none_iff h).mpr he]
    cases hh
    exact ⟨_, rfl, hs⟩
  | some e =>
    obtain ⟨e', he', te⟩ := hb.get he
    have hr := te.rest
    unfold NeighborRel at hr
    obtain ⟨n, rfl⟩ : ∃ n, e' = { e with neighbors := n } := ⟨_, hr⟩
    have hn : ∀ k, k ∈ e.neighbors ↔ k ∈ n := te.neighbors
    rw [he] at hh
    rw [he']
    simp only at hh ⊢
    unfold InternalEntity.updateFrom at hh ⊢
    have hch : ({ e with neighbors := n } : InternalEntity α).changed x = e.changed x := rfl
    by_cases hm : Scalar.lt x.ownMass zero = true
    · rw [if_pos hm] at hh ⊢
      cases hh
      exact ⟨_, rfl, hs⟩
    · rw [if_neg hm] at hh ⊢
      simp only [hch] at hh ⊢
      obtain ⟨e1, h1, hh⟩ := Res.bind_eq_ok.mp hh
      obtain ⟨e2, h2, t2⟩ := recalculateMass_twin (e' := { e with
        ownMass := x.ownMass
        orientation := { e.orientation with position := x.position, rotation := Quat.fromScaledAxis x.rotation }
        velocity := x.velocity
        angularVelocity := x.angularVelocity
        neighbors := n }) (by exact ⟨(by unfold NeighborRel; rfl), hn⟩) h1 (recalculateMass_massRel h1).neighbors
      rw [← ha h e he, h2]
      simp only [Res.ok_bind]
      cases hw : e.changed x with
      | false =>
        rw [hw] at hh
        simp only [Bool.false_eq_true, if_false] at hh ⊢
        cases hh
        exact ⟨_, rfl, TwinSystem.iff.mpr ⟨_, d, hb.set2 h t2, rfl⟩⟩
      | true =>
        rw [hw] at hh
        simp only [if_true] at hh ⊢
        obtain ⟨⟨a3, d3⟩, h3, hh⟩ := Res.bind_eq_ok.mp hh
        cases hh
        obtain ⟨b3, dd, h4, k4⟩ := wakeUp_twin (o' := o') (hb.set2 h t2) h3 d
        rw [h4]
        exact ⟨_, rfl, TwinSystem.iff.mpr ⟨b3, dd, k4, rfl⟩⟩

theorem refreshEntity_twin {o o' : IterOrder} {s t s' : System α γ} {h : Option Handle} (hs : TwinSystem s t) (ha : Agree o o' s.entities)
    (hh : s.refreshEntity o h = .ok s') : ∃ t', t.refreshEntity o' h = .ok t' ∧ TwinSystem s' t' := by
  obtain ⟨b, d, hb, rfl⟩ := TwinSystem.iff.mp hs
  unfold System.refreshEntity at hh ⊢
  cases h with
  | none => cases hh; exact ⟨_, rfl, hs⟩
  | some eh =>
    simp only at hh ⊢
    cases he : s.entities.get eh with
    | none =>
      rw [he] at hh
      rw [(hb.none_iff eh).mpr he]
      cases hh
      exact ⟨_, rfl, hs⟩
    | some e =>
      obtain ⟨e', he', te⟩ := hb.get he
      have hc : e'.colliders = e.colliders := by rw [te.rest]
      rw [he] at hh
      rw [he']
      simp only at hh ⊢
      obtain ⟨e1, h1, hh⟩ := Res.bind_eq_ok.mp hh
      cases hh
      obtain ⟨e2, h2, t2⟩ := recalculateMass_twin te h1 (recalculateMass_massRel h1).neighbors
      rw [hc, ← ha eh e he, h2]
      exact ⟨_, rfl, TwinSystem.iff.mpr ⟨_, d, hb.set2 eh t2, rfl⟩⟩

theorem updateCollider_twin {o o' : IterOrder} {s t : System α γ} {h : Handle} {x : Collider α} {r : System α γ × Bool} (hs : TwinSystem s t) (ha : Agree o o' s.entities)
    (hh : s.updateCollider o h x = .ok r) : ∃ t', t.updateCollider o' h x = .ok (t', r.2) ∧ TwinSystem r.1 t' := by
  obtain ⟨b, d, hb, rfl⟩ := TwinSystem.iff.mp hs
  unfold System.updateCollider at hh ⊢
  simp only at hh ⊢
  cases hc : s.colliders.get h with
  | none => rw [hc] at hh; cases hh; exact ⟨_, rfl, hs⟩
  | some c =>
    rw [hc] at hh
    simp only at hh ⊢
    cases hu : c.updateFrom x with
    | wrongType => rw [hu] at hh; cases hh; exact ⟨_, rfl, hs⟩
    | invalid =>
      rw [hu] at hh
      simp only at hh ⊢
      obtain ⟨s1, h1, hh⟩ := Res.bind_eq_ok.mp hh
      cases hh
      obtain ⟨t1, g1, k1⟩ := refreshEntity_twin hs ha h1
      rw [g1]
      exact ⟨t1, rfl, k1⟩
    | updated c' =>
      rw [hu] at hh
      simp only at hh ⊢
      obtain ⟨s1, h1, hh⟩ := Res.bind_eq_ok.mp hh
      cases hh
      obtain ⟨t1, g1, k1⟩ := refreshEntity_twin (t := { s with entities := b, debug := d, colliders := s.colliders.set h c' })
        (by exact TwinSystem.iff.mpr ⟨b, d, hb, rfl⟩) (by exact ha) h1
      rw [g1]
      exact ⟨t1, rfl, k1⟩

theorem unlinkPrior_twin {o o' : IterOrder} {s t s' : System α γ} {ch : Handle} {prior : Option Handle} (hs : TwinSystem s t) (ha : Agree o o' s'.entities)
    (hh : s.unlinkPrior o ch prior = .ok s') : ∃ t', t.unlinkPrior o' ch prior = .ok t' ∧ TwinSystem s' t' := by
  obtain ⟨b, d, hb, rfl⟩ := TwinSystem.iff.mp hs
  unfold System.unlinkPrior at hh ⊢
  cases prior with
  | none => cases hh; exact ⟨_, rfl, hs⟩
  | some ph =>
    simp only at hh ⊢
    cases he : s.entities.get ph with
    | none =>
      rw [he] at hh
      rw [(hb.none_iff ph).mpr he]
      cases hh
      exact ⟨_, rfl, hs⟩
    | some e =>
      obtain ⟨e', he', te⟩ := hb.get he
      have hr := te.rest
      unfold NeighborRel at hr
      obtain ⟨n, rfl⟩ : ∃ n, e' = { e with neighbors := n } := ⟨_, hr⟩
      have hn : ∀ k, k ∈ e.neighbors ↔ k ∈ n := te.neighbors
      rw [he] at hh
      rw [he']
      simp only at hh ⊢
      obtain ⟨e1, h1, hh⟩ := Res.bind_eq_ok.mp hh
      cases hh
      have hm := recalculateMass_massRel h1
      have hag := ha ph e1 (by show (s.entities.set ph e1).get ph = some e1; rw [Arena.get_set, if_pos rfl, he]; rfl)
      rw [hm.colliders] at hag
      obtain ⟨e2, h2, t2⟩ := recalculateMass_twin (e' := { e with colliders := hsRemove e.colliders ch, neighbors := n }) (by exact ⟨(by unfold NeighborRel; rfl), hn⟩) h1 hm.neighbors
      rw [← hag, h2]
      exact ⟨_, rfl, TwinSystem.iff.mpr ⟨_, d, hb.set2 ph t2, rfl⟩⟩

theorem switchLink_twin {o o' : IterOrder} {s t : System α γ} {ch : Handle} {eh : Option Handle} {r : System α γ × Bool} (hs : TwinSystem s t)
    (ha : Agree o o' r.1.entities) (hh : s.switchLink o ch eh = .ok r) : ∃ t', t.switchLink o' ch eh = .ok (t', r.2) ∧ TwinSystem r.1 t' := by
  obtain ⟨b, d, hb, rfl⟩ := TwinSystem.iff.mp hs
  unfold System.switchLink at hh ⊢
  simp only at hh ⊢
  cases hc : s.colliders.get ch with
  | none => rw [hc] at hh; cases hh; exact ⟨_, rfl, hs⟩
  | some c =>
    rw [hc] at hh
    simp only at hh ⊢
    by_cases hp : c.entity ≠ eh
    · rw [if_pos hp] at hh ⊢
      obtain ⟨s1, h1, hh⟩ := Res.bind_eq_ok.mp hh
      cases hh
      obtain ⟨t1, g1, k1⟩ := unlinkPrior_twin (t := { s with entities := b, debug := d, colliders := s.colliders.set ch (c.setEntity eh) })
        (by exact TwinSystem.iff.mpr ⟨b, d, hb, rfl⟩) (by exact ha) h1
      rw [g1]
      exact ⟨t1, rfl, k1⟩
    · rw [if_neg hp] at hh ⊢
      cases hh
      exact ⟨_, rfl, TwinSystem.iff.mpr ⟨b, d, hb, rfl⟩⟩

theorem unlinkPrior_get {o : IterOrder} {s s' : System α γ} {ch k : Handle} {prior : Option Handle} (hk : prior ≠ some k) (hh : s.unlinkPrior o ch prior = .ok s') :
    s'.entities.get k = s.entities.get k := by
  unfold System.unlinkPrior at hh
  cases prior with
  | none => cases hh; rfl
  | some ph =>
    simp only at hh
    split at hh
    · cases hh; rfl
    · obtain ⟨e1, h1, hh⟩ := Res.bind_eq_ok.mp hh
      cases hh
      show (s.entities.set ph e1).get k = _
      rw [Arena.get_set, if_neg (fun h => hk (by rw [h]))]

theorem switchLink_get {o : IterOrder} {s : System α γ} {ch k : Handle} {r : System α γ × Bool} (hh : s.switchLink o ch (some k) = .ok r) :
    r.1.entities.get k = s.entities.get k := by
  unfold System.switchLink at hh
  split at hh
  · cases hh; rfl
  · rename_i c hc
    simp only at hh
    split at hh
    · rename_i hp
      obtain ⟨s1, h1, hh⟩ := Res.bind_eq_ok.mp hh
      cases hh
      have := unlinkPrior_get hp h1
      exact this
    · cases hh; rfl

theorem linkCollider_twin {o o' : IterOrder} {s t : System α γ} {ch : Handle} {eh : Option Handle} {r : System α γ × Bool} (hs : TwinSystem s t)
    (ha : Agree o o' r.1.entities) (hh : s.linkCollider o ch eh = .ok r) : ∃ t', t.linkCollider o' ch eh = .ok (t', r.2) ∧ TwinSystem r.1 t' := by
  obtain ⟨b, d, hb, rfl⟩ := TwinSystem.iff.mp hs
  unfold System.linkCollider at hh ⊢
  simp only at hh ⊢
  by_cases hc : (!s.colliders.contains ch) = true
  · rw [if_pos hc] at hh ⊢
    cases hh
    exact ⟨_, rfl, hs⟩
  · rw [if_neg hc] at hh ⊢
    cases eh with
    | none => exact switchLink_twin hs ha hh
    | some k =>
      simp only at hh ⊢
      cases he : s.entities.get k with
      | none =>
        rw [he] at hh
        rw [(hb.none_iff k).mpr he]
        cases hh
        exact ⟨_, rfl, hs⟩
      | some e =>
        obtain ⟨e', he', te⟩ := hb.get he
        have hr := te.rest
        unfold NeighborRel at hr
        obtain ⟨n, rfl⟩ : ∃ n, e' = { e with neighbors := n } := ⟨_, hr⟩
        have hn : ∀ k, k ∈ e.neighbors ↔ k ∈ n := te.neighbors
        rw [he] at hh
        rw [he']
        simp only at hh ⊢
        obtain ⟨e1, h1, hh⟩ := Res.bind_eq_ok.mp hh
        have hm := recalculateMass_massRel h1
        have hg : (s.entities.set k e1).get k = some e1 := by rw [Arena.get_set, if_pos rfl, he]; rfl
        have hag := ha k e1 (by rw [switchLink_get hh]; exact hg)
        rw [hm.colliders] at hag
        obtain ⟨e2, h2, t2⟩ := recalculateMass_twin (e' := { e with colliders := hsInsert e.colliders ch, neighbors := n }) (by exact ⟨(by unfold NeighborRel; rfl), hn⟩) h1 hm.neighbors
        rw [← hag, h2]
        simp only [Res.ok_bind]
        exact switchLink_twin (by exact TwinSystem.iff.mpr ⟨b.set k e2, d, hb.set2 k t2, rfl⟩) (by exact ha) hh

section
variable [ForceGenerator α γ]

/-- One call in two runs that differ in the iteration orders. -/
theorem exec_twin (hb : Blind α γ) {o o' : IterOrder} {s t s' : System α γ} {op : Op α γ} {out : Out γ} (hs : TwinSystem s t) (wf : s.entities.WF)
    (ha : Agree o o' s.entities) (ha' : Agree o o' s'.entities) (hh : s.exec o op = .ok (s', out)) :
    ∃ t', t.exec o' op = .ok (t', out) ∧ TwinSystem s' t' := by
  cases op with
  | addEntity x =>
    cases hh
    obtain ⟨h1, h2⟩ := addEntity_twin hs wf x
    exact ⟨_, by unfold System.exec; simp only [h1], h2⟩
  | removeEntity h =>
    unfold System.exec at hh ⊢
    obtain ⟨r, h1, hh⟩ := Res.bind_eq_ok.mp hh
    cases hh
    obtain ⟨t', g, k⟩ := removeEntity_twin hs ha h1
    refine ⟨t', ?_, k⟩
    simp only [g, Res.ok_bind]
  | updateEntity h x =>
    unfold System.exec at hh ⊢
    obtain ⟨r, h1, hh⟩ := Res.bind_eq_ok.mp hh
    cases hh
    obtain ⟨t', g, k⟩ := updateEntity_twin hs ha h1
    refine ⟨t', ?_, k⟩
    simp only [g, Res.ok_bind]
  | addCollider c =>
    obtain ⟨b, d, hv, rfl⟩ := TwinSystem.iff.mp hs
    unfold System.exec System.addCollider at hh ⊢
    simp only at hh ⊢
    cases hn : c.newFrom with
    | none => rw [hn] at hh; cases hh; exact ⟨_, rfl, hs⟩
    | some c' =>
      rw [hn] at hh
      cases hh
      exact ⟨_, rfl, TwinSystem.iff.mpr ⟨b, d, hv, rfl⟩⟩
  | removeCollider h =>
    unfold System.exec at hh ⊢
    obtain ⟨r, h1, hh⟩ := Res.bind_eq_ok.mp hh
    cases hh
    obtain ⟨t', g, k⟩ := removeCollider_twin hs h1
    refine ⟨t', ?_, k⟩
    simp only [g, Res.ok_bind]
  | updateCollider h c =>
    unfold System.exec at hh ⊢
    obtain ⟨r, h1, hh⟩ := Res.bind_eq_ok.mp hh
    cases hh
    obtain ⟨t', g, k⟩ := updateCollider_twin hs ha h1
    refine ⟨t', ?_, k⟩
    simp only [g, Res.ok_bind]
  | linkCollider c e =>
    unfold System.exec at hh ⊢
    obtain ⟨r, h1, hh⟩ := Res.bind_eq_ok.mp hh
    cases hh
    obtain ⟨t', g, k⟩ := linkCollider_twin hs ha' h1
    refine ⟨t', ?_, k⟩
    simp only [g, Res.ok_bind]
  | addGenerator g =>
    obtain ⟨b, d, hv, rfl⟩ := TwinSystem.iff.mp hs
    unfold System.exec System.addGenerator at hh ⊢
    cases hh
    exact ⟨_, rfl, TwinSystem.iff.mpr ⟨b, d, hv, rfl⟩⟩
  | removeGenerator h =>
    obtain ⟨b, d, hv, rfl⟩ := TwinSystem.iff.mp hs
    unfold System.exec System.removeGenerator at hh ⊢
    cases hh
    exact ⟨_, rfl, TwinSystem.iff.mpr ⟨b, d, hv, rfl⟩⟩
  | step dt =>
    unfold System.exec at hh ⊢
    obtain ⟨r, h1, hh⟩ := Res.bind_eq_ok.mp hh
    cases hh
    obtain ⟨t', g, k⟩ := step_twin hb hs ha h1
    refine ⟨t', ?_, k⟩
    simp only [g, Res.ok_bind]
  | configure n e q rs dd =>
    obtain ⟨b, d, hv, rfl⟩ := TwinSystem.iff.mp hs
    unfold System.exec at hh ⊢
    cases hh
    exact ⟨_, rfl, TwinSystem.iff.mpr ⟨b, dd, hv, rfl⟩⟩
end

end Fluffy
