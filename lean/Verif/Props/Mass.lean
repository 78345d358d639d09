import Verif.Num.MassState
import Verif.Props.Pose
/- C13 to C19: total mass, centre of mass, moment of inertia and kinetic energy. -/
set_option linter.unusedSectionVars false
set_option linter.unusedSimpArgs false
namespace Fluffy.Props
open Fluffy XReal InternalEntity Step

/-! ### Specification -/

section
variable {α : Type} [Scalar α] {γ : Type}

/-- The colliders `get_entity` says are linked, as `get_collider` shows them. -/
def linked (s : System α γ) (e : Entity α) : List (Collider α) := e.colliders.filterMap s.getCollider

theorem linked_eq (s : System α γ) (E : InternalEntity α) : linked s E.makePub = found s.colliders E.colliders := by
  unfold linked found
  congr 1
  funext h
  show (s.colliders.get h).map Collider.makePub = s.colliders.get h
  cases s.colliders.get h <;> simp [Collider.makePub_eq]

theorem getEntity_iff {s : System α γ} {k : Handle} {e : Entity α} :
    s.getEntity k = some e ↔ ∃ E, s.entities.get k = some E ∧ E.makePub = e := by
  simp [World.getEntity]
end

/-- The sum of the masses of a list of colliders. -/
noncomputable def massSum (l : List (Collider XReal)) : XReal := l.foldr (fun c a => c.mass + a) (fin 0)

theorem massSum_eq (l : List (Collider XReal)) : l.foldl (fun a c => a + c.mass) (fin 0) = massSum l := by
  have : ∀ (b : XReal), l.foldl (fun a c => a + c.mass) b = b + massSum l := by
    induction l with
    | nil => intro b; simp [massSum]
    | cons c l ih => intro b; rw [List.foldl_cons, ih, add_assoc']; rfl
  rw [this]; simp

/-- The mass, the centre and the tensor of a collider are finite. -/
def FiniteBody (c : Collider XReal) : Prop :=
  Scalar.isFinite c.mass = true ∧ Finite3 c.localCenterOfMass ∧
  Finite3 c.momentOfInertia.r1 ∧ Finite3 c.momentOfInertia.r2 ∧ Finite3 c.momentOfInertia.r3

theorem FiniteBody.lump {c : Collider XReal} (h : FiniteBody c) : ∃ l : Lump, l.Of c := by
  obtain ⟨m, hm⟩ := isFinite_iff.mp h.1
  obtain ⟨v, hv⟩ := h.2.1.f
  obtain ⟨t, ht⟩ := Mat3.exists_f h.2.2.1.f h.2.2.2.1.f h.2.2.2.2.f
  exact ⟨⟨m, v, t⟩, hm, hv, ht⟩

theorem lumps {l : List (Collider XReal)} (h : ∀ c ∈ l, FiniteBody c) : ∃ ls, List.Forall₂ Lump.Of ls l := by
  induction l with
  | nil => exact ⟨[], .nil⟩
  | cons c l ih =>
    obtain ⟨x, hx⟩ := (h c (by simp)).lump
    obtain ⟨xs, hxs⟩ := ih (fun d hd => h d (by simp [hd]))
    exact ⟨x :: xs, .cons hx hxs⟩

/-- All numbers of a pose are finite. -/
structure FinitePose (o : Orientation XReal) : Prop where
  position : Finite3 o.position
  offset : Finite3 o.internalOriginOffset
  w : Scalar.isFinite o.rotation.w = true
  v : Finite3 o.rotation.vec

theorem FinitePose.real {o : Orientation XReal} (h : FinitePose o) : ∃ r : Orientation ℝ, o = r.f := by
  obtain ⟨p, hp⟩ := h.position.f
  obtain ⟨c, hc⟩ := h.offset.f
  obtain ⟨q, hq⟩ := Quat.exists_f (q := o.rotation) h.w h.v.1 h.v.2.1 h.v.2.2
  refine ⟨⟨p, q, c⟩, ?_⟩
  cases o; simp_all [Orientation.f]
theorem finitePose_f (r : Orientation ℝ) : FinitePose r.f :=
  ⟨finite3_f _, finite3_f _, rfl, finite3_f ⟨r.rotation.i, r.rotation.j, r.rotation.k⟩⟩
theorem UnitPose.finite {o : Orientation XReal} (h : UnitPose o) : FinitePose o := ⟨h.position, h.offset, h.w, h.v⟩

variable {γ : Type} [ForceGenerator XReal γ] {s s' : System XReal γ}

/-- The pose of a reachable entity with finite numbers is a rigid transform. -/
theorem reachable_unit (hr : Reachable s) {k : Handle} {E : InternalEntity XReal} (hE : s.entities.get k = some E)
    (hf : FinitePose E.orientation) : ∃ o : Orientation ℝ, E.orientation = o.f ∧ o.Unit := by
  obtain ⟨o, ho⟩ := hf.real
  exact ⟨o, ho, stored_rotation hr hE (by rw [ho]; rfl)⟩

/-- **C51 (reachable states).** The pose of every entity, as far as its numbers are finite, is a unit pose: the
quaternion never drifts from unit length. -/
theorem C51_reachable (hr : Reachable s) {k : Handle} {e : Entity XReal} (he : s.getEntity k = some e)
    (hf : FinitePose e.lastOrientation) : UnitPose e.lastOrientation := by
  obtain ⟨E, hE, rfl⟩ := getEntity_iff.mp he
  obtain ⟨o, ho, hu⟩ := reachable_unit hr hE hf
  show UnitPose E.orientation
  rw [ho]; exact unitPose_f hu

/-! ### C13 -/

/-- **C13.** In every reachable state the reported total mass is the own mass plus the masses of the linked colliders,
and is infinite if one of those is infinite. -/
theorem C13_total_mass (hr : Reachable s) {k : Handle} {e : Entity XReal} (he : s.getEntity k = some e) :
    ((∃ c ∈ linked s e, c.mass = posInf) → e.lastTotalMass = posInf) ∧
    ((∀ c ∈ linked s e, c.mass ≠ posInf) → e.lastTotalMass = e.ownMass + massSum (linked s e)) := by
  obtain ⟨E, hE, rfl⟩ := getEntity_iff.mp he
  rw [linked_eq, ← massSum_eq]
  exact stored_total hr hE

/-- The masses that enter `C13_total_mass` are sane. -/
theorem C13_masses (hr : Reachable s) {e : Entity XReal} :
    ∀ c ∈ linked s e, c.mass = posInf ∨ ∃ m, 0 ≤ m ∧ c.mass = fin m := by
  intro c hc
  simp only [linked, List.mem_filterMap] at hc
  obtain ⟨h, -, hc⟩ := hc
  rw [World.getCollider] at hc
  obtain ⟨C, hC, rfl⟩ := Option.map_eq_some_iff.mp hc
  rw [Collider.makePub_eq]
  exact stored_mass hr hC

/-- **C13 (any arithmetic, e.g. `f32`).** The reported total mass is what summing the masses of the linked colliders in
some order gives: infinite if one is, else own mass plus sum (or the own mass, if the sum is not positive). -/
theorem C13_any_arithmetic {α : Type} [Scalar α] [LawfulOrder α] {γ : Type} [ForceGenerator α γ] {s : System α γ}
    (hr : Reachable s) {k : Handle} {e : Entity α} (he : s.getEntity k = some e) :
    ∃ l : List (Collider α), l.Perm (linked s e) ∧
      (l.any (fun c => Scalar.isInfinite c.mass) = true → e.lastTotalMass = Scalar.inf) ∧
      (l.any (fun c => Scalar.isInfinite c.mass) = false →
        e.lastTotalMass = if Scalar.lt zero (l.foldl (fun a c => a + c.mass) zero)
          then e.ownMass + l.foldl (fun a c => a + c.mass) zero else e.ownMass) := by
  obtain ⟨E, hE, rfl⟩ := getEntity_iff.mp he
  rw [linked_eq]
  rcases hr.inv.mass k E hE with ⟨h1, h2, h3⟩ | ⟨order, E0, E1, hp, hrec, hcar⟩
  · refine ⟨[], by simp [h1, found], by simp, ?_⟩
    intro _
    rw [if_neg (by rw [List.foldl_nil, LawfulOrder.lt_irrefl]; simp)]
    exact h2
  · obtain ⟨r1, r2, r3, r4, r5⟩ := staticRel_iff.mp hcar.1
    have hcol : E1.colliders = E.colliders := r5.symm
    rw [hcol] at hp
    refine ⟨found s.colliders order, hp.filterMap _, ?_⟩
    have := recalculateMass_totalMass hrec
    rw [specMass, massesOf_found] at this
    rw [List.any_map, List.foldl_map] at this
    have ho : E0.ownMass = E.ownMass := by rw [r2, (recalculateMass_massRel hrec).ownMass]
    have ht : E.makePub.lastTotalMass = E1.totalMass := r3
    rw [ht, this]
    refine ⟨?_, ?_⟩
    · intro h
      rw [if_pos (by simpa [Function.comp] using h)]
    · intro h
      rw [if_neg (by simpa [Function.comp] using h), ho]
      rfl

/-! ### C14 -/

/-- **C14 (any arithmetic).** A call on colliders leaves the rotation, the velocity and the angular velocity of every
entity unchanged, bit by bit. -/
theorem C14_motion {α : Type} [Scalar α] {γ : Type} [ForceGenerator α γ] {s s' : System α γ} (hr : Reachable s)
    {ord : IterOrder} {op : Op α γ} {out : Out γ} (hop : System.ColliderOp op) (hh : s.exec ord op = .ok (s', out))
    {k : Handle} {e' : Entity α} (he' : s'.getEntity k = some e') :
    ∃ e, s.getEntity k = some e ∧ e'.velocity = e.velocity ∧ e'.angularVelocity = e.angularVelocity ∧
      e'.lastOrientation.rotation = e.lastOrientation.rotation ∧ e'.rotation = e.rotation ∧ e'.ownMass = e.ownMass ∧
      e'.asleep = e.asleep := by
  obtain ⟨E', hE', rfl⟩ := getEntity_iff.mp he'
  rcases System.exec_colliderOp hr.inv hop hh hE' with h | ⟨E, cols, order, hE, -, h⟩
  · exact ⟨_, getEntity_iff.mpr ⟨E', h, rfl⟩, rfl, rfl, rfl, rfl, rfl, rfl⟩
  · have hm := recalculateMass_massRel h
    have hq : E'.orientation.rotation = E.orientation.rotation := hm.rotation
    refine ⟨_, getEntity_iff.mpr ⟨E, hE, rfl⟩, hm.velocity, hm.angularVelocity, hq, ?_, hm.ownMass, hm.asleep⟩
    show E'.orientation.rotation.scaledAxis = E.orientation.rotation.scaledAxis
    rw [hq]

/-- A recalculation keeps the local space where it is. -/
theorem recalculate_space {order : List Handle} {cs : Arena (Collider XReal)} {F E' : InternalEntity XReal}
    (h : recalculateMass order cs F = .ok E') (hl : ∀ h ∈ order, ∃ c, cs.get h = some c) {o : Orientation ℝ}
    (ho : F.orientation = o.f) (hu : o.Unit)
    (hb : (∀ c ∈ found cs order, FiniteBody c) ∨ ∃ c ∈ found cs order, c.mass = posInf) :
    ∃ c, E'.orientation = (o.recentered c).f := by
  by_cases hi : ∃ c ∈ found cs order, Scalar.isInfinite c.mass = true
  · rw [recalculateMass_infinite F hl hi] at h
    injection h with h
    exact ⟨_, h ▸ (fixed_real ho).1⟩
  · push Not at hi
    simp only [Bool.not_eq_true] at hi
    rcases hb with hb | ⟨c, hc, hm⟩
    · obtain ⟨ls, hls⟩ := lumps hb
      rw [recalculateMass_loose F hl hi] at h
      injection h with h
      exact ⟨_, h ▸ (loose_real ho hu hls).1⟩
    · have := hi c hc
      rw [hm] at this
      cases this

/-- The live colliders after a call. -/
theorem live_after {ord : IterOrder} {op : Op XReal γ} {out : Out γ} (hr : Reachable s)
    (hh : s.exec ord op = .ok (s', out)) : Reachable s' := by
  obtain ⟨tr, h⟩ := hr
  exact ⟨_, .snoc ord op out h hh⟩

/-- **C14.** A call on colliders leaves every local point of every entity where it is in the world, the local origin
in particular, as long as the numbers are finite: the pose before, and the mass data of the colliders linked after the
call (unless one of them has infinite mass). -/
theorem C14_local_space (hr : Reachable s) {ord : IterOrder} {op : Op XReal γ} {out : Out γ}
    (hop : System.ColliderOp op) (hh : s.exec ord op = .ok (s', out)) {k : Handle} {e e' : Entity XReal}
    (he : s.getEntity k = some e) (he' : s'.getEntity k = some e') (hf : FinitePose e.lastOrientation)
    (hb : (∀ c ∈ linked s' e', FiniteBody c) ∨ ∃ c ∈ linked s' e', c.mass = posInf) :
    e'.lastOrientation.localOriginInWorld = e.lastOrientation.localOriginInWorld ∧
    ∀ p, Finite3 p → e'.lastOrientation.positionIntoWorld p = e.lastOrientation.positionIntoWorld p := by
  obtain ⟨E, hE, rfl⟩ := getEntity_iff.mp he
  obtain ⟨E', hE', rfl⟩ := getEntity_iff.mp he'
  rcases System.exec_colliderOp hr.inv hop hh hE' with h | ⟨F, cols, order, hF, hp, h⟩
  · rw [hE] at h; cases h; exact ⟨rfl, fun _ _ => rfl⟩
  · rw [hE] at hF; cases hF
    obtain ⟨o, ho, hu⟩ := reachable_unit hr hE hf
    have hcol : E'.colliders = cols := (recalculateMass_massRel h).colliders
    rw [← hcol] at hp
    have hl := live_of_inv (live_after hr hh).inv hE' hp
    have hperm : (found s'.colliders order).Perm (found s'.colliders E'.colliders) := hp.filterMap _
    rw [linked_eq] at hb
    obtain ⟨c, hc⟩ := recalculate_space h hl ho hu (by
      rcases hb with hb | ⟨c, hc, hm⟩
      · exact Or.inl fun c hc => hb c (hperm.mem_iff.mp hc)
      · exact Or.inr ⟨c, hperm.mem_iff.mpr hc, hm⟩)
    have key : ∀ p : Vec3 ℝ, E'.orientation.positionIntoWorld p.f = E.orientation.positionIntoWorld p.f := by
      intro p
      rw [hc, ho, Orientation.f_positionIntoWorld _ _ (Orientation.recentered_unit hu c),
        Orientation.f_positionIntoWorld _ _ hu, Orientation.toWorld_recentered]
    refine ⟨?_, ?_⟩
    · show E'.orientation.positionIntoWorld _ = E.orientation.positionIntoWorld _
      rw [Vec3.f_zeros]; exact key _
    · intro p hp
      obtain ⟨q, rfl⟩ := hp.f
      exact key q

/-! ### C15 -/

/-- The mass-weighted mean of the centres of mass, as seen in the world from the pose `o`. -/
noncomputable def worldCentre (o : Orientation XReal) (l : List (Collider XReal)) : Vec3 XReal :=
  (l.foldr (fun c a => (o.positionIntoWorld c.localCenterOfMass).scale c.mass + a) Vec3.zeros).unscale (massSum l)

theorem massSum_lumps {ls : List Lump} {l : List (Collider XReal)} (h : List.Forall₂ Lump.Of ls l) :
    massSum l = fin (Lump.total ls) := by
  rw [← massSum_eq, Lump.foldl_mass h 0, zero_add]

theorem worldCentre_lumps {o : Orientation ℝ} (ho : o.Unit) {ls : List Lump} {l : List (Collider XReal)}
    (h : List.Forall₂ Lump.Of ls l) (hM : 0 < Lump.total ls) : worldCentre o.f l = (o.toWorld (Lump.mean ls)).f := by
  have hs : ∀ {ls : List Lump} {l : List (Collider XReal)}, List.Forall₂ Lump.Of ls l →
      l.foldr (fun c a => (o.f.positionIntoWorld c.localCenterOfMass).scale c.mass + a) Vec3.zeros =
      (Vec3.sum (ls.map fun l => (o.toWorld l.c).scale l.m)).f := by
    intro ls l h
    induction h with
    | nil => simp
    | cons hx _ ih =>
      simp only [List.foldr_cons, List.map_cons, Vec3.sum_cons, ih, hx.1, hx.2.1]
      rw [Orientation.f_positionIntoWorld _ _ ho]; simp
  rw [worldCentre, hs h, massSum_lumps h, Vec3.f_unscale _ hM.ne', Lump.world_mean o hM]

/-- **C15 (centre of mass).** In every reachable state, not only after a call on colliders, the position of an entity
whose linked colliders have positive finite total mass is the mass-weighted mean of their centres of mass. -/
theorem C15_centre_of_mass (hr : Reachable s) {k : Handle} {e : Entity XReal} (he : s.getEntity k = some e)
    (hf : FinitePose e.lastOrientation) (hb : ∀ c ∈ linked s e, FiniteBody c)
    (hM : Scalar.lt (fin 0) (massSum (linked s e)) = true) :
    e.position = worldCentre e.lastOrientation (linked s e) := by
  obtain ⟨E, hE, rfl⟩ := getEntity_iff.mp he
  obtain ⟨o, ho, hu⟩ := reachable_unit hr hE hf
  obtain ⟨ls, hls⟩ := lumps hb
  rw [massSum_lumps hls] at hM
  have hM : 0 < Lump.total ls := by simpa using hM
  have ho' : E.makePub.lastOrientation = o.f := ho
  rw [ho', worldCentre_lumps hu hls hM]
  rw [linked_eq] at hls
  have := (stored_real hr hE ho hls).1 hM
  show E.orientation.position = _
  rw [ho, Orientation.toWorld, this]
  have : o.rotation.rot (Lump.mean ls + -Lump.mean ls) = Vec3.o := by
    rw [show Lump.mean ls + -Lump.mean ls = Vec3.o by ext <;> simp, Quat.rot_o]
  rw [this]; simp

/-- **C15 (otherwise).** After a successful call that links to, unlinks from or updates the entity or one of its
colliders, the position is the local origin if the linked colliders have no mass or one has infinite mass. -/
theorem C15_otherwise (hr : Reachable s) {ord : IterOrder} {op : Op XReal γ} {k : Handle}
    (hop : System.Touches s k op) (hh : s.exec ord op = .ok (s', .ok true)) {e' : Entity XReal}
    (he' : s'.getEntity k = some e') (hf : FinitePose e'.lastOrientation)
    (hM : massSum (linked s' e') = fin 0 ∨ ∃ c ∈ linked s' e', c.mass = posInf) :
    e'.position = e'.lastOrientation.localOriginInWorld := by
  obtain ⟨E', hE', rfl⟩ := getEntity_iff.mp he'
  have hr' := live_after hr hh
  obtain ⟨F, order, E2, hp, h, hw⟩ := System.exec_touched hr.inv hop hh hE'
  obtain ⟨o, ho, hu⟩ := reachable_unit hr' hE' hf
  have hst := staticRel_iff.mp (WakeRel.static hw)
  have hcol : E'.colliders = F.colliders := by rw [hst.2.2.2.2, (recalculateMass_massRel h).colliders]
  rw [← hcol] at hp
  have hl := live_of_inv hr'.inv hE' hp
  have hperm : (found s'.colliders order).Perm (found s'.colliders E'.colliders) := hp.filterMap _
  rw [linked_eq] at hM
  have hoff : E2.orientation.internalOriginOffset =
      F.orientation.internalOriginOffset - F.orientation.internalOriginOffset := by
    by_cases hi : ∃ c ∈ found s'.colliders order, Scalar.isInfinite c.mass = true
    · rw [recalculateMass_infinite F hl hi] at h
      injection h with h
      rw [← h]
      simp [fixed, recenter]
    · push Not at hi
      simp only [Bool.not_eq_true] at hi
      rw [recalculateMass_loose F hl hi, loose_perm F hperm] at h
      injection h with h
      rcases hM with hM | ⟨c, hc, hm⟩
      · rw [← massSum_eq, ← zero_eq] at hM
        rw [← h]
        unfold loose recenter
        rw [hM]
        simp
      · have := hi c (hperm.mem_iff.mpr hc)
        rw [hm] at this; cases this
  have hoff2 : o.internalOriginOffset.f = F.orientation.internalOriginOffset - F.orientation.internalOriginOffset := by
    rw [← hoff, ← hst.1, ho]; rfl
  obtain ⟨⟨d, hd⟩, -⟩ := Vec3.fin_of_sub ⟨_, hoff2.symm⟩
  rw [hd, Vec3.f_sub, Vec3.sub_self', Vec3.f_inj] at hoff2
  show E'.orientation.position = E'.orientation.localOriginInWorld
  rw [ho, Orientation.f_localOriginInWorld _ hu, hoff2]
  simp

end Fluffy.Props
