import Verif.Props.Motion
import Verif.Props.Clock
import Verif.Props.Witness
/-
C37: finite numbers stay finite, as long as every recorded contact is a sound one.
-/
set_option linter.unusedSectionVars false
set_option linter.unusedSimpArgs false
namespace Fluffy.Props
open Fluffy XReal InternalEntity Step

/-! ### What is handed over -/

/-- The coefficients the response uses are finite. -/
def FiniteMaterial (m : Material XReal) : Prop :=
  Scalar.isFinite m.restitution = true ∧ Scalar.isFinite m.staticFriction = true ∧ Scalar.isFinite m.dynamicFriction = true

/-- All numbers of the collider other than the mass are finite, and the tensor of a null collider is that of a body. -/
def FiniteNumbers : Collider XReal → Prop
  | .null c => Finite3 c.position ∧ Finite3 c.momentOfInertia.r1 ∧ Finite3 c.momentOfInertia.r2 ∧ Finite3 c.momentOfInertia.r3 ∧
      SymPsd c.momentOfInertia
  | .sphere c => Finite3 c.center ∧ Scalar.isFinite c.radius = true ∧ FiniteMaterial c.material
  | .plane c => Finite3 c.position ∧ Finite3 c.normal ∧ FiniteMaterial c.material
  | .mesh c => Finite3 c.position ∧ (∀ v ∈ c.vertices, Finite3 v) ∧ FiniteMaterial c.material
  | .box c => Finite3 c.position ∧ Finite3 c.minCorner ∧ Finite3 c.maxCorner ∧ FiniteMaterial c.material

/-- All numbers of the entity are finite; its own mass may be infinite. -/
def FiniteEntity (e : Entity XReal) : Prop :=
  Finite3 e.position ∧ Finite3 e.rotation ∧ Finite3 e.velocity ∧ Finite3 e.angularVelocity ∧
  Finite3 e.lastOrientation.internalOriginOffset ∧ e.ownMass ≠ nan

/-- A kind of generators that give finite forces to entities with finite numbers and stay of that kind. -/
structure Tame {γ : Type} [ForceGenerator XReal γ] (G : γ → Prop) : Prop where
  force : ∀ {x x' : γ} {dt : XReal} {w : World XReal} {h : Handle} {e : Entity XReal} {f : Force XReal}, G x → Scalar.isFinite dt = true →
    (∀ k p, w.getEntity k = some p → FiniteEntity p) → w.getEntity h = some e → Pushable e = true →
    ForceGenerator.makeForce x dt w h = .ok (f, x') → Finite3 f.force ∧ Finite3 f.position
  keep : ∀ {x x' : γ} {dt : XReal} {w : World XReal} {h : Handle} {f : Force XReal}, G x → ForceGenerator.makeForce x dt w h = .ok (f, x') → G x'

/-- Gravity with a finite acceleration. -/
theorem tame_gravity : Tame (fun g : GravityGenerator XReal => Finite3 g.acceleration) where
  force := by
    intro x x' dt w h e f hx _ hw he hp hf
    simp only [ForceGenerator.makeForce, he, unwrap, Res.ok_bind, Except.ok.injEq, Prod.mk.injEq] at hf
    obtain ⟨rfl, -⟩ := hf
    obtain ⟨m, hm, -⟩ := pushable_mass hp
    obtain ⟨a, ha⟩ := hx.f
    refine ⟨?_, (hw _ _ he).1⟩
    rw [ha, hm, Vec3.f_scale]
    exact finite3_f _
  keep := by
    intro x x' dt w h f hx hf
    simp only [ForceGenerator.makeForce] at hf
    obtain ⟨e, -, hf⟩ := Res.bind_eq_ok.mp hf
    simp only [Except.ok.injEq, Prod.mk.injEq] at hf
    rw [← hf.2]; exact hx

/-- Only finite numbers are handed over by the call (masses may be infinite). -/
def FiniteCall {γ : Type} (G : γ → Prop) : Op XReal γ → Prop
  | .addEntity e => FiniteEntity e
  | .updateEntity _ e => FiniteEntity e
  | .addCollider c => FiniteNumbers c
  | .updateCollider _ c => FiniteNumbers c
  | .addGenerator g => G g
  | .step dt => Scalar.isFinite dt = true
  | _ => True

section
variable {γ : Type} [ForceGenerator XReal γ]

/-- A contact the response can deal with: the point and the normal are numbers, neither body is massless and not both are immovable. -/
def SoundContact (s : System XReal γ) (r : CollisionRecord XReal) : Prop :=
  Finite3 r.position ∧ Finite3 r.normal ∧
  ∀ a b, s.getEntity r.firstEntity = some a → s.getEntity r.secondEntity = some b →
    a.lastTotalMass ≠ fin 0 ∧ b.lastTotalMass ≠ fin 0 ∧ (a.lastTotalMass ≠ posInf ∨ b.lastTotalMass ≠ posInf)

/-- A history of calls that hand over finite numbers, with only sound contacts. -/
inductive FiniteHistory (G : γ → Prop) : System XReal γ → Prop
  | new : FiniteHistory G System.new
  | call {s s' : System XReal γ} (ord : IterOrder) (op : Op XReal γ) (out : Out γ) : FiniteHistory G s → FiniteCall G op →
      s.exec ord op = .ok (s', out) → (∀ dt, op = .step dt → Proper dt → ∀ r ∈ s'.collisionRecords, SoundContact s' r) → FiniteHistory G s'

theorem FiniteHistory.reachable {G : γ → Prop} {s : System XReal γ} (h : FiniteHistory G s) : Reachable s := by
  induction h with
  | new => exact ⟨[], .nil⟩
  | call ord op out _ _ hx _ ih =>
    obtain ⟨tr, ht⟩ := ih
    exact ⟨_, .snoc ord op out ht hx⟩

/-! ### Stored colliders -/

theorem finiteNumbers_setEntity {c : Collider XReal} (t : Option Handle) (h : FiniteNumbers c) : FiniteNumbers (c.setEntity t) := by
  cases c <;> exact h

theorem finite_corners {a b : Vec3 XReal} (ha : Finite3 a) (hb : Finite3 b) : Finite3 (cornerMin a b) ∧ Finite3 (cornerMax a b) := by
  obtain ⟨a, rfl⟩ := ha.f
  obtain ⟨b, rfl⟩ := hb.f
  have h : ∀ x y : ℝ, Scalar.isFinite (fmin (fin x) (fin y)) = true ∧ Scalar.isFinite (fmax (fin x) (fin y)) = true := by
    intro x y
    unfold fmin fmax
    constructor <;> split_ifs <;> simp
  exact ⟨⟨(h _ _).1, (h _ _).1, (h _ _).1⟩, (h _ _).2, (h _ _).2, (h _ _).2⟩

theorem finiteNumbers_new {c d : Collider XReal} (h : FiniteNumbers c) (hn : c.newFrom = some d) : FiniteNumbers d := by
  cases c <;> simp only [Collider.newFrom] at hn <;> split at hn <;> cases hn <;> rename_i hv
  · exact h
  · exact h
  · rename_i p
    refine ⟨h.1, ?_, h.2.2⟩
    obtain ⟨n, hnn⟩ := h.2.1.f
    simp only [Bool.not_eq_true', Bool.not_eq_false, PlaneCollider.isValid, Bool.and_eq_true, hnn] at hv
    have : n ≠ .o := by
      rintro rfl
      have := hv.2
      simp at this
      norm_num at this
    simp only [hnn]
    rw [Vec3.f_normalize this]
    exact finite3_f _
  · exact h
  · obtain ⟨h1, h2⟩ := finite_corners h.2.1 h.2.2.1
    exact ⟨h.1, h1, h2, h.2.2.2⟩

theorem finiteNumbers_update {c d r : Collider XReal} (h : FiniteNumbers d) (hn : c.updateFrom d = .updated r) : FiniteNumbers r := by
  cases c <;> cases d <;> simp only [Collider.updateFrom] at hn <;> first | (cases hn; done) | skip
  all_goals (split at hn <;> cases hn)
  · exact h
  · exact h
  · exact h
  · exact h
  · obtain ⟨h1, h2⟩ := finite_corners h.2.1 h.2.2.1
    exact ⟨h.1, h1, h2, h.2.2.2⟩

theorem FiniteHistory.colliders {G : γ → Prop} {s : System XReal γ} (h : FiniteHistory G s) :
    ∀ k c, s.colliders.get k = some c → FiniteNumbers c := by
  induction h with
  | new => intro k c h; simp [System.new, Arena.get_new] at h
  | call ord op out hst hop hx _ ih =>
    intro k c hk
    rcases System.exec_colliders hst.reachable.inv hx hk with h | ⟨d, t, h, rfl⟩ | ⟨src, rfl, h'⟩ | ⟨src, d, rfl, hc, h'⟩
    · exact ih k c h
    · exact finiteNumbers_setEntity t (ih k d h)
    · exact finiteNumbers_new hop h'
    · exact finiteNumbers_update hop h'

theorem FiniteNumbers.material {c : Collider XReal} (h : FiniteNumbers c) : FiniteMaterial c.material := by
  cases c with
  | null n => exact ⟨rfl, rfl, rfl⟩
  | sphere n => exact h.2.2
  | plane n => exact h.2.2
  | mesh n => exact h.2.2
  | box n => exact h.2.2.2

/-- The mass data of a collider with finite numbers and mass. -/
theorem FiniteNumbers.sound {c : Collider XReal} (h : FiniteNumbers c) {m : ℝ} (hm : c.mass = fin m) : SoundBody c := by
  have diag : ∀ a b c : ℝ, Finite3 (Mat3.diagonal ⟨fin a, fin b, fin c⟩ : Mat3 XReal).r1 ∧
      Finite3 (Mat3.diagonal ⟨fin a, fin b, fin c⟩ : Mat3 XReal).r2 ∧ Finite3 (Mat3.diagonal ⟨fin a, fin b, fin c⟩ : Mat3 XReal).r3 := by
    intro a b c
    have : (Mat3.diagonal ⟨fin a, fin b, fin c⟩ : Mat3 XReal) = (Mat3.diag ⟨a, b, c⟩).f := Mat3.f_diagonal ⟨a, b, c⟩
    rw [this]
    exact ⟨finite3_f _, finite3_f _, finite3_f _⟩
  cases c with
  | null n => exact ⟨⟨by rw [hm]; rfl, h.1, h.2.1, h.2.2.1, h.2.2.2.1⟩, by rintro _ ⟨⟩; exact h.2.2.2.2⟩
  | sphere n =>
    refine ⟨⟨by rw [hm]; rfl, h.1, ?_⟩, by rintro _ ⟨⟩⟩
    obtain ⟨r, hr⟩ := isFinite_iff.mp h.2.1
    have hm : n.mass = fin m := hm
    have h25 : (fin 2 / fin 5 : XReal) = fin (2 / 5) := fin_div (by norm_num)
    have : (Collider.sphere n).momentOfInertia = Mat3.diagonal ⟨fin (2 / 5 * m * r), fin (2 / 5 * m * r), fin (2 / 5 * m * r)⟩ := by
      simp [Collider.momentOfInertia, hm, hr, h25]
    rw [this]
    exact diag _ _ _
  | plane n =>
    refine ⟨⟨by rw [hm]; rfl, h.1, ?_⟩, by rintro _ ⟨⟩⟩
    exact ⟨⟨rfl, rfl, rfl⟩, ⟨rfl, rfl, rfl⟩, ⟨rfl, rfl, rfl⟩⟩
  | mesh n =>
    refine ⟨⟨by rw [hm]; rfl, h.1, ?_⟩, by rintro _ ⟨⟩⟩
    exact ⟨⟨rfl, rfl, rfl⟩, ⟨rfl, rfl, rfl⟩, ⟨rfl, rfl, rfl⟩⟩
  | box n =>
    obtain ⟨p, hp⟩ := h.1.f
    obtain ⟨a, ha⟩ := h.2.1.f
    obtain ⟨b, hb⟩ := h.2.2.1.f
    refine ⟨⟨by rw [hm]; rfl, ?_, ?_⟩, by rintro _ ⟨⟩⟩
    · simp only [Collider.localCenterOfMass, hp, ha, hb, lit_eq, Vec3.f_add, Vec3.f_scale]
      exact finite3_f _
    · have hm : n.mass = fin m := hm
      have h12 : (fin m / fin 12 : XReal) = fin (m / 12) := fin_div (by norm_num)
      have : (Collider.box n).momentOfInertia = Mat3.diagonal
          ⟨fin (m / 12 * ((b - a).y * (b - a).y + (b - a).z * (b - a).z)), fin (m / 12 * ((b - a).x * (b - a).x + (b - a).z * (b - a).z)),
            fin (m / 12 * ((b - a).x * (b - a).x + (b - a).y * (b - a).y))⟩ := by
        simp [Collider.momentOfInertia, hm, ha, hb, h12, Vec3.f_sub]
      rw [this]
      exact diag _ _ _

/-! ### Entities -/

/-- The entity's own numbers are finite, its pose is a rigid motion, and its mass data are those of a body. -/
structure Fine (E : InternalEntity XReal) : Prop where
  pose : Orientation.Rigid E.orientation
  vel : E.velocity.Fin
  ang : E.angularVelocity.Fin
  own : E.ownMass ≠ nan
  mass : E.totalMass = posInf ∨ ∃ m, 0 ≤ m ∧ E.totalMass = fin m
  moment : ∀ q : Orientation ℝ, q.Unit → ∃ I : Mat3 ℝ, q.f.finalizeMomentOfInertia E.preppedMoment = I.f ∧ I.Symm ∧ I.Psd

theorem Fine.of {E E' : InternalEntity XReal} (h : Fine E) (hs : StaticRel E E') (hp : Orientation.Rigid E'.orientation) (hv : E'.velocity.Fin)
    (ha : E'.angularVelocity.Fin) : Fine E' := by
  obtain ⟨-, h2, h3, h4, -⟩ := staticRel_iff.mp hs
  exact ⟨hp, hv, ha, by rw [h2]; exact h.own, by rw [h3]; exact h.mass, by rw [h4]; exact h.moment⟩

/-- The mass data of a reachable state are those of bodies. -/
theorem fine_of {s : System XReal γ} (hr : Reachable s) (hc : ∀ k c, s.colliders.get k = some c → FiniteNumbers c) {k : Handle}
    {E : InternalEntity XReal} (hE : s.entities.get k = some E) (hp : Orientation.Rigid E.orientation) (hv : E.velocity.Fin)
    (ha : E.angularVelocity.Fin) (ho : E.ownMass ≠ nan) : Fine E := by
  have hl : ∀ c ∈ linked s E.makePub, FiniteNumbers c := by
    intro c hcm
    simp only [linked, List.mem_filterMap] at hcm
    obtain ⟨h, -, hcm⟩ := hcm
    exact hc h c (by rw [← getCollider_eq]; exact hcm)
  have hms := C13_masses hr (e := E.makePub)
  obtain ⟨h1, h2⟩ := C13_total_mass hr (getEntity_iff.mpr ⟨E, hE, rfl⟩)
  by_cases hi : ∃ c ∈ linked s E.makePub, c.mass = posInf
  · obtain ⟨ht, hm⟩ := stored_infinite hr hE hi
    refine ⟨hp, hv, ha, ho, Or.inl ht, fun q hq => ⟨.o, ?_, Mat3.symm_o, Mat3.psd_o⟩⟩
    rw [hm, finalize_o hq]
  · push Not at hi
    have hsb : ∀ c ∈ linked s E.makePub, SoundBody c := by
      intro c hcm
      obtain ⟨m, -, hm⟩ := (hms c hcm).resolve_left (hi c hcm)
      exact (hl c hcm).sound hm
    obtain ⟨o, hoo, hu⟩ := hp
    refine ⟨⟨o, hoo, hu⟩, hv, ha, ho, ?_, fun q hq => stored_symPsd hr hE hoo hsb hq⟩
    have ht : E.totalMass = E.ownMass + massSum (linked s E.makePub) := h2 hi
    have hsum : ∀ l : List (Collider XReal), (∀ c ∈ l, ∃ m, 0 ≤ m ∧ c.mass = fin m) → ∃ M, 0 ≤ M ∧ massSum l = fin M := by
      intro l
      induction l with
      | nil => exact fun _ => ⟨0, le_refl _, rfl⟩
      | cons c l ih =>
        intro h
        obtain ⟨a, ha, hc⟩ := h c (by simp)
        obtain ⟨M, hM, hl⟩ := ih (fun d hd => h d (by simp [hd]))
        refine ⟨a + M, add_nonneg ha hM, ?_⟩
        show c.mass + massSum l = _
        rw [hc, hl, fin_add]
    obtain ⟨M, hM, hl⟩ := hsum _ (fun c hc => (hms c hc).resolve_left (hi c hc))
    have hown := stored_own hr hE
    rw [hl] at ht
    cases hoo : E.ownMass with
    | nan => exact absurd hoo ho
    | negInf => rw [hoo] at hown; simp at hown
    | posInf => left; rw [ht, hoo]; simp
    | fin a =>
      rw [hoo] at hown ht
      right
      exact ⟨a + M, add_nonneg (by simpa using hown) hM, by rw [ht, fin_add]⟩

theorem Fine.entity {E : InternalEntity XReal} (h : Fine E) : FiniteEntity E.makePub := by
  obtain ⟨o, ho, -⟩ := h.pose
  obtain ⟨v, hv⟩ := h.vel
  obtain ⟨a, ha⟩ := h.ang
  refine ⟨?_, ?_, ?_, ?_, ?_, h.own⟩
  · show Finite3 E.orientation.position
    rw [ho]; exact finite3_f _
  · show Finite3 E.orientation.rotationVec
    rw [ho, Orientation.f_rotationVec]; exact finite3_f _
  · show Finite3 E.velocity
    rw [hv]; exact finite3_f _
  · show Finite3 E.angularVelocity
    rw [ha]; exact finite3_f _
  · show Finite3 E.orientation.internalOriginOffset
    rw [ho]; exact finite3_f _

/-- The body an entity that is not massless is. -/
theorem Fine.body {E : InternalEntity XReal} (h : Fine E) (hm : E.totalMass ≠ fin 0) :
    ∃ b : Body, b.Of E ∧ b.Physical ∧ (E.totalMass ≠ posInf → b.mass ≠ none) := by
  obtain ⟨o, ho, hu⟩ := h.pose
  obtain ⟨v, hv⟩ := h.vel
  obtain ⟨a, ha⟩ := h.ang
  obtain ⟨I, hI, h1, h2⟩ := h.moment o hu
  have hI : E.momentOfInertia = I.f := by unfold momentOfInertia; rw [ho, hI]
  rcases h.mass with ht | ⟨m, hm0, ht⟩
  · exact ⟨⟨none, I, o.position, v, a⟩, ⟨ht, hI, by rw [ho]; rfl, hv, ha⟩, ⟨by rintro m ⟨⟩, h1, h2⟩, fun hc => absurd ht hc⟩
  · refine ⟨⟨some m, I, o.position, v, a⟩, ⟨ht, hI, by rw [ho]; rfl, hv, ha⟩, ⟨?_, h1, h2⟩, by simp⟩
    rintro m' ⟨⟩
    refine lt_of_le_of_ne hm0 ?_
    rintro rfl
    exact hm ht

/-! ### Integration -/

theorem fin_fold (g : Force XReal → Vec3 XReal) : ∀ (fs : List (Force XReal)) (a : Vec3 XReal), a.Fin → (∀ f ∈ fs, (g f).Fin) →
    (fs.foldl (fun acc f => acc + g f) a).Fin
  | [], a, ha, _ => ha
  | f :: fs, a, ha, h => by
    refine fin_fold g fs _ ?_ (fun x hx => h x (by simp [hx]))
    obtain ⟨x, rfl⟩ := ha
    obtain ⟨y, hy⟩ := h f (by simp)
    exact ⟨x + y, by simp only [hy, Vec3.f_add]⟩

theorem asked_finite {G : γ → Prop} (tame : Tame G) {dt : XReal} (hdt : Scalar.isFinite dt = true) {w : World XReal} {h : Handle} {e : Entity XReal}
    (hw : ∀ k p, w.getEntity k = some p → FiniteEntity p) (he : w.getEntity h = some e) (hp : Pushable e = true) {gens : List Handle}
    {g g' : Arena γ} {fs : List (Force XReal)} (ha : Asked dt w h gens g fs g') (hg : ∀ k x, g.get k = some x → G x) :
    (∀ f ∈ fs, Finite3 f.force ∧ Finite3 f.position) ∧ ∀ k x, g'.get k = some x → G x := by
  induction ha with
  | nil g => exact ⟨by simp, hg⟩
  | @cons gh gens g g' x x' f fs h1 h2 _ ih =>
    have hset : ∀ k y, (g.set gh x').get k = some y → G y := by
      intro k y hy
      rw [Arena.get_set] at hy
      split at hy
      · rename_i hk
        rw [h1] at hy
        cases hy
        exact tame.keep (hg _ _ h1) h2
      · exact hg k y hy
    obtain ⟨i1, i2⟩ := ih hset
    refine ⟨?_, i2⟩
    intro y hy
    rcases List.mem_cons.mp hy with rfl | hy
    · exact tame.force (hg _ _ h1) hdt hw he hp h2
    · exact i1 y hy

theorem fine_integrateVelocity {E : InternalEntity XReal} (h : Fine E) {a t : Vec3 XReal} (ha : a.Fin) (ht : t.Fin) (d : ℝ) :
    Fine (integrateVelocity (fin d) a t E) := by
  obtain ⟨a, rfl⟩ := ha
  obtain ⟨t, rfl⟩ := ht
  obtain ⟨o, ho, hu⟩ := h.pose
  obtain ⟨v, hv⟩ := h.vel
  obtain ⟨w, hw⟩ := h.ang
  obtain ⟨I, hI, -, -⟩ := h.moment o hu
  have hI : E.inverseMomentOfInertia = I.inv.f := by
    unfold inverseMomentOfInertia momentOfInertia
    rw [ho, hI]
    have := Mat3.f_tryInverse I
    revert this
    cases (Mat3.f I).tryInverse <;> exact fun h => h
  refine h.of (by rw [staticRel_iff]; simp [integrateVelocity]) h.pose ⟨v + a.scale d, ?_⟩ ⟨w + I.inv.mulVec (t.scale d), ?_⟩
  · simp only [integrateVelocity, hv, Vec3.f_scale, Vec3.f_add]
  · simp only [integrateVelocity, hw, hI, Vec3.f_scale, Vec3.f_add, Mat3.f_mulVec]

/-- What holds during the integration. -/
def FineWorld (w : World XReal) : Prop := ∀ k E, w.entities.get k = some E → Fine E

theorem FineWorld.finite {w : World XReal} (h : FineWorld w) : ∀ k p, w.getEntity k = some p → FiniteEntity p := by
  intro k p hp
  obtain ⟨E, hE, rfl⟩ := getEntity_eq_some.mp hp
  exact (h k E hE).entity

theorem fine_one {G : γ → Prop} (tame : Tame G) {d : ℝ} {gens : List Handle} {s s' : System XReal γ} {h : Handle} {i : StepInfo XReal}
    (hh : integrateOne (fin d) gens s h = .ok (s', i)) (hs : FineWorld s.toWorld) (hg : ∀ k x, s.generators.get k = some x → G x) :
    FineWorld s'.toWorld ∧ (∀ k x, s'.generators.get k = some x → G x) ∧ i.linearMovement.Fin ∧ i.angularMovement.Fin := by
  obtain ⟨e, g, a, t, he, hac, rfl, rfl⟩ := integrateOne_spec hh
  have fe := hs _ _ he
  have hmk : s.getEntity h = some e.makePub := getEntity_eq_some.mpr ⟨e, he, rfl⟩
  have key : a.Fin ∧ t.Fin ∧ ∀ k x, g.get k = some x → G x := by
    unfold Accelerates at hac
    by_cases hc : (Scalar.isFinite e.totalMass && Scalar.lt EPSILON e.totalMass) = true
    · rw [if_pos hc] at hac
      obtain ⟨fs, f1, f2, f3⟩ := generatorLoop_asked hac
      have hp : Pushable e.makePub = true := hc
      obtain ⟨k1, k2⟩ := asked_finite tame (dt := fin d) rfl hs.finite hmk hp f1 hg
      obtain ⟨m, hm, hm0⟩ := pushable_mass hp
      obtain ⟨o, ho, hu⟩ := fe.pose
      have hI : ∃ I : Mat3 ℝ, e.makePub.lastMomentOfInertia = I.f := by
        have hmk' : e.makePub.makeOrientation = (⟨o.position, Quat.exp (Quat.log o.rotation), o.internalOriginOffset⟩ : Orientation ℝ).f := by
          rw [← Orientation.f_new, ← Orientation.f_rotationVec, ← ho]
          show Orientation.new e.orientation.position e.orientation.rotationVec e.orientation.internalOriginOffset = _
          rw [ho]; rfl
        obtain ⟨I, hI, -⟩ := fe.moment ⟨o.position, Quat.exp (Quat.log o.rotation), o.internalOriginOffset⟩ (Quat.exp_normSq _)
        refine ⟨I, ?_⟩
        unfold Entity.lastMomentOfInertia
        rw [hmk']
        exact hI
      obtain ⟨I, hI⟩ := hI
      obtain ⟨c, hc⟩ := (fe.entity).1.f
      have hz : (Vec3.zeros : Vec3 XReal).Fin := ⟨.o, by simp⟩
      refine ⟨?_, ?_, k2⟩
      · rw [f2]
        refine fin_fold (fun f => f.force.scale (one / e.makePub.lastTotalMass)) fs _ hz ?_
        intro f hf
        obtain ⟨x, hx⟩ := (k1 f hf).1.f
        have hm1 : m ≠ 0 := by
          rintro rfl; norm_num at hm0
        exact ⟨x.scale (1 / m), by rw [hx, hm, one_eq, fin_div hm1, Vec3.f_scale]⟩
      · rw [f3]
        refine fin_fold (fun f => e.makePub.lastMomentOfInertia.mulVec ((f.position - e.makePub.position).cross f.force)) fs _ hz ?_
        intro f hf
        obtain ⟨x, hx⟩ := (k1 f hf).1.f
        obtain ⟨y, hy⟩ := (k1 f hf).2.f
        exact ⟨I.mulVec ((y - c).cross x), by rw [hI, hx, hy, hc, Vec3.f_sub, Vec3.f_cross, Mat3.f_mulVec]⟩
    · rw [if_neg hc] at hac
      simp only [Except.ok.injEq, Prod.mk.injEq] at hac
      obtain ⟨rfl, rfl, rfl⟩ := hac
      exact ⟨⟨.o, by simp⟩, ⟨.o, by simp⟩, hg⟩
  have fi := fine_integrateVelocity fe key.1 key.2.1 d
  obtain ⟨v, hv⟩ := fi.vel
  obtain ⟨w, hw⟩ := fi.ang
  refine ⟨?_, key.2.2, ⟨v.scale d, by simp only [hv, Vec3.f_scale]⟩, ⟨w.scale d, by simp only [hw, Vec3.f_scale]⟩⟩
  intro k E hE
  simp only [Arena.get_set] at hE
  split at hE
  · rw [he] at hE; cases hE; exact fi
  · exact hs k E hE

theorem fine_all {G : γ → Prop} (tame : Tame G) {d : ℝ} {gens : List Handle} : ∀ {l : List Handle} {s s' : System XReal γ} {infos : List (StepInfo XReal)},
    integrateAll (fin d) gens l s = .ok (s', infos) → FineWorld s.toWorld → (∀ k x, s.generators.get k = some x → G x) →
    FineWorld s'.toWorld ∧ (∀ k x, s'.generators.get k = some x → G x) ∧ ∀ i ∈ infos, i.linearMovement.Fin ∧ i.angularMovement.Fin
  | [], s, s', infos, hh, hs, hg => by
    unfold integrateAll at hh; cases hh; exact ⟨hs, hg, by simp⟩
  | h :: l, s, s', infos, hh, hs, hg => by
    unfold integrateAll at hh
    obtain ⟨⟨m, i⟩, e1, hh⟩ := Res.bind_eq_ok.mp hh
    obtain ⟨⟨s2, is⟩, e2, hh⟩ := Res.bind_eq_ok.mp hh
    cases hh
    obtain ⟨a1, a2, a3⟩ := fine_one tame e1 hs hg
    obtain ⟨b1, b2, b3⟩ := fine_all tame e2 a1 a2
    refine ⟨b1, b2, ?_⟩
    intro j hj
    rcases List.mem_cons.mp hj with rfl | hj
    · exact a3
    · exact b3 j hj

/-! ### Iterations -/

/-- `SoundContact`, on the stored entities. -/
def SoundIn (a : Arena (InternalEntity XReal)) (r : CollisionRecord XReal) : Prop :=
  Finite3 r.position ∧ Finite3 r.normal ∧
  ∀ E F, a.get r.firstEntity = some E → a.get r.secondEntity = some F →
    E.totalMass ≠ fin 0 ∧ F.totalMass ≠ fin 0 ∧ (E.totalMass ≠ posInf ∨ F.totalMass ≠ posInf)

def FineInfos (l : List (StepInfo XReal)) : Prop := ∀ i ∈ l, i.linearMovement.Fin ∧ i.angularMovement.Fin

theorem fin_scale {u : Vec3 XReal} (h : u.Fin) (k : ℝ) : (u.scale (fin k)).Fin := by
  obtain ⟨v, rfl⟩ := h
  exact ⟨v.scale k, by rw [Vec3.f_scale]⟩

theorem Fine.moved {E : InternalEntity XReal} (h : Fine E) {i : StepInfo XReal} (h1 : i.linearMovement.Fin) (h2 : i.angularMovement.Fin)
    (p : ℝ) : Fine (Step.moved (fin p) i E) := by
  refine h.of (moved_static _ _ _) ?_ ?_ ?_
  · unfold Step.moved
    split
    · exact h.pose
    · obtain ⟨o, ho, hu⟩ := h.pose
      obtain ⟨l, hl⟩ := h1
      obtain ⟨a, ha⟩ := h2
      refine ⟨o.after (l.scale p) (a.scale p), ?_, Orientation.after_unit _ hu _ _⟩
      simp only [ho, hl, ha, Vec3.f_scale, Orientation.f_afterAffected]
  · unfold Step.moved; split <;> exact h.vel
  · unfold Step.moved; split <;> exact h.ang

/-- What the loop keeps, as long as the recorded contacts are sound. -/
def FineLoop (a : Arena (InternalEntity XReal)) (st : LoopState XReal) : Prop :=
  (∀ r ∈ st.world.collisionRecords, SoundIn a r) → FineWorld st.world ∧ FineInfos st.infos ∧ ∃ t, st.timeLeft = fin t

theorem fine_respond {w0 : World XReal} {dt : XReal} {k : Candidate XReal} {st st' : LoopState XReal} (hh : respond dt k st = .ok st')
    (hf : Frame w0 st.world) (hc : ∀ j c, w0.colliders.get j = some c → FiniteNumbers c)
    (hk : ∃ ch1 ch2 c1 c2, w0.colliders.get ch1 = some c1 ∧ w0.colliders.get ch2 = some c2 ∧
      k.restitution = c1.material.restitution * c2.material.restitution ∧
      k.staticFriction = c1.material.staticFriction * c2.material.staticFriction ∧
      k.dynamicFriction = c1.material.dynamicFriction * c2.material.dynamicFriction)
    (h : FineLoop w0.entities st) : FineLoop w0.entities st' := by
  obtain ⟨e1, e2, i1, i2, hne, g1, g2, n1, n2, rfl⟩ := respond_spec hh
  intro hrec
  obtain ⟨f1, f2, t, ht⟩ := h (fun r hr => hrec r (by simp [hr]))
  have hnew := hrec (respondPair k (st.currentPercent * dt) st.timeLeft e1 e2 i1 i2).record (by simp)
  obtain ⟨s1, s2, s3⟩ := hnew
  obtain ⟨x1, y1, z1⟩ := hf.entities.get' g1
  obtain ⟨x2, y2, z2⟩ := hf.entities.get' g2
  obtain ⟨m1, m2, m3⟩ := s3 x1 x2 y1 y2
  rw [← (staticRel_iff.mp z1).2.2.1] at m1 m3
  rw [← (staticRel_iff.mp z2).2.2.1] at m2 m3
  obtain ⟨b1, o1, p1, q1⟩ := (f1 _ _ g1).body m1
  obtain ⟨b2, o2, p2, q2⟩ := (f1 _ _ g2).body m2
  obtain ⟨P, hP⟩ := s1.f
  obtain ⟨N, hN⟩ := s2.f
  obtain ⟨ch1, ch2, c1, c2, k1, k2, k3, k4, k5⟩ := hk
  obtain ⟨u1, u2, u3⟩ := (hc _ _ k1).material
  obtain ⟨v1, v2, v3⟩ := (hc _ _ k2).material
  obtain ⟨u1', u1⟩ := isFinite_iff.mp u1
  obtain ⟨u2', u2⟩ := isFinite_iff.mp u2
  obtain ⟨u3', u3⟩ := isFinite_iff.mp u3
  obtain ⟨v1', v1⟩ := isFinite_iff.mp v1
  obtain ⟨v2', v2⟩ := isFinite_iff.mp v2
  obtain ⟨v3', v3⟩ := isFinite_iff.mp v3
  rw [u1, v1, fin_mul] at k3
  rw [u2, v2, fin_mul] at k4
  rw [u3, v3, fin_mul] at k5
  obtain ⟨-, F, -, -, w1, w2⟩ := Body.respondPair o1 o2 p1 p2
    (Body.denom_pos p1 p2 (m3.imp q1 q2) P N).ne' (k := k) hP hN k3 k4 k5 (st.currentPercent * dt) st.timeLeft i1 i2
  have r1 : Fine (respondPair k (st.currentPercent * dt) st.timeLeft e1 e2 i1 i2).first :=
    (f1 _ _ g1).of (respondPair_first ..).static (by rw [respondPair_first k (st.currentPercent * dt) st.timeLeft e1 e2 i1 i2]; exact (f1 _ _ g1).pose)
      ⟨_, w1.vel⟩ ⟨_, w1.ang⟩
  have r2 : Fine (respondPair k (st.currentPercent * dt) st.timeLeft e1 e2 i1 i2).second :=
    (f1 _ _ g2).of (respondPair_second ..).static (by rw [respondPair_second k (st.currentPercent * dt) st.timeLeft e1 e2 i1 i2]; exact (f1 _ _ g2).pose)
      ⟨_, w2.vel⟩ ⟨_, w2.ang⟩
  obtain ⟨bb, j1, j2⟩ := respondPair_firstInfo k (st.currentPercent * dt) st.timeLeft e1 e2 i1 i2
  refine ⟨?_, ?_, t, ht⟩
  · intro h E hE
    simp only [] at hE
    rw [respond_get hne g1 g2] at hE
    split at hE
    · cases hE; exact r2
    · split at hE
      · cases hE; exact r1
      · exact f1 h E hE
  · intro i hi
    rcases mem_set2 hi with rfl | rfl | hi
    · rw [j1, ht]; exact ⟨fin_scale r1.vel t, fin_scale r1.ang t⟩
    · rw [j2, ht]; exact ⟨fin_scale r2.vel t, fin_scale r2.ang t⟩
    · exact f2 i hi

/-- One iteration. -/
theorem fine_body {w0 : World XReal} {hs : List Handle} {ord : IterOrder} {dt : XReal} {st st1 : LoopState XReal}
    {best : Option (Candidate XReal)} {w : World XReal}
    (hnd : hs.Nodup) (hc : ∀ j c, w0.colliders.get j = some c → FiniteNumbers c) (inv : LoopInv w0 hs st) (hfl : FineLoop w0.entities st)
    (h1 : searchFirst ord st.world 0 st.infos none = .ok best)
    (h2 : wakeColliding ord best st.world = .ok w) (h3 : advance best { st with world := w } = .ok st1) :
    FineLoop w0.entities st1 ∧ ∀ k st2, best = some k → respond dt k st1 = .ok st2 → FineLoop w0.entities st2 := by
  obtain ⟨b1, b2⟩ := loopInv_body (dt := dt) hnd inv h1 h2 h3
  obtain ⟨w1, w2⟩ := wakeColliding_evolves h2
  have hnd' : ((({ st with world := w } : LoopState XReal)).infos.map StepInfo.handle).Nodup := by
    show (st.infos.map StepInfo.handle).Nodup
    rw [inv.handles]; exact hnd
  obtain ⟨a1, a2, a3, a4⟩ := advance_spec hnd' h3
  obtain ⟨p, hp, -, -, -⟩ := percentOf_search h1
  have key : FineLoop w0.entities st1 := by
    intro hrec
    have hcr : st1.world.collisionRecords = st.world.collisionRecords := by rw [a1]; simp only []; rw [w1]
    obtain ⟨f1, f2, t, ht⟩ := hfl (by rw [← hcr]; exact hrec)
    have fw : FineWorld w := by
      intro k E hE
      obtain ⟨X, hX, hr⟩ := w2.get' hE
      exact (f1 k X hX).of (WakeRel.static hr) (by rw [hr]; exact (f1 k X hX).pose) (by rw [hr]; exact (f1 k X hX).vel) (by rw [hr]; exact (f1 k X hX).ang)
    refine ⟨?_, ?_, ?_⟩
    · intro k E hE
      by_cases hk : k ∈ st.infos.map StepInfo.handle
      · obtain ⟨i, hi, rfl⟩ := List.mem_map.mp hk
        obtain ⟨e, he, he'⟩ := a4 i hi
        rw [hE] at he'
        cases he'
        rw [hp]
        exact (fw _ _ he).moved (f2 i hi).1 (f2 i hi).2 p
      · rw [a3 k hk] at hE
        exact fw k E hE
    · rw [a1]
      intro i hi
      simp only [List.mem_map] at hi
      obtain ⟨j, hj, rfl⟩ := hi
      have : (one - percentOf best : XReal) = fin (1 - p) := by rw [hp, one_eq, fin_sub]
      simp only [shrink, this]
      exact ⟨fin_scale (f2 j hj).1 _, fin_scale (f2 j hj).2 _⟩
    · rw [a1]
      exact ⟨t * (1 - p), by simp only [ht, hp, one_eq, fin_sub, fin_mul]⟩
  refine ⟨key, fun k st2 hb hr => ?_⟩
  refine fine_respond hr b1.frame hc ?_ key
  subst hb
  obtain ⟨m, n, i1, i2, -, -, -, first, second, -, -, -, -, -, ch1, -, ch2, -, c1, c2, cc, e1, e2, -, -, rfl⟩ := searchFirst_contact h1
  rw [inv.frame.colliders] at e1 e2
  exact ⟨ch1, ch2, c1, c2, e1, e2, rfl, rfl, rfl⟩

theorem fine_iterate {w0 : World XReal} {hs : List Handle} {ord : IterOrder} {dt : XReal} {n : Nat} {st st' : LoopState XReal} {c : Bool}
    (hnd : hs.Nodup) (hc : ∀ j c, w0.colliders.get j = some c → FiniteNumbers c) (hi : LoopInv w0 hs st) (h : FineLoop w0.entities st)
    (hh : iterate ord dt n st = .ok (st', c)) : FineLoop w0.entities st' := by
  refine (iterate_induct (P := fun st => LoopInv w0 hs st ∧ FineLoop w0.entities st) ?_ ⟨hi, h⟩ hh).2
  intro st best w st1 ⟨inv, hfl⟩ h1 h2 h3
  obtain ⟨b1, b2⟩ := loopInv_body (dt := dt) hnd inv h1 h2 h3
  obtain ⟨k1, k2⟩ := fine_body (dt := dt) hnd hc inv hfl h1 h2 h3
  exact ⟨fun _ => ⟨b1, k1⟩, fun k st2 hb hr => ⟨b2 k st2 hb hr, k2 k st2 hb hr⟩⟩

theorem fine_settle {E : InternalEntity XReal} (h : Fine E) (w : World XReal) (dt : XReal) : Fine (settle w dt E) := by
  have hz : (Vec3.zeros : Vec3 XReal).Fin := ⟨.o, by simp⟩
  refine h.of (settle_static _ _ _) ?_ ?_ ?_ <;> unfold settle <;> (repeat' split) <;>
    first | exact h.pose | exact h.vel | exact h.ang | exact hz

/-- One step. -/
theorem fine_step {G : γ → Prop} (tame : Tame G) {ord : IterOrder} {s s' : System XReal γ} {d : ℝ} (hd : Proper (fin d))
    (hh : s.step ord (fin d) = .ok s') (hc : ∀ j c, s.colliders.get j = some c → FiniteNumbers c) (hs : FineWorld s.toWorld)
    (hg : ∀ k x, s.generators.get k = some x → G x) (hrec : ∀ r ∈ s'.collisionRecords, SoundContact s' r) :
    FineWorld s'.toWorld ∧ ∀ k x, s'.generators.get k = some x → G x := by
  obtain ⟨p⟩ := step_phases hd hh
  have fr := (step_frame hh).1
  obtain ⟨a1, a2, a3⟩ := fine_all tame p.integrate hs hg
  refine ⟨?_, by rw [p.generators]; exact a2⟩
  have start : FineLoop s.entities ⟨p.mid.toWorld, p.infos, fin d, zero⟩ := fun _ => ⟨a1, a3, d, rfl⟩
  have fin := fine_iterate (Arena.handles_nodup _) hc p.inv0 start p.iterate
  obtain ⟨f1, f2⟩ := sleepLoop_frame p.selfless p.sleep
  have hr : s'.collisionRecords = p.final.world.collisionRecords := by rw [f2]; split <;> rfl
  obtain ⟨k1, -, -⟩ := fin (by
    intro r hr'
    rw [← hr] at hr'
    obtain ⟨r1, r2, r3⟩ := hrec r hr'
    refine ⟨r1, r2, ?_⟩
    intro E F hE hF
    obtain ⟨E', hE', zE⟩ := fr.entities.get hE
    obtain ⟨F', hF', zF⟩ := fr.entities.get hF
    have := r3 E'.makePub F'.makePub (getEntity_iff.mpr ⟨E', hE', rfl⟩) (getEntity_iff.mpr ⟨F', hF', rfl⟩)
    rw [← (staticRel_iff.mp zE).2.2.1, ← (staticRel_iff.mp zF).2.2.1]
    exact this)
  have hent : (if p.concluded then p.final.world else { p.final.world with debug := p.final.world.debug ++ [.ranOut] }).entities =
      p.final.world.entities := by split <;> rfl
  intro k E hE
  obtain ⟨X, hX, -⟩ := f1.entities.get' hE
  have hnd : (p.final.infos.map StepInfo.handle).Nodup := by rw [p.inv.handles]; exact Arena.handles_nodup _
  have hn := sleepLoop_spec hnd p.selfless p.sleep k X E hX hE
  rw [hent] at hX
  have hX := k1 k X hX
  have base : Fine (if k ∈ p.final.infos.map StepInfo.handle then settle
      (if p.concluded then p.final.world else { p.final.world with debug := p.final.world.debug ++ [.ranOut] }) (XReal.fin d) X else X) := by
    split
    · exact fine_settle hX _ _
    · exact hX
  exact base.of hn.static (by rw [hn]; exact base.pose) (by rw [hn]; exact base.vel) (by rw [hn]; exact base.ang)

/-! ### Histories -/

/-- Generators after a call other than a step. -/
theorem exec_generators {ord : IterOrder} {s s' : System XReal γ} {op : Op XReal γ} {out : Out γ} (inv : System.Inv s) (hh : s.exec ord op = .ok (s', out))
    (hop : ∀ dt, op ≠ .step dt) {k : Handle} {x : γ} (hx : s'.generators.get k = some x) : s.generators.get k = some x ∨ op = .addGenerator x := by
  cases op with
  | addEntity e =>
    simp only [System.exec] at hh; cases hh
    cases h : InternalEntity.newFrom e with
    | none => rw [System.addEntity_none h] at hx; exact Or.inl hx
    | some y => rw [System.addEntity_some h] at hx; exact Or.inl hx
  | removeEntity h =>
    simp only [System.exec] at hh
    obtain ⟨⟨m, b⟩, hr, hh⟩ := Res.bind_eq_ok.mp hh
    cases hh
    cases hE : s.entities.get h with
    | none => rw [System.removeEntity_none hE] at hr; cases hr; exact Or.inl hx
    | some E => rw [System.removeEntity_some inv hE] at hr; cases hr; exact Or.inl hx
  | updateEntity h e =>
    simp only [System.exec] at hh
    obtain ⟨⟨m, b⟩, hr, hh⟩ := Res.bind_eq_ok.mp hh
    cases hh
    obtain ⟨h1, h2, h3⟩ := System.updateEntity_shape hr
    rw [h3] at hx; exact Or.inl hx
  | addCollider c =>
    simp only [System.exec] at hh; cases hh
    cases h : c.newFrom with
    | none => rw [System.addCollider_none h] at hx; exact Or.inl hx
    | some y => rw [System.addCollider_some h] at hx; exact Or.inl hx
  | removeCollider h =>
    simp only [System.exec] at hh
    obtain ⟨m, hr, hh⟩ := Res.bind_eq_ok.mp hh
    cases hh
    have := System.removeCollider_ok hr
    subst this
    exact Or.inl hx
  | updateCollider h c =>
    simp only [System.exec] at hh
    obtain ⟨⟨m, b⟩, hr, hh⟩ := Res.bind_eq_ok.mp hh
    cases hh
    rcases System.updateCollider_spec hr with ⟨-, rfl, -⟩ | ⟨-, C, hC, hu, hr⟩ | ⟨-, C, C', hC, hu, hr⟩
    · exact Or.inl hx
    · obtain ⟨h1, h2, h3⟩ := System.refreshEntity_shape hr
      rw [h3] at hx; exact Or.inl hx
    · obtain ⟨h1, h2, h3⟩ := System.refreshEntity_shape hr
      rw [h3] at hx; exact Or.inl hx
  | linkCollider c e =>
    simp only [System.exec] at hh
    obtain ⟨⟨m, b⟩, hr, hh⟩ := Res.bind_eq_ok.mp hh
    cases hh
    rcases System.linkCollider_spec inv hr with ⟨-, rfl, -⟩ | ⟨-, C, hC, -, hs', hshape, -⟩
    · exact Or.inl hx
    · rw [hs'] at hx; exact Or.inl hx
  | addGenerator g =>
    simp only [System.exec] at hh; cases hh
    simp only [System.addGenerator, Arena.get_insert inv.wfG] at hx
    split at hx
    · cases hx; exact Or.inr rfl
    · exact Or.inl hx
  | removeGenerator h =>
    simp only [System.exec] at hh; cases hh
    simp only [System.removeGenerator, Arena.get_remove] at hx
    split at hx
    · cases hx
    · exact Or.inl hx
  | step dt => exact absurd rfl (hop dt)
  | configure n e t rs d =>
    simp only [System.exec] at hh; cases hh
    exact Or.inl hx

/-- The mass update keeps the pose a rigid motion. -/
theorem recalculate_rigid {order : List Handle} {cs : Arena (Collider XReal)} {F E' : InternalEntity XReal} (h : recalculateMass order cs F = .ok E')
    (hl : ∀ h ∈ order, ∃ c, cs.get h = some c) (hp : Orientation.Rigid F.orientation) (hc : ∀ k c, cs.get k = some c → FiniteNumbers c)
    (hm : ∀ k c, cs.get k = some c → c.mass = posInf ∨ ∃ m, 0 ≤ m ∧ c.mass = fin m) : Orientation.Rigid E'.orientation := by
  obtain ⟨o, ho, hu⟩ := hp
  obtain ⟨c, hc⟩ := recalculate_space h hl ho hu (by
    by_cases hi : ∃ c ∈ found cs order, c.mass = posInf
    · exact Or.inr hi
    · left
      push Not at hi
      intro c hcm
      obtain ⟨k, -, hk⟩ := mem_found.mp hcm
      obtain ⟨m, -, hm⟩ := (hm k c hk).resolve_left (hi c hcm)
      exact ((hc k c hk).sound hm).1)
  exact ⟨_, hc, Orientation.recentered_unit hu c⟩

theorem FiniteHistory.fine {G : γ → Prop} (tame : Tame G) {s : System XReal γ} (h : FiniteHistory G s) :
    FineWorld s.toWorld ∧ ∀ k x, s.generators.get k = some x → G x := by
  induction h with
  | new => exact ⟨by intro k E h; simp [System.new, Arena.get_new] at h, by intro k x h; simp [System.new, Arena.get_new] at h⟩
  | @call s s' ord op out hst hop hx hrec ih =>
    have hr := hst.reachable
    have hr' := live_after hr hx
    have hc' := (FiniteHistory.call ord op out hst hop hx hrec).colliders
    by_cases hstep : ∃ dt, op = .step dt
    · obtain ⟨dt, rfl⟩ := hstep
      obtain ⟨d, rfl⟩ := isFinite_iff.mp hop
      simp only [System.exec] at hx
      obtain ⟨m, hm, hx⟩ := Res.bind_eq_ok.mp hx
      cases hx
      by_cases hp : Proper (fin d)
      · exact fine_step tame hp hm hst.colliders ih.1 ih.2 (hrec _ rfl hp)
      · simp only [Proper, Bool.not_eq_false] at hp
        unfold System.step at hm
        rw [if_pos hp] at hm
        cases hm
        exact ih
    · push Not at hstep
      have hmass : ∀ k c, s'.colliders.get k = some c → c.mass = posInf ∨ ∃ m, 0 ≤ m ∧ c.mass = fin m := fun k c h => stored_mass hr' h
      refine ⟨?_, ?_⟩
      · intro k E hE
        have hfine : Orientation.Rigid E.orientation ∧ E.velocity.Fin ∧ E.angularVelocity.Fin ∧ E.ownMass ≠ nan → Fine E :=
          fun h => fine_of hr' hc' hE h.1 h.2.1 h.2.2.1 h.2.2.2
        apply hfine
        rcases System.exec_entities hr.inv hx hE with ⟨X, hX, hcar, hc⟩ | ⟨e, rfl, hn⟩ | ⟨X, cols, order, hX, hp, hrc⟩ | ⟨e, X, X1, X2, w, order, rfl, hX, hu, hp, hrc, hw⟩
        · have fX := ih.1 k X hX
          have hw := hc.resolve_left (fun ⟨dt, h⟩ => hstep dt h)
          rw [hw]
          exact ⟨fX.pose, fX.vel, fX.ang, fX.own⟩
        · obtain ⟨e1, e2, e3, e4, e5, e6⟩ := hop
          unfold InternalEntity.newFrom at hn
          split at hn
          · cases hn
          · cases hn
            obtain ⟨a1, b1⟩ := e1.f
            obtain ⟨a2, b2⟩ := e2.f
            obtain ⟨a3, b3⟩ := e3.f
            obtain ⟨a4, b4⟩ := e4.f
            obtain ⟨a5, b5⟩ := e5.f
            refine ⟨⟨⟨a1, Quat.exp a2, a5⟩, ?_, Quat.exp_normSq _⟩, ⟨a3, b3⟩, ⟨a4, b4⟩, e6⟩
            simp only [Entity.makeOrientation, b1, b2, b5]
            exact Orientation.f_new _ _ _
        · have fX := ih.1 k X hX
          have mr := recalculateMass_massRel hrc
          have hcol : E.colliders = cols := mr.colliders
          refine ⟨recalculate_rigid hrc (live_of_inv hr'.inv hE (by rw [hcol]; exact hp)) fX.pose hc' hmass, ?_, ?_, ?_⟩
          · rw [mr]; exact fX.vel
          · rw [mr]; exact fX.ang
          · rw [mr]; exact fX.own
        · have fX := ih.1 k X hX
          obtain ⟨e1, e2, e3, e4, e5, e6⟩ := hop
          obtain ⟨a1, b1⟩ := e1.f
          obtain ⟨a2, b2⟩ := e2.f
          obtain ⟨a3, b3⟩ := e3.f
          obtain ⟨a4, b4⟩ := e4.f
          obtain ⟨-, -, hX1⟩ := System.updateFrom_fields hu
          obtain ⟨o, ho, hou⟩ := fX.pose
          have mr := recalculateMass_massRel hrc
          have hcol : E.colliders = X1.colliders := by rw [hw]; exact mr.colliders
          have hpose : Orientation.Rigid X1.orientation := by
            refine ⟨⟨a1, Quat.exp a2, o.internalOriginOffset⟩, ?_, Quat.exp_normSq _⟩
            rw [hX1]
            simp only [ho, b1, b2]
            exact Orientation.f_new _ _ _
          have := recalculate_rigid hrc (live_of_inv hr'.inv hE (by rw [hcol]; exact hp)) hpose hc' hmass
          rw [hw]
          refine ⟨this, ?_, ?_, ?_⟩
          · show X2.velocity.Fin
            rw [mr, hX1]; exact ⟨a3, b3⟩
          · show X2.angularVelocity.Fin
            rw [mr, hX1]; exact ⟨a4, b4⟩
          · show X2.ownMass ≠ nan
            rw [mr, hX1]; exact e6
      · intro k x hk
        rcases exec_generators hr.inv hx hstep hk with h | rfl
        · exact ih.2 k x h
        · exact hop

/-- **C37 (partial).** If all numbers handed over are finite (masses may be infinite), the generators give finite forces for finite entities, and every recorded
contact was sound - a contact point and a normal of finite numbers, neither body massless, not both immovable - then at every moment every number of every entity
(position, rotation, velocities, pose) is finite, and masses are not NaN. `C37_false` shows that the condition on the contacts is needed. -/
theorem C37_finite_partial {G : γ → Prop} (tame : Tame G) {s : System XReal γ} (h : FiniteHistory G s) {k : Handle} {e : Entity XReal}
    (he : s.getEntity k = some e) :
    FinitePose e.lastOrientation ∧ Finite3 e.position ∧ Finite3 e.rotation ∧ Finite3 e.velocity ∧ Finite3 e.angularVelocity ∧
    (e.lastTotalMass = posInf ∨ ∃ m, 0 ≤ m ∧ e.lastTotalMass = fin m) := by
  obtain ⟨E, hE, rfl⟩ := getEntity_iff.mp he
  have f := (h.fine tame).1 k E hE
  obtain ⟨a, b, c, d, -, -⟩ := f.entity
  obtain ⟨o, ho, -⟩ := f.pose
  exact ⟨by show FinitePose E.orientation; rw [ho]; exact finitePose_f o, a, b, c, d, f.mass⟩

end
end Fluffy.Props

namespace Fluffy.Scene
open XReal Demo Step Props
variable {γ : Type} [ForceGenerator XReal γ]

/-- What is not yet asleep stays as it is in the sleep loop. -/
theorem sleep_keeps (ord : IterOrder) (d : XReal) {w : World XReal} {info : StepInfo XReal} {E : InternalEntity XReal} (hg : w.entities.get info.handle = some E)
    (h1 : E.asleep = false) (h2 : E.fallingAsleep = false) (h3 : E.fallingAsleepTime = fin 0) (ht : w.sleepTimeThreshold = fin 1) :
    ∃ E', sleepOne ord d info w = .ok { w with entities := w.entities.set info.handle E' } ∧ E'.makePub = E.makePub := by
  unfold sleepOne
  rw [hg]
  simp only [unwrap, Res.ok_bind, h1, h2, h3, ht, Bool.false_eq_true, if_false]
  split
  · exact ⟨_, rfl, by simp [InternalEntity.makePub, h1]⟩
  · rw [if_pos (by simp)]
    exact ⟨_, rfl, by simp [InternalEntity.makePub, h1]⟩

/-- A step of the scene with one iteration, in which the two bump into each other. -/
theorem one_hit (ord : IterOrder) {m k : Option ℝ} {p v q w : Vec3 ℝ} {c d : Collider XReal} {e : XReal} {K : Candidate XReal} {t : ℝ}
    (hK : considerPair (two (c.setEntity (some h0)) (d.setEntity (some h1))) (dot (mx m) p v [h0] up) (dot (mx k) q w [h1] up) ⟨h0, v.f, (Vec3.o).f, []⟩
      ⟨h1, w.f, (Vec3.o).f, []⟩ 0 1 h0 h1 none = .ok (some K))
    (ht : K.percent = fin t) (k1 : K.firstHandle = h0) (k2 : K.secondHandle = h1) (k3 : K.firstIndex = 0) (k4 : K.secondIndex = 1) :
    ∃ (s' : System XReal γ) (E : InternalEntity XReal) (rt ta : XReal) (i1 i2 : StepInfo XReal),
      System.step ord (scene (dot (mx m) p v [h0] up) (dot (mx k) q w [h1] up) c d 1 e (fin 1)) (fin 1) = .ok s' ∧ s'.entities.get h0 = some E ∧
      E.velocity = (respondPair K rt ta (dot (mx m) (p + v.scale t) v [h0] up) (dot (mx k) (q + w.scale t) w [h1] up) i1 i2).first.velocity ∧
      s'.entities.handles.filterMap s'.getEntity = [(respondPair K rt ta (dot (mx m) (p + v.scale t) v [h0] up) (dot (mx k) (q + w.scale t) w [h1] up) i1 i2).first.makePub,
        (respondPair K rt ta (dot (mx m) (p + v.scale t) v [h0] up) (dot (mx k) (q + w.scale t) w [h1] up) i1 i2).second.makePub] ∧
      s'.collisionRecords = [(respondPair K rt ta (dot (mx m) (p + v.scale t) v [h0] up) (dot (mx k) (q + w.scale t) w [h1] up) i1 i2).record] := by
  unfold System.step
  rw [if_neg (by simp [abs_one]; norm_num)]
  simp only [scene, two_handles]
  have hgen : (Arena.new : Arena γ).handles = [] := rfl
  rw [hgen]
  simp only [integrateAll]
  rw [integrate m p v [h0] up 1 _ (two_get0 _ _)]
  simp only [Res.ok_bind, two_set0]
  rw [integrate k q w [h1] up 1 _ (two_get1 _ _)]
  simp only [Res.ok_bind, two_set1]
  have e1 : ∀ u : Vec3 ℝ, u.scale 1 = u := fun u => by ext <;> simp
  rw [e1, e1, iterate, zero_eq]
  rw [search ord rfl rfl rfl rfl (by simp [dot, up]) (by simp [dot, up]) rfl rfl]
  simp only [hK, Res.ok_bind, wakeColliding, k1, k2]
  have wk0 : ∀ W : World XReal, W.entities = two (dot (mx m) p v [h0] up) (dot (mx k) q w [h1] up) → wakeIfFinite ord h0 W = .ok W := by
    intro W he
    have hW : { W with entities := two (dot (mx m) p v [h0] up) (dot (mx k) q w [h1] up) } = W := by rw [← he]
    unfold wakeIfFinite
    rw [he]
    simp only [two_get0, unwrap, Res.ok_bind]
    split
    · rw [wake_idle ord (two_get0 _ _) rfl rfl (two_set0 _ _ _)]
      simp only [Res.ok_bind, hW]
    · rfl
  have wk1 : ∀ W : World XReal, W.entities = two (dot (mx m) p v [h0] up) (dot (mx k) q w [h1] up) → wakeIfFinite ord h1 W = .ok W := by
    intro W he
    have hW : { W with entities := two (dot (mx m) p v [h0] up) (dot (mx k) q w [h1] up) } = W := by rw [← he]
    unfold wakeIfFinite
    rw [he]
    simp only [two_get1, unwrap, Res.ok_bind]
    split
    · rw [wake_idle ord (two_get1 _ _) rfl rfl (two_set1 _ _ _)]
      simp only [Res.ok_bind, hW]
    · rfl
  rw [wk0 _ rfl]
  simp only [Res.ok_bind]
  rw [wk1 _ rfl]
  simp only [Res.ok_bind]
  rw [advance_two (best := some K) ht (mx m) (mx k) p v q w rfl rfl rfl rfl rfl rfl]
  simp only [Res.ok_bind, respond, k1, k2, k3, k4, get2, h0_ne_h1, if_false, two_get0, two_get1, unwrap, index, List.getElem?_cons_zero,
    List.getElem?_cons_succ, fin_mul, iterate]
  generalize hR : respondPair K _ _ _ _ _ _ = R
  have v1 : VelRel (dot (mx m) (p + v.scale t) v [h0] up) R.first := by rw [← hR]; exact respondPair_first _ _ _ _ _ _ _
  have v2 : VelRel (dot (mx k) (q + w.scale t) w [h1] up) R.second := by rw [← hR]; exact respondPair_second _ _ _ _ _ _ _
  obtain ⟨b, j1, j2⟩ := respondPair_firstInfo K (fin ((0 + (1 - 0) * t) * 1)) (fin (1 * (1 - t))) (dot (mx m) (p + v.scale t) v [h0] up)
    (dot (mx k) (q + w.scale t) w [h1] up) ⟨h0, (v.scale (1 - t)).f, (Vec3.o).f, []⟩ ⟨h1, (w.scale (1 - t)).f, (Vec3.o).f, []⟩
  rw [hR] at j1 j2
  have n1 : R.firstInfo.handle = h0 := by rw [j1]
  have n2 : R.secondInfo.handle = h1 := by rw [j2]
  simp only [List.set_cons_zero, List.set_cons_succ, two_set0, two_set1, sleepLoop, Bool.false_eq_true, if_false]
  obtain ⟨E1, s1, u1⟩ := sleep_keeps ord (fin 1) (info := R.firstInfo) (w :=
    { entities := two R.first R.second, colliders := two (c.setEntity (some h0)) (d.setEntity (some h1)), iterationMax := 1
      collisionRecords := [] ++ [R.record], energySleepThreshold := e, sleepTimeThreshold := fin 1, debug := [] ++ [.ranOut] })
    (E := R.first) (by rw [n1]; rfl) (by rw [v1]; rfl) (by rw [v1]; rfl) (by rw [v1]; rfl) rfl
  rw [s1]
  simp only [Res.ok_bind, n1, two_set0]
  obtain ⟨E2, s2, u2⟩ := sleep_keeps ord (fin 1) (info := R.secondInfo) (w :=
    { entities := two E1 R.second, colliders := two (c.setEntity (some h0)) (d.setEntity (some h1)), iterationMax := 1
      collisionRecords := [] ++ [R.record], energySleepThreshold := e, sleepTimeThreshold := fin 1, debug := [] ++ [.ranOut] })
    (E := R.second) (by rw [n2]; rfl) (by rw [v2]; rfl) (by rw [v2]; rfl) (by rw [v2]; rfl) rfl
  rw [s2]
  simp only [Res.ok_bind, n2, two_set1]
  exact ⟨_, E1, fin ((0 + (1 - 0) * t) * 1), fin (1 * (1 - t)), _, _, rfl, rfl, by rw [hR]; exact congrArg Entity.velocity u1, by rw [hR, ← u1, ← u2]; rfl, by rw [hR]; rfl⟩

/-- NaN in the impulse gets into the velocity. -/
theorem respond_nan {K : Candidate XReal} {rt ta : XReal} {a b : InternalEntity XReal} {i1 i2 : StepInfo XReal}
    (h : ((collisionImpulse a b K.restitution K.collision).scale (one / a.totalMass)).x = nan) : (respondPair K rt ta a b i1 i2).first.velocity.x = nan := by
  have e : ∀ u v : Vec3 XReal, (u + v).x = u.x + v.x := fun _ _ => rfl
  simp only [respondPair, applyCollisionImpulse, InternalEntity.applyImpulse, e, h, add_nan, nan_add]

theorem dot_denominator (m k : Option ℝ) (p v q w : Vec3 ℝ) {C : Collision XReal} {c n : Vec3 ℝ} (hc : C.position = c.f) (hn : C.normal = n.f) :
    impulseDenominator (dot (mx m) p v [h0] up) (dot (mx k) q w [h1] up) C = one / mx m + one / mx k + fin 0 + fin 0 := by
  unfold impulseDenominator
  rw [(dot_of m p v [h0] up).W, (dot_of k q w [h1] up).W, body_W, body_W, hc, hn]
  simp [dot, pose]

theorem dot_at (m : XReal) (p v : Vec3 ℝ) (cs : List Handle) (z : Nap) (c : Vec3 ℝ) : (dot m p v cs z).velocityAt c.f = v.f := by
  unfold InternalEntity.velocityAt dot
  simp [pose]

end Fluffy.Scene

namespace Fluffy.Props
open Fluffy XReal InternalEntity Step Demo Scene
section
variable {γ : Type} [ForceGenerator XReal γ]

/-- The calls that build the scene with two balls hand over finite numbers only. -/
theorem start_finite {m k : Option ℝ} (hm : ∀ x, m = some x → 0 ≤ x) (hk : ∀ x, k = some x → 0 ≤ x) (p v q w : Vec3 ℝ) (a b : ℝ) (n : Nat) (e t : XReal) (G : γ → Prop) :
    ∃ tr, Steps System.new tr (scene (γ := γ) (dot (mx m) p v [h0] up) (dot (mx k) q w [h1] up) (sphere a) (sphere b) n e t) ∧
      (∀ x ∈ tr, FiniteCall G x.1) ∧ ∀ x ∈ tr, ∀ dt, x.1 ≠ .step dt := by
  have hx : ∀ {m : Option ℝ}, (∀ x, m = some x → 0 ≤ x) → Scalar.lt (mx m) zero = false := by
    intro m hm
    cases m with
    | none => simp [mx]
    | some x => simpa [mx] using hm x rfl
  have hs : ∀ (m : Option ℝ) (p v : Vec3 ℝ), FiniteEntity (source (mx m) p v) := by
    intro m p v
    refine ⟨finite3_f p, ⟨rfl, rfl, rfl⟩, finite3_f v, ⟨rfl, rfl, rfl⟩, ⟨rfl, rfl, rfl⟩, ?_⟩
    cases m <;> exact fun h => by cases h
  have hb : ∀ a, FiniteNumbers (sphere a) := fun a => ⟨finite3_f _, rfl, rfl, rfl, rfl⟩
  refine ⟨_, scene_steps (hx hm) (hx hk) p v q w (sphere_newFrom a) (sphere_newFrom b) (sphere_weightless _ a) (sphere_weightless _ b) n e t, ?_, ?_⟩
  · simp only [List.mem_cons, List.not_mem_nil, or_false]
    rintro x (rfl | rfl | rfl | rfl | rfl | rfl | rfl)
    · trivial
    · trivial
    · trivial
    · exact hb b
    · exact hb a
    · exact hs k q w
    · exact hs m p v
  · simp only [List.mem_cons, List.not_mem_nil, or_false]
    rintro x (rfl | rfl | rfl | rfl | rfl | rfl | rfl) dt h <;> cases h

theorem FiniteHistory.of_steps {G : γ → Prop} {tr : List (Op XReal γ × Out γ)} {s : System XReal γ} (h : Steps System.new tr s)
    (hf : ∀ x ∈ tr, FiniteCall G x.1) (hn : ∀ x ∈ tr, ∀ dt, x.1 ≠ .step dt) : FiniteHistory G s := by
  induction h with
  | nil => exact .new
  | snoc ord op out _ hx ih =>
    refine .call ord op out (ih (fun x h => hf x (by simp [h])) (fun x h => hn x (by simp [h]))) (hf (op, out) (by simp)) hx ?_
    intro dt hdt
    exact absurd hdt (hn (op, out) (by simp) dt)

/-- After a history of calls with finite numbers, an entity's velocity is NaN; the two entities have these masses. -/
def NanVelocity (γ : Type) [ForceGenerator XReal γ] (G : γ → Prop) (m k : Option ℝ) : Prop :=
  ∃ (tr : List (Op XReal γ × Out γ)) (s : System XReal γ) (h h' : Handle) (e e' : Entity XReal), Steps System.new tr s ∧ (∀ x ∈ tr, FiniteCall G x.1) ∧
    s.getEntity h = some e ∧ e.velocity.x = nan ∧ e.lastTotalMass = mx m ∧ s.getEntity h' = some e' ∧ e'.lastTotalMass = mx k

theorem nan_history (G : γ → Prop) {m k : Option ℝ} (hm : ∀ x, m = some x → 0 ≤ x) (hk : ∀ x, k = some x → 0 ≤ x) {p v q w : Vec3 ℝ} {C : Collision XReal}
    {t : ℝ} {x : Vec3 ℝ} (hC : collideSphereSphere (fin 1) p.f v.f (fin 1) q.f w.f = some C) (ht : C.times.min = fin t) (ht1 : t < 1) (hx : C.position = x.f)
    (hclose : Scalar.lt ((v.f - w.f).dot C.normal) EPSILON = false)
    (hnan : ∀ p q : Vec3 ℝ, ((collisionImpulse (dot (mx m) p v [h0] up) (dot (mx k) q w [h1] up) (fin (0 * 0)) C).scale (one / mx m)).x = nan) :
    NanVelocity γ G m k := by
  have hK := consider_balls 0 0 (mx m) (mx k) p v q w up up v w [] [] hC (fun C' h => by cases h; exact ⟨_, hx⟩)
  simp only [hclose, ht, fin_lt, Bool.false_eq_true, if_false] at hK
  rw [if_pos (by simpa using ht1)] at hK
  obtain ⟨s', E, rt, ta, i1, i2, h1', h2', h3', -, -⟩ := one_hit (γ := γ) .id (e := fin 1) hK rfl rfl rfl rfl rfl
  obtain ⟨tr, hs, hf, -⟩ := start_finite (γ := γ) hm hk p v q w 0 0 1 (fin 1) (fin 1) G
  obtain ⟨E', hE', hr⟩ := (step_frame h1').1.entities.get (h := h1) (x := dot (mx k) q w [h1] up) rfl
  obtain ⟨F, hF, hr0⟩ := (step_frame h1').1.entities.get (h := h0) (x := dot (mx m) p v [h0] up) rfl
  rw [h2'] at hF
  cases hF
  refine ⟨_, s', h0, h1, E.makePub, E'.makePub, .snoc .id (.step (fin 1)) .unit hs (by simp only [System.exec, h1', Res.ok_bind]), ?_,
    getEntity_iff.mpr ⟨E, h2', rfl⟩, ?_, (staticRel_iff.mp hr0).2.2.1, getEntity_iff.mpr ⟨E', hE', rfl⟩, (staticRel_iff.mp hr).2.2.1⟩
  · intro x hx
    rcases List.mem_cons.mp hx with rfl | hx
    · rfl
    · exact hf x hx
  · show E.velocity.x = nan
    rw [h3']
    exact respond_nan (hnan _ _)

/-- The contact of two balls at rest in the same place has no normal. -/
theorem concentric : ∃ C : Collision XReal, collideSphereSphere (fin 1) (Vec3.o).f (Vec3.o).f (fin 1) (Vec3.o).f (Vec3.o).f = some C ∧ C.times.min = fin 0 ∧
    C.position = (Vec3.o).f ∧ C.normal.x = nan ∧ C.normal.y = nan ∧ C.normal.z = nan := by
  have e0 : ((Vec3.o : Vec3 ℝ) - .o).dot (.o - .o) = 0 := by norm_num [Vec3.dot_def]
  rcases sphereSphere_first (r1 := 1) (r2 := 1) (c1 := .o) (m1 := .o) (c2 := .o) (m2 := .o) (by norm_num)
      (P := fun t => True) (fun t _ _ => by
        rw [e0, mul_zero, zero_sub]
        have := ((C40_degenerate 0 0 (-4) (by rw [abs_zero]; exact eps_pos)).1 (by rw [abs_zero]; exact eps_pos) t).mpr (by unfold eps; norm_num)
        norm_num at this ⊢
        exact this) with h | ⟨C, t, x, hC, ht, hf, hx, hp, hn⟩
  · exact absurd trivial (h.2 0 (le_refl _) (by norm_num))
  · have ht0 : t = 0 := le_antisymm (hf.2 0 (le_refl _) (by norm_num) trivial) hf.1.1
    have hx0 : x = .o := by rw [hx]; ext <;> simp [along]
    have hnn : C.normal.x = nan ∧ C.normal.y = nan ∧ C.normal.z = nan := by
      rw [hn, hx0]
      have : ((Vec3.o : Vec3 ℝ) - .o) = .o := by ext <;> simp
      rw [this]
      unfold Vec3.normalize Vec3.unscale
      have h0 : (fin 0 / fin 0 : XReal) = nan := by rw [fin_div', if_pos rfl]; norm_num [infSign]
      simp [Vec3.f_magnitude, Vec3.len, h0]
    exact ⟨C, hC, by rw [ht, ht0], by rw [hp, hx0], hnn⟩

/-- **C37 fails** even for balls of mass 1: two of them at rest in the same place. -/
theorem C37_false (G : γ → Prop) : NanVelocity γ G (some 1) (some 1) := by
  obtain ⟨C, hC, ht, hp, hnn⟩ := concentric
  refine nan_history G (by rintro _ ⟨⟩; norm_num) (by rintro _ ⟨⟩; norm_num) hC ht (by norm_num) hp ?_ ?_
  · simp [Vec3.dot, hnn]
  · intro p q
    simp [collisionImpulse, Vec3.scale, hnn]

/-- **C37 fails** for two bodies of infinite mass that run into each other. -/
theorem C37_immovable_false (G : γ → Prop) : NanVelocity γ G none none := by
  obtain ⟨C, hC, ht, hp, hn⟩ := head_on
  refine nan_history G (by rintro _ ⟨⟩) (by rintro _ ⟨⟩) hC ht (by norm_num) hp ?_ ?_
  · rw [hn, Vec3.f_sub, Vec3.f_dot, EPSILON_eq, fin_lt]
    norm_num [Vec3.dot_def]
  · intro p q
    unfold collisionImpulse
    simp only []
    rw [dot_denominator none none p _ q _ hp hn, hp, dot_at, dot_at, hn, Vec3.f_sub, Vec3.f_dot]
    have : ((⟨2, 0, 0⟩ : Vec3 ℝ) - .o).dot ⟨1, 0, 0⟩ = 2 := by norm_num [Vec3.dot_def]
    rw [this]
    simp [mx, Vec3.scale]
    have hneg : (fin (-2) / fin 0 : XReal) = negInf := by rw [fin_div', if_pos rfl]; norm_num [infSign]
    have h2 : (fin 1 * negInf : XReal) = negInf := by show infSign (-1) = negInf; norm_num [infSign]
    have h3 : (negInf * fin 0 : XReal) = nan := by show infSign (-0) = nan; norm_num [infSign]
    rw [hneg, h2, h3]

/-- **C37 fails** for two bodies without mass that run into each other. -/
theorem C37_massless_false (G : γ → Prop) : NanVelocity γ G (some 0) (some 0) := by
  obtain ⟨C, hC, ht, hp, hn⟩ := head_on
  refine nan_history G (by rintro _ ⟨⟩; norm_num) (by rintro _ ⟨⟩; norm_num) hC ht (by norm_num) hp ?_ ?_
  · rw [hn, Vec3.f_sub, Vec3.f_dot, EPSILON_eq, fin_lt]
    norm_num [Vec3.dot_def]
  · intro p q
    unfold collisionImpulse
    simp only []
    rw [dot_denominator (some 0) (some 0) p _ q _ hp hn, hp, dot_at, dot_at, hn, Vec3.f_sub, Vec3.f_dot]
    have : ((⟨2, 0, 0⟩ : Vec3 ℝ) - .o).dot ⟨1, 0, 0⟩ = 2 := by norm_num [Vec3.dot_def]
    rw [this]
    simp [mx, Vec3.scale]
    have hp : (fin 1 / fin 0 : XReal) = posInf := by rw [fin_div', if_pos rfl]; norm_num [infSign]
    have h3 : (fin 0 * posInf : XReal) = nan := by show infSign 0 = nan; norm_num [infSign]
    have h4 : (posInf + posInf : XReal) = posInf := rfl
    rw [hp, h4, fin_div_posInf, fin_mul, mul_zero, h3]

/-- The hypotheses of `C37_finite_partial` can be met by a history with a collision: a ball of mass 1 runs into one of mass 1. -/
example : ∃ s' : System XReal (GravityGenerator XReal), FiniteHistory (fun g => Finite3 g.acceleration) s' ∧ s'.collisionRecords ≠ [] ∧
    (∃ e, s'.getEntity h0 = some e) := by
  obtain ⟨s', hs, he, hc, hg, hrec⟩ := rest (γ := GravityGenerator XReal) .id (k := 1) (by norm_num) (u := ⟨1, 0, 0⟩) (by ext <;> norm_num) (E := 1)
    (by norm_num [Vec3.dot_def]) (by norm_num [Vec3.dot_def]) 3
  obtain ⟨tr, ht, hf, hn⟩ := start_finite (γ := GravityGenerator XReal) (m := some 1) (k := some 1) (by rintro _ ⟨⟩; norm_num) (by rintro _ ⟨⟩; norm_num)
    .o ⟨2, 0, 0⟩ ⟨3, 0, 0⟩ .o 0 1 (3 + 2) (fin 1) (fin 0) (fun g => Finite3 g.acceleration)
  refine ⟨s', .call .id (.step (fin 1)) .unit (.of_steps ht hf hn) rfl (by
    show _ = _
    simp only [System.exec]
    rw [show mx (some 1) = fin 1 from rfl, hs]; rfl) ?_, by rw [hrec]; simp, ?_⟩
  · intro dt _ _ r hr
    rw [hrec, List.mem_singleton] at hr
    subst hr
    refine ⟨finite3_f _, finite3_f _, ?_⟩
    intro a b ha hb
    obtain ⟨A, hA, rfl⟩ := getEntity_iff.mp ha
    obtain ⟨B, hB, rfl⟩ := getEntity_iff.mp hb
    rw [he] at hA hB
    simp only [two_get0, two_get1, Option.some.injEq] at hA hB
    subst hA; subst hB
    simp [dot, makePub]
  · exact ⟨_, getEntity_iff.mpr ⟨_, by rw [he]; exact two_get0 _ _, rfl⟩⟩

end
end Fluffy.Props
