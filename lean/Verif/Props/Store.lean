import Verif.Props.Demo
import Verif.Proofs.Total
/- C03-C07: adding, reading back and updating entities and colliders.
Everything is stated through `get_entity` and `get_collider` (`getEntity`, `getCollider`). -/
set_option linter.unusedSectionVars false
set_option linter.unusedSimpArgs false
namespace Fluffy.Props
open Fluffy InternalEntity
variable {α : Type} [Scalar α] {γ : Type} [ForceGenerator α γ]

/-! ### Specification -/

/-- An acceptable entity: its own mass is not negative. -/
def ValidEntity (e : Entity α) : Prop := Scalar.lt e.ownMass zero = false

/-- An acceptable collider: mass at least zero (so not NaN), sphere radius above 0.05, plane normal longer than
EPSILON, a mesh with three vertices, a face and an edge, a box with all sides above EPSILON. -/
def ValidCollider : Collider α → Prop
  | .null c => Scalar.le zero c.mass = true
  | .sphere c => Scalar.lt (lit 5 100) c.radius = true ∧ Scalar.le zero c.mass = true
  | .plane c => Scalar.lt EPSILON c.normal.magnitude = true ∧ Scalar.le zero c.mass = true
  | .mesh c => 3 ≤ c.vertices.length ∧ c.faces ≠ [] ∧ c.edges ≠ []
  | .box c => Scalar.lt EPSILON (c.maxCorner.x - c.minCorner.x) = true ∧
      Scalar.lt EPSILON (c.maxCorner.y - c.minCorner.y) = true ∧
      Scalar.lt EPSILON (c.maxCorner.z - c.minCorner.z) = true ∧ Scalar.le zero c.mass = true

/-- `HasMin m a b`: `m` is `a` if `a < b` and otherwise `b`, in each coordinate. -/
def HasMin (m a b : Vec3 α) : Prop :=
  m.x = (if Scalar.lt a.x b.x then a.x else b.x) ∧ m.y = (if Scalar.lt a.y b.y then a.y else b.y) ∧
  m.z = (if Scalar.lt a.z b.z then a.z else b.z)
/-- `HasMax m a b`: `m` is `a` if `b < a` and otherwise `b`, in each coordinate. -/
def HasMax (m a b : Vec3 α) : Prop :=
  m.x = (if Scalar.lt b.x a.x then a.x else b.x) ∧ m.y = (if Scalar.lt b.y a.y then a.y else b.y) ∧
  m.z = (if Scalar.lt b.z a.z then a.z else b.z)

/-- `d` is of the kind of `c`, is linked to `link` and has the public fields of `c`; `unit` tells whether a plane's
normal has been divided by its length.  (A box has its corners sorted, which changes nothing if `c` is valid; see
`C04_box_corners_kept`.) -/
def StoredAs (link : Option Handle) (unit : Prop) : (c d : Collider α) → Prop
  | .null c, .null d => d.entity = link ∧ d.position = c.position ∧ d.mass = c.mass ∧
      d.momentOfInertia = c.momentOfInertia
  | .sphere c, .sphere d => d.entity = link ∧ d.center = c.center ∧ d.radius = c.radius ∧ d.mass = c.mass ∧
      d.material = c.material
  | .plane c, .plane d => d.entity = link ∧ d.position = c.position ∧ d.mass = c.mass ∧ d.material = c.material ∧
      (unit → d.normal = c.normal.unscale (Scalar.sqrt (c.normal.dot c.normal))) ∧ (¬unit → d.normal = c.normal)
  | .mesh c, .mesh d => d.entity = link ∧ d.position = c.position ∧ d.vertices = c.vertices ∧ d.faces = c.faces ∧
      d.edges = c.edges ∧ d.material = c.material
  | .box c, .box d => d.entity = link ∧ d.position = c.position ∧ d.mass = c.mass ∧ d.material = c.material ∧
      HasMin d.minCorner c.minCorner c.maxCorner ∧ HasMax d.maxCorner c.minCorner c.maxCorner
  | _, _ => False

/-- `p'` differs from `p` at most in its position, origin offset, total mass and moment of inertia. -/
structure OnlyMassChanges (p p' : Entity α) : Prop where
  rotation : p'.rotation = p.rotation
  lastRotation : p'.lastOrientation.rotation = p.lastOrientation.rotation
  velocity : p'.velocity = p.velocity
  angularVelocity : p'.angularVelocity = p.angularVelocity
  colliders : p'.colliders = p.colliders
  ownMass : p'.ownMass = p.ownMass
  asleep : p'.asleep = p.asleep

/-! ### Lemmas -/

theorem newFrom_eq_none (c : Collider α) : c.newFrom = none ↔ ¬ValidCollider c := by
  cases c <;> simp [Collider.newFrom, ValidCollider, NullCollider.isValid, SphereCollider.isValid, MINIMUM_RADIUS,
    PlaneCollider.isValid, MeshCollider.isValid, BoxCollider.isValid, HSub.hSub, Sub.sub]
  all_goals first | done | grind

theorem newFrom_storedAs {c d : Collider α} (h : c.newFrom = some d) : StoredAs none True c d := by
  cases c <;> simp only [Collider.newFrom] at h <;> split at h <;> first | cases h | skip
  all_goals simp [StoredAs, HasMin, HasMax, cornerMin, cornerMax, fmin, fmax, Vec3.normalize, Vec3.magnitude]

theorem updateFrom_cases (c src : Collider α) :
    (c.updateFrom src = .wrongType ∧ c.type ≠ src.type) ∨
    (c.updateFrom src = .invalid ∧ c.type = src.type ∧ ¬ValidCollider src) ∨
    (∃ d, c.updateFrom src = .updated d ∧ c.type = src.type ∧ ValidCollider src ∧ StoredAs c.entity False src d) := by
  have hv := newFrom_eq_none src
  cases c <;> cases src <;> simp only [Collider.updateFrom, Collider.type, Collider.newFrom] at hv ⊢
  all_goals first
    | (left; simp; done)
    | (right; split at hv
       · rename_i h
         left; rw [if_pos h]; exact ⟨by simp, by simp, hv.mp rfl⟩
       · rename_i h
         right; rw [if_neg h]
         refine ⟨_, rfl, by simp, ?_, ?_⟩
         · exact Classical.byContradiction fun hc => by cases hv.mpr hc
         · simp [StoredAs, Collider.entity, HasMin, HasMax, cornerMin, cornerMax, fmin, fmax])

theorem getCollider_eq (s : World α) (h : Handle) : s.getCollider h = s.colliders.get h := by
  unfold World.getCollider
  cases s.colliders.get h <;> simp [Collider.makePub_eq]

theorem getEntity_eq_some {s : World α} {h : Handle} {p : Entity α} :
    s.getEntity h = some p ↔ ∃ E, s.entities.get h = some E ∧ E.makePub = p := by
  simp [World.getEntity]
theorem getEntity_eq_none {s : World α} {h : Handle} : s.getEntity h = none ↔ s.entities.get h = none := by
  simp [World.getEntity]

theorem MassRel.only {E E' : InternalEntity α} (h : MassRel E E') : OnlyMassChanges E.makePub E'.makePub := by
  rw [h]; constructor <;> rfl

/-! ### C03, C04, C05 -/

/-- **C03** (everything but the rotation vector, for which see `C03_rotation_read_back`). -/
theorem C03_add_then_get_entity {s s' : System α γ} {e : Entity α} {h : Handle} (hr : Reachable s)
    (ha : s.addEntity e = (s', some h)) :
    s.getEntity h = none ∧
    (∃ p, s'.getEntity h = some p ∧ p.position = e.position ∧ p.velocity = e.velocity ∧
      p.angularVelocity = e.angularVelocity ∧ p.ownMass = e.ownMass ∧ p.lastTotalMass = e.ownMass ∧
      p.colliders = [] ∧ p.asleep = false ∧ p.lastOrientation.rotation = Quat.fromScaledAxis e.rotation) ∧
    (∀ k, k ≠ h → s'.getEntity k = s.getEntity k) ∧ (∀ k, s'.getCollider k = s.getCollider k) ∧
    s'.generators = s.generators := by
  unfold System.addEntity at ha
  split at ha
  · rename_i E hE
    simp only [Prod.mk.injEq, Option.some.injEq] at ha
    obtain ⟨rfl, rfl⟩ := ha
    have hg := Arena.get_insert hr.inv.wfE E
    unfold InternalEntity.newFrom at hE
    split at hE
    · cases hE
    · simp only [Option.some.injEq] at hE
      refine ⟨getEntity_eq_none.mpr (Arena.get_insert_fresh hr.inv.wfE E),
        ⟨E.makePub, by simp [World.getEntity, hg], ?_⟩, ?_, ?_, ?_⟩
      · subst hE
        exact ⟨rfl, rfl, rfl, rfl, rfl, rfl, rfl, rfl⟩
      · intro k hk
        simp [World.getEntity, hg, hk]
      · intro k; rfl
      · rfl
  · cases ha

/-- **C04.** -/
theorem C04_add_then_get_collider {s s' : System α γ} {c : Collider α} {h : Handle} (hr : Reachable s)
    (ha : s.addCollider c = (s', some h)) :
    s.getCollider h = none ∧ (∃ d, s'.getCollider h = some d ∧ StoredAs none True c d) ∧
    (∀ k, k ≠ h → s'.getCollider k = s.getCollider k) ∧ (∀ k, s'.getEntity k = s.getEntity k) ∧
    s'.generators = s.generators := by
  unfold System.addCollider at ha
  split at ha
  · rename_i C hC
    simp only [Prod.mk.injEq, Option.some.injEq] at ha
    obtain ⟨rfl, rfl⟩ := ha
    have hg := Arena.get_insert hr.inv.wfC C
    simp only [getCollider_eq]
    refine ⟨Arena.get_insert_fresh hr.inv.wfC C, ⟨C, by simp [hg], newFrom_storedAs hC⟩, ?_, ?_, ?_⟩
    · intro k hk; simp [hg, hk]
    · intro k; rfl
    · trivial
  · cases ha

/-- **C04**, boxes: over the extended reals sorting the corners of a valid box does nothing. -/
theorem C04_box_corners_kept {c d : BoxCollider XReal} {t : Option Handle} (hv : ValidCollider (.box c))
    (h : StoredAs t True (.box c) (.box d)) : d.minCorner = c.minCorner ∧ d.maxCorner = c.maxCorner := by
  have key : ∀ a b : XReal, Scalar.lt EPSILON (b - a) = true → Scalar.lt a b = true ∧ Scalar.lt b a = false := by
    intro a b hab
    have : (0 : ℝ) < 1 / 1000000 := by norm_num
    cases a <;> cases b <;> simp_all
    constructor <;> linarith
  obtain ⟨h1, h2, h3, -⟩ := hv
  obtain ⟨-, -, -, -, ⟨a1, a2, a3⟩, ⟨b1, b2, b3⟩⟩ := h
  obtain ⟨p1, q1⟩ := key _ _ h1
  obtain ⟨p2, q2⟩ := key _ _ h2
  obtain ⟨p3, q3⟩ := key _ _ h3
  rw [p1] at a1; rw [p2] at a2; rw [p3] at a3; rw [q1] at b1; rw [q2] at b2; rw [q3] at b3
  cases hm : d.minCorner; cases hM : d.maxCorner; cases hc : c.minCorner; cases hC : c.maxCorner
  simp_all

/-- **C05.** Additions fail exactly when the argument is invalid; a failed addition leaves the system as it was. -/
theorem C05_additions_rejected_iff_invalid (s : System α γ) (e : Entity α) (c : Collider α) :
    ((s.addEntity e).2 = none ↔ ¬ValidEntity e) ∧ ((s.addEntity e).2 = none → (s.addEntity e).1 = s) ∧
    ((s.addCollider c).2 = none ↔ ¬ValidCollider c) ∧ ((s.addCollider c).2 = none → (s.addCollider c).1 = s) := by
  have he : InternalEntity.newFrom e = none ↔ ¬ValidEntity e := by
    unfold InternalEntity.newFrom ValidEntity
    split <;> simp_all
  have hc := newFrom_eq_none c
  refine ⟨?_, ?_, ?_, ?_⟩
  · unfold System.addEntity; split <;> simp_all
  · unfold System.addEntity; split <;> simp_all
  · unfold System.addCollider; split <;> simp_all
  · unfold System.addCollider; split <;> simp_all

/-! ### C06 -/

/-- **C06.** `update_entity` (when it returns; see C29 for its possible panic).  The sleep flags of the entities may
change because a changed entity wakes its cluster (C26). -/
theorem C06_update_entity {s s' : System α γ} {ord : IterOrder} {h : Handle} {e : Entity α} {b : Bool}
    (hu : s.updateEntity ord h e = .ok (s', b)) :
    (b = true ↔ s.getEntity h ≠ none ∧ ValidEntity e) ∧
    (b = false → s' = s) ∧
    (b = true → ∃ p p', s.getEntity h = some p ∧ s'.getEntity h = some p' ∧
      p'.velocity = e.velocity ∧ p'.angularVelocity = e.angularVelocity ∧ p'.ownMass = e.ownMass ∧
      p'.lastOrientation.rotation = Quat.fromScaledAxis e.rotation ∧ p'.colliders = p.colliders) ∧
    (∀ k, s'.getCollider k = s.getCollider k) ∧
    (∀ k, k ≠ h → (s'.getEntity k = none ↔ s.getEntity k = none) ∧
      ∀ p, s.getEntity k = some p → ∃ a, s'.getEntity k = some { p with asleep := a } ∧ (a = true → p.asleep = true)) := by
  rcases System.updateEntity_spec hu with ⟨rfl, rfl, hno⟩ | ⟨rfl, E, E1, E2, w, hE, hup, hrm, hw⟩
  · refine ⟨?_, fun _ => rfl, by simp, fun _ => rfl, ?_⟩
    · simp only [Bool.false_eq_true, false_iff, not_and]
      intro hne hv
      obtain ⟨E, hE⟩ := Option.ne_none_iff_exists'.mp (fun h0 => hne (getEntity_eq_none.mpr h0))
      have := hno E hE
      unfold InternalEntity.updateFrom at this
      unfold ValidEntity at hv
      simp [hv] at this
    · intro k _
      exact ⟨Iff.rfl, fun p hp => ⟨p.asleep, hp, id⟩⟩
  · obtain ⟨hv, -, hE1⟩ := System.updateFrom_fields hup
    have hm := recalculateMass_massRel hrm
    -- the entity arena after the update, up to waking
    have hev : Arena.Evolves WakeRel (s.entities.set h E2) s'.entities ∧ s'.colliders = s.colliders ∧
        ∀ k e e', (s.entities.set h E2).get k = some e → s'.entities.get k = some e' → e'.asleep = true → e.asleep = true := by
      rcases hw with ⟨-, rfl⟩ | ⟨-, a, d, hwk, rfl⟩
      · refine ⟨.refl WakeRel.refl _, rfl, ?_⟩
        intro k e e' he he' ha
        simp only at he'
        rw [he] at he'; cases he'; exact ha
      · obtain ⟨h1, h2, -⟩ := wakeUp_spec hwk
        refine ⟨h1, rfl, ?_⟩
        intro k e e' he he' ha
        obtain ⟨hc, hn, -⟩ := h2 k e e' he he'
        by_cases hcl : Cluster (s.entities.set h E2) h k
        · rw [(hc hcl).1] at ha; cases ha
        · rw [← (hn hcl).1]; exact ha
    obtain ⟨hev, hcs, hsl⟩ := hev
    refine ⟨?_, by simp, ?_, ?_, ?_⟩
    · simp only [true_iff]
      exact ⟨fun h0 => (by rw [getEntity_eq_none, hE] at h0; cases h0), hv⟩
    · intro _
      obtain ⟨F, hF, hFr⟩ := hev.get (Arena.get_set_self hE E2)
      refine ⟨E.makePub, F.makePub, getEntity_eq_some.mpr ⟨E, hE, rfl⟩, getEntity_eq_some.mpr ⟨F, hF, rfl⟩, ?_⟩
      rw [hFr, hm, hE1]
      exact ⟨rfl, rfl, rfl, rfl, rfl⟩
    · intro k
      rw [getCollider_eq, getCollider_eq, hcs]
    · intro k hk
      have hgk : (s.entities.set h E2).get k = s.entities.get k := Arena.get_set_ne hk E2
      refine ⟨by rw [getEntity_eq_none, getEntity_eq_none, hev.none_iff, hgk], ?_⟩
      intro p hp
      obtain ⟨K, hK, rfl⟩ := getEntity_eq_some.mp hp
      obtain ⟨F, hF, hFr⟩ := hev.get (hgk.trans hK)
      refine ⟨F.asleep, getEntity_eq_some.mpr ⟨F, hF, ?_⟩, hsl k K F (hgk.trans hK) hF⟩
      rw [hFr]; rfl

/-! ### C07 -/

/-- **C07.** `update_collider` never panics in a reachable state; it succeeds exactly when the handle is live, the kind
is the same and the source is valid; it then stores the source and keeps the link.  No other collider changes and at
most the mass properties of the linked entity do. -/
theorem C07_update_collider {s : System α γ} (hr : Reachable s) (ord : IterOrder) (h : Handle) (c : Collider α) :
    ∃ s' b, s.updateCollider ord h c = .ok (s', b) ∧
    (b = true ↔ ∃ d, s.getCollider h = some d ∧ d.type = c.type ∧ ValidCollider c) ∧
    (b = false → ∀ k, s'.getCollider k = s.getCollider k) ∧
    (b = true → ∃ d d', s.getCollider h = some d ∧ s'.getCollider h = some d' ∧ StoredAs d.entity False c d') ∧
    (∀ k, k ≠ h → s'.getCollider k = s.getCollider k) ∧
    (∀ k, (∀ d, s.getCollider h = some d → d.entity ≠ some k) → s'.getEntity k = s.getEntity k) ∧
    (∀ k p, s.getEntity k = some p → ∃ p', s'.getEntity k = some p' ∧ OnlyMassChanges p p') := by
  obtain ⟨⟨s', b⟩, hu⟩ := System.updateCollider_total hr.inv ord h c
  refine ⟨s', b, hu, ?_⟩
  simp only [getCollider_eq]
  have onlyRefl : ∀ p : Entity α, OnlyMassChanges p p := fun p => by constructor <;> rfl
  -- the effect of `refreshEntity` on a state with the entities of `s`
  have hre : ∀ {m m' : System α γ} {t : Option Handle}, m.entities = s.entities → System.refreshEntity ord m t = .ok m' →
      m'.colliders = m.colliders ∧ (∀ k, t ≠ some k → m'.getEntity k = s.getEntity k) ∧
      (∀ k p, s.getEntity k = some p → ∃ p', m'.getEntity k = some p' ∧ OnlyMassChanges p p') := by
    intro m m' t hme hrf
    rcases System.refreshEntity_spec hrf with ⟨rfl, -⟩ | ⟨eh, E, E', rfl, hE, hrm, rfl⟩
    · refine ⟨rfl, fun k _ => by simp [World.getEntity, hme], fun k p hp => ⟨p, ?_, onlyRefl p⟩⟩
      simpa [World.getEntity, hme] using hp
    · have hg := fun k => Arena.get_set m.entities eh k E'
      rw [hE, hme] at hg
      simp only [Option.map_some] at hg
      refine ⟨rfl, fun k hk => ?_, fun k p hp => ?_⟩
      · have : k ≠ eh := fun hc => hk (by rw [hc])
        simp [World.getEntity, hme, hg, this]
      · obtain ⟨K, hK, rfl⟩ := getEntity_eq_some.mp hp
        by_cases hk : k = eh
        · subst hk
          rw [← hme, hE] at hK
          simp only [Option.some.injEq] at hK
          subst hK
          exact ⟨E'.makePub, by simp [World.getEntity, hme, hg], MassRel.only (recalculateMass_massRel hrm)⟩
        · exact ⟨K.makePub, by simp [World.getEntity, hme, hg, hk, hK], onlyRefl _⟩
  rcases System.updateCollider_spec hu with ⟨rfl, rfl, hno⟩ | ⟨rfl, C, hC, hup, hrf⟩ | ⟨rfl, C, C', hC, hup, hrf⟩
  · refine ⟨?_, fun _ _ => rfl, by simp, fun _ _ => rfl, fun _ _ => rfl, fun k p hp => ⟨p, hp, onlyRefl p⟩⟩
    simp only [Bool.false_eq_true, false_iff, not_exists, not_and]
    intro d hd ht
    rcases updateFrom_cases d c with ⟨-, h2⟩ | ⟨h1, -⟩ | ⟨d', h1, -⟩
    · exact absurd ht h2
    · rw [hno d hd] at h1; cases h1
    · rw [hno d hd] at h1; cases h1
  · obtain ⟨h1, h2, h3⟩ := hre rfl hrf
    refine ⟨?_, fun _ k => by rw [h1], by simp, fun k _ => by rw [h1], ?_, h3⟩
    · simp only [Bool.false_eq_true, false_iff, not_exists, not_and]
      intro d hd ht hv
      rw [hC] at hd
      simp only [Option.some.injEq] at hd
      subst hd
      rcases updateFrom_cases C c with ⟨h1, -⟩ | ⟨-, -, h3⟩ | ⟨d', h1, -⟩
      · rw [hup] at h1; cases h1
      · exact h3 hv
      · rw [hup] at h1; cases h1
    · intro k hk
      exact h2 k (hk C hC)
  · obtain ⟨h1, h2, h3⟩ := hre (m := { s with colliders := s.colliders.set h C' }) rfl hrf
    simp only at h1
    rcases updateFrom_cases C c with ⟨hq, -⟩ | ⟨hq, -⟩ | ⟨d', hq, ht, hv, hst⟩
    · rw [hup] at hq; cases hq
    · rw [hup] at hq; cases hq
    · rw [hup] at hq
      simp only [Collider.UpdateResult.updated.injEq] at hq
      subst hq
      refine ⟨?_, by simp, ?_, ?_, ?_, h3⟩
      · simp only [true_iff]
        exact ⟨C, hC, ht, hv⟩
      · intro _
        exact ⟨C, C', hC, by rw [h1]; exact Arena.get_set_self hC C', hst⟩
      · intro k hk
        rw [h1, Arena.get_set_ne hk]
      · intro k hk
        exact h2 k (hk C hC)

/-! ### The hypotheses can be met -/

/-- The hypotheses of C03, C04 and of C06/C07 in the success case are met in the demo history. -/
example : Reachable Demo.s1 ∧ Demo.s1.addCollider Demo.weight = (Demo.s2, some Demo.h0) ∧ Reachable Demo.s2 ∧
    Demo.s2.addEntity Demo.ball = (Demo.s3, some Demo.h1) := by
  refine ⟨⟨_, .snoc .id _ _ .nil Demo.exec1⟩, ?_, ⟨_, .snoc .id _ _ (.snoc .id _ _ .nil Demo.exec1) Demo.exec2⟩, ?_⟩
  · have h := Demo.exec2
    simp only [System.exec, Except.ok.injEq, Prod.mk.injEq, Out.collider.injEq] at h
    exact Prod.ext h.1 h.2
  · have h := Demo.exec3
    simp only [System.exec, Except.ok.injEq, Prod.mk.injEq, Out.entity.injEq] at h
    exact Prod.ext h.1 h.2

/-- A successful `update_entity` in the demo state. -/
example : ∃ s', Demo.s3.updateEntity .id Demo.h0 { Demo.ball with velocity := ⟨.fin 1, .fin 2, .fin 3⟩ } = .ok (s', true) := by
  have hE : Demo.s3.entities.get Demo.h0 = some Demo.ballE := by rw [Demo.s3_entities]; rfl
  obtain ⟨⟨s', b⟩, hu⟩ := System.updateEntity_total Demo.reachable3.inv .id Demo.h0
    { Demo.ball with velocity := ⟨.fin 1, .fin 2, .fin 3⟩ } (by
      intro k E n hk hn
      rw [Demo.s3_entities, Arena.get_eq_some] at hk
      have : E = Demo.ballE := by
        rcases k with ⟨i, g⟩
        match i with
        | 0 => simp at hk; exact hk.2.symm
        | 1 => simp at hk; exact hk.2.symm
        | 2 => simp at hk
        | 3 => simp at hk
        | n + 4 => simp at hk
      rw [this] at hn
      simp [Demo.ballE] at hn)
  have := (C06_update_entity hu).1.mpr ⟨by rw [Ne, getEntity_eq_none, hE]; simp, by
    simp [ValidEntity, Demo.ball]⟩
  exact ⟨s', by rw [hu, this]⟩

/-- A valid box, for `C04_box_corners_kept`. -/
example : ValidCollider (.box (BoxCollider.new : BoxCollider XReal)) := by
  simp [ValidCollider, BoxCollider.new, Vec3.zeros]
  norm_num

end Fluffy.Props
