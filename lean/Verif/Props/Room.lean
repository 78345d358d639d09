import Verif.Props.Lying
import Verif.Props.Through
import Verif.Props.Drowsy
import Verif.Props.Sinking
import Verif.Proofs.Apart

/-!
C98: planes are world boundaries (README.md: "intended to be used as world boundaries to keep things within some convex area").  A ball in a room of immovable
planes stays in the room, over any number of steps and in any company, if it has no moment of inertia and is not put to sleep while it touches a wall.
-/

set_option linter.unusedSectionVars false
set_option linter.unusedSimpArgs false

namespace Fluffy.Step
open InternalEntity
variable {α : Type} [Scalar α] {γ : Type} [ForceGenerator α γ]

/-- The record is of a contact of the two. -/
def Between2 (x : CollisionRecord α) (h k : Handle) : Prop := x.firstEntity = h ∧ x.secondEntity = k ∨ x.firstEntity = k ∧ x.secondEntity = h

/-- Whoever was left in contact with an entity was in a recorded contact with it. -/
theorem Phases.met {ord : IterOrder} {s s' : System α γ} {dt : α} (p : Phases ord s s' dt) :
    ∀ i ∈ p.final.infos, ∀ n ∈ i.neighbors, ∃ x ∈ s'.collisionRecords, Between2 x i.handle n := by
  have hr' : s'.collisionRecords = p.final.world.collisionRecords := by
    rw [(sleepLoop_frame p.selfless p.sleep).2]; split <;> rfl
  rw [hr']
  refine (iterate_induct (P := fun st => LoopInv s.toWorld s.entities.handles st ∧
    ∀ i ∈ st.infos, ∀ n ∈ i.neighbors, ∃ x ∈ st.world.collisionRecords, Between2 x i.handle n) ?_ ⟨p.inv0, ?_⟩ p.iterate).2
  · rintro st best w st1 ⟨inv, hm⟩ h1 h2 h3
    have b := loopInv_body (dt := dt) (Arena.handles_nodup _) inv h1 h2 h3
    have hnd : ((({ st with world := w } : LoopState α)).infos.map StepInfo.handle).Nodup := by
      show (st.infos.map StepInfo.handle).Nodup
      rw [inv.handles]; exact Arena.handles_nodup _
    obtain ⟨a, -, -, -⟩ := advance_spec hnd h3
    have hcr : st1.world.collisionRecords = st.world.collisionRecords := by
      rw [a]; simp only []; rw [(wakeColliding_evolves h2).1]
    have hi : st1.infos = st.infos.map (shrink (percentOf best)) := by rw [a]
    have m1 : ∀ i ∈ st1.infos, ∀ n ∈ i.neighbors, ∃ x ∈ st1.world.collisionRecords, Between2 x i.handle n := by
      intro i hm' n hn
      rw [hi] at hm'
      obtain ⟨j, hj, rfl⟩ := List.mem_map.mp hm'
      rw [hcr]
      exact hm j hj n hn
    refine ⟨fun _ => ⟨b.1, m1⟩, fun k st2 hb h4 => ⟨b.2 k st2 hb h4, ?_⟩⟩
    subst hb
    obtain ⟨⟨j1, j2, e1, e2, e3, e4⟩, -⟩ := contact_infos (by rw [inv.handles]; exact Arena.handles_nodup _) h1 h3
    obtain ⟨first, second, i1, i2, -, -, -, g1, g2, h5⟩ := respond_spec h4
    obtain rfl : i1 = j1 := Option.some.inj (g1.symm.trans e1)
    obtain rfl : i2 = j2 := Option.some.inj (g2.symm.trans e2)
    obtain ⟨n1, n2⟩ := respondPair_neighbors k (st1.currentPercent * dt) st1.timeLeft first second i1 i2
    obtain ⟨q1, q2⟩ := respondPair_handles k (st1.currentPercent * dt) st1.timeLeft first second i1 i2
    have old : ∀ x ∈ st1.world.collisionRecords, x ∈ st2.world.collisionRecords := by intro x hx; rw [h5]; simp [hx]
    have new : (respondPair k (st1.currentPercent * dt) st1.timeLeft first second i1 i2).record ∈ st2.world.collisionRecords := by rw [h5]; simp
    intro i hi n hn
    rw [h5] at hi
    rcases mem_set2 hi with rfl | rfl | hi
    · rw [q1]
      rcases n1 n hn with hn | rfl
      · obtain ⟨x, hx, hb⟩ := m1 i1 (List.mem_of_getElem? g1) n hn
        exact ⟨x, old x hx, hb⟩
      · exact ⟨_, new, Or.inl ⟨e3.symm, rfl⟩⟩
    · rw [q2]
      rcases n2 n hn with hn | rfl
      · obtain ⟨x, hx, hb⟩ := m1 i2 (List.mem_of_getElem? g2) n hn
        exact ⟨x, old x hx, hb⟩
      · exact ⟨_, new, Or.inr ⟨rfl, e4.symm⟩⟩
    · obtain ⟨x, hx, hb⟩ := m1 i hi n hn
      exact ⟨x, old x hx, hb⟩
  · intro i hi n hn
    obtain ⟨e, -, h⟩ := (integrateAll_spec (Arena.handles_nodup _) p.integrate).2.2.2.2.2 i hi
    rw [h] at hn
    exact absurd hn (by simp)

/-- Where the neighbours come from: `n` becomes a neighbour of `k` in a step only if one of the two is put to sleep in it and they touched. -/
theorem Phases.links {ord : IterOrder} {s s' : System α γ} {dt : α} (p : Phases ord s s' dt) {k : Handle} {X Y : InternalEntity α}
    (hX : p.final.world.entities.get k = some X) (hY : s'.entities.get k = some Y) {n : Handle} (hn : n ∈ Y.neighbors) :
    n ∈ X.neighbors ∨ (∃ x ∈ s'.collisionRecords, Between2 x k n) ∧ (DebugMsg.puttingToSleep k ∈ s'.debug ∨ DebugMsg.puttingToSleep n ∈ s'.debug) := by
  have hent : (if p.concluded then p.final.world else { p.final.world with debug := p.final.world.debug ++ [.ranOut] }).entities =
      p.final.world.entities := by split <;> rfl
  have hnd : (p.final.infos.map StepInfo.handle).Nodup := by rw [p.inv.handles]; exact Arena.handles_nodup _
  obtain ⟨d, hd, -, hend⟩ := p.ending
  rcases (sleepLoop_links hnd p.selfless p.sleep k X Y (by rw [hent]; exact hX) hY).2.2 n hn with h | ⟨a1, a2, i, hi, rfl, hin⟩ | ⟨i, hi, rfl, hin, e, e', g, g', a1, a2⟩
  · exact Or.inl h
  · refine Or.inr ⟨p.met i hi n hin, Or.inl ?_⟩
    rw [hd, List.mem_append]
    exact Or.inr ((hend _ _ _ hX hY).1.mpr ⟨a1, a2⟩)
  · rw [hent] at g
    obtain ⟨x, hx, hb⟩ := p.met i hi k hin
    refine Or.inr ⟨⟨x, hx, hb.symm⟩, Or.inr ?_⟩
    rw [hd, List.mem_append]
    exact Or.inr ((hend _ _ _ g g').1.mpr ⟨a1, a2⟩)

end Fluffy.Step

namespace Fluffy.Props
open InternalEntity Step XReal

variable {γ : Type} [ForceGenerator XReal γ] {bh fh ch ch' : Handle} {sc : SphereCollider XReal} {pl : PlaneCollider XReal} {r : ℝ} {P n : Vec3 ℝ}

/-- The body's mass is all its own: its colliders have neither mass nor moment of inertia. -/
def PointMass (s : System XReal γ) (e : Entity XReal) : Prop := ∀ c ∈ linked s e, c.mass = fin 0 ∧ c.momentOfInertia = Mat3.o.f

/-- Contacts and forces cannot make the body spin: it is a point mass, or forces act at its position, it has just a sphere without friction, and everything else
consists of planes. -/
def CannotSpin (G : γ → Prop) (s : System XReal γ) (bh ch : Handle) (e : Entity XReal) : Prop :=
  PointMass s e ∨ Central G ∧ ∀ sc, s.getCollider ch = some (.sphere sc) → Slippery s bh ch e sc

theorem Slippery.step {s s' : System XReal γ} {ord : IterOrder} {dt : XReal} (hh : s.step ord dt = .ok s') {B B' : InternalEntity XReal} (rel : StaticRel B B')
    (h : Slippery s bh ch B.makePub sc) : Slippery s' bh ch B'.makePub sc := by
  have fr := (step_frame hh).1
  have e1 : B'.colliders = B.colliders := (staticRel_iff.mp rel).2.2.2.2
  have e2 : B'.totalMass = B.totalMass := (staticRel_iff.mp rel).2.2.1
  refine ⟨?_, ?_, h.static, h.dynamic, ?_⟩
  · show B'.colliders = _
    rw [e1]; exact h.sole
  · show B'.totalMass ≠ _
    rw [e2]; exact h.mass
  · intro k e he hk j hj
    obtain ⟨E', g', rfl⟩ := getEntity_iff.mp he
    obtain ⟨E, g, hs⟩ := fr.entities.get' g'
    obtain ⟨pl, hpl⟩ := h.planes k E.makePub (getEntity_iff.mpr ⟨E, g, rfl⟩) hk j (by
      show j ∈ E.colliders
      rw [← (staticRel_iff.mp hs).2.2.2.2]; exact hj)
    exact ⟨pl, by rw [getCollider_eq, show s'.colliders = s.colliders from fr.colliders, ← getCollider_eq]; exact hpl⟩

set_option maxHeartbeats 1000000 in
/-- One step: what `C56_point_partial` and `C56_slippery_partial` say, and that their hypotheses hold again, unless one of the two falls asleep as they touch. -/
theorem over_next {G : γ → Prop} (tame : Tame G) {s s' : System XReal γ} (hf : FiniteHistory G s) {ord : IterOrder} {d : ℝ}
    (hd : 1 / 1000000 ≤ d) (hh : s.step ord (fin d) = .ok s') (hrec : ∀ x ∈ s'.collisionRecords, SoundContact s' x) {ball floor : Entity XReal} {x : Vec3 ℝ}
    (hB : BallOverFloor s bh fh ch ch' ball floor sc pl r x P n) (spinless : ball.angularVelocity = (Vec3.o).f) (hpoint : CannotSpin G s bh ch ball)
    (hsleep : ∀ x ∈ s'.collisionRecords, Between2 x bh fh → DebugMsg.puttingToSleep bh ∉ s'.debug ∧ DebugMsg.puttingToSleep fh ∉ s'.debug) :
    ∃ ball' floor' x', BallOverFloor s' bh fh ch ch' ball' floor' sc pl r x' P n ∧ ball'.angularVelocity = (Vec3.o).f ∧ CannotSpin G s' bh ch ball' ∧
      min (clearance x P n r) (-eps) - eps * d ≤ clearance x' P n r := by
  obtain ⟨B0, F0, o, q, c, rfl, rfl, fw, hg, hS, ho, hou, hcen, hq, hx, nb1, nb2⟩ :=
    floor_setting (A := True) tame hf hB (fun _ => hpoint.imp (point_moment tame hf hB.isBall) (fun h => h.2 _ hB.sphere)) (fun h => (h trivial).elim)
  obtain ⟨p⟩ := step_phases (proper_fin hd) hh
  obtain ⟨X, F, o', v, a, gX, gF, hX, hou', hcen', -, hXa, hF, hFv, hFa, n1, n2, hsp, hcl⟩ :=
    hover_final (A := True) tame hd hh hf.colliders fw hg (fun x hx => Or.inl (hrec x hx)) (fun h => (h trivial).elim) hS (fun h => (h trivial).elim)
      (hpoint.imp (point_moment tame hf hB.isBall) And.left)
      ho hou hcen hq spinless hB.still.1 hB.still.2 nb1 nb2 p
  have ha : a = .o := hsp.resolve_right (fun h => h.1 trivial)
  subst ha
  have fr := (step_frame hh).1
  obtain ⟨B', gB', sB⟩ := fr.entities.get hS.get1
  obtain ⟨F', gF', sF⟩ := fr.entities.get hS.get2
  obtain ⟨_, -, -, hend⟩ := p.ending
  have cB := (hend bh X B' gX gB').2
  have cF := (hend fh F F' gF gF').2
  have colB : B'.colliders = B0.colliders := (staticRel_iff.mp sB).2.2.2.2
  have colF : F'.colliders = F0.colliders := (staticRel_iff.mp sF).2.2.2.2
  have hcol : s'.colliders = s.colliders := fr.colliders
  have poseB : B'.orientation = o'.f := (settled_pose cB).trans hX
  have poseF : F'.orientation = q.f := (settled_pose cF).trans hF
  have spinB : B'.angularVelocity = (Vec3.o).f := by
    rw [cB]; show (settle s.toWorld (fin d) X).angularVelocity = _
    unfold settle; split
    · exact Vec3.f_zeros
    · split <;> exact hXa
  have link : ∀ (E E' : InternalEntity XReal), E'.colliders = E.colliders → linked s' E'.makePub = linked s E.makePub := by
    intro E E' hE
    rw [linked_eq, linked_eq, hcol, hE]
  have hgc : ∀ k, s'.getCollider k = s.getCollider k := by intro k; rw [getCollider_eq, getCollider_eq, hcol]
  refine ⟨B'.makePub, F'.makePub, o'.position, ⟨hB.different, getEntity_iff.mpr ⟨B', gB', rfl⟩, getEntity_iff.mpr ⟨F', gF', rfl⟩, ?_, ?_, by rw [hgc]; exact hB.sphere,
    by rw [hgc]; exact hB.plane, hB.radius, hB.nonneg, ?_, ?_, hB.normal, hB.unit, ?_, ?_, settled_still cF hFv hFa, ?_⟩, spinB, ?_, ?_⟩
  · show ch ∈ B'.colliders
    rw [colB]; exact hB.hasSphere
  · show ch' ∈ F'.colliders
    rw [colF]; exact hB.hasPlane
  · show B'.orientation.position = _
    rw [poseB]; rfl
  · show B'.orientation.positionIntoWorld sc.center = B'.orientation.position
    rw [poseB, hS.center, Orientation.f_positionIntoWorld o' c hou', toWorld_center hcen']
    rfl
  · show F'.orientation.positionIntoWorld pl.position = _
    rw [poseF]; exact hS.place
  · rw [link F0 F' colF]; exact hB.immovable
  · intro B F hB' hF'
    rw [gB'] at hB'; cases hB'
    rw [gF'] at hF'; cases hF'
    constructor
    · intro h
      rcases p.links gX gB' h with h | ⟨⟨y, hy, hb⟩, h⟩
      · exact n1 h
      · obtain ⟨z1, z2⟩ := hsleep y hy hb
        exact h.elim z1 z2
    · intro h
      rcases p.links gF gF' h with h | ⟨⟨y, hy, hb⟩, h⟩
      · exact n2 h
      · obtain ⟨z1, z2⟩ := hsleep y hy hb.symm
        exact h.elim z2 z1
  · rcases hpoint with hpoint | ⟨hc, hpoint⟩
    · left
      unfold PointMass
      rw [link B0 B' colB]; exact hpoint
    · exact Or.inr ⟨hc, fun sc hsc => (hpoint sc (by rw [← hgc]; exact hsc)).step hh sB⟩
  · rw [hx] at hcl; exact hcl

/-! ### The room -/

/-- A wall: the entity and its plane collider, a point of the plane and the unit normal, which points into the room. -/
structure Wall where
  entity : Handle
  collider : Handle
  place : Vec3 ℝ
  normal : Vec3 ℝ

/-- Entity `bh` is a body without spin that cannot be made to spin, with a sphere collider of radius `r` around its position, and the `walls` are immovable planes at rest that do not
remember it as a neighbour, nor it them (that is so if they are awake: `strangers_awake`). -/
def InRoom (G : γ → Prop) (s : System XReal γ) (bh ch : Handle) (r : ℝ) (walls : List Wall) : Prop :=
  ∃ ball, s.getEntity bh = some ball ∧ ball.angularVelocity = (Vec3.o).f ∧ CannotSpin G s bh ch ball ∧
    ∀ W ∈ walls, ∃ (floor : Entity XReal) (sc : SphereCollider XReal) (pl : PlaneCollider XReal) (x : Vec3 ℝ),
      BallOverFloor s bh W.entity ch W.collider ball floor sc pl r x W.place W.normal

/-- The ball of radius `r` around the position of the entity is inside the half-spaces of all walls, up to `slack`. -/
def Inside (s : System XReal γ) (bh : Handle) (r : ℝ) (walls : List Wall) (slack : ℝ) : Prop :=
  ∀ (ball : Entity XReal) (x : Vec3 ℝ), s.getEntity bh = some ball → ball.position = x.f → ∀ W ∈ walls, r - slack ≤ (x - W.place).dot W.normal

/-- A run of steps of the lengths `ds`, with sound contacts (as for C37), in which neither the ball nor a wall is put to sleep in a step in which they touch. -/
inductive Lively (bh : Handle) (walls : List Wall) : System XReal γ → List ℝ → System XReal γ → Prop
  | nil {s : System XReal γ} : Lively bh walls s [] s
  | cons {s m s' : System XReal γ} {d : ℝ} {ds : List ℝ} (ord : IterOrder) : 1 / 1000000 ≤ d → s.step ord (fin d) = .ok m →
      (∀ x ∈ m.collisionRecords, SoundContact m x) →
      (∀ W ∈ walls, ∀ x ∈ m.collisionRecords, Between2 x bh W.entity → DebugMsg.puttingToSleep bh ∉ m.debug ∧ DebugMsg.puttingToSleep W.entity ∉ m.debug) →
      Lively bh walls m ds s' → Lively bh walls s (d :: ds) s'

/-- **C98 (partial).** A ball in a room stays in it: after any number of steps in any company it is outside by at most what it was before (or EPSILON), plus
EPSILON times the time that has passed.  The room may have any number of walls.
Missing: balls that spin or can be made to (`C98_false`), and those that are put to sleep as they touch a wall (`C73_false`). -/
theorem C98_room_partial {G : γ → Prop} (tame : Tame G) {walls : List Wall} (hne : walls ≠ []) {slack : ℝ} (hs : eps ≤ slack) {ds : List ℝ} {s s' : System XReal γ}
    (hf : FiniteHistory G s) (hroom : InRoom G s bh ch r walls) (hin : Inside s bh r walls slack) (run : Lively bh walls s ds s') :
    InRoom G s' bh ch r walls ∧ Inside s' bh r walls (slack + eps * ds.sum) := by
  induction run generalizing slack with
  | nil => exact ⟨hroom, by simpa using hin⟩
  | @cons s m s' d ds ord hd hh hrec hsl _ ih =>
    obtain ⟨ball, hb, hspin, hpt, hw⟩ := hroom
    have hd0 : 0 ≤ d := le_trans (by norm_num) hd
    have hf' : FiniteHistory G m := .call ord (.step (fin d)) .unit hf rfl (by simp only [System.exec, hh, Res.ok_bind]) (fun _ _ _ => hrec)
    obtain ⟨B0, gB, -⟩ := getEntity_iff.mp hb
    obtain ⟨B1, gB1, -⟩ := (step_frame hh).1.entities.get gB
    have gb1 : m.getEntity bh = some B1.makePub := getEntity_iff.mpr ⟨B1, gB1, rfl⟩
    obtain ⟨W0, hW0⟩ := List.exists_mem_of_ne_nil walls hne
    have next : ∀ W ∈ walls, ∃ (floor : Entity XReal) (sc : SphereCollider XReal) (pl : PlaneCollider XReal) (x y : Vec3 ℝ),
        ball.position = x.f ∧ BallOverFloor m bh W.entity ch W.collider B1.makePub floor sc pl r y W.place W.normal ∧
        B1.makePub.angularVelocity = (Vec3.o).f ∧ CannotSpin G m bh ch B1.makePub ∧
        min (clearance x W.place W.normal r) (-eps) - eps * d ≤ clearance y W.place W.normal r := by
      intro W hW
      obtain ⟨floor, sc, pl, x, hB⟩ := hw W hW
      obtain ⟨b', f', y, h1, h2, h3, h4⟩ := over_next tame hf hd hh hrec hB hspin hpt (hsl W hW)
      obtain rfl : B1.makePub = b' := Option.some.inj (gb1.symm.trans h1.isBall)
      exact ⟨f', sc, pl, x, y, hB.position, h1, h2, h3, h4⟩
    have he := eps_pos
    have hd' : 0 ≤ eps * d := mul_nonneg he.le hd0
    obtain ⟨-, -, -, -, -, -, -, hspin', hpt', -⟩ := next W0 hW0
    have res := ih (slack := slack + eps * d) (by linarith) hf'
      ⟨B1.makePub, gb1, hspin', hpt', fun W hW => (next W hW).elim fun f ⟨sc, pl, x, y, _, h, _⟩ => ⟨f, sc, pl, y, h⟩⟩ (by
        intro b y hb' hy W hW
        obtain rfl : B1.makePub = b := Option.some.inj (gb1.symm.trans hb')
        obtain ⟨f, sc, pl, x, z, hx, h, -, -, hcl⟩ := next W hW
        obtain rfl : z = y := (Vec3.f_inj _ _).mp (h.position.symm.trans hy)
        have := hin ball x hb hx W hW
        unfold clearance at hcl
        have : min ((x - W.place).dot W.normal - r) (-eps) ≥ -slack := le_min (by linarith) (by linarith)
        linarith)
    refine ⟨res.1, ?_⟩
    have e : slack + eps * (d :: ds).sum = slack + eps * d + eps * ds.sum := by rw [List.sum_cons]; ring
    rw [e]; exact res.2

/-! ### One ball and walls: nothing has to be known about the contacts -/

/-- A contact of a sphere with a plane is at a finite place and has a finite normal. -/
theorem spherePlane_sound {sc : SphereCollider XReal} {pl : PlaneCollider XReal} (h1 : FiniteNumbers (.sphere sc)) (h2 : FiniteNumbers (.plane pl))
    {o1 e1 o2 e2 : Orientation XReal} (r1 : Orientation.Rigid o1) (r2 : Orientation.Rigid e1) {c : Collision XReal}
    (h : dispatchSpherePlane sc o1 e1 pl o2 e2 = some c) : Finite3 c.position ∧ Finite3 c.normal := by
  obtain ⟨x, hx⟩ := h1.1.f
  obtain ⟨ρ, hρ⟩ := isFinite_iff.mp h1.2.1
  obtain ⟨n, hn⟩ := h2.2.1.f
  obtain ⟨p, rfl, hp⟩ := r1
  obtain ⟨q, rfl, hq⟩ := r2
  have ht := in_spherePlane _ h
  obtain ⟨t, ht⟩ : ∃ t : ℝ, c.times.min = fin t := by
    obtain ⟨-, z1, z2, z3⟩ := ht
    cases hm : c.times.min with
    | fin t => exact ⟨t, rfl⟩
    | nan => rw [hm] at z1; cases z1
    | negInf => rw [hm] at z1; cases z1
    | posInf =>
      rw [hm] at z2
      cases hM : c.times.max with
      | posInf => rw [hM] at z3; cases z3
      | nan => rw [hM] at z2; cases z2
      | negInf => rw [hM] at z2; cases z2
      | fin t => rw [hM] at z2; cases z2
  unfold dispatchSpherePlane collideSpherePlane at h
  simp only at h
  split at h
  · simp only [Option.some.injEq] at h
    subst h
    simp only at ht
    rw [hx, hρ, hn, Orientation.f_positionIntoWorld _ _ hp, Orientation.f_positionIntoWorld _ _ hq]
    simp only [hx, hρ, hn, Orientation.f_positionIntoWorld _ _ hp, Orientation.f_positionIntoWorld _ _ hq] at ht
    rw [ht]
    simp only [Vec3.f_sub, Vec3.f_add, Vec3.f_scale, fin_neg, Vec3.f_neg]
    exact ⟨finite3_f _, finite3_f _⟩
  · cases h

/-- Entity `bh` has only spheres as colliders and a finite mass that is not zero; all other entities have only planes and are immovable. -/
def OneBall (s : System XReal γ) (bh : Handle) : Prop :=
  ∀ h e, s.getEntity h = some e →
    (h = bh → (∀ c ∈ e.colliders, ∃ sc, s.getCollider c = some (.sphere sc)) ∧ e.lastTotalMass ≠ fin 0 ∧ e.lastTotalMass ≠ posInf) ∧
    (h ≠ bh → (∀ c ∈ e.colliders, ∃ pl, s.getCollider c = some (.plane pl)) ∧ e.lastTotalMass = posInf)

theorem OneBall.step {s s' : System XReal γ} {ord : IterOrder} {dt : XReal} (h : OneBall s bh) (hh : s.step ord dt = .ok s') : OneBall s' bh := by
  have fr := (step_frame hh).1
  have hgc : ∀ k, s'.getCollider k = s.getCollider k := by
    intro k; rw [getCollider_eq, getCollider_eq, show s'.colliders = s.colliders from fr.colliders]
  intro k e he
  obtain ⟨E', g', rfl⟩ := getEntity_iff.mp he
  obtain ⟨E, g, hs⟩ := fr.entities.get' g'
  have := h k E.makePub (getEntity_iff.mpr ⟨E, g, rfl⟩)
  have e1 : E'.colliders = E.colliders := (staticRel_iff.mp hs).2.2.2.2
  have e2 : E'.totalMass = E.totalMass := (staticRel_iff.mp hs).2.2.1
  simp only [hgc]
  show (k = bh → (∀ c ∈ E'.colliders, _) ∧ E'.totalMass ≠ _ ∧ E'.totalMass ≠ _) ∧ (k ≠ bh → (∀ c ∈ E'.colliders, _) ∧ E'.totalMass = _)
  rw [e1, e2]
  exact this

/-- All contacts in a room with one ball are sound. -/
theorem OneBall.sound {G : γ → Prop} (tame : Tame G) {s s' : System XReal γ} (hf : FiniteHistory G s) {ord : IterOrder} {d : ℝ} (hd : 1 / 1000000 ≤ d)
    (hh : s.step ord (fin d) = .ok s') (h1 : OneBall s bh) : ∀ x ∈ s'.collisionRecords, SoundContact s' x := by
  obtain ⟨fw, hg⟩ := hf.fine tame
  have hcol := hf.colliders
  obtain ⟨p⟩ := step_phases (proper_fin hd) hh
  have fr := (step_frame hh).1
  obtain ⟨a1, a2, a3⟩ := fine_all tame p.integrate fw hg
  have hmid : p.mid.toWorld.collisionRecords = [] := by
    rw [(integrateAll_spec (Arena.handles_nodup _) p.integrate).1]
  have hr' : s'.collisionRecords = p.final.world.collisionRecords := by
    rw [(sleepLoop_frame p.selfless p.sleep).2]; split <;> rfl
  have key : LoopInv s.toWorld s.entities.handles p.final ∧ FineLoop s.entities p.final ∧ ∀ x ∈ p.final.world.collisionRecords, SoundIn s.entities x := by
    refine iterate_induct (P := fun st => LoopInv s.toWorld s.entities.handles st ∧ FineLoop s.entities st ∧ ∀ x ∈ st.world.collisionRecords, SoundIn s.entities x) ?_
      ⟨p.inv0, fun _ => ⟨a1, a3, d, rfl⟩, by rw [hmid]; simp⟩ p.iterate
    rintro st best w st1 ⟨inv, hfl, hall⟩ h1' h2 h3
    have b := loopInv_body (dt := fin d) (Arena.handles_nodup _) inv h1' h2 h3
    obtain ⟨k1, k2⟩ := fine_body (dt := fin d) (Arena.handles_nodup _) hcol inv hfl h1' h2 h3
    have hcr : st1.world.collisionRecords = st.world.collisionRecords := by
      have hnd : ((({ st with world := w } : LoopState XReal)).infos.map StepInfo.handle).Nodup := by
        show (st.infos.map StepInfo.handle).Nodup
        rw [inv.handles]; exact Arena.handles_nodup _
      rw [(advance_spec hnd h3).1]; simp only []; rw [(wakeColliding_evolves h2).1]
    refine ⟨fun _ => ⟨b.1, k1, by rw [hcr]; exact hall⟩, fun k st2 hb h4 => ⟨b.2 k st2 hb h4, k2 k st2 hb h4, ?_⟩⟩
    subst hb
    obtain ⟨x1, x2, y1, y2, -, -, -, -, -, hst2⟩ := respond_spec h4
    intro x hx
    rw [hst2] at hx
    simp only [List.mem_append, List.mem_singleton] at hx
    rcases hx with hx | rfl
    · exact hall x (by rw [← hcr]; exact hx)
    obtain ⟨fw', fi, -⟩ := hfl hall
    obtain ⟨n, m, i1, i2, -, g1, g2, E1, E2, ge1, ge2, hne, -, -, ch1, hc1, ch2, hc2, C1, C2, C, gc1, gc2, hcoll, -, rfl⟩ := searchFirst_contact h1'
    obtain ⟨D1, gd1, s1⟩ := inv.frame.entities.get' ge1
    obtain ⟨D2, gd2, s2⟩ := inv.frame.entities.get' ge2
    have w1 := h1 _ D1.makePub (getEntity_iff.mpr ⟨D1, gd1, rfl⟩)
    have w2 := h1 _ D2.makePub (getEntity_iff.mpr ⟨D2, gd2, rfl⟩)
    have cl : st.world.colliders = s.colliders := inv.frame.colliders
    rw [cl] at gc1 gc2
    have c1 : E1.colliders = D1.colliders := (staticRel_iff.mp s1).2.2.2.2
    have c2 : E2.colliders = D2.colliders := (staticRel_iff.mp s2).2.2.2.2
    rw [c1] at hc1; rw [c2] at hc2
    have inf0 : (posInf : XReal) ≠ fin 0 := by intro h; cases h
    have moved : ∀ (i : StepInfo XReal) (E : InternalEntity XReal), i ∈ st.infos → Fine E →
        Orientation.Rigid (E.orientation.afterAffected i.linearMovement i.angularMovement) := by
      intro i E hi hE
      obtain ⟨o, ho, hu⟩ := hE.pose
      obtain ⟨l, hl⟩ := (fi i hi).1
      obtain ⟨a, ha⟩ := (fi i hi).2
      rw [ho, hl, ha, Orientation.f_afterAffected]
      exact ⟨_, rfl, Orientation.after_unit _ hu _ _⟩
    have m1 := moved i1 E1 (List.mem_of_getElem? g1) (fw' _ _ ge1)
    have m2 := moved i2 E2 (List.mem_of_getElem? g2) (fw' _ _ ge2)
    have q1 := (fw' _ _ ge1).pose
    have q2 := (fw' _ _ ge2).pose
    show Finite3 C.position ∧ Finite3 C.normal ∧ ∀ E F, s.entities.get i1.handle = some E → s.entities.get i2.handle = some F → _
    rw [← and_assoc]
    by_cases e1 : i1.handle = bh
    · have e2 : i2.handle ≠ bh := fun h => hne (e1.trans h.symm)
      obtain ⟨sc, hsc⟩ := (w1.1 e1).1 ch1 hc1
      obtain ⟨pl, hpl⟩ := (w2.2 e2).1 ch2 hc2
      rw [getCollider_eq, gc1] at hsc; cases hsc
      rw [getCollider_eq, gc2] at hpl; cases hpl
      refine ⟨spherePlane_sound (hcol _ _ gc1) (hcol _ _ gc2) q1 m1 (Except.ok.inj hcoll), fun E F hE hF => ?_⟩
      rw [gd1] at hE; cases hE
      rw [gd2] at hF; cases hF
      have z : D2.totalMass = posInf := (w2.2 e2).2
      exact ⟨(w1.1 e1).2.1, by rw [z]; exact inf0, Or.inl (w1.1 e1).2.2⟩
    · obtain ⟨pl, hpl⟩ := (w1.2 e1).1 ch1 hc1
      rw [getCollider_eq, gc1] at hpl; cases hpl
      by_cases e2 : i2.handle = bh
      · obtain ⟨sc, hsc⟩ := (w2.1 e2).1 ch2 hc2
        rw [getCollider_eq, gc2] at hsc; cases hsc
        have hcoll' := Except.ok.inj hcoll
        simp only [Option.map_eq_some_iff] at hcoll'
        obtain ⟨C', hC', rfl⟩ := hcoll'
        obtain ⟨f1, f2⟩ := spherePlane_sound (hcol _ _ gc2) (hcol _ _ gc1) q2 m2 hC'
        refine ⟨⟨f1, ?_⟩, fun E F hE hF => ?_⟩
        · obtain ⟨n, hn⟩ := f2.f
          unfold Collision.flip
          simp only []
          rw [hn, show (lit (-1) 1 : XReal) = fin (-1) by simp, Vec3.f_scale]
          exact finite3_f _
        rw [gd1] at hE; cases hE
        rw [gd2] at hF; cases hF
        have z : D1.totalMass = posInf := (w1.2 e1).2
        exact ⟨by rw [z]; exact inf0, (w2.1 e2).2.1, Or.inr (w2.1 e2).2.2⟩
      · obtain ⟨pl, hpl⟩ := (w2.2 e2).1 ch2 hc2
        rw [getCollider_eq, gc2] at hpl; cases hpl
        exact absurd (Except.ok.inj hcoll) (by simp)
  intro x hx
  rw [hr'] at hx
  obtain ⟨z1, z2, z3⟩ := key.2.2 x hx
  refine ⟨z1, z2, fun a b ha hb => ?_⟩
  obtain ⟨A', gA, rfl⟩ := getEntity_iff.mp ha
  obtain ⟨B', gB, rfl⟩ := getEntity_iff.mp hb
  obtain ⟨A0, gA0, sA⟩ := fr.entities.get' gA
  obtain ⟨B0, gB0, sB⟩ := fr.entities.get' gB
  have e1 : A'.totalMass = A0.totalMass := (staticRel_iff.mp sA).2.2.1
  have e2 : B'.totalMass = B0.totalMass := (staticRel_iff.mp sB).2.2.1
  show A'.totalMass ≠ _ ∧ B'.totalMass ≠ _ ∧ (A'.totalMass ≠ _ ∨ B'.totalMass ≠ _)
  rw [e1, e2]
  exact z3 _ _ gA0 gB0

/-- The sleep clocks show finite times. -/
theorem clocks_finite {G : γ → Prop} {s : System XReal γ} (hf : FiniteHistory G s) {h : Handle} {E : InternalEntity XReal} (hE : s.entities.get h = some E) :
    ∃ t : ℝ, E.fallingAsleepTime = fin t := by
  obtain ⟨tr, hp, hfin⟩ : ∃ tr, Past tr s ∧ ∀ dt m, (Op.step dt, m) ∈ tr → Scalar.isFinite dt = true := by
    clear hE
    induction hf with
    | new => exact ⟨[], .nil, by simp⟩
    | @call s s' ord op out _ hop hx _ ih =>
      obtain ⟨tr, hp, hfin⟩ := ih
      refine ⟨_, .snoc ord op out hp hx, fun dt m hm => ?_⟩
      rcases List.mem_cons.mp hm with h | h
      · simp only [Prod.mk.injEq] at h
        obtain ⟨rfl, -⟩ := h
        exact hop
      · exact hfin dt m h
  rw [(past_dozes hp hE).2]
  have hrun : ∀ dt ∈ lowRun h tr, Scalar.isFinite dt = true := by
    clear hp
    induction tr with
    | nil => simp [lowRun]
    | cons a tr ih =>
      have ih' := ih (fun dt m hm => hfin dt m (by simp [hm]))
      obtain ⟨op, m⟩ := a
      cases op with
      | step dt =>
        have h0 := hfin dt m (by simp)
        intro x hx
        unfold lowRun at hx
        split at hx
        · exact ih' x hx
        · split at hx
          · cases hx
          · split at hx
            · exact ih' x hx
            · split at hx
              · cases hx
              · rcases List.mem_cons.mp hx with rfl | hx
                · exact h0
                · exact ih' x hx
      | _ => exact ih'
  unfold lowTime
  have hrun' : ∀ dt ∈ (lowRun h tr).dropLast, Scalar.isFinite dt = true := fun dt hd => hrun dt (List.dropLast_subset _ hd)
  revert hrun'
  generalize (lowRun h tr).dropLast = l
  intro hl
  induction l with
  | nil => exact ⟨0, by simp⟩
  | cons a l ih =>
    obtain ⟨t, ht⟩ := ih (fun dt hd => hl dt (by simp [hd]))
    obtain ⟨u, hu⟩ := isFinite_iff.mp (hl a (by simp))
    exact ⟨t + u, by rw [List.foldr_cons, ht, hu, fin_add]⟩

/-- With an infinite sleep time nobody is ever put to sleep. -/
theorem sleepless {G : γ → Prop} {s s' : System XReal γ} (hf' : FiniteHistory G s') {ord : IterOrder} {dt : XReal} (hdt : Proper dt)
    (hh : s.step ord dt = .ok s') (ht : s.sleepTimeThreshold = posInf) {h : Handle} {E : InternalEntity XReal} (hE : s.entities.get h = some E) :
    DebugMsg.puttingToSleep h ∉ s'.debug := by
  intro hm
  obtain ⟨E', hE', -⟩ := (step_frame hh).1.entities.get hE
  obtain ⟨p⟩ := step_phases hdt hh
  obtain ⟨hmsg, x, hx, -⟩ := p.watch hE
  obtain ⟨d, hd, -, hend⟩ := p.ending
  have hput := (hend h x E' hx hE').1
  have fell : x.asleep = false ∧ E'.asleep = true := by
    rw [← hput]
    rw [hd, List.mem_append, List.mem_append] at hm
    rcases hm with (h | h) | h
    · exact absurd (hmsg _ h) id
    · split at h <;> simp at h
    · exact h
  have ht' : s'.sleepTimeThreshold = posInf := by rw [← ht]; exact (step_frame hh).1.time
  rcases step_dozes hdt hh hE hE' with ⟨a, -⟩ | ⟨-, -, a, -⟩ | ⟨-, -, -, -, a⟩
  · exact a.2 hm
  · rw [a] at fell; cases fell.2
  · obtain ⟨t, hc⟩ := clocks_finite hf' hE'
    rw [ht', hc] at a
    rw [a] at fell
    cases fell.2

/-- **C98 (partial), one ball.** In a room with one ball, with sleeping turned off (`sleep_time_threshold = f32::INFINITY`) and with forces of any kind that is
tame (gravity is), nothing has to be known about the contacts: whatever the lengths of the steps, the ball stays in the room up to EPSILON times the time passed.
Missing: balls that spin or can be made to (`C98_false`). -/
theorem C98_ball_partial {G : γ → Prop} (tame : Tame G) {walls : List Wall} (hne : walls ≠ []) {slack : ℝ} (hs : eps ≤ slack) {ds : List ℝ} {s s' : System XReal γ}
    (hf : FiniteHistory G s) (hone : OneBall s bh) (hroom : InRoom G s bh ch r walls) (hin : Inside s bh r walls slack) (ht : s.sleepTimeThreshold = posInf)
    (hds : ∀ d ∈ ds, 1 / 1000000 ≤ d) (run : Stepped s ds s') :
    InRoom G s' bh ch r walls ∧ Inside s' bh r walls (slack + eps * ds.sum) := by
  refine C98_room_partial tame hne hs hf hroom hin ?_
  have hlive : ∀ k, k = bh ∨ k ∈ walls.map Wall.entity → ∃ E, s.entities.get k = some E := by
    obtain ⟨ball, hb, -, -, hw⟩ := hroom
    rintro k (rfl | hk)
    · obtain ⟨E, hE, -⟩ := getEntity_iff.mp hb
      exact ⟨E, hE⟩
    · obtain ⟨W, hW, rfl⟩ := List.mem_map.mp hk
      obtain ⟨f, _, _, _, h⟩ := hw W hW
      obtain ⟨E, hE, -⟩ := getEntity_iff.mp h.isFloor
      exact ⟨E, hE⟩
  clear hroom hin hne hs
  induction run with
  | nil => exact .nil
  | @cons ord s m s' d ds first _ ih =>
    have hd := hds d (by simp)
    have hrec := hone.sound tame hf hd first
    have hf' : FiniteHistory G m := .call ord (.step (fin d)) .unit hf rfl (by simp only [System.exec, first, Res.ok_bind]) (fun _ _ _ => hrec)
    refine .cons ord hd first hrec (fun W hW x _ _ => ?_) (ih hf' (hone.step first) (by rw [← ht]; exact (step_frame first).1.time)
      (fun d hd => hds d (by simp [hd])) (fun k hk => ?_))
    · obtain ⟨E, hE⟩ := hlive bh (Or.inl rfl)
      obtain ⟨F, hF⟩ := hlive W.entity (Or.inr (List.mem_map.mpr ⟨W, hW, rfl⟩))
      exact ⟨sleepless hf' (proper_fin hd) first ht hE, sleepless hf' (proper_fin hd) first ht hF⟩
    · obtain ⟨E, hE⟩ := hlive k hk
      obtain ⟨E', hE', -⟩ := (step_frame first).1.entities.get hE
      exact ⟨E', hE'⟩

/-- **C98 is false** for balls that spin: whatever distance `D` one allows, there is a ball in a room with one wall, a finite distance from it, that one step of
length 1 takes farther than `D` behind the wall. -/
theorem C98_false (D : ℝ) : ∃ (s s' : System XReal (GravityGenerator XReal)) (W : Wall) (ball : Entity XReal) (sc : SphereCollider XReal) (floor : Entity XReal)
    (pl : PlaneCollider XReal) (x : Vec3 ℝ),
    FiniteHistory (fun g : GravityGenerator XReal => Finite3 g.acceleration) s ∧ BallOverFloor s Demo.h0 W.entity Demo.h0 W.collider ball floor sc pl 1 x W.place W.normal ∧
      Inside s Demo.h0 1 [W] 0 ∧ s.step .id (fin 1) = .ok s' ∧ ¬ Inside s' Demo.h0 1 [W] D := by
  obtain ⟨s, s', ball, floor, ball', sc, pl, x, x', h1', h2', -, h4, -, -, -, -, -, hx, hb, hx', hD⟩ := C56_false D
  refine ⟨s, s', ⟨Demo.h1, Demo.h1, .o, ⟨0, 1, 0⟩⟩, ball, sc, floor, pl, x, h1', h4, ?_, h2', ?_⟩
  · intro b y hb' hy W hW
    obtain rfl : ball = b := Option.some.inj (h4.isBall.symm.trans hb')
    obtain rfl : x = y := (Vec3.f_inj _ _).mp (h4.position.symm.trans hy)
    rw [List.mem_singleton] at hW
    subst hW
    unfold clearance at hx
    show 1 - 0 ≤ (x - Vec3.o).dot ⟨0, 1, 0⟩
    linarith
  · intro h
    have := h ball' x' hb hx' _ (List.mem_singleton_self _)
    unfold clearance at hD
    simp only [] at this
    linarith

/-! ### The hypotheses can be met -/

/-- Spheres and planes never make the step panic. -/
theorem OneBall.safe {s : System XReal γ} (h : OneBall s bh) : Step.PairsSafe s.toWorld := by
  have key : ∀ k E, s.entities.get k = some E →
      (k = bh → ∀ c ∈ E.colliders, ∃ sc, s.colliders.get c = some (.sphere sc)) ∧ (k ≠ bh → ∀ c ∈ E.colliders, ∃ pl, s.colliders.get c = some (.plane pl)) := by
    intro k E hE
    have := h k _ (getEntity_iff.mpr ⟨E, hE, rfl⟩)
    simp only [getCollider_eq] at this
    exact ⟨fun e => (this.1 e).1, fun e => (this.2 e).1⟩
  constructor
  · intro k E c hE hc
    by_cases hk : k = bh
    · obtain ⟨sc, h⟩ := (key k E hE).1 hk c hc; exact ⟨_, h⟩
    · obtain ⟨pl, h⟩ := (key k E hE).2 hk c hc; exact ⟨_, h⟩
  · intro k1 k2 E1 E2 c1 c2 C1 C2 hne g1 g2 hc1 hc2 hC1 hC2 o1 o2 o3 o4
    by_cases e1 : k1 = bh
    · obtain ⟨a, ha⟩ := (key _ _ g1).1 e1 _ hc1
      obtain ⟨b, hb⟩ := (key _ _ g2).2 (fun e2 => hne (e1.trans e2.symm)) _ hc2
      cases hC1.symm.trans ha
      cases hC2.symm.trans hb
      exact ⟨_, rfl⟩
    · obtain ⟨a, ha⟩ := (key _ _ g1).2 e1 _ hc1
      cases hC1.symm.trans ha
      by_cases e2 : k2 = bh
      · obtain ⟨b, hb⟩ := (key _ _ g2).1 e2 _ hc2
        cases hC2.symm.trans hb
        exact ⟨_, rfl⟩
      · obtain ⟨b, hb⟩ := (key _ _ g2).2 e2 _ hc2
        cases hC2.symm.trans hb
        exact ⟨_, rfl⟩

theorem OneBall.runs [SafeGenerator XReal γ] {s : System XReal γ} (h : OneBall s bh) (hn : Step.NeighborsLive s.entities) (ds : List ℝ) : ∃ s', Stepped s ds s' := by
  induction ds generalizing s with
  | nil => exact ⟨s, .nil s⟩
  | cons d ds ih =>
    obtain ⟨m, hm, hn'⟩ := Step.step_total (ord := .id) (fin d) hn h.safe
    obtain ⟨s', hs'⟩ := ih (h.step hm) hn'
    exact ⟨s', .cons .id hm hs'⟩

open Scene Demo in
/-- A ball of any mass, anywhere above a floor, with any velocity, for any number of steps of any lengths. -/
example (m : ℝ) (hm : 0 < m) (p v : Vec3 ℝ) (hp : 1 ≤ p.y) (a : ℝ) (n : Nat) (e : XReal) (ds : List ℝ) (hds : ∀ d ∈ ds, 1 / 1000000 ≤ d) :
    ∃ s', Stepped (γ := GravityGenerator XReal) (scene (spun (fin m) p v .o) (dot posInf .o .o [h1] up) (sphere a) ground n e posInf) ds s' ∧
      Inside s' h0 1 [⟨h1, h1, .o, ⟨0, 1, 0⟩⟩] (eps + eps * ds.sum) := by
  obtain ⟨S, hS⟩ : ∃ S : System XReal (GravityGenerator XReal), S = scene (spun (fin m) p v .o) (dot posInf .o .o [h1] up) (sphere a) ground n e posInf := ⟨_, rfl⟩
  have hB := ball_ground (γ := GravityGenerator XReal) (fin m) p v .o a n e posInf
  have hF := (ground_finite (γ := GravityGenerator XReal) hm.le p v .o (a := a) n e posInf (fun g => Finite3 g.acceleration)).1
  have g0 : S.colliders.get h0 = some ((sphere a).setEntity (some h0)) := by rw [hS]; rfl
  have g1 : S.colliders.get h1 = some (ground.setEntity (some h1)) := by rw [hS]; rfl
  rw [← hS] at hB hF ⊢
  have hlive : ∀ k E, S.entities.get k = some E → k = h0 ∧ E = spun (fin m) p v .o ∨ k = h1 ∧ E = dot posInf .o .o [h1] up := by
    intro k E hk
    have hk' : k ∈ S.entities.handles := Arena.mem_handles.mpr ⟨E, hk⟩
    rw [hS] at hk hk'
    simp only [scene, two_handles, List.mem_cons, List.not_mem_nil, or_false] at hk hk'
    rcases hk' with rfl | rfl
    · rw [two_get0] at hk; cases hk; exact Or.inl ⟨rfl, rfl⟩
    · rw [two_get1] at hk; cases hk; exact Or.inr ⟨rfl, rfl⟩
  have hone : OneBall S h0 := by
    intro k x hx
    obtain ⟨E, hE, rfl⟩ := getEntity_iff.mp hx
    rcases hlive k E hE with ⟨rfl, rfl⟩ | ⟨rfl, rfl⟩
    · refine ⟨fun _ => ⟨fun c hc => ?_, ?_, ?_⟩, fun h => absurd rfl h⟩
      · obtain rfl : c = h0 := by simpa [spun, dot, InternalEntity.makePub] using hc
        rw [getCollider_eq, g0]; exact ⟨_, rfl⟩
      · simpa [spun, dot, InternalEntity.makePub] using hm.ne'
      · simp [spun, dot, InternalEntity.makePub]
    · refine ⟨fun h => absurd h.symm h0_ne_h1, fun _ => ⟨fun c hc => ?_, rfl⟩⟩
      obtain rfl : c = h1 := by simpa [dot, InternalEntity.makePub] using hc
      rw [getCollider_eq, g1]; exact ⟨_, rfl⟩
  have hroom : InRoom (fun g : GravityGenerator XReal => Finite3 g.acceleration) S h0 h0 1 [⟨h1, h1, .o, ⟨0, 1, 0⟩⟩] := by
    refine ⟨_, hB.isBall, rfl, Or.inl ?_, fun W hW => ?_⟩
    · intro c hc
      rw [hS] at hc
      revert c
      exact point_ball (fin m) p v a n e posInf
    · obtain rfl := List.mem_singleton.mp hW
      exact ⟨_, _, _, _, hB⟩
  have hin : Inside S h0 1 [⟨h1, h1, .o, ⟨0, 1, 0⟩⟩] eps := by
    intro b y hb hy W hW
    obtain rfl := List.mem_singleton.mp hW
    obtain rfl := Option.some.inj (hB.isBall.symm.trans hb)
    obtain rfl : p = y := (Vec3.f_inj _ _).mp (hB.position.symm.trans hy)
    have := eps_pos
    show 1 - eps ≤ (p - Vec3.o).dot ⟨0, 1, 0⟩
    simp [Vec3.dot_def]
    linarith
  obtain ⟨s', hs'⟩ := hone.runs (fun k E n hk hn => by
    rcases hlive k E hk with ⟨-, rfl⟩ | ⟨-, rfl⟩ <;> exact absurd hn (by simp [spun, dot, up])) ds
  exact ⟨s', hs', (C98_ball_partial tame_gravity (by simp) le_rfl hF hone hroom hin (by rw [hS]; rfl) hds hs').2⟩

open Scene Demo in
/-- A smooth ball of radius 1 and mass `μ`. -/
noncomputable def glass (a μ : ℝ) : Collider XReal := .sphere ⟨none, (Vec3.o).f, fin 1, fin μ, ⟨fin a, fin (1 / 4), fin 0, fin 0⟩⟩

open Scene Demo in
/-- The body of the glass ball: it has a moment of inertia. -/
noncomputable def glassBody (m μ : ℝ) (p v : Vec3 ℝ) : InternalEntity XReal :=
  { dot (fin (m + μ)) p v [h0] up with ownMass := fin m, preppedMoment := (⟨⟨2 / 5 * μ, 0, 0⟩, ⟨0, 2 / 5 * μ, 0⟩, ⟨0, 0, 2 / 5 * μ⟩⟩ : Mat3 ℝ).f }

open Scene Demo in
/-- The sphere of the ball over the ground is exchanged for one with mass. -/
theorem glass_exec (m a μ : ℝ) (hμ : 0 < μ) (p v : Vec3 ℝ) (n : Nat) (e t : XReal) :
    (scene (γ := γ) (spun (fin m) p v .o) (dot posInf .o .o [h1] up) (sphere a) ground n e t).exec .id (.updateCollider h0 (glass a μ)) =
      .ok (scene (glassBody m μ p v) (dot posInf .o .o [h1] up) (glass a μ) ground n e t, .ok true) := by
  have hr : (spun (fin m) p v .o).recalculateMass [h0] (Scene.two ((glass a μ).setEntity (some h0)) (ground.setEntity (some h1))) = .ok (glassBody m μ p v) := by
    unfold InternalEntity.recalculateMass InternalEntity.massLoop
    rw [two_get0]
    have hm : ((glass a μ).setEntity (some h0)).mass = fin μ := rfl
    have hc : ((glass a μ).setEntity (some h0)).localCenterOfMass = (Vec3.o).f := rfl
    have hi : ((glass a μ).setEntity (some h0)).momentOfInertia = (⟨⟨2 / 5 * μ, 0, 0⟩, ⟨0, 2 / 5 * μ, 0⟩, ⟨0, 0, 2 / 5 * μ⟩⟩ : Mat3 ℝ).f := by
      simp only [glass, Collider.setEntity, Collider.momentOfInertia, lit, two_eq, fin_mul]
      have : (fin 2 / fin 5 : XReal) = fin (2 / 5) := fin_div (by norm_num)
      simp [this, Mat3.diagonal, Mat3.f, Vec3.f]
    have hp : (spun (fin m) p v .o).orientation = (pose p).f := rfl
    have hw : (pose p).toWorld .o = p := by simp [Orientation.toWorld, pose]; 
    have hrec : (spun (fin m) p v .o).recenter ⟨Vec3.zeros + (p.f).scale (fin μ), zero + fin μ, false⟩ = { dot (fin (m + μ)) p v [h0] up with ownMass := fin m } := by
      have hz : (Vec3.zeros + (p.f).scale (fin μ)).unscale (zero + fin μ) = p.f := by
        rw [Vec3.f_zeros, Vec3.f_scale, Vec3.f_add, zero_eq, fin_add, zero_add, Vec3.f_unscale _ hμ.ne']
        congr 1; ext <;> simp <;> field_simp
      unfold InternalEntity.recenter
      simp only [hz]
      simp only [zero_eq, fin_add, zero_add, hp, Orientation.f_position, Vec3.f_sub, fin_lt, hμ, decide_true, Bool.not_false, Bool.and_true, if_true]
      simp [pose, Orientation.f_directionIntoLocal, spun, dot, Vec3.f_sub, Vec3.f_add]
      rw [show p + (p - p) = p by ext <;> simp, show -(p - p) = Vec3.o by ext <;> simp]
      rfl
    simp only [unwrap, Res.ok_bind, hm, hc, InternalEntity.massLoop, isInfinite_fin, Bool.false_eq_true, if_false, hp,
      Orientation.f_positionIntoWorld _ _ (pose_unit p), hw, hrec]
    simp only [InternalEntity.momentLoop, two_get0, unwrap, Res.ok_bind, hm, hc, hi, Orientation.prepMomentOfInertia, translateMomentOfInertia, dot,
      Orientation.f_offset, Vec3.f_add, Vec3.f_dot, Mat3.f_diagonalElement, Mat3.f_outer, Mat3.f_sub, Mat3.f_scale,
      Mat3.f_add, Mat3.f_zeros, glassBody]
    congr 3
    ext <;> simp [Mat3.o, Mat3.scale, pose] <;> left <;> simp [Mat3.diag, Mat3.outer]
  simp only [System.exec, System.updateCollider, scene, two_get0, System.refreshEntity, IterOrder.id]
  have hu : ((sphere a).setEntity (some h0)).updateFrom (glass a μ) = .updated ((glass a μ).setEntity (some h0)) := by
    simp [sphere, glass, Collider.setEntity, Collider.updateFrom, SphereCollider.isValid, MINIMUM_RADIUS, hμ.le]
    norm_num
  have he : ((sphere a).setEntity (some h0)).entity = some h0 := rfl
  have hc : (spun (fin m) p v .o).colliders = [h0] := rfl
  simp only [hu, he, two_get0, two_set0, hc, hr, Res.ok_bind]

open Scene Demo in
/-- The same for a ball that has a moment of inertia but no friction. -/
example (m : ℝ) (hm : 0 ≤ m) (μ : ℝ) (hμ : 0 < μ) (p v : Vec3 ℝ) (hp : 1 ≤ p.y) (a : ℝ) (n : Nat) (e : XReal) (ds : List ℝ) (hds : ∀ d ∈ ds, 1 / 1000000 ≤ d) :
    ∃ s', Stepped (γ := GravityGenerator XReal) (scene (glassBody m μ p v) (dot posInf .o .o [h1] up) (glass a μ) ground n e posInf) ds s' ∧
      Inside s' h0 1 [⟨h1, h1, .o, ⟨0, 1, 0⟩⟩] (eps + eps * ds.sum) := by
  obtain ⟨S, hS⟩ : ∃ S : System XReal (GravityGenerator XReal), S = scene (glassBody m μ p v) (dot posInf .o .o [h1] up) (glass a μ) ground n e posInf := ⟨_, rfl⟩
  have hF : FiniteHistory (fun g : GravityGenerator XReal => Finite3 g.acceleration) S := by
    rw [hS]
    refine .call .id _ _ (ground_finite (γ := GravityGenerator XReal) hm p v .o (a := a) n e posInf _).1 ?_ (glass_exec m a μ hμ p v n e posInf) (fun dt h => by cases h)
    exact ⟨finite3_f _, rfl, rfl, rfl, rfl⟩
  have g0 : S.colliders.get h0 = some ((glass a μ).setEntity (some h0)) := by rw [hS]; rfl
  have g1 : S.colliders.get h1 = some (ground.setEntity (some h1)) := by rw [hS]; rfl
  have hG := ball_ground (γ := GravityGenerator XReal) (fin m) p v .o a n e posInf
  have hB : BallOverFloor S h0 h1 h0 h1 (glassBody m μ p v).makePub (dot posInf .o .o [h1] up).makePub
      ⟨some h0, (Vec3.o).f, fin 1, fin μ, ⟨fin a, fin (1 / 4), fin 0, fin 0⟩⟩ { groundPlane with entity := some h1 } 1 p .o ⟨0, 1, 0⟩ := by
    rw [hS]
    exact ⟨h0_ne_h1, rfl, rfl, hG.hasSphere, hG.hasPlane, rfl, rfl, rfl, hG.nonneg, rfl, hG.center, hG.normal, hG.unit, hG.through, hG.immovable, hG.still, by
      intro B F hB hF
      cases (two_get0 _ _).symm.trans hB
      cases (two_get1 _ _).symm.trans hF
      constructor <;> simp [glassBody, dot, up]⟩
  rw [← hS]
  have hlive : ∀ k E, S.entities.get k = some E → k = h0 ∧ E = glassBody m μ p v ∨ k = h1 ∧ E = dot posInf .o .o [h1] up := by
    intro k E hk
    have hk' : k ∈ S.entities.handles := Arena.mem_handles.mpr ⟨E, hk⟩
    rw [hS] at hk hk'
    simp only [scene, two_handles, List.mem_cons, List.not_mem_nil, or_false] at hk hk'
    rcases hk' with rfl | rfl
    · rw [two_get0] at hk; cases hk; exact Or.inl ⟨rfl, rfl⟩
    · rw [two_get1] at hk; cases hk; exact Or.inr ⟨rfl, rfl⟩
  have hone : OneBall S h0 := by
    intro k x hx
    obtain ⟨E, hE, rfl⟩ := getEntity_iff.mp hx
    rcases hlive k E hE with ⟨rfl, rfl⟩ | ⟨rfl, rfl⟩
    · refine ⟨fun _ => ⟨fun c hc => ?_, ?_, ?_⟩, fun h => absurd rfl h⟩
      · obtain rfl : c = h0 := by simpa [glassBody, dot, InternalEntity.makePub] using hc
        rw [getCollider_eq, g0]; exact ⟨_, rfl⟩
      · have : m + μ ≠ 0 := by positivity
        simpa [glassBody, dot, InternalEntity.makePub] using this
      · simp [glassBody, dot, InternalEntity.makePub]
    · refine ⟨fun h => absurd h.symm h0_ne_h1, fun _ => ⟨fun c hc => ?_, rfl⟩⟩
      obtain rfl : c = h1 := by simpa [dot, InternalEntity.makePub] using hc
      rw [getCollider_eq, g1]; exact ⟨_, rfl⟩
  have hroom : InRoom (fun g : GravityGenerator XReal => Finite3 g.acceleration) S h0 h0 1 [⟨h1, h1, .o, ⟨0, 1, 0⟩⟩] := by
    refine ⟨_, hB.isBall, rfl, Or.inr ⟨central_gravity, fun sc hsc => ?_⟩, fun W hW => ?_⟩
    · rw [hB.sphere] at hsc
      cases hsc
      exact ⟨rfl, ((hone h0 _ hB.isBall).1 rfl).2.2, rfl, rfl, fun k E hE hk => ((hone k E hE).2 hk).1⟩
    · obtain rfl := List.mem_singleton.mp hW
      exact ⟨_, _, _, _, hB⟩
  have hin : Inside S h0 1 [⟨h1, h1, .o, ⟨0, 1, 0⟩⟩] eps := by
    intro b y hb hy W hW
    obtain rfl := List.mem_singleton.mp hW
    obtain rfl := Option.some.inj (hB.isBall.symm.trans hb)
    obtain rfl : p = y := (Vec3.f_inj _ _).mp (hB.position.symm.trans hy)
    have := eps_pos
    show 1 - eps ≤ (p - Vec3.o).dot ⟨0, 1, 0⟩
    simp [Vec3.dot_def]
    linarith
  obtain ⟨s', hs'⟩ := hone.runs (fun k E n hk hn => by
    rcases hlive k E hk with ⟨-, rfl⟩ | ⟨-, rfl⟩ <;> exact absurd hn (by simp [glassBody, dot, up])) ds
  exact ⟨s', hs', (C98_ball_partial tame_gravity (by simp) le_rfl hF hone hroom hin (by rw [hS]; rfl) hds hs').2⟩

end Fluffy.Props
