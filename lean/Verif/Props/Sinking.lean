import Verif.Props.Lying
import Verif.Props.Through
/-
C73: a ball that lies on an immovable floor stays where it is, step after step, and falls asleep there — unless the floor falls asleep before the ball does.
Then the floor remembers the ball as a neighbour, the pair is not looked at any more, and the ball sinks.
-/
set_option linter.unusedSectionVars false
set_option linter.unusedSimpArgs false
namespace Fluffy.Props
open Fluffy XReal InternalEntity Step Demo

/-- `Stepped s ds s'`: steps of lengths `ds`, with any iteration orders, lead from `s` to `s'`. -/
inductive Stepped {γ : Type} [ForceGenerator XReal γ] : System XReal γ → List ℝ → System XReal γ → Prop
  | nil (s : System XReal γ) : Stepped s [] s
  | cons (ord : IterOrder) {s m s' : System XReal γ} {d : ℝ} {ds : List ℝ} (first : s.step ord (fin d) = .ok m) (rest : Stepped m ds s') : Stepped s (d :: ds) s'

section
variable {bh fh ch ch' : Handle} {sc : SphereCollider XReal}
    {pl : PlaneCollider XReal} {o q : Orientation ℝ} {r : ℝ} {c P n v G : Vec3 ℝ} {g : ℝ} {s s' : System XReal (GravityGenerator XReal)} {ord : IterOrder} {d : ℝ}

theorem lying_steps {ds : List ℝ} (hrun : Stepped s ds s') : ∀ {B F : InternalEntity XReal}, (∀ d ∈ ds, 1 / 1000000 ≤ d ∧ eps ≤ g * d) →
    Lying s bh fh ch ch' B F sc pl o q r c P n g → (Apart bh fh B F ∨ Bedded fh B) →
    ∃ B' F', Lying s' bh fh ch ch' B' F' sc pl o q r c P n g ∧ (Bedded fh B' ∨ ¬Bedded fh B ∧
      ∀ x, B.fallingAsleepTime = fin x → B.fallingAsleep = true → ds ≠ [] → Scalar.lt (fin (x + ds.sum)) s.sleepTimeThreshold = true) := by
  induction hrun with
  | nil s =>
    intro B F _ hL hm
    refine ⟨B, F, hL, ?_⟩
    by_cases hb : Bedded fh B
    · exact Or.inl hb
    · exact Or.inr ⟨hb, fun x _ _ h => absurd rfl h⟩
  | @cons ord s m s' d ds first rest ih =>
    intro B F hds hL hm
    obtain ⟨h1, h2⟩ := hds d (by simp)
    obtain ⟨B1, F1, hL1, hm1⟩ := lying_step h1 first hL h2 hm
    have fr := (step_frame first).1
    have hm1' : Apart bh fh B1 F1 ∨ Bedded fh B1 := by
      rcases hm1 with h | ⟨-, h, -⟩
      · exact Or.inr h
      · exact Or.inl h
    obtain ⟨B2, F2, hL2, hm2⟩ := ih (fun d hd => hds d (by simp [hd])) hL1 hm1'
    refine ⟨B2, F2, hL2, ?_⟩
    rcases hm2 with h | ⟨nb, h⟩
    · exact Or.inl h
    · right
      obtain ⟨nb0, -, hf, x', hx', hlt, hxx⟩ := hm1.resolve_left nb
      refine ⟨nb0, fun x hx hB _ => ?_⟩
      have e := hxx x hx
      rw [if_pos hB] at e
      subst e
      cases ds with
      | nil => simpa using hlt
      | cons d' ds =>
        have := h _ hx' hf (by simp)
        rw [fr.time] at this
        rw [List.sum_cons, ← add_assoc]; exact this

/-- A ball rests on an immovable floor: there is nothing else but gravity towards the floor, the ball is at rest and touches the floor, and the materials do not bounce.
Everything in terms of what the public interface shows. -/
structure RestsOn (s : System XReal (GravityGenerator XReal)) (bh fh ch ch' : Handle) (ball floor : Entity XReal) (sc : SphereCollider XReal)
    (pl : PlaneCollider XReal) (r : ℝ) (x P n : Vec3 ℝ) (g : ℝ) : Prop where
  history : FiniteHistory (fun g : GravityGenerator XReal => Finite3 g.acceleration) s
  alone : ∀ h e, s.getEntity h = some e → h = bh ∨ h = fh
  over : BallOverFloor s bh fh ch ch' ball floor sc pl r x P n
  still : ball.velocity = (Vec3.o).f ∧ ball.angularVelocity = (Vec3.o).f
  mass : ∃ m, ball.lastTotalMass = fin m ∧ 1 / 1000000 < m
  sphereOnly : ball.colliders = [ch]
  planeOnly : floor.colliders = [ch']
  dead : sc.material.restitution * pl.material.restitution = fin 0
  touch : clearance x P n r ≤ 0
  tries : s.iterationMax ≠ 0
  /-- The sum of the accelerations of all gravity generators. -/
  weight : gravity s.generators = (n.scale (-g)).f
  energy : Scalar.lt s.energySleepThreshold (fin 0) = false

theorem RestsOn.lying {ball floor : Entity XReal} {x : Vec3 ℝ} (hR : RestsOn s bh fh ch ch' ball floor sc pl r x P n g) :
    ∃ B F o q c, ball = B.makePub ∧ floor = F.makePub ∧ o.position = x ∧ fh ∉ B.neighbors ∧ bh ∉ F.neighbors ∧
      Lying s bh fh ch ch' B F sc pl o q r c P n g := by
  have hB := hR.over
  have hf := hR.history
  have dead := hR.dead
  obtain ⟨B0, gB, rfl⟩ := getEntity_iff.mp hB.isBall
  obtain ⟨F0, gF, rfl⟩ := getEntity_iff.mp hB.isFloor
  have hr := hf.reachable
  obtain ⟨fw, hg⟩ := hf.fine tame_gravity
  obtain ⟨o, ho, hou⟩ := (fw _ _ gB).pose
  obtain ⟨q, hq, hqu⟩ := (fw _ _ gF).pose
  obtain ⟨hm', hI⟩ := stored_infinite hr gF hB.immovable
  have hcol := hf.colliders
  obtain ⟨nb1, nb2⟩ := hB.strangers B0 F0 gB gF
  have hs := hB.sphere; rw [getCollider_eq] at hs
  have hp := hB.plane; rw [getCollider_eq] at hp
  obtain ⟨c, hc⟩ : ∃ c : Vec3 ℝ, sc.center = c.f := (hcol _ _ hs).1.f
  have hx : o.position = x := by
    have := hB.position
    change B0.orientation.position = _ at this
    rw [ho] at this
    exact (Vec3.f_inj _ _).mp this
  have hcen : c + o.internalOriginOffset = .o := by
    have := hB.center
    change B0.orientation.positionIntoWorld sc.center = B0.orientation.position at this
    rw [ho, hc, Orientation.f_positionIntoWorld o c hou] at this
    have e : o.position + o.rotation.rot (c + o.internalOriginOffset) = o.position := (Vec3.f_inj _ _).mp this
    have e2 : o.rotation.rot (c + o.internalOriginOffset) = .o := by
      ext
      · have := congrArg Vec3.x e; simp at this; simpa using this
      · have := congrArg Vec3.y e; simp at this; simpa using this
      · have := congrArg Vec3.z e; simp at this; simpa using this
    have := Quat.rot_conj_rot (c + o.internalOriginOffset) hou
    rw [e2, Quat.rot_o] at this
    exact this.symm
  have dead' : pl.material.restitution * sc.material.restitution = fin 0 := by
    have a1 : Scalar.isFinite sc.material.restitution = true := (hcol _ _ hs).2.2.1
    have a2 : Scalar.isFinite pl.material.restitution = true := (hcol _ _ hp).2.2.1
    revert dead
    cases h : sc.material.restitution <;> rw [h] at a1 <;> cases h' : pl.material.restitution <;> rw [h'] at a2 <;> simp_all
    rename_i a b
    intro h; exact h.symm
  refine ⟨B0, F0, o, q, c, rfl, rfl, hx, nb1, nb2, ⟨⟨hB.different, gB, gF, hB.hasSphere, hB.hasPlane, hs, hp, hB.radius, hc, hB.normal, by rw [← hq]; exact hB.through,
      hqu, hB.nonneg, hB.unit, hm', hI, fun h => h.elim, fun _ => ⟨hR.sphereOnly, hR.planeOnly, 0, le_refl _, dead, dead'⟩⟩, ?_, ho, hou, hq, hR.mass, hR.still,
      hB.still, hR.tries, hR.weight, hcol, fw, hg⟩, ⟨dead, dead'⟩, hcen, by rw [hx]; exact hR.touch, hR.energy⟩
  intro h e he
  exact hR.alone h e.makePub (getEntity_iff.mpr ⟨e, he, rfl⟩)

/-- **C73 (partial).** A ball that rests on an immovable floor stays exactly where it is, at rest, through any number of steps of any lengths that are not too short
(gravity has to give it a speed of at least EPSILON within a step); and it is asleep as soon as the lengths of all steps but the first add up to the sleep time threshold.
What is asked of the clocks for falling asleep: the floor sleeps already, or it has not been quiet for longer than the ball.
Missing: floors that have been quiet for longer (`C73_false`). -/
theorem C73_partial {ball floor : Entity XReal} {x : Vec3 ℝ} (hR : RestsOn s bh fh ch ch' ball floor sc pl r x P n g)
    (clocks : ∀ B F, s.entities.get bh = some B → s.entities.get fh = some F → ∃ x : ℝ, 0 ≤ x ∧ B.fallingAsleepTime = fin x ∧
      (F.asleep = true ∨ ∃ y : ℝ, F.fallingAsleepTime = fin y ∧ y ≤ x ∧ (F.fallingAsleep = true → B.fallingAsleep = true)))
    {ds : List ℝ} (hds : ∀ d ∈ ds, 1 / 1000000 ≤ d ∧ 1 / 1000000 ≤ g * d) (hrun : Stepped s ds s') :
    ∃ ball', s'.getEntity bh = some ball' ∧ ball'.position = ball.position ∧ ball'.rotation = ball.rotation ∧ ball'.velocity = (Vec3.o).f ∧
      ball'.angularVelocity = (Vec3.o).f ∧ (ds ≠ [] → Scalar.lt (fin ds.tail.sum) s.sleepTimeThreshold = false → ball'.asleep = true) := by
  have heps : (1 / 1000000 : ℝ) = eps := by unfold eps; norm_num
  rw [heps] at hds
  obtain ⟨B, F, o, q, c, rfl, rfl, hx, n1, n2, hL⟩ := hR.lying
  obtain ⟨t, t0, ht, hc⟩ := clocks B F hL.pairing.setting.get1 hL.pairing.setting.get2
  have hm : Apart bh fh B F ∨ Bedded fh B := Or.inl ⟨n1, n2, t, t0, ht, hc⟩
  have show1 : ∀ {B' F' : InternalEntity XReal}, Lying s' bh fh ch ch' B' F' sc pl o q r c P n g → B'.orientation = B.orientation := by
    intro B' F' h; rw [h.pairing.pose, hL.pairing.pose]
  cases hrun with
  | nil =>
    exact ⟨B.makePub, getEntity_iff.mpr ⟨B, hL.pairing.setting.get1, rfl⟩, rfl, rfl, hL.pairing.moves.1, hL.pairing.moves.2, fun h => absurd rfl h⟩
  | @cons ord _ mid _ d ds first rest =>
    obtain ⟨h1, h2⟩ := hds d (by simp)
    obtain ⟨B1, F1, hL1, hm1⟩ := lying_step (by rw [heps]; exact h1) first hL h2 hm
    have hm1' : Apart bh fh B1 F1 ∨ Bedded fh B1 := by
      rcases hm1 with h | ⟨-, h, -⟩
      · exact Or.inr h
      · exact Or.inl h
    obtain ⟨B2, F2, hL2, hm2⟩ := lying_steps rest (fun d hd => by rw [heps]; exact hds d (by simp [hd])) hL1 hm1'
    refine ⟨B2.makePub, getEntity_iff.mpr ⟨B2, hL2.pairing.setting.get1, rfl⟩, ?_, ?_, hL2.pairing.moves.1, hL2.pairing.moves.2, fun _ hthr => ?_⟩
    · show B2.orientation.position = B.orientation.position
      rw [show1 hL2]
    · show B2.orientation.rotation.scaledAxis = B.orientation.rotation.scaledAxis
      rw [show1 hL2]
    · rcases hm2 with h | ⟨nb, h⟩
      · exact h.1
      exfalso
      obtain ⟨-, ⟨-, -, y, y0, hy, -⟩, hf, x', hx', hlt, -⟩ := hm1.resolve_left nb
      rw [hx', fin_inj] at hy; subst hy
      rw [List.tail_cons] at hthr
      have hlt' : Scalar.lt (fin (x' + ds.sum)) s.sleepTimeThreshold = true := by
        cases ds with
        | nil => simpa using hlt
        | cons d' ds =>
          have := h _ hx' hf (by simp)
          rw [(step_frame first).1.time] at this; exact this
      revert hlt' hthr
      cases s.sleepTimeThreshold with
      | fin u => simp; intro a; linarith
      | _ => simp

/-! ### Falling through -/

theorem Pairing.safe {B F : InternalEntity XReal} (hP : Pairing s bh fh ch ch' B F sc pl o q r c P n v G) : PairsSafe s.toWorld := by
  have hS := hP.setting
  obtain ⟨c1, c2, -⟩ := hS.only id
  refine ⟨?_, ?_⟩
  · intro k E c hk hc
    rcases hP.alone k E hk with rfl | rfl
    · have := hS.get1.symm.trans hk; cases this
      rw [c1] at hc; simp at hc; subst hc; exact ⟨_, hS.ball⟩
    · have := hS.get2.symm.trans hk; cases this
      rw [c2] at hc; simp at hc; subst hc; exact ⟨_, hS.plane⟩
  · intro k1 k2 E1 E2 d1 d2 C1 C2 hne h1 h2 hc1 hc2 hC1 hC2 o1 o2 o3 o4
    rcases hP.alone k1 E1 h1 with rfl | rfl <;> rcases hP.alone k2 E2 h2 with rfl | rfl
    · exact absurd rfl hne
    · have := hS.get1.symm.trans h1; cases this
      have := hS.get2.symm.trans h2; cases this
      rw [c1] at hc1; rw [c2] at hc2; simp at hc1 hc2; subst hc1; subst hc2
      have := hS.ball.symm.trans hC1; cases this
      have := hS.plane.symm.trans hC2; cases this
      exact ⟨_, rfl⟩
    · have := hS.get2.symm.trans h1; cases this
      have := hS.get1.symm.trans h2; cases this
      rw [c2] at hc1; rw [c1] at hc2; simp at hc1 hc2; subst hc1; subst hc2
      have := hS.plane.symm.trans hC1; cases this
      have := hS.ball.symm.trans hC2; cases this
      exact ⟨_, rfl⟩
    · exact absurd rfl hne

theorem stepped_total {γ : Type} [ForceGenerator XReal γ] [SafeGenerator XReal γ] (ds : List ℝ) : ∀ {s : System XReal γ}, NeighborsLive s.entities → PairsSafe s.toWorld → ∃ s', Stepped s ds s' := by
  induction ds with
  | nil => intro s _ _; exact ⟨s, .nil s⟩
  | cons d ds ih =>
    intro s live safe
    obtain ⟨m, hm, live'⟩ := step_total (ord := .id) (fin d) live safe
    obtain ⟨s', hs⟩ := ih live' (safe.frame (step_frame hm).1)
    exact ⟨s', .cons .id hm hs⟩

/-- Linked with the sleeping floor, the ball falls: with gravity 1 and steps of length 1 at least by 1 in every step. -/
theorem falls (k : Nat) : ∀ {s : System XReal (GravityGenerator XReal)} {B F : InternalEntity XReal} {o : Orientation ℝ} {j : ℝ}, 0 ≤ j →
    Pairing s bh fh ch ch' B F sc pl o q r c P ⟨0, 1, 0⟩ ⟨0, -j, 0⟩ ⟨0, -1, 0⟩ → B.totalMass = fin 1 → s.energySleepThreshold = fin (1 / 1000) → B.asleep = false →
    F.asleep = true → bh ∈ F.neighbors → NeighborsLive s.entities → ∃ s' B' o', Stepped s (List.replicate k 1) s' ∧ s'.entities.get bh = some B' ∧
      B'.orientation = Orientation.f o' ∧ o'.position.y ≤ o.position.y - k := by
  induction k with
  | zero =>
    intro s B F o j hj hP _ _ _ _ _ _
    exact ⟨s, B, o, .nil s, hP.setting.get1, hP.pose, by simp⟩
  | succ k ih =>
    intro s B F o j hj hP hm hE awake hF near live
    obtain ⟨m, hh, live'⟩ := step_total (ord := .id) (s := s) (fin 1) live hP.safe
    obtain ⟨B', F', hP', a1, a2, a3⟩ := drift_step (by norm_num) hh hP awake hF near (by
      intro m' hm'
      rw [hm] at hm'; cases hm'
      rw [hE]
      simp [Vec3.dot_def]
      nlinarith)
    have ev : (⟨0, -j, 0⟩ : Vec3 ℝ) + (⟨0, -1, 0⟩ : Vec3 ℝ).scale 1 = ⟨0, -(j + 1), 0⟩ := by ext <;> simp; ring
    rw [ev] at hP'
    have fr := (step_frame hh).1
    have hm' : B'.totalMass = fin 1 := by
      rw [(staticRel_iff.mp (fr.entities.rel _ _ _ hP.setting.get1 hP'.setting.get1)).2.2.1]; exact hm
    obtain ⟨s', B2, o2, i1, i2, i3, i4⟩ := ih (by linarith) hP' hm' (by rw [fr.energy]; exact hE) a1 a2 a3 live'
    refine ⟨s', B2, o2, .cons .id hh i1, i2, i3, ?_⟩
    simp at i4
    push_cast
    linarith

end
end Fluffy.Props

namespace Fluffy.Scene
open XReal Demo Step Props InternalEntity

/-- One occupied slot. -/
def lone {τ : Type} (a : τ) : Arena τ := ⟨[some (0, a), none, none, none], [1, 2, 3], 0⟩

/-- Gravity downwards. -/
noncomputable def pull : GravityGenerator XReal := ⟨(⟨0, -1, 0⟩ : Vec3 ℝ).f⟩

/-- The ground and gravity, with the settings of a new system. -/
noncomputable def bare (z : Nap) : System XReal (GravityGenerator XReal) :=
  { (System.new : System XReal (GravityGenerator XReal)) with entities := lone (dot posInf .o .o [h0] z), colliders := lone (ground.setEntity (some h0)), generators := lone pull }

/-- A ball on it. -/
noncomputable def rink (z : Nap) : System XReal (GravityGenerator XReal) :=
  { (System.new : System XReal (GravityGenerator XReal)) with
    entities := two (dot posInf .o .o [h0] z) (dot (fin 1) ⟨0, 1, 0⟩ .o [h1] up)
    colliders := two (ground.setEntity (some h0)) ((sphere 0).setEntity (some h1)), generators := lone pull }

theorem bare_finite : FiniteHistory (fun g : GravityGenerator XReal => Finite3 g.acceleration) (bare up) := by
  let s1 : System XReal (GravityGenerator XReal) := { System.new with entities := lone (dot posInf .o .o [] up) }
  let s2 : System XReal (GravityGenerator XReal) := { s1 with colliders := lone ground }
  let s3 : System XReal (GravityGenerator XReal) := { s1 with entities := lone (dot posInf .o .o [h0] up), colliders := lone (ground.setEntity (some h0)) }
  have r1 : (System.new : System XReal (GravityGenerator XReal)).exec .id (.addEntity (source posInf .o .o)) = .ok (s1, .entity (some h0)) := by
    simp only [System.exec, System.addEntity, source_newFrom (show Scalar.lt (posInf : XReal) zero = false by simp)]; rfl
  have r2 : s1.exec .id (.addCollider ground) = .ok (s2, .collider (some h0)) := by
    simp only [System.exec, System.addCollider, ground_newFrom]; rfl
  have r3 : s2.exec .id (.linkCollider h0 (some h0)) = .ok (s3, .ok true) := by
    have hc : (lone ground).contains h0 = true := rfl
    have hg : (lone ground).get h0 = some ground := rfl
    have he : (lone (dot posInf .o .o [] up)).get h0 = some (dot posInf .o .o [] up) := rfl
    have := weightless ground_weightless (cs := lone ground) (ch := h0) rfl .o .o
    simp only [System.exec, System.linkCollider, s2, s1, hc, he]
    simp only [Bool.not_true, Bool.false_eq_true, if_false, dot, up, hsInsert, IterOrder.id] at this ⊢
    simp only [List.not_mem_nil, if_false, List.nil_append, this, Res.ok_bind, System.switchLink, hg]
    rfl
  have hx : FiniteCall (γ := GravityGenerator XReal) (fun g : GravityGenerator XReal => Finite3 g.acceleration) (.addEntity (source posInf .o .o)) :=
    ⟨finite3_f _, ⟨rfl, rfl, rfl⟩, finite3_f _, ⟨rfl, rfl, rfl⟩, ⟨rfl, rfl, rfl⟩, fun h => by cases h⟩
  have hy : FiniteCall (γ := GravityGenerator XReal) (fun g : GravityGenerator XReal => Finite3 g.acceleration) (.addCollider ground) :=
    ⟨finite3_f _, finite3_f _, rfl, rfl, rfl⟩
  have hz : FiniteCall (γ := GravityGenerator XReal) (fun g : GravityGenerator XReal => Finite3 g.acceleration) (.linkCollider h0 (some h0)) := trivial
  exact .call .id (.addGenerator pull) (.generator h0) (.call .id _ _ (.call .id _ _ (.call .id _ _ .new hx r1 (fun dt h => by cases h))
    hy r2 (fun dt h => by cases h)) hz r3 (fun dt h => by cases h))
    (finite3_f _) rfl (fun dt h => by cases h)

theorem rink_finite {z : Nap} (h : FiniteHistory (fun g : GravityGenerator XReal => Finite3 g.acceleration) (bare z)) :
    FiniteHistory (fun g : GravityGenerator XReal => Finite3 g.acceleration) (rink z) := by
  let s1 : System XReal (GravityGenerator XReal) := { bare z with entities := two (dot posInf .o .o [h0] z) (dot (fin 1) ⟨0, 1, 0⟩ .o [] up) }
  let s2 : System XReal (GravityGenerator XReal) := { s1 with colliders := two (ground.setEntity (some h0)) (sphere 0) }
  have r1 : (bare z).exec .id (.addEntity (source (fin 1) ⟨0, 1, 0⟩ .o)) = .ok (s1, .entity (some h1)) := by
    simp only [System.exec, System.addEntity, source_newFrom (show Scalar.lt (fin 1) zero = false by simp)]; rfl
  have r2 : s1.exec .id (.addCollider (sphere 0)) = .ok (s2, .collider (some h1)) := by
    simp only [System.exec, System.addCollider, sphere_newFrom]; rfl
  have r3 : s2.exec .id (.linkCollider h1 (some h1)) = .ok (rink z, .ok true) := by
    have := weightless (sphere_weightless (fin 1) 0) (cs := two (ground.setEntity (some h0)) (sphere 0)) (ch := h1) rfl ⟨0, 1, 0⟩ .o
    simp only [System.exec, System.linkCollider, s2, s1, two_contains1, two_get1]
    simp only [Bool.not_true, Bool.false_eq_true, if_false, hsInsert, IterOrder.id] at this ⊢
    have e : ({ dot (fin 1) ⟨0, 1, 0⟩ .o [] up with colliders := [h1] } : InternalEntity XReal) = dot (fin 1) ⟨0, 1, 0⟩ .o [h1] up := rfl
    have hc : (dot (fin 1) ⟨0, 1, 0⟩ .o [] up).colliders = [] := rfl
    simp only [hc, List.not_mem_nil, if_false, List.nil_append, e, this, Res.ok_bind, System.switchLink, two_get1, two_set1]
    rfl
  have hx : FiniteCall (γ := GravityGenerator XReal) (fun g : GravityGenerator XReal => Finite3 g.acceleration) (.addEntity (source (fin 1) ⟨0, 1, 0⟩ .o)) :=
    ⟨finite3_f _, ⟨rfl, rfl, rfl⟩, finite3_f _, ⟨rfl, rfl, rfl⟩, ⟨rfl, rfl, rfl⟩, fun h => by cases h⟩
  have hy : FiniteCall (γ := GravityGenerator XReal) (fun g : GravityGenerator XReal => Finite3 g.acceleration) (.addCollider (sphere 0)) :=
    ⟨finite3_f _, rfl, rfl, rfl, rfl⟩
  have hz : FiniteCall (γ := GravityGenerator XReal) (fun g : GravityGenerator XReal => Finite3 g.acceleration) (.linkCollider h1 (some h1)) := trivial
  exact .call .id _ _ (.call .id _ _ (.call .id _ _ h hx r1 (fun dt h => by cases h))
    hy r2 (fun dt h => by cases h)) hz r3 (fun dt h => by cases h)

/-- The ground grows tired. -/
theorem bare_step : (bare up).step .id (fin 1) = .ok (bare ⟨true, fin 0, false, []⟩) := by
  have hp := proper_fin (d := 1) (by norm_num)
  have hg : (lone (dot posInf .o .o [h0] up)).get h0 = some (dot posInf .o .o [h0] up) := rfl
  have hs : ∀ x : InternalEntity XReal, (lone (dot posInf .o .o [h0] up)).set h0 x = lone x := fun _ => rfl
  have hE : (dot posInf .o .o [h0] up).totalEnergy = fin 0 := quiet_floor rfl rfl rfl
  have hh : (lone (dot posInf .o .o [h0] up)).handles = [h0] := rfl
  have hk : integrateVelocity (fin 1) (Vec3.o).f (Vec3.o).f (dot posInf .o .o [h0] up) = dot posInf .o .o [h0] up := by
    unfold integrateVelocity
    rw [show (posInf : XReal) = mx none from rfl, (dot_of none .o .o [h0] up).W, body_W]
    simp [dot]
  have hint : integrateAll (fin 1) (bare up).generators.handles (bare up).entities.handles { bare up with collisionRecords := [], debug := [] } =
      .ok (bare up, [⟨h0, (Vec3.o).f, (Vec3.o).f, []⟩]) := by
    have hc : ({ bare up with collisionRecords := [], debug := [] } : System XReal (GravityGenerator XReal)).getEntity h0 = some (dot posInf .o .o [h0] up).makePub := rfl
    have hc' : ({ bare up with collisionRecords := [], debug := [] } : System XReal (GravityGenerator XReal)).entities.get h0 = some (dot posInf .o .o [h0] up) := rfl
    have hm : (dot posInf .o .o [h0] up).makePub.lastTotalMass = posInf := rfl
    rw [show (bare up).entities.handles = [h0] from rfl]
    unfold integrateAll integrateOne
    simp only [hc, hc', unwrap, Res.ok_bind, hm, isFinite_posInf, Bool.false_and, Bool.false_eq_true, if_false, Vec3.f_zeros, hk, integrateAll]
    have e1 : (dot posInf .o .o [h0] up).velocity.scale (fin 1) = (Vec3.o).f := by simp [dot]
    have e2 : (dot posInf .o .o [h0] up).angularVelocity.scale (fin 1) = (Vec3.o).f := by simp [dot]
    rw [e1, e2]
    rfl
  have hadv : advance none ⟨(bare up).toWorld, [⟨h0, (Vec3.o).f, (Vec3.o).f, []⟩], fin 1, zero⟩ =
      .ok ⟨(bare up).toWorld, [⟨h0, (Vec3.o).f, (Vec3.o).f, []⟩], fin 0, fin 1⟩ := by
    have hu : (dot posInf .o .o [h0] up).asleep = false := rfl
    have e1 : (dot posInf .o .o [h0] up).orientation = (pose .o).f := rfl
    have e2 : (bare up).toWorld.entities = lone (dot posInf .o .o [h0] up) := rfl
    unfold advance
    simp only [advanceLoop, e2, hg, unwrap, Res.ok_bind, hu, Bool.not_false, if_true, percentOf, one_eq, zero_eq, Vec3.f_scale, o_scale, e1,
      Orientation.f_afterAffected, pose_after, fin_sub, fin_mul, fin_add, sub_self, mul_zero, zero_add, sub_zero, mul_one, hs, add_zero, show (Vec3.o : Vec3 ℝ) + Vec3.o = .o by ext <;> simp]
    rfl
  have hit : iterate .id (fin 1) (bare up).iterationMax ⟨(bare up).toWorld, [⟨h0, (Vec3.o).f, (Vec3.o).f, []⟩], fin 1, zero⟩ =
      .ok (⟨(bare up).toWorld, [⟨h0, (Vec3.o).f, (Vec3.o).f, []⟩], fin 0, fin 1⟩, true) := by
    rw [show (bare up).iterationMax = 4 + 1 from rfl]
    unfold iterate
    simp only [searchFirst, searchSecond, Res.ok_bind, wakeColliding, hadv]
  unfold System.step
  rw [if_neg (by rw [hp]; simp)]
  have e2 : (bare up).toWorld.entities = lone (dot posInf .o .o [h0] up) := rfl
  have e3 : (dot posInf .o .o [h0] up).asleep = false := rfl
  have e4 : (dot posInf .o .o [h0] up).fallingAsleep = false := rfl
  have e5 : (dot posInf .o .o [h0] up).fallingAsleepTime = fin 0 := rfl
  have e6 : Scalar.lt (bare up).toWorld.energySleepThreshold (fin 0) = false := by
    rw [show (bare up).toWorld.energySleepThreshold = lit 1 1000 from rfl, lit_eq]; norm_num
  have e7 : Scalar.lt (fin 0) (bare up).toWorld.sleepTimeThreshold = true := by
    rw [show (bare up).toWorld.sleepTimeThreshold = lit 1 10 from rfl, lit_eq]; norm_num
  simp only [hint, Res.ok_bind, hit, if_true]
  simp only [Res.ok_bind, sleepLoop, sleepOne, e2, hg, unwrap, e3, e4, e5, hE, e6, e7, Bool.false_eq_true, if_false, hs]
  rfl

theorem rink_rests {z : Nap} (hz : z.near = []) (h : FiniteHistory (fun g : GravityGenerator XReal => Finite3 g.acceleration) (bare z)) :
    RestsOn (rink z) h1 h0 h1 h0 (dot (fin 1) ⟨0, 1, 0⟩ .o [h1] up).makePub (dot posInf .o .o [h0] z).makePub
      ⟨some h1, (Vec3.o).f, fin 1, fin 0, ⟨fin 0, fin (1 / 4), fin 0, fin 0⟩⟩ { groundPlane with entity := some h0 } 1 ⟨0, 1, 0⟩ .o ⟨0, 1, 0⟩ 1 where
  history := rink_finite h
  alone := by
    intro h e he
    obtain ⟨E, hE, -⟩ := getEntity_iff.mp he
    have hk := Arena.mem_handles.mpr ⟨E, hE⟩
    have : h = h0 ∨ h = h1 := by simpa [rink] using hk
    exact this.symm
  over := {
    different := h0_ne_h1.symm
    isBall := rfl
    isFloor := rfl
    hasSphere := by simp [dot, makePub]
    hasPlane := by simp [dot, makePub]
    sphere := rfl
    plane := rfl
    radius := rfl
    nonneg := zero_le_one
    position := rfl
    center := by
      show (pose _).f.positionIntoWorld (Vec3.o).f = _
      rw [Orientation.f_positionIntoWorld _ _ (pose_unit _)]
      simp [Orientation.toWorld, pose, dot, makePub]
    normal := rfl
    unit := by simp [Vec3.dot_def]
    through := (over_ground .o 1).place
    immovable := ⟨ground.setEntity (some h0), by
      simp only [linked, List.mem_filterMap]
      exact ⟨h0, by simp [dot, makePub], rfl⟩, rfl⟩
    still := ⟨rfl, rfl⟩
    strangers := by
      rintro B F hB hF
      cases hB; cases hF
      simp [dot, up, hz] }
  still := ⟨rfl, rfl⟩
  mass := ⟨1, rfl, by norm_num⟩
  sphereOnly := rfl
  planeOnly := rfl
  dead := by simp [groundPlane]
  touch := by simp [clearance, Vec3.dot_def]
  tries := by simp [rink, System.new]
  weight := by
    show Vec3.zeros + (⟨0, -1, 0⟩ : Vec3 ℝ).f = _
    rw [Vec3.f_zeros, Vec3.f_add, Vec3.f_inj]
    ext <;> simp
  energy := by
    rw [show (rink z).energySleepThreshold = lit 1 1000 from rfl, lit_eq]; norm_num

end Fluffy.Scene

namespace Fluffy.Props
open Fluffy XReal InternalEntity Step Demo Scene

/-- **C73 is false:** whatever depth `D` one allows, there is a ball that rests on an immovable floor, both of them awake, that a number of steps of length 1 takes more
than `D` below the floor.  The settings of the system are those of a new system; the floor has been there for one step longer than the ball. -/
theorem C73_false (D : ℝ) :
    ∃ (s s' : System XReal (GravityGenerator XReal)) (ball floor ball' : Entity XReal) (sc : SphereCollider XReal) (pl : PlaneCollider XReal) (x' : Vec3 ℝ) (k : Nat),
      RestsOn s h1 h0 h1 h0 ball floor sc pl 1 ⟨0, 1, 0⟩ .o ⟨0, 1, 0⟩ 1 ∧ ball.asleep = false ∧ floor.asleep = false ∧ Stepped s (List.replicate k 1) s' ∧
      s'.getEntity h1 = some ball' ∧ ball'.position = Vec3.f x' ∧ clearance x' .o ⟨0, 1, 0⟩ 1 < -D := by
  have hf : FiniteHistory (fun g : GravityGenerator XReal => Finite3 g.acceleration) (bare ⟨true, fin 0, false, []⟩) :=
    bare_finite.call .id (.step (fin 1)) .unit rfl (by simp only [System.exec, bare_step]; rfl) (by intro dt _ _ r hr; simp [bare, System.new] at hr)
  have hR := rink_rests rfl hf
  obtain ⟨B, F, o, q, c, hB, hF, hx, n1, n2, hL⟩ := hR.lying
  have gB := hL.pairing.setting.get1
  have gF := hL.pairing.setting.get2
  have live : NeighborsLive (rink ⟨true, fin 0, false, []⟩).entities := by
    intro k E n hk hn
    have := Arena.mem_handles.mpr ⟨E, hk⟩
    have : k = h0 ∨ k = h1 := by simpa [rink] using this
    rcases this with rfl | rfl <;> cases hk <;> simp [dot, up] at hn
  obtain ⟨m, hm, live'⟩ := step_total (ord := .id) (fin 1) live hL.pairing.safe
  obtain ⟨B', F', hL', t1, -, t2, -, t3, -⟩ := touch_step (by norm_num) hm hL (by unfold eps; norm_num) n1 n2
  cases gB; cases gF
  obtain ⟨-, u2, u3⟩ := t1
  obtain ⟨-, w2, w3⟩ := t2 rfl
  have fr := (step_frame hm).1
  have e1 : (rink ⟨true, fin 0, false, []⟩).sleepTimeThreshold = lit 1 10 := rfl
  have e2 : (rink ⟨true, fin 0, false, []⟩).energySleepThreshold = lit 1 1000 := rfl
  have a1 : B'.asleep = false := by
    rw [u3, u2, e1, lit_eq]; simp [dot, up]
  have a2 : F'.asleep = true := by
    rw [w3, w2, e1, lit_eq]; simp [dot]; norm_num
  obtain ⟨k, hk⟩ := exists_nat_gt D
  have hP := hL'.pairing
  have g1 : (⟨0, 1, 0⟩ : Vec3 ℝ).scale (-1) = ⟨0, -1, 0⟩ := by ext <;> simp
  have g2 : (Vec3.o : Vec3 ℝ) = ⟨0, -0, 0⟩ := by ext <;> simp
  rw [g1, g2] at hP
  have hm1 : B'.totalMass = fin 1 := by
    rw [(staticRel_iff.mp (fr.entities.rel _ _ _ hL.pairing.setting.get1 hP.setting.get1)).2.2.1]; rfl
  obtain ⟨s', B2, o2, i1, i2, i3, i4⟩ := falls k (le_refl 0) hP hm1 (by rw [fr.energy, e2, lit_eq]; norm_num) a1 a2 (t3 rfl a2) live'
  refine ⟨_, s', _, _, B2.makePub, _, _, o2.position, k + 1, hR, rfl, rfl, .cons .id hm i1, getEntity_iff.mpr ⟨B2, i2, rfl⟩, ?_, ?_⟩
  · show B2.orientation.position = _
    rw [i3]; rfl
  · rw [hx] at i4
    simp at i4
    simp [clearance, Vec3.dot_def]
    linarith

/-- The hypotheses of `C73_partial` can be met. -/
example (k : Nat) : ∃ s' ball', Stepped (rink up) (List.replicate k 1) s' ∧ s'.getEntity h1 = some ball' ∧ ball'.position = Vec3.f ⟨0, 1, 0⟩ ∧
    (1 < k → ball'.asleep = true) := by
  have hR := rink_rests (z := up) rfl bare_finite
  obtain ⟨B, F, o, q, c, hB, hF, hx, n1, n2, hL⟩ := hR.lying
  have live : NeighborsLive (rink up).entities := by
    intro k E n hk hn
    have := Arena.mem_handles.mpr ⟨E, hk⟩
    have : k = h0 ∨ k = h1 := by simpa [rink] using this
    rcases this with rfl | rfl <;> cases hk <;> simp [dot, up] at hn
  obtain ⟨s', hs⟩ := stepped_total (List.replicate k 1) live hL.pairing.safe
  obtain ⟨b, hb1, hb2, -, -, -, hb3⟩ := C73_partial hR (by
      intro B F hB hF
      cases hB; cases hF
      exact ⟨0, le_refl 0, rfl, Or.inr ⟨0, rfl, le_refl 0, by simp [dot, up]⟩⟩) (by
      intro d hd
      rw [(List.mem_replicate.mp hd).2]; norm_num) hs
  refine ⟨s', b, hs, hb1, hb2, fun hk => hb3 (by intro h; simp at h; omega) ?_⟩
  have h1 : (1 : ℝ) ≤ (k - 1 : ℕ) := by exact_mod_cast (by omega : 1 ≤ k - 1)
  rw [show (rink up).sleepTimeThreshold = lit 1 10 from rfl, lit_eq]
  simp
  linarith

end Fluffy.Props
