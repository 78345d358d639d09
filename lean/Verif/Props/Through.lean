import Verif.Props.Floor
import Verif.Props.Planes
import Verif.Proofs.StepTotal
/-
C56 is false: a spinning ball can fall right through an immovable floor.  The closing speed of a contact is computed with the position the ball has at the
start of the iteration, not with the one it has when it touches the floor; so a spin adds a part to the speed along the normal that is not there.
-/
set_option linter.unusedSectionVars false
set_option linter.unusedSimpArgs false
namespace Fluffy.Scene
open XReal Demo Step Props InternalEntity

/-- An immovable plane through the origin facing upwards. -/
noncomputable def groundPlane : PlaneCollider XReal :=
  ⟨none, (Vec3.o).f, (⟨0, 1, 0⟩ : Vec3 ℝ).f, posInf, ⟨fin 1, fin (1 / 4), fin 1, fin (3 / 10)⟩⟩
noncomputable def ground : Collider XReal := .plane groundPlane

theorem ground_newFrom : ground.newFrom = some ground := by
  have hl : (⟨0, 1, 0⟩ : Vec3 ℝ).len = 1 := by show Real.sqrt _ = 1; simp [Vec3.dot_def]
  have hv : groundPlane.isValid = true := by
    simp only [PlaneCollider.isValid, groundPlane, Vec3.f_magnitude, hl, XReal.EPSILON_eq]
    simp; norm_num
  simp only [ground, Collider.newFrom, hv, Bool.not_true, Bool.false_eq_true, if_false]
  simp only [groundPlane]
  rw [Vec3.f_normalize (by intro hc; have := congrArg Vec3.y hc; simp at this), hl]
  rw [show (⟨0, 1, 0⟩ : Vec3 ℝ).scale 1⁻¹ = ⟨0, 1, 0⟩ by ext <;> simp]

theorem ground_weightless : Weightless posInf ground := Or.inr ⟨rfl, rfl⟩

/-- The mass does not depend on the spin. -/
theorem recalculateMass_spin {α : Type} [Scalar α] (l : List Handle) (cs : Arena (Collider α)) (e e' : InternalEntity α) (w : Vec3 α)
    (h : e.recalculateMass l cs = .ok e') :
    ({ e with angularVelocity := w } : InternalEntity α).recalculateMass l cs = .ok { e' with angularVelocity := w } := by
  unfold InternalEntity.recalculateMass at h ⊢
  obtain ⟨x, hx, h⟩ := Res.bind_eq_ok.mp h
  simp only [hx, Res.ok_bind]
  have hr : ({ e with angularVelocity := w } : InternalEntity α).recenter x = { e.recenter x with angularVelocity := w } := by
    unfold InternalEntity.recenter; simp only; split <;> rfl
  rw [hr]
  split at h
  · rename_i hi
    rw [if_pos hi]; cases h; rfl
  · rename_i hi
    rw [if_neg hi]
    obtain ⟨m, hm, h⟩ := Res.bind_eq_ok.mp h
    simp only [hm, Res.ok_bind]
    cases h; rfl

/-- A ball that spins. -/
noncomputable def spun (m : XReal) (p v w : Vec3 ℝ) : InternalEntity XReal := { dot m p v [h0] up with angularVelocity := w.f }

variable {γ : Type} [ForceGenerator XReal γ]

theorem spun_exec (m : XReal) (hm : Scalar.lt m zero = false) (p v w : Vec3 ℝ) {b : InternalEntity XReal} {c d : Collider XReal} (wc : Weightless m c)
    (n : Nat) (e t : XReal) :
    (scene (γ := γ) (dot m p v [h0] up) b c d n e t).exec .id (.updateEntity h0 { source m p v with angularVelocity := w.f }) =
      .ok (scene (spun m p v w) b c d n e t, .ok true) := by
  have wc' : Weightless m (c.setEntity (some h0)) := by
    rcases wc with ⟨a1, a2, a3⟩ | ⟨a1, a2⟩
    · refine Or.inl ⟨?_, ?_, ?_⟩
      · cases c <;> exact a1
      · cases c <;> exact a2
      · cases c <;> exact a3
    · exact Or.inr ⟨by cases c <;> exact a1, a2⟩
  have hrec : (spun m p v w).recalculateMass [h0] (two (c.setEntity (some h0)) (d.setEntity (some h1))) = .ok (spun m p v w) :=
    recalculateMass_spin _ _ _ _ w.f (weightless wc' (cs := two (c.setEntity (some h0)) (d.setEntity (some h1))) (ch := h0) rfl p v)
  have hup : ∃ b, (dot m p v [h0] up).updateFrom { source m p v with angularVelocity := w.f } =
      some (spun m p v w, b) := by
    refine ⟨(dot m p v [h0] up).changed { source m p v with angularVelocity := w.f }, ?_⟩
    unfold InternalEntity.updateFrom
    have hm' : ¬ Scalar.lt (source m p v).ownMass zero = true := by
      show ¬ Scalar.lt m zero = true
      rw [hm]; simp
    rw [if_neg hm']
    have hq : Quat.fromScaledAxis (source m p v).rotation = (Quat.e).f := by
      have := source_newFrom hm p v
      unfold InternalEntity.newFrom at this
      rw [if_neg hm'] at this
      have := congrArg (fun x => x.map fun y => y.orientation.rotation) this
      simp only [Option.map_some, Option.some.injEq] at this
      exact this
    simp only [hq]
    rfl
  obtain ⟨b', hup⟩ := hup
  simp only [System.exec, System.updateEntity, scene, two_get0, hup, IterOrder.id]
  have hc : (spun m p v w).colliders = [h0] := rfl
  rw [hc, hrec]
  simp only [Res.ok_bind, two_set0]
  have hwk := wake_idle .id (es := two (spun m p v w) b) (h := h0) (two_get0 _ _) rfl rfl (two_set0 _ _ _) []
  cases b' with
  | false => rfl
  | true =>
    simp only [if_true]
    unfold IterOrder.id at hwk
    rw [hwk]
    rfl

theorem spun_integrate (m : ℝ) (p v w : Vec3 ℝ) (d : ℝ) (s : System XReal γ) {h : Handle} (hg : s.entities.get h = some (spun (fin m) p v w)) :
    integrateOne (fin d) [] s h = .ok ({ s with entities := s.entities.set h (spun (fin m) p v w) }, ⟨h, (v.scale d).f, (w.scale d).f, []⟩) := by
  unfold integrateOne
  have hc : s.getEntity h = some (spun (fin m) p v w).makePub := by rw [World.getEntity, hg]; rfl
  have hk : integrateVelocity (fin d) (Vec3.o).f (Vec3.o).f (spun (fin m) p v w) = spun (fin m) p v w := by
    unfold integrateVelocity
    have hW : (spun (fin m) p v w).inverseMomentOfInertia = (Mat3.o).f := by
      have : (spun (fin m) p v w).inverseMomentOfInertia = (dot (mx (some m)) p v [h0] up).inverseMomentOfInertia := rfl
      rw [this, (dot_of (some m) p v [h0] up).W, body_W]
    rw [hW]
    simp [dot, spun]
  simp only [hc, hg, unwrap, Res.ok_bind, generatorLoop, Vec3.f_zeros, ite_self, hk]
  simp [dot, spun]

/-- The ball over the ground. -/
theorem over_ground (p : Vec3 ℝ) (a : ℝ) : OverFloor ⟨some h0, (Vec3.o).f, fin 1, fin 0, ⟨fin a, fin (1 / 4), fin 0, fin 0⟩⟩
    { groundPlane with entity := some h1 } (pose p) (pose .o) 1 .o .o ⟨0, 1, 0⟩ where
  radius := rfl
  center := rfl
  normal := rfl
  centered := by ext <;> simp [pose]
  place := by
    rw [show ({ groundPlane with entity := some h1 } : PlaneCollider XReal).position = (Vec3.o).f from rfl, Orientation.f_positionIntoWorld _ _ (pose_unit _)]
    simp [Orientation.toWorld, pose]
  unit1 := pose_unit _
  unit2 := pose_unit _
  nonneg := zero_le_one
  one := by simp [Vec3.dot_def]

/-- The spin makes the closing speed of the contact zero. -/
theorem spun_misses {V : ℝ} (hV : 2 ≤ V) (a : ℝ) :
    considerPair (two ((sphere a).setEntity (some h0)) (ground.setEntity (some h1))) (spun (fin 1) ⟨0, 2, 0⟩ ⟨1, -V, 0⟩ ⟨0, 0, V * V⟩)
      (dot posInf .o .o [h1] up) ⟨h0, (⟨1, -V, 0⟩ : Vec3 ℝ).f, (⟨0, 0, V * V⟩ : Vec3 ℝ).f, []⟩ ⟨h1, (Vec3.o).f, (Vec3.o).f, []⟩ 0 1 h0 h1 none = .ok none := by
  have hdis := (over_ground ⟨0, 2, 0⟩ a).dispatch ⟨1, -V, 0⟩ ⟨0, 0, V * V⟩
  have hcl : clearance (pose ⟨0, 2, 0⟩).position .o ⟨0, 1, 0⟩ 1 = 1 := by simp [clearance, pose, Vec3.dot_def]; norm_num
  have hmn : (⟨1, -V, 0⟩ : Vec3 ℝ).dot ⟨0, 1, 0⟩ = -V := by simp [Vec3.dot_def]
  unfold considerPair
  simp only [two_get0, two_get1, unwrap, Res.ok_bind]
  have e1 : (spun (fin 1) ⟨0, 2, 0⟩ ⟨1, -V, 0⟩ ⟨0, 0, V * V⟩).orientation = (pose ⟨0, 2, 0⟩).f := rfl
  have e2 : (dot posInf .o .o [h1] up).orientation = (pose .o).f := rfl
  have hcol : collide ((sphere a).setEntity (some h0)) (pose ⟨0, 2, 0⟩).f ((pose ⟨0, 2, 0⟩).f.afterAffected (⟨1, -V, 0⟩ : Vec3 ℝ).f (⟨0, 0, V * V⟩ : Vec3 ℝ).f)
      (ground.setEntity (some h1)) (pose .o).f ((pose .o).f.afterAffected (Vec3.o).f (Vec3.o).f) = .ok
      (collideSpherePlane (fin 1) (pose ⟨0, 2, 0⟩).position.f (⟨1, -V, 0⟩ : Vec3 ℝ).f (Vec3.o).f (⟨0, 1, 0⟩ : Vec3 ℝ).f (Vec3.o).f) := by
    rw [← hdis]; rfl
  rw [e1, e2, hcol]
  rcases ball_over (r := 1) zero_le_one (x := (pose ⟨0, 2, 0⟩).position) (m := ⟨1, -V, 0⟩) (P := .o) (n := ⟨0, 1, 0⟩) (by simp [Vec3.dot_def]) with
    ⟨h, -⟩ | ⟨C, t, h, ht, -, -, hp, hn, h'⟩
  · rw [h]; rfl
  · rw [h]
    rw [hcl, hmn] at h'
    have htV : t * V = 1 := by
      rcases h' with ⟨-, h'⟩ | ⟨-, h'⟩ <;> linarith
    simp only [Res.ok_bind, hp, hn]
    have s1 : (spun (fin 1) ⟨0, 2, 0⟩ ⟨1, -V, 0⟩ ⟨0, 0, V * V⟩).velocityAt
        (((pose ⟨0, 2, 0⟩).position + (⟨1, -V, 0⟩ : Vec3 ℝ).scale t - (⟨0, 1, 0⟩ : Vec3 ℝ).scale 1).f) =
        ((⟨1, -V, 0⟩ : Vec3 ℝ) + (⟨0, 0, V * V⟩ : Vec3 ℝ).cross ((pose ⟨0, 2, 0⟩).position + (⟨1, -V, 0⟩ : Vec3 ℝ).scale t - (⟨0, 1, 0⟩ : Vec3 ℝ).scale 1 - ⟨0, 2, 0⟩)).f := by
      simp only [InternalEntity.velocityAt, spun, dot, Orientation.f_position, pose, Vec3.f_sub, Vec3.f_add, Vec3.f_cross]
    rw [s1, dot_at, Vec3.f_sub, Vec3.f_dot]
    rw [if_pos]
    have : ((⟨1, -V, 0⟩ : Vec3 ℝ) + (⟨0, 0, V * V⟩ : Vec3 ℝ).cross ((pose ⟨0, 2, 0⟩).position + (⟨1, -V, 0⟩ : Vec3 ℝ).scale t - (⟨0, 1, 0⟩ : Vec3 ℝ).scale 1 - ⟨0, 2, 0⟩) -
        Vec3.o).dot (-⟨0, 1, 0⟩) = 0 := by
      simp [Vec3.dot_def, pose]
      linear_combination (-V) * htV
    rw [this]
    simp

/-- The step of the scene does not panic. -/
theorem ground_total (m : XReal) (p v w : Vec3 ℝ) (a : ℝ) (n : Nat) (e t d : XReal) : ∃ s' : System XReal (GravityGenerator XReal),
    System.step .id (scene (spun m p v w) (dot posInf .o .o [h1] up) (sphere a) ground n e t) d = .ok s' := by
  obtain ⟨S, hS⟩ : ∃ S : System XReal (GravityGenerator XReal), S = scene (spun m p v w) (dot posInf .o .o [h1] up) (sphere a) ground n e t := ⟨_, rfl⟩
  rw [← hS]
  have hlive : ∀ k E, S.entities.get k = some E → k = h0 ∧ E = spun m p v w ∨
      k = h1 ∧ E = dot posInf .o .o [h1] up := by
    intro k E hk
    have hk' : k ∈ S.entities.handles := Arena.mem_handles.mpr ⟨E, hk⟩
    rw [hS] at hk hk'
    simp only [scene, two_handles, List.mem_cons, List.not_mem_nil, or_false] at hk hk'
    rcases hk' with rfl | rfl
    · rw [two_get0] at hk; cases hk; exact Or.inl ⟨rfl, rfl⟩
    · rw [two_get1] at hk; cases hk; exact Or.inr ⟨rfl, rfl⟩
  have g0 : S.colliders.get h0 = some ((sphere a).setEntity (some h0)) := by rw [hS]; rfl
  have g1 : S.colliders.get h1 = some (ground.setEntity (some h1)) := by rw [hS]; rfl
  obtain ⟨s', hstep, -⟩ := Step.step_total (ord := .id) (s := S) d (by
      intro k E n hk hn
      rcases hlive k E hk with ⟨-, rfl⟩ | ⟨-, rfl⟩ <;> exact absurd hn (by simp [spun, dot, up]))
    ⟨by
      intro k E c hk hc
      rcases hlive k E hk with ⟨-, rfl⟩ | ⟨-, rfl⟩
      · have : c = h0 := by simpa [spun, dot] using hc
        subst this; exact ⟨_, g0⟩
      · have : c = h1 := by simpa [dot] using hc
        subst this; exact ⟨_, g1⟩, by
      intro k1 k2 E1 E2 c1 c2 C1 C2 hne h1' h2' hc1 hc2 hC1 hC2 o1 o2 o3 o4
      rcases hlive _ _ h1' with ⟨rfl, rfl⟩ | ⟨rfl, rfl⟩ <;> rcases hlive _ _ h2' with ⟨rfl, rfl⟩ | ⟨rfl, rfl⟩
      · exact absurd rfl hne
      · have e1 : c1 = h0 := by simpa [spun, dot] using hc1
        have e2 : c2 = h1 := by simpa [dot] using hc2
        subst e1; subst e2
        rw [g0] at hC1; cases hC1
        rw [g1] at hC2; cases hC2
        exact ⟨_, rfl⟩
      · have e1 : c1 = h1 := by simpa [dot] using hc1
        have e2 : c2 = h0 := by simpa [spun, dot] using hc2
        subst e1; subst e2
        rw [g1] at hC1; cases hC1
        rw [g0] at hC2; cases hC2
        exact ⟨_, rfl⟩
      · exact absurd rfl hne⟩
  exact ⟨s', hstep⟩

theorem spun_step {V : ℝ} (hV : 2 ≤ V) (a : ℝ) (e t : XReal) :
    ∃ (s' : System XReal (GravityGenerator XReal)) (y : InternalEntity XReal),
      System.step .id (scene (spun (fin 1) ⟨0, 2, 0⟩ ⟨1, -V, 0⟩ ⟨0, 0, V * V⟩) (dot posInf .o .o [h1] up) (sphere a) ground 10 e t) (fin 1) = .ok s' ∧
      s'.entities.get h0 = some y ∧ y.orientation.position = (⟨1, 2 - V, 0⟩ : Vec3 ℝ).f := by
  obtain ⟨S, hS⟩ : ∃ S : System XReal (GravityGenerator XReal),
    S = scene (spun (fin 1) ⟨0, 2, 0⟩ ⟨1, -V, 0⟩ ⟨0, 0, V * V⟩) (dot posInf .o .o [h1] up) (sphere a) ground 10 e t := ⟨_, rfl⟩
  rw [← hS]
  obtain ⟨s', hstep⟩ := ground_total (fin 1) ⟨0, 2, 0⟩ ⟨1, -V, 0⟩ ⟨0, 0, V * V⟩ a 10 e t (fin 1)
  rw [← hS] at hstep
  have hint : integrateAll (fin 1) S.generators.handles S.entities.handles { S with collisionRecords := [], debug := [] } =
      .ok ({ S with collisionRecords := [], debug := [] },
        [⟨h0, (⟨1, -V, 0⟩ : Vec3 ℝ).f, (⟨0, 0, V * V⟩ : Vec3 ℝ).f, []⟩, ⟨h1, (Vec3.o).f, (Vec3.o).f, []⟩]) := by
    rw [hS]
    simp only [scene, two_handles]
    have hgen : (Arena.new : Arena (GravityGenerator XReal)).handles = [] := rfl
    rw [hgen]
    simp only [integrateAll]
    rw [spun_integrate 1 _ _ _ 1 _ (two_get0 _ _)]
    simp only [Res.ok_bind, two_set0]
    rw [show posInf = mx none from rfl, integrate none .o .o [h1] up 1 _ (two_get1 _ _)]
    simp only [Res.ok_bind, two_set1, mx, o_scale]
    have e1 : ∀ u : Vec3 ℝ, u.scale 1 = u := fun u => by ext <;> simp
    rw [e1, e1]
  have hp := proper_fin (d := 1) (by norm_num)
  have hrec : s'.collisionRecords = [] := by
    by_contra hne
    obtain ⟨r, l, hl⟩ := List.exists_cons_of_ne_nil hne
    obtain ⟨mid, infos, st, k, i1, i2, i3, i4, -⟩ := C55_records hp hstep (i := 0) (r := r) (by rw [hl]; rfl)
    rw [hint] at i1
    simp only [Except.ok.injEq, Prod.mk.injEq] at i1
    obtain ⟨rfl, rfl⟩ := i1
    unfold iterate at i2
    simp only [Except.ok.injEq, Prod.mk.injEq, and_true] at i2
    subst i2
    have hsr := search .id (w := ({ S with collisionRecords := [], debug := [] } : System XReal (GravityGenerator XReal)).toWorld)
      (a := spun (fin 1) ⟨0, 2, 0⟩ ⟨1, -V, 0⟩ ⟨0, 0, V * V⟩) (b := dot posInf .o .o [h1] up) (C := (sphere a).setEntity (some h0)) (D := ground.setEntity (some h1))
      (by rw [hS]; rfl) (by rw [hS]; rfl) rfl rfl (by simp [spun, dot, up]) (by simp [dot, up])
      (i1 := ⟨h0, (⟨1, -V, 0⟩ : Vec3 ℝ).f, (⟨0, 0, V * V⟩ : Vec3 ℝ).f, []⟩) (i2 := ⟨h1, (Vec3.o).f, (Vec3.o).f, []⟩) rfl rfl
    have hcs : ({ S with collisionRecords := [], debug := [] } : System XReal (GravityGenerator XReal)).toWorld.colliders =
      two ((sphere a).setEntity (some h0)) (ground.setEntity (some h1)) := by rw [hS]; rfl
    have hsr := hsr.trans ((congrArg (fun x => considerPair x _ _ _ _ 0 1 h0 h1 none) hcs).trans (spun_misses hV a))
    have := C55_search hsr k i3
    rw [this] at i4
    cases i4
  obtain ⟨ph⟩ := step_phases hp hstep
  have hmid : ph.mid = { S with collisionRecords := [], debug := [] } := by
    have := ph.integrate
    rw [hint] at this
    simp only [Except.ok.injEq, Prod.mk.injEq] at this
    exact this.1.symm
  have hS0 : S.entities.get h0 = some (spun (fin 1) ⟨0, 2, 0⟩ ⟨1, -V, 0⟩ ⟨0, 0, V * V⟩) := by rw [hS]; rfl
  obtain ⟨y, hy, -, -, ho⟩ := ph.free hrec (by rw [hS]; simp [scene]) hS0 rfl (by rw [hmid]; exact hS0)
  refine ⟨s', y, hstep, hy, ?_⟩
  rw [ho]
  simp only [spun, dot, one_eq, Vec3.f_scale, Orientation.f_afterAffected, Orientation.f_position]
  rw [Vec3.f_inj]
  ext <;> simp [Orientation.after, pose]
  ring

/-- The scene with the ball over the ground is built with finite numbers only. -/
theorem ground_finite {m : ℝ} (hm : 0 ≤ m) (p v w : Vec3 ℝ) {a : ℝ} (n : Nat) (e t : XReal) (G : γ → Prop) :
    FiniteHistory G (scene (γ := γ) (spun (fin m) p v w) (dot posInf .o .o [h1] up) (sphere a) ground n e t) ∧
    FiniteHistory G (scene (γ := γ) (dot (fin m) p v [h0] up) (dot posInf .o .o [h1] up) (sphere a) ground n e t) := by
  have hx : Scalar.lt (fin m) zero = false := by simpa using hm
  have hs : ∀ (m : Option ℝ) (p v : Vec3 ℝ), FiniteEntity (source (mx m) p v) := by
    intro m p v
    refine ⟨finite3_f p, ⟨rfl, rfl, rfl⟩, finite3_f v, ⟨rfl, rfl, rfl⟩, ⟨rfl, rfl, rfl⟩, ?_⟩
    cases m <;> exact fun h => by cases h
  have key : FiniteHistory G (scene (γ := γ) (dot (fin m) p v [h0] up) (dot posInf .o .o [h1] up) (sphere a) ground n e t) := by
    refine FiniteHistory.of_steps (scene_steps hx (by simp) p v .o .o (sphere_newFrom a) ground_newFrom (sphere_weightless _ a) ground_weightless n e t) ?_ ?_
    · simp only [List.mem_cons, List.not_mem_nil, or_false]
      rintro x (rfl | rfl | rfl | rfl | rfl | rfl | rfl)
      · trivial
      · trivial
      · trivial
      · exact ⟨finite3_f _, finite3_f _, rfl, rfl, rfl⟩
      · exact ⟨finite3_f _, rfl, rfl, rfl, rfl⟩
      · exact hs none .o .o
      · exact hs (some m) p v
    · simp only [List.mem_cons, List.not_mem_nil, or_false]
      rintro x (rfl | rfl | rfl | rfl | rfl | rfl | rfl) dt h <;> cases h
  refine ⟨.call .id _ _ key ?_ (spun_exec (fin m) hx p v w (sphere_weightless _ a) n e t) (fun dt h => by cases h), key⟩
  obtain ⟨a1, a2, a3, -, a5, a6⟩ := hs (some m) p v
  exact ⟨a1, a2, a3, finite3_f w, a5, a6⟩

/-- The ball over the ground as the property sees it. -/
theorem ball_ground (m : XReal) (p v w : Vec3 ℝ) (a : ℝ) (n : Nat) (e t : XReal) :
    BallOverFloor (scene (γ := γ) (spun m p v w) (dot posInf .o .o [h1] up) (sphere a) ground n e t) h0 h1 h0 h1 (spun m p v w).makePub
      (dot posInf .o .o [h1] up).makePub ⟨some h0, (Vec3.o).f, fin 1, fin 0, ⟨fin a, fin (1 / 4), fin 0, fin 0⟩⟩
      { groundPlane with entity := some h1 } 1 p .o ⟨0, 1, 0⟩ where
  different := h0_ne_h1
  isBall := rfl
  isFloor := rfl
  hasSphere := by simp [spun, dot, makePub]
  hasPlane := by simp [dot, makePub]
  sphere := rfl
  plane := rfl
  radius := rfl
  nonneg := zero_le_one
  position := rfl
  center := by
    show (pose p).f.positionIntoWorld (Vec3.o).f = p.f
    rw [Orientation.f_positionIntoWorld _ _ (pose_unit p)]
    simp [Orientation.toWorld, pose]
  normal := rfl
  unit := by simp [Vec3.dot_def]
  through := (over_ground p a).place
  immovable := ⟨ground.setEntity (some h1), by
    simp only [linked, List.mem_filterMap]
    exact ⟨h1, by simp [dot, makePub], rfl⟩, rfl⟩
  still := ⟨rfl, rfl⟩
  strangers := by
    rintro B F hB hF
    cases hB; cases hF
    simp [spun, dot, up]

end Fluffy.Scene

namespace Fluffy.Props
open Fluffy XReal InternalEntity Step Demo Scene

/-- **C56 is false:** whatever depth `D` one allows, there is a ball with a spin, a finite distance above an immovable floor, that one step of length 1 (no gravity, no
other entities) takes more than `D` below it. -/
theorem C56_false (D : ℝ) :
    ∃ (s s' : System XReal (GravityGenerator XReal)) (ball floor ball' : Entity XReal) (sc : SphereCollider XReal) (pl : PlaneCollider XReal) (x x' : Vec3 ℝ),
      FiniteHistory (fun g : GravityGenerator XReal => Finite3 g.acceleration) s ∧ s.step .id (fin 1) = .ok s' ∧
      (∀ h e, s.getEntity h = some e → h = h0 ∨ h = h1) ∧ BallOverFloor s h0 h1 h0 h1 ball floor sc pl 1 x .o ⟨0, 1, 0⟩ ∧
      ball.lastTotalMass = fin 1 ∧ ball.colliders = [h0] ∧ floor.colliders = [h1] ∧ sc.material.restitution = fin 1 ∧ pl.material.restitution = fin 1 ∧
      clearance x .o ⟨0, 1, 0⟩ 1 = 1 ∧ s'.getEntity h0 = some ball' ∧ ball'.position = x'.f ∧ clearance x' .o ⟨0, 1, 0⟩ 1 < -D := by
  have hV : 2 ≤ |D| + 2 := by linarith [abs_nonneg D]
  obtain ⟨s', y, hs, hy, ho⟩ := spun_step hV 1 (fin 1) (fin 1)
  refine ⟨_, s', _, _, y.makePub, _, _, _, _, (ground_finite zero_le_one _ _ _ 10 (fin 1) (fin 1) _).1, hs, ?_, ball_ground (fin 1) _ _ _ 1 10 (fin 1) (fin 1),
    rfl, rfl, rfl, rfl, rfl, ?_, getEntity_iff.mpr ⟨y, hy, rfl⟩, ho, ?_⟩
  · intro h e he
    obtain ⟨E, hE, -⟩ := getEntity_iff.mp he
    have hk := Arena.mem_handles.mpr ⟨E, hE⟩
    simpa [scene] using hk
  · simp [clearance, Vec3.dot_def]; norm_num
  · simp [clearance, Vec3.dot_def]
    linarith [le_abs_self D]

/-- The bound of the partial theorems does not hold without the condition on the spin. -/
theorem C56_false_bound : ¬ ∀ (s s' : System XReal (GravityGenerator XReal)) (d r : ℝ) (bh fh ch ch' : Handle) (ball floor : Entity XReal)
    (sc : SphereCollider XReal) (pl : PlaneCollider XReal) (x P n : Vec3 ℝ), FiniteHistory (fun g : GravityGenerator XReal => Finite3 g.acceleration) s →
    1 / 1000000 ≤ d → s.step .id (fin d) = .ok s' → BallOverFloor s bh fh ch ch' ball floor sc pl r x P n →
    ∃ ball' x', s'.getEntity bh = some ball' ∧ ball'.position = Vec3.f x' ∧ min (clearance x P n r) (-eps) - eps * d ≤ clearance x' P n r := by
  intro hall
  obtain ⟨s, s', ball, floor, ball', sc, pl, x, x', h1', h2', -, h4, -, -, -, -, -, hx, hb, hx', hD⟩ := C56_false 1
  obtain ⟨b, z, hb', hz, hle⟩ := hall _ _ _ _ _ _ _ _ _ _ _ _ _ _ _ h1' (by norm_num) h2' h4
  rw [hb] at hb'; cases hb'
  rw [hx'] at hz
  rw [← (Vec3.f_inj _ _).mp hz, hx, min_eq_right (by unfold eps; norm_num)] at hle
  unfold eps at hle
  linarith

/-- The hypotheses of the partial theorems can be met: a ball without spin over the floor, with any mass, position, velocity and restitution. -/
example (m : ℝ) (hm : 0 < m) (p v : Vec3 ℝ) (a : ℝ) (ha : 0 ≤ a) (n : Nat) (e t : XReal) (d : ℝ) (hd : 1 / 1000000 ≤ d) :
    ∃ s' ball' x', System.step (γ := GravityGenerator XReal) .id (scene (spun (fin m) p v .o) (dot posInf .o .o [h1] up) (sphere a) ground n e t) (fin d) = .ok s' ∧
      s'.getEntity h0 = some ball' ∧ ball'.position = Vec3.f x' ∧
      min (clearance p .o ⟨0, 1, 0⟩ 1) (-eps) - eps * d ≤ clearance x' .o ⟨0, 1, 0⟩ 1 := by
  obtain ⟨s', hs⟩ := ground_total (fin m) p v .o a n e t (fin d)
  obtain ⟨b, x', hb⟩ := C56_alone_partial tame_gravity central_gravity (ground_finite hm.le p v .o n e t _).1 hd hs (by
    intro h e he
    obtain ⟨E, hE, -⟩ := getEntity_iff.mp he
    have hk := Arena.mem_handles.mpr ⟨E, hE⟩
    simpa [scene] using hk) (ball_ground (fin m) p v .o a n e t) rfl ⟨by simp [spun, dot, makePub]; exact hm.ne', by simp [spun, dot, makePub]⟩ rfl rfl
    (a := a) (b := 1) rfl rfl (by simpa using ha)
  exact ⟨s', b, x', hs, hb⟩

/-- The same for `C56_point_partial`. -/
theorem point_ball (m : XReal) (p v : Vec3 ℝ) (a : ℝ) (n : Nat) (e t : XReal) :
    ∀ c ∈ linked (scene (γ := GravityGenerator XReal) (spun m p v .o) (dot posInf .o .o [h1] up) (sphere a) ground n e t) (spun m p v .o).makePub,
      c.mass = fin 0 ∧ c.momentOfInertia = Mat3.o.f := by
  intro c hc
  simp only [linked, List.mem_filterMap] at hc
  obtain ⟨k, hk, hc⟩ := hc
  have : k = h0 := by simpa [spun, dot, makePub] using hk
  subst this
  cases hc
  rcases sphere_weightless (fin 1) a with ⟨h1', h2', -⟩ | ⟨h1', -⟩
  · exact ⟨h1', h2'⟩
  · cases h1'

end Fluffy.Props
