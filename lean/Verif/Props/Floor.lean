import Verif.Props.Finite
import Verif.Props.Neighbors
/- A ball over an immovable plane, through a whole step. -/
set_option linter.unusedSectionVars false
set_option linter.unusedSimpArgs false
namespace Fluffy.Step
open InternalEntity
variable {α : Type} [Scalar α]

theorem wakeIfFinite_neighbors {ord : IterOrder} {h k : Handle} {w w' : World α} (hh : wakeIfFinite ord h w = .ok w') {x y : InternalEntity α}
    (hx : w.entities.get k = some x) (hy : w'.entities.get k = some y) : ∀ j, j ∈ y.neighbors → j ∈ x.neighbors := by
  obtain ⟨e, -, (⟨-, rfl⟩ | ⟨-, b, d, hr, rfl⟩)⟩ := wakeIfFinite_spec hh
  · rw [hx] at hy; cases hy; exact fun _ h => h
  · exact fun j hj => ((wakeUp_spec hr).2.1 k x y hx hy).2.2.subset hj

/-- Waking forgets neighbours, it does not add any. -/
theorem wakeColliding_neighbors {ord : IterOrder} {best : Option (Candidate α)} {k : Handle} {w w' : World α}
    (hh : wakeColliding ord best w = .ok w') {x y : InternalEntity α}
    (hx : w.entities.get k = some x) (hy : w'.entities.get k = some y) : ∀ j, j ∈ y.neighbors → j ∈ x.neighbors := by
  unfold wakeColliding at hh
  split at hh
  · cases hh; rw [hx] at hy; cases hy; exact fun _ h => h
  · obtain ⟨m, h1, h2⟩ := Res.bind_eq_ok.mp hh
    obtain ⟨z, hz, -⟩ := (wakeIfFinite_evolves h1).2.get hx
    exact fun j hj => wakeIfFinite_neighbors h1 hx hz j (wakeIfFinite_neighbors h2 hz hy j hj)

theorem wakeIfFinite_up {ord : IterOrder} {h : Handle} {w w' : World α} (hh : wakeIfFinite ord h w = .ok w') {x y : InternalEntity α}
    (hx : w.entities.get h = some x) (hy : w'.entities.get h = some y) (hm : Scalar.isFinite x.totalMass = true) : y.asleep = false := by
  obtain ⟨e, he, (⟨hn, rfl⟩ | ⟨-, b, d, hr, rfl⟩)⟩ := wakeIfFinite_spec hh
  · rw [hx] at he; cases he; rw [hm] at hn; simp at hn
  · exact (((wakeUp_spec hr).2.1 h x y hx hy).1 .start).1

/-- A colliding entity of finite mass is awake afterwards. -/
theorem wakeColliding_up {ord : IterOrder} {k : Candidate α} {h : Handle} {w w' : World α} (hh : wakeColliding ord (some k) w = .ok w')
    (hk : k.firstHandle = h ∨ k.secondHandle = h) {x y : InternalEntity α}
    (hx : w.entities.get h = some x) (hy : w'.entities.get h = some y) (hm : Scalar.isFinite x.totalMass = true) : y.asleep = false := by
  obtain ⟨m, h1, h2⟩ := Res.bind_eq_ok.mp hh
  obtain ⟨z, hz, hr⟩ := (wakeIfFinite_evolves h1).2.get hx
  rcases hk with rfl | rfl
  · exact wakeIfFinite_awake h2 hz hy (wakeIfFinite_up h1 hx hz hm)
  · exact wakeIfFinite_up h2 hz hy (by rw [WakeRel.totalMass hr]; exact hm)

end Fluffy.Step

namespace Fluffy.Props
open InternalEntity Step XReal
variable {γ : Type}

/-! ### The pair of colliders -/

/-- A pose that does not move. -/
theorem after_o (q : Orientation ℝ) : q.after .o .o = q := by
  unfold Orientation.after
  rw [Quat.exp_o]
  cases q with
  | mk p r i =>
    simp only [Orientation.mk.injEq, and_true]
    constructor
    · ext <;> simp
    · cases r; simp [Quat.mul, Quat.e]

/-- The ball's centre stays at the entity's position. -/
theorem toWorld_center {o : Orientation ℝ} {c : Vec3 ℝ} (hc : c + o.internalOriginOffset = .o) : o.toWorld c = o.position := by
  unfold Orientation.toWorld
  rw [hc]
  ext <;> simp [Quat.rot]

/-- A ball whose centre is the entity's position, over a plane of an entity that does not move. -/
structure OverFloor (sc : SphereCollider XReal) (pl : PlaneCollider XReal) (o q : Orientation ℝ) (r : ℝ) (c P n : Vec3 ℝ) : Prop where
  radius : sc.radius = fin r
  center : sc.center = c.f
  normal : pl.normal = n.f
  centered : c + o.internalOriginOffset = .o
  place : q.f.positionIntoWorld pl.position = P.f
  unit1 : o.Unit
  unit2 : q.Unit
  nonneg : 0 ≤ r
  one : n.dot n = 1

theorem OverFloor.dispatch {sc : SphereCollider XReal} {pl : PlaneCollider XReal} {o q : Orientation ℝ} {r : ℝ} {c P n : Vec3 ℝ}
    (h : OverFloor sc pl o q r c P n) (m a : Vec3 ℝ) :
    dispatchSpherePlane sc o.f (o.f.afterAffected m.f a.f) pl q.f (q.f.afterAffected (Vec3.o).f (Vec3.o).f) =
      collideSpherePlane (fin r) o.position.f m.f P.f n.f (Vec3.o).f := by
  unfold dispatchSpherePlane
  have h1 : (o.after m a).toWorld c = o.position + m := toWorld_center (o := o.after m a) h.centered
  simp only [Orientation.f_afterAffected, after_o, h.radius, h.center, h.normal, h.place,
    Orientation.f_positionIntoWorld _ _ h.unit1, Orientation.f_positionIntoWorld _ _ (Orientation.after_unit _ h.unit1 _ _),
    toWorld_center h.centered, h1, Vec3.f_sub]
  congr 2
  · ext <;> simp
  · ext <;> simp

/-- The clearance between the ball and the plane. -/
def clearance (x P n : Vec3 ℝ) (r : ℝ) : ℝ := (x - P).dot n - r

theorem clearance_add (x y P n : Vec3 ℝ) (r : ℝ) : clearance (x + y) P n r = clearance x P n r + y.dot n := by
  unfold clearance; simp [Vec3.dot_def]; ring

theorem meets_iff {r : ℝ} (hr : 0 ≤ r) {x m P n : Vec3 ℝ} (hn : n.dot n = 1) (t : ℝ) :
    BallMeetsPlane r x m P n .o t ↔ clearance x P n r + t * m.dot n ≤ 0 := by
  unfold BallMeetsPlane
  rw [ball_plane hr hn]
  have : (along x m t - along P .o t).dot n = (x - P).dot n + t * m.dot n := by
    unfold along; simp [Vec3.dot_def]; ring
  rw [this]
  unfold clearance
  constructor <;> intro h <;> linarith

/-- What the detector says about a ball over a plane at rest: nothing, or a time. -/
theorem ball_over {r : ℝ} (hr : 0 ≤ r) {x m P n : Vec3 ℝ} (hn : n.dot n = 1) :
    (collideSpherePlane (fin r) x.f m.f P.f n.f (Vec3.o).f = none ∧ 0 < clearance x P n r ∧ (-eps < m.dot n ∨ 0 < clearance x P n r + m.dot n)) ∨
    ∃ C t, collideSpherePlane (fin r) x.f m.f P.f n.f (Vec3.o).f = some C ∧ C.times.min = fin t ∧ 0 ≤ t ∧ t ≤ 1 ∧
      C.position = (x + m.scale t - n.scale r).f ∧ C.normal = (-n).f ∧
      (t = 0 ∧ clearance x P n r ≤ 0 ∨ 0 < clearance x P n r ∧ clearance x P n r + t * m.dot n = 0) := by
  have hm0 : (m - Vec3.o).dot n = m.dot n := by simp [Vec3.dot_def]
  by_cases hv : eps ≤ |m.dot n|
  · rcases C42_spherePlane_partial hr (c := x) (m := m) (p := P) (v := .o) hn (by rw [hm0]; exact hv) with ⟨h1, h2⟩ | ⟨C, t, h1, h2, h3, h4, h5⟩
    · left
      have a0 := h2 0 le_rfl zero_le_one
      have a1 := h2 1 zero_le_one le_rfl
      rw [meets_iff hr hn] at a0 a1
      push Not at a0 a1
      exact ⟨h1, by linarith, Or.inr (by linarith)⟩
    · right
      obtain ⟨⟨t0, t1, h3⟩, hf⟩ := h3
      rw [meets_iff hr hn] at h3
      refine ⟨C, t, h1, h2, t0, t1, h4, h5, ?_⟩
      by_cases hc : clearance x P n r ≤ 0
      · left
        have := hf 0 le_rfl zero_le_one ((meets_iff hr hn 0).mpr (by linarith))
        exact ⟨le_antisymm this t0, hc⟩
      · right
        push Not at hc
        refine ⟨hc, le_antisymm h3 ?_⟩
        by_contra hlt
        push Not at hlt
        have hmn : m.dot n < 0 := by
          by_contra hge
          push Not at hge
          have := mul_nonneg t0 hge
          linarith
        have hu0 : 0 ≤ clearance x P n r / -(m.dot n) := div_nonneg hc.le (by linarith)
        have hut : clearance x P n r / -(m.dot n) < t := by
          rw [div_lt_iff₀ (by linarith)]; linarith
        have := hf (clearance x P n r / -(m.dot n)) hu0 (by linarith) ((meets_iff hr hn _).mpr (by
          have h0 : m.dot n ≠ 0 := hmn.ne
          have : clearance x P n r / -m.dot n * m.dot n = -clearance x P n r := by field_simp
          rw [this]; linarith))
        linarith
  · push Not at hv
    rcases C42_spherePlane_slow hr (c := x) (m := m) (p := P) (v := .o) hn (by rw [hm0]; exact hv) with ⟨h1, h2⟩ | ⟨C, h1, h2, h3, h4, h5⟩
    · left
      rw [meets_iff hr hn] at h2
      push Not at h2
      exact ⟨h1, by linarith, Or.inl (abs_lt.mp hv).1⟩
    · right
      rw [meets_iff hr hn] at h3
      refine ⟨C, 0, h1, h2, le_rfl, zero_le_one, ?_, h5, Or.inl ⟨rfl, by linarith⟩⟩
      rw [h4, Vec3.f_inj]; ext <;> simp

/-! ### One iteration -/

/-- The two entities in the loop, `B` with the ball `ch` and `F` with the plane `ch'`, neither remembering the other. -/
structure Facing (w : World XReal) (infos : List (StepInfo XReal)) (ib jf : StepInfo XReal) (B F : InternalEntity XReal) (ch ch' : Handle)
    (sc : SphereCollider XReal) (pl : PlaneCollider XReal) (o q : Orientation ℝ) (r : ℝ) (c P n v a m am : Vec3 ℝ) : Prop where
  mem1 : ib ∈ infos
  mem2 : jf ∈ infos
  ne : ib.handle ≠ jf.handle
  get1 : w.entities.get ib.handle = some B
  get2 : w.entities.get jf.handle = some F
  free1 : jf.handle ∉ B.neighbors
  free2 : ib.handle ∉ F.neighbors
  col1 : ch ∈ B.colliders
  col2 : ch' ∈ F.colliders
  ball : w.colliders.get ch = some (.sphere sc)
  plane : w.colliders.get ch' = some (.plane pl)
  pose1 : B.orientation = o.f
  pose2 : F.orientation = q.f
  over : OverFloor sc pl o q r c P n
  vel1 : B.velocity = v.f
  ang1 : B.angularVelocity = a.f
  vel2 : F.velocity = (Vec3.o).f
  ang2 : F.angularVelocity = (Vec3.o).f
  mov1 : ib.linearMovement = m.f
  turn1 : ib.angularMovement = am.f
  mov2 : jf.linearMovement = (Vec3.o).f
  turn2 : jf.angularMovement = (Vec3.o).f

section
variable {w : World XReal} {infos : List (StepInfo XReal)} {ib jf : StepInfo XReal} {B F : InternalEntity XReal} {ch ch' : Handle}
    {sc : SphereCollider XReal} {pl : PlaneCollider XReal} {o q : Orientation ℝ} {r : ℝ} {c P n v a m am : Vec3 ℝ}

theorem Facing.speeds (h : Facing w infos ib jf B F ch ch' sc pl o q r c P n v a m am) (x : Vec3 ℝ) :
    B.velocityAt x.f = (v + a.cross (x - o.position)).f ∧ F.velocityAt x.f = (Vec3.o).f := by
  unfold InternalEntity.velocityAt
  rw [h.vel1, h.ang1, h.vel2, h.ang2, h.pose1, h.pose2]
  refine ⟨by simp, ?_⟩
  simp only [Orientation.f_position, Vec3.f_sub, Vec3.f_cross, Vec3.f_add, Vec3.f_inj]
  ext <;> simp

/-- A contact of the ball and the plane is a contact for the search, in whichever order the entities come. -/
theorem Facing.contact (h : Facing w infos ib jf B F ch ch' sc pl o q r c P n v a m am) {C : Collision XReal} {t : ℝ}
    (hC : collideSpherePlane (fin r) o.position.f m.f P.f n.f (Vec3.o).f = some C) (ht : C.times.min = fin t)
    (hp : C.position = (o.position + m.scale t - n.scale r).f) (hn : C.normal = (-n).f)
    (hs : eps ≤ -(v + a.cross (m.scale t)).dot n) : ∃ k, Contact w infos k ∧ k.percent = fin t := by
  obtain ⟨i, hi⟩ := List.getElem?_of_mem h.mem1
  obtain ⟨j, hj⟩ := List.getElem?_of_mem h.mem2
  obtain ⟨s1, s2⟩ := h.speeds (o.position + m.scale t - n.scale r)
  have hcl : (v + a.cross (o.position + m.scale t - n.scale r - o.position)).dot n = (v + a.cross (m.scale t)).dot n := by
    have : (a.cross (n.scale r)).dot n = 0 := by simp [Vec3.dot_def]; ring
    have h2 : (v + a.cross (o.position + m.scale t - n.scale r - o.position)).dot n =
        (v + a.cross (m.scale t)).dot n - (a.cross (n.scale r)).dot n := by simp [Vec3.dot_def]; ring
    rw [h2, this, sub_zero]
  have hdis := h.over.dispatch m am
  rw [hC] at hdis
  have hne : i ≠ j := by
    rintro rfl
    rw [hi] at hj; cases hj
    exact h.ne rfl
  rcases lt_or_gt_of_ne hne with hij | hij
  · refine ⟨_, ⟨i, j, ib, jf, hij, hi, hj, B, F, h.get1, h.get2, h.ne, h.free1, h.free2, ch, h.col1, ch', h.col2,
      .sphere sc, .plane pl, C, h.ball, h.plane, ?_, ?_, rfl⟩, ht⟩
    · unfold collide
      rw [h.pose1, h.pose2, h.mov1, h.turn1, h.mov2, h.turn2]
      simp only [hdis]
    · rw [hp, hn, s1, s2]
      simp only [Vec3.f_sub, Vec3.f_dot, EPSILON_eq, fin_lt, decide_eq_false_iff_not, not_lt]
      have e1 : (v + a.cross (o.position + m.scale t - n.scale r - o.position) - Vec3.o).dot (-n) =
          -(v + a.cross (o.position + m.scale t - n.scale r - o.position)).dot n := by simp [Vec3.dot_def]; ring
      rw [e1, hcl]; exact hs
  · refine ⟨_, ⟨j, i, jf, ib, hij, hj, hi, F, B, h.get2, h.get1, h.ne.symm, h.free2, h.free1, ch', h.col2, ch, h.col1,
      .plane pl, .sphere sc, C.flip, h.plane, h.ball, ?_, ?_, rfl⟩, ht⟩
    · unfold collide
      rw [h.pose1, h.pose2, h.mov1, h.turn1, h.mov2, h.turn2]
      simp only [hdis, Option.map_some]
    · have f1 : C.flip.position = (o.position + m.scale t - n.scale r).f := hp
      have f2 : C.flip.normal = n.f := by
        unfold Collision.flip
        simp only [hn, lit_eq, Vec3.f_scale, Vec3.f_inj]
        ext <;> simp
      rw [f1, f2, s1, s2]
      simp only [Vec3.f_sub, Vec3.f_dot, EPSILON_eq, fin_lt, decide_eq_false_iff_not, not_lt]
      have e1 : (Vec3.o - (v + a.cross (o.position + m.scale t - n.scale r - o.position))).dot n =
          -(v + a.cross (o.position + m.scale t - n.scale r - o.position)).dot n := by simp [Vec3.dot_def]; ring
      rw [e1, hcl]; exact hs

/-- A search does not go past a contact. -/
theorem search_before {ord : IterOrder} {best : Option (Candidate XReal)} (hs : searchFirst ord w 0 infos none = .ok best)
    {k : Candidate XReal} (hk : Contact w infos k) {t p : ℝ} (ht : k.percent = fin t) (hp : percentOf best = fin p) : p ≤ t := by
  have := C55_search hs
  cases best with
  | none =>
    have h1 := this k hk
    rw [ht, one_eq] at h1
    have hp' : (1 : ℝ) = p := by
      have : (one : XReal) = fin p := hp
      rw [one_eq] at this; exact fin_inj.mp this
    rw [← hp']
    simpa using h1
  | some b =>
    have h1 := this.2.2 k hk
    have hb : b.percent = fin p := hp
    rw [ht, hb] at h1
    simpa using h1

/-- How far the ball can sink in one iteration: not at all if it was in the plane already and sinks fast enough, not into the plane if it was over
it and sinks fast enough; the cut-offs leave a sinking speed of `EPSILON` and a sinking depth of `EPSILON`. -/
theorem Facing.descends (h : Facing w infos ib jf B F ch ch' sc pl o q r c P n v a m am) {ord : IterOrder} {best : Option (Candidate XReal)}
    (hs : searchFirst ord w 0 infos none = .ok best) {p τ : ℝ} (hp : percentOf best = fin p) (p0 : 0 ≤ p) (p1 : p ≤ 1) (hτ : 0 ≤ τ)
    (hm : m = v.scale τ) (hav : a = .o ∨ 0 ≤ v.dot n) :
    min (clearance o.position P n r) (-eps) - eps * (p * τ) ≤ clearance o.position P n r + p * (τ * v.dot n) := by
  have hmn : m.dot n = τ * v.dot n := by rw [hm]; simp [Vec3.dot_def]; ring
  have he : (0 : ℝ) < eps := by unfold eps; norm_num
  have hpt : 0 ≤ p * τ := mul_nonneg p0 hτ
  have hl := min_le_left (clearance o.position P n r) (-eps)
  have hrr := min_le_right (clearance o.position P n r) (-eps)
  have hept : 0 ≤ eps * (p * τ) := mul_nonneg he.le hpt
  by_cases hu : -eps ≤ v.dot n
  · have : p * τ * -eps ≤ p * τ * v.dot n := mul_le_mul_of_nonneg_left hu hpt
    nlinarith
  · push Not at hu
    have ha : a = .o := hav.resolve_right (by linarith)
    have hneg : τ * v.dot n ≤ 0 := mul_nonpos_of_nonneg_of_nonpos hτ (by linarith)
    have hstep : τ * v.dot n ≤ p * (τ * v.dot n) := by nlinarith
    rcases ball_over (r := r) h.over.nonneg (x := o.position) (m := m) (P := P) (n := n) h.over.one with
      ⟨-, h1, h2⟩ | ⟨C, t, h1, h2, t0, t1, h3, h4, h5⟩
    · rw [hmn] at h2
      rcases h2 with h2 | h2 <;> linarith
    · obtain ⟨k, hk, hkt⟩ := h.contact h1 h2 h3 h4 (by
        have : (v + a.cross (m.scale t)).dot n = v.dot n := by rw [ha]; simp [Vec3.dot_def]
        rw [this]; linarith)
      have hle := search_before hs hk hkt hp
      rw [hmn] at h5
      rcases h5 with ⟨rfl, -⟩ | ⟨-, h5⟩
      · have : p = 0 := le_antisymm hle p0
        subst this
        linarith
      · have : t * (τ * v.dot n) ≤ p * (τ * v.dot n) := by nlinarith
        linarith

/-- The constants of a contact, those of the two colliders in one order or the other. -/
def Constants (k : Candidate XReal) (m1 m2 : Material XReal) : Prop :=
  k.restitution = m1.restitution * m2.restitution ∧ k.frictionThreshold = m1.frictionThreshold * m2.frictionThreshold ∧
    k.staticFriction = m1.staticFriction * m2.staticFriction ∧ k.dynamicFriction = m1.dynamicFriction * m2.dynamicFriction

/-- If the ball and the plane are the only colliders of the two entities and the search found the two, the ball was sinking and has
come down to the plane. -/
theorem Facing.met (h : Facing w infos ib jf B F ch ch' sc pl o q r c P n v a m am) (hnd : (infos.map StepInfo.handle).Nodup)
    (only1 : B.colliders = [ch]) (only2 : F.colliders = [ch']) {k : Candidate XReal} (hk : Contact w infos k)
    (hb : k.firstHandle = ib.handle ∧ k.secondHandle = jf.handle ∨ k.firstHandle = jf.handle ∧ k.secondHandle = ib.handle) {τ : ℝ} (hτ : 0 ≤ τ)
    (hm : m = v.scale τ) (hav : a = .o ∨ 0 ≤ v.dot n ∨ clearance o.position P n r ≤ 0) :
    v.dot n ≤ -eps ∧ ∃ t, k.percent = fin t ∧ k.collision.position = (o.position + m.scale t - n.scale r).f ∧
      k.collision.normal = (if k.firstHandle = ib.handle then -n else n).f ∧ clearance o.position P n r + t * m.dot n ≤ 0 ∧
      (Constants k sc.material pl.material ∨ Constants k pl.material sc.material) := by
  obtain ⟨i, j, i1, i2, hij, hi, hj, first, second, g1, g2, hne, -, -, ch1, m1, ch2, m2, c1, c2, C, k1, k2, hC, hcl, rfl⟩ := hk
  have hmn : m.dot n = τ * v.dot n := by rw [hm]; simp [Vec3.dot_def]; ring
  have uniq : ∀ {x y : StepInfo XReal}, x ∈ infos → y ∈ infos → x.handle = y.handle → x = y := by
    intro x y hx hy hxy
    exact List.inj_on_of_nodup_map hnd hx hy hxy
  have hdis := h.over.dispatch m am
  have main : ∀ {D : Collision XReal}, collideSpherePlane (fin r) o.position.f m.f P.f n.f (Vec3.o).f = some D →
      (∀ t, D.times.min = fin t → D.position = (o.position + m.scale t - n.scale r).f →
        eps ≤ -(v + a.cross (m.scale t)).dot n) →
      v.dot n ≤ -eps ∧ ∃ t, D.times.min = fin t ∧ D.position = (o.position + m.scale t - n.scale r).f ∧ D.normal = (-n).f ∧
        clearance o.position P n r + t * m.dot n ≤ 0 := by
    intro D hD hspeed
    rcases ball_over (r := r) h.over.nonneg (x := o.position) (m := m) (P := P) (n := n) h.over.one with
      ⟨h1, -⟩ | ⟨C', t, h1, h2, t0, t1, h3, h4, h5⟩
    · rw [hD] at h1; cases h1
    · rw [hD] at h1; cases h1
      have hs := hspeed t h2 h3
      have he : (0 : ℝ) < eps := by unfold eps; norm_num
      have hfast : (v + a.cross (m.scale t)).dot n = v.dot n ∨ 0 ≤ v.dot n := by
        rcases hav with ha | hv | ht
        · left; rw [ha]; simp [Vec3.dot_def]
        · exact Or.inr hv
        · rcases h5 with ⟨rfl, -⟩ | ⟨h5, -⟩
          · left; simp [Vec3.dot_def]
          · linarith
      refine ⟨?_, t, h2, h3, h4, ?_⟩
      rotate_left
      · rcases h5 with ⟨rfl, h5⟩ | ⟨-, h5⟩
        · rw [zero_mul, add_zero]; exact h5
        · exact h5.le
      rcases hfast with h | hv
      · rw [h] at hs; linarith
      · exfalso
        rcases h5 with ⟨rfl, -⟩ | ⟨h5, h6⟩
        · have : (v + a.cross (m.scale 0)).dot n = v.dot n := by simp [Vec3.dot_def]
          rw [this] at hs; linarith
        · rw [hmn] at h6
          have := mul_nonneg t0 (mul_nonneg hτ hv)
          linarith
  have hcl' : ∀ t, (v + a.cross (o.position + m.scale t - n.scale r - o.position)).dot n = (v + a.cross (m.scale t)).dot n := by
    intro t
    have : (a.cross (n.scale r)).dot n = 0 := by simp [Vec3.dot_def]; ring
    have h2 : (v + a.cross (o.position + m.scale t - n.scale r - o.position)).dot n =
        (v + a.cross (m.scale t)).dot n - (a.cross (n.scale r)).dot n := by simp [Vec3.dot_def]; ring
    rw [h2, this, sub_zero]
  rcases hb with ⟨e1, e2⟩ | ⟨e1, e2⟩
  · simp only at e1 e2
    have := uniq (List.mem_of_getElem? hi) h.mem1 e1
    have := uniq (List.mem_of_getElem? hj) h.mem2 e2
    subst i1 i2
    rw [h.get1] at g1; cases g1
    rw [h.get2] at g2; cases g2
    rw [only1, List.mem_singleton] at m1
    rw [only2, List.mem_singleton] at m2
    subst m1 m2
    rw [h.ball] at k1; cases k1
    rw [h.plane] at k2; cases k2
    unfold collide at hC
    rw [h.pose1, h.pose2, h.mov1, h.turn1, h.mov2, h.turn2] at hC
    simp only [hdis, Except.ok.injEq] at hC
    obtain ⟨a2, t, a3, a4, a5, a6⟩ := main hC (by
      intro t ht hp
      have hn := (C44_spherePlane h.over.nonneg h.over.one hC).1
      rw [hp, hn, (h.speeds _).1, (h.speeds _).2] at hcl
      simp only [Vec3.f_sub, Vec3.f_dot, EPSILON_eq, fin_lt, decide_eq_false_iff_not, not_lt] at hcl
      have e1 : (v + a.cross (o.position + m.scale t - n.scale r - o.position) - Vec3.o).dot (-n) =
          -(v + a.cross (o.position + m.scale t - n.scale r - o.position)).dot n := by simp [Vec3.dot_def]; ring
      rw [e1, hcl'] at hcl; exact hcl)
    refine ⟨a2, t, a3, a4, ?_⟩
    simp only [if_true]; exact ⟨a5, a6, Or.inl ⟨rfl, rfl, rfl, rfl⟩⟩
  · simp only at e1 e2
    have := uniq (List.mem_of_getElem? hi) h.mem2 e1
    have := uniq (List.mem_of_getElem? hj) h.mem1 e2
    subst i1 i2
    rw [h.get2] at g1; cases g1
    rw [h.get1] at g2; cases g2
    rw [only2, List.mem_singleton] at m1
    rw [only1, List.mem_singleton] at m2
    subst m1 m2
    rw [h.plane] at k1; cases k1
    rw [h.ball] at k2; cases k2
    unfold collide at hC
    rw [h.pose1, h.pose2, h.mov1, h.turn1, h.mov2, h.turn2] at hC
    simp only [hdis, Except.ok.injEq, Option.map_eq_some_iff] at hC
    obtain ⟨D, hD, rfl⟩ := hC
    have hn := (C44_spherePlane h.over.nonneg h.over.one hD).1
    have f2 : D.flip.normal = n.f := by
      unfold Collision.flip
      simp only [hn, lit_eq, Vec3.f_scale, Vec3.f_inj]
      ext <;> simp
    obtain ⟨a2, t, a3, a4, a5, a6⟩ := main hD (by
      intro t ht hp
      have f1 : D.flip.position = (o.position + m.scale t - n.scale r).f := hp
      rw [f1, f2, (h.speeds _).1, (h.speeds _).2] at hcl
      simp only [Vec3.f_sub, Vec3.f_dot, EPSILON_eq, fin_lt, decide_eq_false_iff_not, not_lt] at hcl
      have e1 : (Vec3.o - (v + a.cross (o.position + m.scale t - n.scale r - o.position))).dot n =
          -(v + a.cross (o.position + m.scale t - n.scale r - o.position)).dot n := by simp [Vec3.dot_def]; ring
      rw [e1, hcl'] at hcl; exact hcl)
    refine ⟨a2, t, a3, a4, ?_⟩
    simp only [if_neg hne]; exact ⟨f2, a6, Or.inr ⟨rfl, rfl, rfl, rfl⟩⟩

theorem Facing.found (h : Facing w infos ib jf B F ch ch' sc pl o q r c P n v a m am) (hnd : (infos.map StepInfo.handle).Nodup)
    (only1 : B.colliders = [ch]) (only2 : F.colliders = [ch']) {k : Candidate XReal} (hk : Contact w infos k)
    (hb : k.firstHandle = ib.handle ∧ k.secondHandle = jf.handle ∨ k.firstHandle = jf.handle ∧ k.secondHandle = ib.handle) {τ : ℝ} (hτ : 0 ≤ τ)
    (hm : m = v.scale τ) (hav : a = .o ∨ 0 ≤ v.dot n ∨ clearance o.position P n r ≤ 0) :
    v.dot n ≤ -eps ∧ ∃ t, k.percent = fin t ∧ k.collision.position = (o.position + m.scale t - n.scale r).f ∧
      k.collision.normal = (if k.firstHandle = ib.handle then -n else n).f ∧
      (Constants k sc.material pl.material ∨ Constants k pl.material sc.material) := by
  obtain ⟨h1, t, h2, h3, h4, -, h5⟩ := h.met hnd only1 only2 hk hb hτ hm hav
  exact ⟨h1, t, h2, h3, h4, h5⟩

theorem Facing.hit (h : Facing w infos ib jf B F ch ch' sc pl o q r c P n v a m am) (hnd : (infos.map StepInfo.handle).Nodup)
    (only1 : B.colliders = [ch]) (only2 : F.colliders = [ch']) {k : Candidate XReal} (hk : Contact w infos k)
    (hb : k.firstHandle = ib.handle ∧ k.secondHandle = jf.handle ∨ k.firstHandle = jf.handle ∧ k.secondHandle = ib.handle) {τ : ℝ} (hτ : 0 ≤ τ)
    (hm : m = v.scale τ) (hav : a = .o ∨ 0 ≤ v.dot n) :
    a = .o ∧ v.dot n ≤ -eps ∧ ∃ t, k.percent = fin t ∧ k.collision.position = (o.position + m.scale t - n.scale r).f ∧
      k.collision.normal = (if k.firstHandle = ib.handle then -n else n).f ∧
      (k.restitution = sc.material.restitution * pl.material.restitution ∨ k.restitution = pl.material.restitution * sc.material.restitution) := by
  obtain ⟨h1, t, h2, h3, h4, h5⟩ := h.found hnd only1 only2 hk hb hτ hm (hav.imp id Or.inl)
  have he : (0 : ℝ) < eps := by unfold eps; norm_num
  exact ⟨hav.resolve_right (fun h => by linarith), h1, t, h2, h3, h4, h5.imp And.left And.left⟩

end

/-! ### The response -/

/-- An immovable body: infinite mass, no moment of inertia, at rest. -/
structure Fixed (f : Body) : Prop where
  im : f.im = 0
  W : f.W = .o
  vel : f.vel = .o
  ang : f.ang = .o

theorem Fixed.kick {f : Body} (h : Fixed f) (p j : Vec3 ℝ) : f.kick p j = f := by
  unfold Body.kick; simp [h.im, h.W]

theorem sliding_perp {b1 b2 : Body} {p N : Vec3 ℝ} (hN : N.dot N = 1) : (Body.sliding b1 b2 p N).dot N = 0 := by
  unfold Body.sliding Body.closing
  generalize b1.at' p - b2.at' p = d
  have : (d - N.scale (d.dot N)).dot N = d.dot N - d.dot N * N.dot N := by simp [Vec3.dot_def]; ring
  rw [this, hN]; ring

theorem friction_perp {b1 b2 : Body} {μ : ℝ} {J p N : Vec3 ℝ} (hN : N.dot N = 1) : (Body.frictionImpulse b1 b2 μ J p N).dot N = 0 := by
  unfold Body.frictionImpulse
  rw [Vec3.scale_dot, sliding_perp hN]; ring

/-- A body hit on the line through its centre along the normal, by an immovable one, bounces back along the normal with the restitution, friction or not. -/
theorem bounce_first {b f : Body} (hf : Fixed f) (hb : 0 < b.im) {p N : Vec3 ℝ} {l : ℝ} (hN : N.dot N = 1) (hp : p - b.pos = N.scale l)
    (e μ : ℝ) : let J := Body.normalImpulse b f e p N
    ((b.kick p J).kick p (Body.frictionImpulse (b.kick p J) (f.kick p (-J)) μ J p N)).vel.dot N = -e * b.vel.dot N := by
  intro J
  have h1 : (b.kick p J).kick p (Body.frictionImpulse (b.kick p J) (f.kick p (-J)) μ J p N) = _ := rfl
  have hcr : (p - b.pos).cross N = .o := by rw [hp]; ext <;> simp <;> ring
  have hd : Body.denom b f p N = b.im := by
    unfold Body.denom Body.comply
    rw [hcr, hf.im, hf.W]; simp
  have hc : Body.closing b f p N = b.vel.dot N := by
    unfold Body.closing Body.at'
    rw [hf.vel, hf.ang, hp]
    have : (b.ang.cross (N.scale l)).dot N = 0 := by simp [Vec3.dot_def]; ring
    have h2 : (b.vel + b.ang.cross (N.scale l) - (Vec3.o + Vec3.o.cross (p - f.pos))).dot N = b.vel.dot N + (b.ang.cross (N.scale l)).dot N := by
      simp [Vec3.dot_def]; ring
    rw [h2, this, add_zero]
  have hJ : J = N.scale (-(1 + e) * b.vel.dot N / b.im) := by
    show Body.normalImpulse b f e p N = _
    unfold Body.normalImpulse; rw [hd, hc]
  have hF := friction_perp (b1 := b.kick p J) (b2 := f.kick p (-J)) (μ := μ) (J := J) (p := p) hN
  generalize Body.frictionImpulse (b.kick p J) (f.kick p (-J)) μ J p N = G at hF
  have : ((b.kick p J).kick p G).vel = b.vel + J.scale b.im + G.scale b.im := rfl
  rw [this, Vec3.add_dot, Vec3.add_dot, Vec3.scale_dot, Vec3.scale_dot, hF, hJ, Vec3.scale_dot, hN]
  field_simp
  ring

theorem bounce_second {b f : Body} (hf : Fixed f) (hb : 0 < b.im) {p N : Vec3 ℝ} {l : ℝ} (hN : N.dot N = 1) (hp : p - b.pos = N.scale l)
    (e μ : ℝ) : let J := Body.normalImpulse f b e p N
    ((b.kick p (-J)).kick p (-Body.frictionImpulse (f.kick p J) (b.kick p (-J)) μ J p N)).vel.dot N = -e * b.vel.dot N := by
  intro J
  have hcr : (p - b.pos).cross N = .o := by rw [hp]; ext <;> simp <;> ring
  have hd : Body.denom f b p N = b.im := by
    unfold Body.denom Body.comply
    rw [hcr, hf.im, hf.W]; simp
  have hc : Body.closing f b p N = -b.vel.dot N := by
    unfold Body.closing Body.at'
    rw [hf.vel, hf.ang, hp]
    have : (b.ang.cross (N.scale l)).dot N = 0 := by simp [Vec3.dot_def]; ring
    have h2 : (Vec3.o + Vec3.o.cross (p - f.pos) - (b.vel + b.ang.cross (N.scale l))).dot N = -b.vel.dot N - (b.ang.cross (N.scale l)).dot N := by
      simp [Vec3.dot_def]; ring
    rw [h2, this, sub_zero]
  have hJ : J = N.scale (-(1 + e) * -b.vel.dot N / b.im) := by
    show Body.normalImpulse f b e p N = _
    unfold Body.normalImpulse; rw [hd, hc]
  have hF := friction_perp (b1 := f.kick p J) (b2 := b.kick p (-J)) (μ := μ) (J := J) (p := p) hN
  generalize Body.frictionImpulse (f.kick p J) (b.kick p (-J)) μ J p N = G at hF
  have : ((b.kick p (-J)).kick p (-G)).vel = b.vel - J.scale b.im - G.scale b.im := by
    show b.vel + (-J).scale b.im + (-G).scale b.im = _
    ext <;> simp <;> ring
  rw [this, Vec3.sub_dot, Vec3.sub_dot, Vec3.scale_dot, Vec3.scale_dot, hF, hJ, Vec3.scale_dot, hN]
  field_simp
  ring

theorem fixed_of {F : InternalEntity XReal} {f : Body} (ho : f.Of F) (hm : F.totalMass = posInf) (hI : F.momentOfInertia = Mat3.o.f)
    (hv : F.velocity = (Vec3.o).f) (ha : F.angularVelocity = (Vec3.o).f) : Fixed f := by
  refine ⟨?_, ?_, ?_, ?_⟩
  · have := ho.mass
    rw [hm] at this
    unfold Body.im
    rcases hb : f.mass with _ | x
    · rfl
    · rw [hb] at this; cases this
  · have := ho.inertia
    rw [hI, Mat3.f_inj] at this
    unfold Body.W; rw [← this]; exact Mat3.inv_of_det (by simp [Mat3.det, Mat3.o])
  · have := ho.vel
    rw [hv, Vec3.f_inj] at this; exact this.symm
  · have := ho.ang
    rw [ha, Vec3.f_inj] at this; exact this.symm

/-- A body without a moment of inertia keeps its spin. -/
theorem spin_kick {b : Body} (h : b.inertia = .o) (p j : Vec3 ℝ) : (b.kick p j).ang = b.ang := by
  have hW : b.W = Mat3.o := by unfold Body.W; rw [h]; exact Mat3.inv_of_det (by simp [Mat3.det, Mat3.o])
  unfold Body.kick; simp [hW]

/-! ### The loop -/

/-- No contact can make the body spin, however it is hit: the ball at its centre is all it has and is without friction, and everything
else there is to hit consists of planes. -/
structure Slick (s : System XReal γ) (bh ch : Handle) (B0 : InternalEntity XReal) (sc : SphereCollider XReal) : Prop where
  sole : B0.colliders = [ch]
  mass : B0.totalMass ≠ posInf
  static : sc.material.staticFriction = fin 0
  dynamic : sc.material.dynamicFriction = fin 0
  planes : ∀ k E, s.entities.get k = some E → k ≠ bh → ∀ j ∈ E.colliders, ∃ pl, s.colliders.get j = some (.plane pl)

/-- The two entities at the start of the step.  If `A`, the ball has no moment of inertia or cannot be made to spin; otherwise the ball and the plane are the only colliders. -/
structure Setting (s : System XReal γ) (A : Prop) (bh fh ch ch' : Handle) (B0 F0 : InternalEntity XReal) (sc : SphereCollider XReal)
    (pl : PlaneCollider XReal) (q : Orientation ℝ) (r : ℝ) (c P n : Vec3 ℝ) : Prop where
  ne : bh ≠ fh
  get1 : s.entities.get bh = some B0
  get2 : s.entities.get fh = some F0
  col1 : ch ∈ B0.colliders
  col2 : ch' ∈ F0.colliders
  ball : s.colliders.get ch = some (.sphere sc)
  plane : s.colliders.get ch' = some (.plane pl)
  radius : sc.radius = fin r
  center : sc.center = c.f
  normal : pl.normal = n.f
  place : q.f.positionIntoWorld pl.position = P.f
  unit : q.Unit
  nonneg : 0 ≤ r
  one : n.dot n = 1
  heavy : F0.totalMass = posInf
  still : F0.preppedMoment = Mat3.o.f
  point : A → (∀ o : Orientation ℝ, o.Unit → o.f.finalizeMomentOfInertia B0.preppedMoment = Mat3.o.f) ∨ Slick s bh ch B0 sc
  only : ¬A → B0.colliders = [ch] ∧ F0.colliders = [ch'] ∧ ∃ ρ : ℝ, 0 ≤ ρ ∧ sc.material.restitution * pl.material.restitution = fin ρ ∧
    pl.material.restitution * sc.material.restitution = fin ρ

/-- The floor is where it was, the ball is not deeper than `K`, and if it spins it does not sink. -/
def Hover (A : Prop) (bh fh : Handle) (q : Orientation ℝ) (r : ℝ) (c P n : Vec3 ℝ) (K : ℝ) (w : World XReal) : Prop :=
  ∃ (B F : InternalEntity XReal) (o : Orientation ℝ) (v a : Vec3 ℝ), w.entities.get bh = some B ∧ w.entities.get fh = some F ∧
    B.orientation = o.f ∧ o.Unit ∧ c + o.internalOriginOffset = .o ∧ B.velocity = v.f ∧ B.angularVelocity = a.f ∧
    F.orientation = q.f ∧ F.velocity = (Vec3.o).f ∧ F.angularVelocity = (Vec3.o).f ∧ fh ∉ B.neighbors ∧ bh ∉ F.neighbors ∧
    (a = .o ∨ ¬A ∧ 0 ≤ v.dot n) ∧ K ≤ clearance o.position P n r

/-- The response to a sound contact, as impulses on two bodies. -/
theorem respond_bodies {w0 : World XReal} {dt : XReal} {k : Candidate XReal} {st st' : LoopState XReal} (hh : respond dt k st = .ok st')
    (hf : Frame w0 st.world) (hc : ∀ j c, w0.colliders.get j = some c → FiniteNumbers c)
    (hk : ∃ ch1 ch2 c1 c2, w0.colliders.get ch1 = some c1 ∧ w0.colliders.get ch2 = some c2 ∧
      k.restitution = c1.material.restitution * c2.material.restitution ∧
      k.staticFriction = c1.material.staticFriction * c2.material.staticFriction ∧
      k.dynamicFriction = c1.material.dynamicFriction * c2.material.dynamicFriction)
    (hfw : FineWorld st.world) (hs : ∀ r ∈ st'.world.collisionRecords, SoundIn w0.entities r) :
    ∃ e1 e2 R1 R2 b1 b2 p N ρ μ J, k.firstHandle ≠ k.secondHandle ∧ st.world.entities.get k.firstHandle = some e1 ∧
      st.world.entities.get k.secondHandle = some e2 ∧ b1.Of e1 ∧ b2.Of e2 ∧ b1.Physical ∧ b2.Physical ∧
      (e1.totalMass ≠ posInf → 0 < b1.im) ∧ (e2.totalMass ≠ posInf → 0 < b2.im) ∧ (e1.totalMass ≠ posInf ∨ e2.totalMass ≠ posInf) ∧
      k.collision.position = p.f ∧ k.collision.normal = N.f ∧ k.restitution = fin ρ ∧ J = Body.normalImpulse b1 b2 ρ p N ∧
      VelRel e1 R1 ∧ VelRel e2 R2 ∧
      ((b1.kick p J).kick p (Body.frictionImpulse (b1.kick p J) (b2.kick p (-J)) μ J p N)).Of R1 ∧
      ((b2.kick p (-J)).kick p (-Body.frictionImpulse (b1.kick p J) (b2.kick p (-J)) μ J p N)).Of R2 ∧
      (∀ h, st'.world.entities.get h = if h = k.secondHandle then some R2 else if h = k.firstHandle then some R1 else st.world.entities.get h) ∧
      (∃ rec, st'.world.collisionRecords = st.world.collisionRecords ++ [rec] ∧ rec.firstEntity = k.firstHandle ∧ rec.secondEntity = k.secondHandle) ∧
      (k.staticFriction = fin 0 → k.dynamicFriction = fin 0 → μ = 0) := by
  obtain ⟨e1, e2, i1, i2, hne, g1, g2, n1, n2, rfl⟩ := respond_spec hh
  obtain ⟨s1, s2, s3⟩ := hs (respondPair k (st.currentPercent * dt) st.timeLeft e1 e2 i1 i2).record (by simp)
  obtain ⟨x1, y1, z1⟩ := hf.entities.get' g1
  obtain ⟨x2, y2, z2⟩ := hf.entities.get' g2
  obtain ⟨m1, m2, m3⟩ := s3 x1 x2 y1 y2
  rw [← (staticRel_iff.mp z1).2.2.1] at m1 m3
  rw [← (staticRel_iff.mp z2).2.2.1] at m2 m3
  obtain ⟨b1, o1, p1, q1⟩ := (hfw _ _ g1).body m1
  obtain ⟨b2, o2, p2, q2⟩ := (hfw _ _ g2).body m2
  obtain ⟨P, hP⟩ := s1.f
  obtain ⟨N, hN⟩ := s2.f
  obtain ⟨ch1, ch2, c1, c2, k1, k2, k3, k4, k5⟩ := hk
  obtain ⟨u1, u2, u3⟩ := (hc _ _ k1).material
  obtain ⟨v1, v2, v3⟩ := (hc _ _ k2).material
  obtain ⟨u1', u1⟩ := isFinite_iff.mp u1
  obtain ⟨u2', u2⟩ := isFinite_iff.mp u2
  obtain ⟨u3', u3⟩ := isFinite_iff.mp u3
  obtain ⟨v1', v1⟩ := isFinite_iff.mp v1
  obtain ⟨v2', v2⟩ := isFinite_iff.mp v2
  obtain ⟨v3', v3⟩ := isFinite_iff.mp v3
  rw [u1, v1, fin_mul] at k3
  rw [u2, v2, fin_mul] at k4
  rw [u3, v3, fin_mul] at k5
  obtain ⟨μ, F, hμ, rfl, w1, w2⟩ := Body.respondPair o1 o2 p1 p2
    (Body.denom_pos p1 p2 (m3.imp q1 q2) P N).ne' (k := k) hP hN k3 k4 k5 (st.currentPercent * dt) st.timeLeft i1 i2
  have pos : ∀ {b : Body} {e : InternalEntity XReal}, b.Physical → (e.totalMass ≠ posInf → b.mass ≠ none) → e.totalMass ≠ posInf → 0 < b.im := by
    intro b e hp hq he
    obtain ⟨x, hx⟩ := Option.ne_none_iff_exists'.mp (hq he)
    exact hp.im_pos hx
  refine ⟨e1, e2, _, _, b1, b2, P, N, u1' * v1', μ, _, hne, g1, g2, o1, o2, p1, p2, pos p1 q1, pos p2 q2, m3, hP, hN, k3, rfl,
    respondPair_first .., respondPair_second .., w1, w2, fun h => respond_get hne g1 g2 h, ⟨_, rfl, rfl, rfl⟩, ?_⟩
  intro z1 z2
  rw [k4] at z1; rw [k5] at z2
  rcases hμ with rfl | rfl
  · exact fin_inj.mp z1
  · exact fin_inj.mp z2

/-- Where a contact of a ball with a plane is, if the ball turns about its centre only. -/
theorem slick_contact {sc : SphereCollider XReal} {pl : PlaneCollider XReal} (h1 : FiniteNumbers (.sphere sc)) (h2 : FiniteNumbers (.plane pl))
    {o : Orientation ℝ} (hu : o.Unit) {c m a : Vec3 ℝ} (hc : sc.center = c.f) (cen : c + o.internalOriginOffset = .o)
    {o2 e2 : Orientation XReal} {k : Collision XReal} {t : ℝ} (ht : k.times.min = fin t)
    (h : dispatchSpherePlane sc o.f (o.f.afterAffected m.f a.f) pl o2 e2 = some k) :
    ∃ (n : Vec3 ℝ) (r : ℝ), k.position = (o.position + m.scale t - n.scale r).f ∧ k.normal = (-n).f := by
  obtain ⟨ρ, hρ⟩ := isFinite_iff.mp h1.2.1
  obtain ⟨n, hn⟩ := h2.2.1.f
  have hi : ∀ p : Orientation ℝ, p.Unit → p.internalOriginOffset = o.internalOriginOffset → p.f.positionIntoWorld c.f = p.position.f := by
    intro p hp ho
    rw [Orientation.f_positionIntoWorld _ _ hp]
    unfold Orientation.toWorld
    rw [ho, cen, Quat.rot_o]
    congr 1; ext <;> simp
  unfold dispatchSpherePlane collideSpherePlane at h
  simp only at h
  rw [Orientation.f_afterAffected, hc,
    hi _ hu rfl, hi _ (Orientation.after_unit _ hu _ _) rfl] at h
  split at h
  · simp only [Option.some.injEq] at h
    subst h
    refine ⟨n, ρ, ?_, by simp only [hn, Vec3.f_neg]⟩
    simp only [ht]
    simp only [hn, hρ, fin_neg, Vec3.f_scale, Vec3.f_add, Vec3.f_sub, Vec3.f_inj]
    ext <;> simp [Orientation.after] <;> ring
  · cases h

/-- An impulse through the centre does not turn a body. -/
theorem central_kick {b : Body} {p N j : Vec3 ℝ} {l x : ℝ} (hp : p - b.pos = N.scale l) (hj : j = N.scale x) : (b.kick p j).ang = b.ang := by
  unfold Body.kick
  simp only [hp, hj]
  rw [show (N.scale l).cross (N.scale x) = .o by ext <;> simp <;> ring]
  ext <;> simp

section
variable {A : Prop} {bh fh ch ch' : Handle} {B0 F0 : InternalEntity XReal} {sc : SphereCollider XReal}
    {pl : PlaneCollider XReal} {q : Orientation ℝ} {r : ℝ} {c P n : Vec3 ℝ}

/-- Between the iterations the two entities face each other. -/
theorem hover_facing {s : System XReal γ} (hS : Setting s A bh fh ch ch' B0 F0 sc pl q r c P n) {d e K : ℝ} {st : LoopState XReal}
    (hr : Running s d e st) (hH : Hover A bh fh q r c P n K st.world) :
    ∃ ib jf B F o v a, Facing st.world st.infos ib jf B F ch ch' sc pl o q r c P n v a (v.scale ((1 - e) * d)) (a.scale ((1 - e) * d)) ∧
      ib.handle = bh ∧ jf.handle = fh ∧ StaticRel B0 B ∧ StaticRel F0 F ∧ (a = .o ∨ ¬A ∧ 0 ≤ v.dot n) ∧ K ≤ clearance o.position P n r := by
  obtain ⟨B, F, o, v, a, gB, gF, poB, ou, cen, vB, aB, poF, vF, aF, nb1, nb2, hav, hcl⟩ := hH
  have hbm : bh ∈ st.infos.map StepInfo.handle := by rw [hr.inv.handles]; exact Arena.mem_handles.mpr ⟨B0, hS.get1⟩
  have hfm : fh ∈ st.infos.map StepInfo.handle := by rw [hr.inv.handles]; exact Arena.mem_handles.mpr ⟨F0, hS.get2⟩
  obtain ⟨ib, mb, hbh⟩ := List.mem_map.mp hbm
  obtain ⟨jf, mf, hfh⟩ := List.mem_map.mp hfm
  obtain ⟨nb, hnb⟩ := List.getElem?_of_mem mb
  obtain ⟨nf, hnf⟩ := List.getElem?_of_mem mf
  obtain ⟨B', gB', lb, ab⟩ := hr.course nb ib hnb
  obtain ⟨F', gF', lf, af⟩ := hr.course nf jf hnf
  rw [hbh, gB] at gB'; cases gB'
  rw [hfh, gF] at gF'; cases gF'
  have hleft := hr.clock.left
  obtain ⟨XB, yB, zB⟩ := hr.inv.frame.entities.get' gB
  rw [hS.get1] at yB; cases yB
  obtain ⟨XF, yF, zF⟩ := hr.inv.frame.entities.get' gF
  rw [hS.get2] at yF; cases yF
  rw [vB, hleft, Vec3.f_scale] at lb
  rw [aB, hleft, Vec3.f_scale] at ab
  rw [vF, hleft, Vec3.f_scale, show (Vec3.o : Vec3 ℝ).scale ((1 - e) * d) = .o by ext <;> simp] at lf
  rw [aF, hleft, Vec3.f_scale, show (Vec3.o : Vec3 ℝ).scale ((1 - e) * d) = .o by ext <;> simp] at af
  refine ⟨ib, jf, B, F, o, v, a, ?_, hbh, hfh, zB, zF, hav, hcl⟩
  refine ⟨mb, mf, by rw [hbh, hfh]; exact hS.ne, by rw [hbh]; exact gB, by rw [hfh]; exact gF, by rw [hfh]; exact nb1, by rw [hbh]; exact nb2,
    by rw [StaticRel.colliders zB]; exact hS.col1, by rw [StaticRel.colliders zF]; exact hS.col2, ?_, ?_, poB, poF,
    ⟨hS.radius, hS.center, hS.normal, cen, hS.place, ou, hS.unit, hS.nonneg, hS.one⟩, vB, aB, vF, aF, lb, ab, lf, af⟩
  · rw [hr.inv.frame.colliders]; exact hS.ball
  · rw [hr.inv.frame.colliders]; exact hS.plane

/-- A contact of the two alone is a proper point and normal. -/
theorem hover_sound {s : System XReal γ} (hS : Setting s A bh fh ch ch' B0 F0 sc pl q r c P n) (hA : ¬A) {d e K : ℝ} (hd : 0 ≤ d) {st : LoopState XReal}
    (hr : Running s d e st) (hH : Hover A bh fh q r c P n K st.world) {k : Candidate XReal} (hk : Contact st.world st.infos k)
    (h : k.firstHandle = bh ∧ k.secondHandle = fh ∨ k.firstHandle = fh ∧ k.secondHandle = bh) :
    Finite3 k.collision.position ∧ Finite3 k.collision.normal := by
  obtain ⟨ib, jf, B, F, o, v, a, face, rfl, rfl, zB, zF, hav, -⟩ := hover_facing hS hr hH
  obtain ⟨oc1, oc2, -⟩ := hS.only hA
  have hnd : (st.infos.map StepInfo.handle).Nodup := by rw [hr.inv.handles]; exact Arena.handles_nodup _
  have hτ : 0 ≤ (1 - e) * d := mul_nonneg (by linarith [hr.clock.le_one]) hd
  obtain ⟨-, -, t, -, kp, kn, -⟩ := face.hit hnd (by rw [StaticRel.colliders zB]; exact oc1) (by rw [StaticRel.colliders zF]; exact oc2)
    hk h hτ rfl (hav.imp id And.right)
  rw [kp, kn]
  exact ⟨finite3_f _, finite3_f _⟩

/-- One iteration. -/
theorem hover_body {s : System XReal γ} (hS : Setting s A bh fh ch ch' B0 F0 sc pl q r c P n) (hcol : ∀ j c, s.colliders.get j = some c → FiniteNumbers c)
    {d e K : ℝ} (hd : 0 ≤ d) {ord : IterOrder} {st st1 : LoopState XReal} {best : Option (Candidate XReal)} {w : World XReal}
    (hr : Running s d e st) (hK : K ≤ -eps)
    (h1 : searchFirst ord st.world 0 st.infos none = .ok best)
    (h2 : wakeColliding ord best st.world = .ok w) (h3 : advance best { st with world := w } = .ok st1)
    (hH : Hover A bh fh q r c P n (K - eps * (e * d)) st.world) {p : ℝ} (hp : percentOf best = fin p) (p0 : 0 ≤ p) (p1 : p ≤ 1) :
    Hover A bh fh q r c P n (K - eps * ((e + (1 - e) * p) * d)) st1.world ∧
    ∀ k st2, best = some k → respond (fin d) k st1 = .ok st2 → FineWorld st1.world → Frame s.toWorld st1.world →
      (∀ x ∈ st2.world.collisionRecords, SoundIn s.entities x ∧ (¬A → Names x bh → Names x fh)) →
      Hover A bh fh q r c P n (K - eps * ((e + (1 - e) * p) * d)) st2.world := by
  obtain ⟨B, F, o, v, a, gB, gF, poB, ou, cen, vB, aB, poF, vF, aF, nb1, nb2, hav, hcl⟩ := hH
  have hnd : (st.infos.map StepInfo.handle).Nodup := by rw [hr.inv.handles]; exact Arena.handles_nodup _
  have hbm : bh ∈ st.infos.map StepInfo.handle := by rw [hr.inv.handles]; exact Arena.mem_handles.mpr ⟨B0, hS.get1⟩
  have hfm : fh ∈ st.infos.map StepInfo.handle := by rw [hr.inv.handles]; exact Arena.mem_handles.mpr ⟨F0, hS.get2⟩
  obtain ⟨ib, mb, hbh⟩ := List.mem_map.mp hbm
  obtain ⟨jf, mf, hfh⟩ := List.mem_map.mp hfm
  obtain ⟨nb, hnb⟩ := List.getElem?_of_mem mb
  obtain ⟨nf, hnf⟩ := List.getElem?_of_mem mf
  obtain ⟨B', gB', lb, ab⟩ := hr.course nb ib hnb
  obtain ⟨F', gF', lf, af⟩ := hr.course nf jf hnf
  rw [hbh, gB] at gB'; cases gB'
  rw [hfh, gF] at gF'; cases gF'
  have hleft := hr.clock.left
  have hτ : 0 ≤ (1 - e) * d := mul_nonneg (by linarith [hr.clock.le_one]) hd
  obtain ⟨XB, yB, zB⟩ := hr.inv.frame.entities.get' gB
  rw [hS.get1] at yB; cases yB
  obtain ⟨XF, yF, zF⟩ := hr.inv.frame.entities.get' gF
  rw [hS.get2] at yF; cases yF
  rw [vB, hleft, Vec3.f_scale] at lb
  rw [aB, hleft, Vec3.f_scale] at ab
  rw [vF, hleft, Vec3.f_scale, show (Vec3.o : Vec3 ℝ).scale ((1 - e) * d) = .o by ext <;> simp] at lf
  rw [aF, hleft, Vec3.f_scale, show (Vec3.o : Vec3 ℝ).scale ((1 - e) * d) = .o by ext <;> simp] at af
  have face : Facing st.world st.infos ib jf B F ch ch' sc pl o q r c P n v a (v.scale ((1 - e) * d)) (a.scale ((1 - e) * d)) := by
    refine ⟨mb, mf, by rw [hbh, hfh]; exact hS.ne, by rw [hbh]; exact gB, by rw [hfh]; exact gF, by rw [hfh]; exact nb1, by rw [hbh]; exact nb2,
      by rw [StaticRel.colliders zB]; exact hS.col1, by rw [StaticRel.colliders zF]; exact hS.col2, ?_, ?_, poB, poF,
      ⟨hS.radius, hS.center, hS.normal, cen, hS.place, ou, hS.unit, hS.nonneg, hS.one⟩, vB, aB, vF, aF, lb, ab, lf, af⟩
    · rw [hr.inv.frame.colliders]; exact hS.ball
    · rw [hr.inv.frame.colliders]; exact hS.plane
  have hav' : a = .o ∨ 0 ≤ v.dot n := hav.imp id And.right
  have desc := face.descends h1 hp p0 p1 hτ rfl hav'
  obtain ⟨w1, w2⟩ := wakeColliding_evolves h2
  obtain ⟨a1, a2, a3, a4⟩ := advance_spec (st := { st with world := w }) hnd h3
  obtain ⟨YB, gYB, gMB⟩ := a4 ib mb
  obtain ⟨YF, gYF, gMF⟩ := a4 jf mf
  rw [hbh] at gYB gMB
  rw [hfh] at gYF gMF
  have gYB : w.entities.get bh = some YB := gYB
  have gYF : w.entities.get fh = some YF := gYF
  obtain ⟨_, gB2, rB⟩ := w2.get' gYB
  rw [gB] at gB2; cases gB2
  obtain ⟨_, gF2, rF⟩ := w2.get' gYF
  rw [gF] at gF2; cases gF2
  rw [hp] at gMB gMF
  have hbound : ∀ x : ℝ, min (clearance o.position P n r) (-eps) - eps * (p * ((1 - e) * d)) ≤ x → K - eps * ((e + (1 - e) * p) * d) ≤ x := by
    intro x hx
    have he : (0 : ℝ) < eps := by unfold eps; norm_num
    have h0 : 0 ≤ eps * (e * d) := mul_nonneg he.le (mul_nonneg hr.clock.nonneg hd)
    have : K - eps * (e * d) ≤ min (clearance o.position P n r) (-eps) := le_min hcl (by linarith)
    have e1 : eps * ((e + (1 - e) * p) * d) = eps * (e * d) + eps * (p * ((1 - e) * d)) := by ring
    linarith
  -- the entities after advancing
  have hlB : ∀ x, (v.scale ((1 - e) * d)).f.scale (fin x) = ((v.scale ((1 - e) * d)).scale x).f := fun x => by rw [Vec3.f_scale]
  have advB : ∃ o' : Orientation ℝ, (moved (fin p) ib YB).orientation = o'.f ∧ o'.Unit ∧ o'.internalOriginOffset = o.internalOriginOffset ∧
      K - eps * ((e + (1 - e) * p) * d) ≤ clearance o'.position P n r ∧
      (YB.asleep = false → o'.position = o.position + (v.scale ((1 - e) * d)).scale p) := by
    have hYo : YB.orientation = o.f := by rw [rB]; exact poB
    unfold moved
    by_cases hs : YB.asleep = true
    · rw [if_pos hs]
      refine ⟨o, hYo, ou, rfl, hbound _ ?_, by rw [hs]; intro h; cases h⟩
      have := mul_nonneg (show (0:ℝ) ≤ eps by unfold eps; norm_num) (mul_nonneg p0 hτ)
      have := min_le_left (clearance o.position P n r) (-eps)
      linarith
    · rw [if_neg hs]
      refine ⟨o.after ((v.scale ((1 - e) * d)).scale p) ((a.scale ((1 - e) * d)).scale p), ?_, Orientation.after_unit _ ou _ _, rfl, hbound _ ?_, fun _ => rfl⟩
      · simp only [hYo, lb, ab, Vec3.f_scale, Orientation.f_afterAffected]
      · show _ ≤ clearance (o.position + (v.scale ((1 - e) * d)).scale p) P n r
        rw [clearance_add]
        have : ((v.scale ((1 - e) * d)).scale p).dot n = p * ((1 - e) * d * v.dot n) := by simp [Vec3.dot_def]; ring
        rw [this]
        exact desc
  obtain ⟨o', oB', ou', oo', ocl, oaw⟩ := advB
  have mvB : (moved (fin p) ib YB).velocity = v.f ∧ (moved (fin p) ib YB).angularVelocity = a.f ∧ (moved (fin p) ib YB).neighbors = YB.neighbors := by
    unfold moved; split <;> exact ⟨by rw [rB]; exact vB, by rw [rB]; exact aB, rfl⟩
  have mvF : (moved (fin p) jf YF).velocity = (Vec3.o).f ∧ (moved (fin p) jf YF).angularVelocity = (Vec3.o).f ∧
      (moved (fin p) jf YF).neighbors = YF.neighbors ∧ (moved (fin p) jf YF).orientation = q.f := by
    have hYo : YF.orientation = q.f := by rw [rF]; exact poF
    unfold moved; split
    · exact ⟨by rw [rF]; exact vF, by rw [rF]; exact aF, rfl, hYo⟩
    · refine ⟨by rw [rF]; exact vF, by rw [rF]; exact aF, rfl, ?_⟩
      simp only [hYo, lf, af, Vec3.f_scale, Orientation.f_afterAffected, show (Vec3.o : Vec3 ℝ).scale p = .o from by ext <;> simp, after_o]
  have nB : fh ∉ YB.neighbors := fun h => nb1 (wakeColliding_neighbors h2 gB gYB _ h)
  have nF : bh ∉ YF.neighbors := fun h => nb2 (wakeColliding_neighbors h2 gF gYF _ h)
  have hcen' : c + o'.internalOriginOffset = .o := by rw [oo']; exact cen
  refine ⟨⟨_, _, o', v, a, gMB, gMF, oB', ou', hcen', mvB.1, mvB.2.1, mvF.2.2.2, mvF.1, mvF.2.1, by rw [mvB.2.2]; exact nB,
    by rw [mvF.2.2.1]; exact nF, hav, ocl⟩, ?_⟩
  rintro k st2 rfl h4 fw fr hrec
  have hk : ∃ ch1 ch2 c1 c2, s.toWorld.colliders.get ch1 = some c1 ∧ s.toWorld.colliders.get ch2 = some c2 ∧
      k.restitution = c1.material.restitution * c2.material.restitution ∧
      k.staticFriction = c1.material.staticFriction * c2.material.staticFriction ∧
      k.dynamicFriction = c1.material.dynamicFriction * c2.material.dynamicFriction := by
    obtain ⟨m, n, i1, i2, -, -, -, first, second, -, -, -, -, -, ch1, -, ch2, -, c1, c2, cc, e1, e2, -, -, rfl⟩ := searchFirst_contact h1
    rw [hr.inv.frame.colliders] at e1 e2
    exact ⟨ch1, ch2, c1, c2, e1, e2, rfl, rfl, rfl⟩
  obtain ⟨e1, e2, R1, R2, b1, b2, pp, N, ρ, μ, J, hne, g1, g2, o1, o2, ph1, ph2, im1, im2, m3, hpp, hN, hρ, hJ, v1, v2, O1, O2, hget, ⟨rec, hrec2, rec1, rec2⟩, hμ⟩ :=
    respond_bodies h4 fr hcol hk fw (fun x hx => (hrec x hx).1)
  -- the floor
  have stF : StaticRel F0 (moved (fin p) jf YF) := (zF.trans (WakeRel.static rF)).trans (moved_static _ _ _)
  have stB : StaticRel B0 (moved (fin p) ib YB) := (zB.trans (WakeRel.static rB)).trans (moved_static _ _ _)
  have hmF : (moved (fin p) jf YF).totalMass = posInf := by rw [(staticRel_iff.mp stF).2.2.1]; exact hS.heavy
  have hIF : (moved (fin p) jf YF).momentOfInertia = Mat3.o.f := by
    unfold momentOfInertia; rw [mvF.2.2.2, (staticRel_iff.mp stF).2.2.2.1, hS.still, finalize_o hS.unit]
  have fixF : ∀ {f : Body}, f.Of (moved (fin p) jf YF) → Fixed f := fun ho => fixed_of ho hmF hIF mvF.1 mvF.2.1
  obtain ⟨F2, gF2, vF2, aF2, oF2, nF2⟩ : ∃ F2, st2.world.entities.get fh = some F2 ∧ F2.velocity = (Vec3.o).f ∧ F2.angularVelocity = (Vec3.o).f ∧
      F2.orientation = q.f ∧ bh ∉ F2.neighbors := by
    rw [hget]
    by_cases hf2 : fh = k.secondHandle
    · rw [if_pos hf2]
      rw [← hf2, gMF] at g2; cases g2
      have fx := fixF o2
      rw [fx.kick, fx.kick] at O2
      refine ⟨R2, rfl, by rw [O2.vel, fx.vel], by rw [O2.ang, fx.ang], by rw [v2]; exact mvF.2.2.2, by rw [v2]; simp only [mvF.2.2.1]; exact nF⟩
    · rw [if_neg hf2]
      by_cases hf1 : fh = k.firstHandle
      · rw [if_pos hf1]
        rw [← hf1, gMF] at g1; cases g1
        have fx := fixF o1
        rw [fx.kick, fx.kick] at O1
        refine ⟨R1, rfl, by rw [O1.vel, fx.vel], by rw [O1.ang, fx.ang], by rw [v1]; exact mvF.2.2.2, by rw [v1]; simp only [mvF.2.2.1]; exact nF⟩
      · rw [if_neg hf1]
        exact ⟨_, gMF, mvF.1, mvF.2.1, mvF.2.2.2, by rw [mvF.2.2.1]; exact nF⟩
  -- the ball
  obtain ⟨B2, gB2, oB2, nB2, v', a', vB2, aB2, hav2⟩ : ∃ B2, st2.world.entities.get bh = some B2 ∧ B2.orientation = o'.f ∧ fh ∉ B2.neighbors ∧
      ∃ v' a' : Vec3 ℝ, B2.velocity = v'.f ∧ B2.angularVelocity = a'.f ∧ (a' = .o ∨ ¬A ∧ 0 ≤ v'.dot n) := by
    by_cases hnamed : k.firstHandle = bh ∨ k.secondHandle = bh
    · have hB2 : ∃ B2 b b', st2.world.entities.get bh = some B2 ∧ VelRel (moved (fin p) ib YB) B2 ∧ Body.Of b' B2 ∧ Body.Of b (moved (fin p) ib YB) ∧
          (b.inertia = .o → b'.ang = b.ang) ∧
          (k.firstHandle = bh ∧ b = b1 ∧ b' = (b1.kick pp J).kick pp (Body.frictionImpulse (b1.kick pp J) (b2.kick pp (-J)) μ J pp N) ∨
           k.firstHandle ≠ bh ∧ k.secondHandle = bh ∧ b = b2 ∧ b' = (b2.kick pp (-J)).kick pp (-Body.frictionImpulse (b1.kick pp J) (b2.kick pp (-J)) μ J pp N)) := by
        by_cases hs2 : k.secondHandle = bh
        · rw [hs2, gMB] at g2; cases g2
          exact ⟨R2, b2, _, by rw [hget, if_pos hs2.symm], v2, O2, o2, fun hi => by rw [spin_kick (by exact hi), spin_kick hi],
            Or.inr ⟨fun hc => hne (hc.trans hs2.symm), hs2, rfl, rfl⟩⟩
        · have hf1 := hnamed.resolve_right hs2
          rw [hf1, gMB] at g1; cases g1
          exact ⟨R1, b1, _, by rw [hget, if_neg (fun h => hs2 h.symm), if_pos hf1.symm], v1, O1, o1,
            fun hi => by rw [spin_kick (by exact hi), spin_kick hi], Or.inl ⟨hf1, rfl, rfl⟩⟩
      obtain ⟨B2, b, b', gg, vr, ob', ob, hin, hcase⟩ := hB2
      refine ⟨B2, gg, by rw [vr]; exact oB', by rw [vr]; simp only [mvB.2.2]; exact nB, b'.vel, b'.ang, ob'.vel, ob'.ang, ?_⟩
      by_cases hA : A
      · left
        have ha : a = .o := hav.resolve_right (fun h => h.1 hA)
        have hba : b.ang = .o := by
          have := ob.ang
          rw [mvB.2.1, Vec3.f_inj] at this
          rw [← this]; exact ha
        rcases hS.point hA with point | slick
        · have hi : b.inertia = .o := by
            have := ob.inertia
            unfold momentOfInertia at this
            rw [oB', (staticRel_iff.mp stB).2.2.2.1, point _ ou', Mat3.f_inj] at this
            exact this.symm
          rw [hin hi]; exact hba
        · -- the contact is radial
          have hrad : ∃ (n' : Vec3 ℝ) (r' : ℝ), pp = o.position + (v.scale ((1 - e) * d)).scale p - n'.scale r' ∧ (N = -n' ∨ N = n') ∧ μ = 0 := by
            obtain ⟨m1, m2, i1, i2, hlt, q1, q2, first, second, f1, f2, fne, -, -, ch1, hc1, ch2, hc2, c1, c2, cc, z1, z2, hcc, -, hkk⟩ := searchFirst_contact h1
            have hkp : k.percent = fin p := hp
            obtain ⟨Y1, y1, s1⟩ := hr.inv.frame.entities.get' f1
            obtain ⟨Y2, y2, s2⟩ := hr.inv.frame.entities.get' f2
            rw [hr.inv.frame.colliders] at z1 z2
            have e1 : i1 = ib → first = B := by rintro rfl; rw [hbh, gB] at f1; cases f1; rfl
            have e2 : i2 = ib → second = B := by rintro rfl; rw [hbh, gB] at f2; cases f2; rfl
            have uniq : ∀ {x : StepInfo XReal}, x ∈ st.infos → x.handle = bh → x = ib := fun {x} hx hxb => List.inj_on_of_nodup_map hnd hx mb (hxb.trans hbh.symm)
            have finS := hcol _ _ hS.ball
            by_cases hi1 : i1.handle = bh
            · have := uniq (List.mem_of_getElem? q1) hi1
              subst this
              obtain rfl := e1 rfl
              obtain rfl : ch1 = ch := by rw [StaticRel.colliders zB, slick.sole] at hc1; simpa using hc1
              rw [hS.ball] at z1; cases z1
              have hne2 : i2.handle ≠ bh := fun hc => fne (hi1.trans hc.symm)
              rw [StaticRel.colliders s2] at hc2
              obtain ⟨pl2, hp2⟩ := slick.planes _ _ y2 hne2 _ hc2
              rw [hp2] at z2; cases z2
              have finP := hcol _ _ hp2
              simp only [collide, Except.ok.injEq] at hcc
              rw [hkk] at hkp hpp hN hμ
              simp only at hkp hpp hN hμ
              rw [poB, lb, ab] at hcc
              obtain ⟨n', r', t1, t2⟩ := slick_contact finS finP ou hS.center cen hkp hcc
              rw [hpp, Vec3.f_inj] at t1
              rw [hN, Vec3.f_inj] at t2
              obtain ⟨-, w2, w3⟩ := finP.material
              obtain ⟨x2, w2⟩ := isFinite_iff.mp w2
              obtain ⟨x3, w3⟩ := isFinite_iff.mp w3
              refine ⟨n', r', t1, Or.inl t2, hμ ?_ ?_⟩
              · show sc.material.staticFriction * _ = _
                rw [slick.static, w2, fin_mul, zero_mul]
              · show sc.material.dynamicFriction * _ = _
                rw [slick.dynamic, w3, fin_mul, zero_mul]
            · have hi2 : i2.handle = bh := by
                rw [hkk] at hnamed; exact hnamed.resolve_left hi1
              have := uniq (List.mem_of_getElem? q2) hi2
              subst this
              obtain rfl := e2 rfl
              obtain rfl : ch2 = ch := by rw [StaticRel.colliders zB, slick.sole] at hc2; simpa using hc2
              rw [hS.ball] at z2; cases z2
              rw [StaticRel.colliders s1] at hc1
              obtain ⟨pl2, hp2⟩ := slick.planes _ _ y1 hi1 _ hc1
              rw [hp2] at z1; cases z1
              have finP := hcol _ _ hp2
              simp only [collide, Except.ok.injEq, Option.map_eq_some_iff] at hcc
              obtain ⟨cc', hcc, rfl⟩ := hcc
              rw [hkk] at hkp hpp hN hμ
              simp only [Collision.flip] at hkp hpp hN hμ
              rw [poB, lb, ab] at hcc
              obtain ⟨n', r', t1, t2⟩ := slick_contact finS finP ou hS.center cen hkp hcc
              rw [hpp, Vec3.f_inj] at t1
              rw [t2, lit_eq, Vec3.f_scale, Vec3.f_inj] at hN
              obtain ⟨-, w2, w3⟩ := finP.material
              obtain ⟨x2, w2⟩ := isFinite_iff.mp w2
              obtain ⟨x3, w3⟩ := isFinite_iff.mp w3
              refine ⟨n', r', t1, Or.inr ?_, hμ ?_ ?_⟩
              · rw [← hN]; ext <;> simp
              · show _ * sc.material.staticFriction = _
                rw [slick.static, w2, fin_mul, mul_zero]
              · show _ * sc.material.dynamicFriction = _
                rw [slick.dynamic, w3, fin_mul, mul_zero]
          obtain ⟨n', r', hpp', hN', rfl⟩ := hrad
          have hfinB : Scalar.isFinite B.totalMass = true := by
            have e : YB.totalMass = B.totalMass := WakeRel.totalMass rB
            have e0 : B.totalMass = B0.totalMass := (staticRel_iff.mp zB).2.2.1
            rcases (fw _ _ gMB).mass with hm | ⟨x, -, hm⟩
            · rw [(staticRel_iff.mp stB).2.2.1] at hm; exact absurd hm slick.mass
            · rw [(staticRel_iff.mp (moved_static (fin p) ib YB)).2.2.1, e] at hm; rw [hm]; rfl
          have hpos := oaw (wakeColliding_up h2 hnamed gB gYB hfinB)
          have hbpos : b.pos = o'.position := by
            have := ob.pos
            rw [oB'] at this
            simp only [Orientation.f_position, Vec3.f_inj] at this
            exact this.symm
          obtain ⟨l, hoff⟩ : ∃ l : ℝ, pp - b.pos = N.scale l := by
            rcases hN' with rfl | rfl
            · exact ⟨r', by rw [hpp', hbpos, hpos]; ext <;> simp⟩
            · exact ⟨-r', by rw [hpp', hbpos, hpos]; ext <;> simp⟩
          have hF : Body.frictionImpulse (b1.kick pp J) (b2.kick pp (-J)) 0 J pp N = .o := by
            unfold Body.frictionImpulse
            ext <;> simp
          rw [hF] at hcase
          rw [← hba]
          rcases hcase with ⟨-, rfl, rfl⟩ | ⟨-, -, rfl, rfl⟩
          · rw [central_kick (b := b.kick pp J) (N := N) (x := 0) (by exact hoff) (by ext <;> simp)]
            exact central_kick hoff hJ
          · rw [central_kick (b := b.kick pp (-J)) (N := N) (x := 0) (by exact hoff) (by ext <;> simp)]
            exact central_kick (x := -(-(1 + ρ) * Body.closing b1 b pp N / Body.denom b1 b pp N)) hoff (by rw [hJ]; unfold Body.normalImpulse; ext <;> simp)
      · right
        refine ⟨hA, ?_⟩
        obtain ⟨oc1, oc2, ρ', hρ0, hρ1, hρ2⟩ := hS.only hA
        have hn := (hrec rec (by rw [hrec2]; simp)).2 hA (by unfold Names; rw [rec1, rec2]; exact hnamed)
        unfold Names at hn
        rw [rec1, rec2] at hn
        have hboth : k.firstHandle = ib.handle ∧ k.secondHandle = jf.handle ∨ k.firstHandle = jf.handle ∧ k.secondHandle = ib.handle := by
          rw [hbh, hfh]
          rcases hnamed with hb | hb
          · left; exact ⟨hb, hn.resolve_left (fun hc => hS.ne (hb.symm.trans hc))⟩
          · right; exact ⟨hn.resolve_right (fun hc => hS.ne (hb.symm.trans hc)), hb⟩
        obtain ⟨ha, hsink, t, kt, kp, kn, kr⟩ := face.hit hnd (by rw [StaticRel.colliders zB]; exact oc1) (by rw [StaticRel.colliders zF]; exact oc2)
          (searchFirst_contact h1) hboth hτ rfl hav'
        have htp : t = p := by
          have hp' : k.percent = fin p := hp
          rw [kt] at hp'; exact fin_inj.mp hp'
        subst htp
        -- the ball is awake
        have hmB : YB.totalMass ≠ posInf := by
          have e : (moved (fin t) ib YB).totalMass = YB.totalMass := (staticRel_iff.mp (moved_static (fin t) ib YB)).2.2.1
          rcases hboth with ⟨q1, q2⟩ | ⟨q1, q2⟩
          · rw [q1, hbh, gMB] at g1; cases g1
            rw [q2, hfh, gMF] at g2; cases g2
            rw [← e]; exact m3.resolve_right (fun h => h hmF)
          · rw [q2, hbh, gMB] at g2; cases g2
            rw [q1, hfh, gMF] at g1; cases g1
            rw [← e]; exact m3.resolve_left (fun h => h hmF)
        have hfinB : Scalar.isFinite B.totalMass = true := by
          have e : YB.totalMass = B.totalMass := WakeRel.totalMass rB
          rcases (fw _ _ gMB).mass with hm | ⟨x, -, hm⟩
          · rw [(staticRel_iff.mp (moved_static (fin t) ib YB)).2.2.1] at hm; exact absurd hm hmB
          · rw [(staticRel_iff.mp (moved_static (fin t) ib YB)).2.2.1, e] at hm; rw [hm]; rfl
        have hawake : YB.asleep = false := wakeColliding_up h2 hnamed gB gYB hfinB
        have hpos := oaw hawake
        have hbpos : b.pos = o'.position := by
          have := ob.pos
          rw [oB'] at this
          simp only [Orientation.f_position, Vec3.f_inj] at this
          exact this.symm
        have hbv : b.vel = v := by
          have := ob.vel
          rw [mvB.1, Vec3.f_inj] at this; exact this.symm
        have hpp' : pp = o.position + (v.scale ((1 - e) * d)).scale t - n.scale r := by
          rw [kp] at hpp; exact (Vec3.f_inj _ _).mp hpp |>.symm
        have hoff : pp - b.pos = n.scale (-r) := by
          rw [hpp', hbpos, hpos]; ext <;> simp
        have hρρ : ρ = ρ' := by
          rcases kr with kr | kr
          · rw [hρ, hρ1] at kr; exact fin_inj.mp kr
          · rw [hρ, hρ2] at kr; exact fin_inj.mp kr
        have hup : b'.vel.dot n = -ρ * b.vel.dot n := by
          rcases hcase with ⟨q1, rfl, rfl⟩ | ⟨q1, q2, rfl, rfl⟩
          · have hN' : N = -n := by
              rw [if_pos (by rw [q1, hbh]), hN, Vec3.f_inj] at kn; exact kn
            rw [q1, gMB] at g1; cases g1
            have hb2 : Fixed b2 := by
              have : k.secondHandle = fh := by
                rcases hboth with ⟨-, q⟩ | ⟨q, -⟩
                · rw [q, hfh]
                · exact absurd (q1.symm.trans (q.trans hfh)) hS.ne
              rw [this, gMF] at g2; cases g2
              exact fixF o2
            have him : 0 < b.im := im1 (by rw [(staticRel_iff.mp (moved_static (fin t) ib YB)).2.2.1]; exact hmB)
            have := bounce_first hb2 him (p := pp) (N := N) (l := r) (by rw [hN']; rw [← hS.one]; simp [Vec3.dot_def])
              (by rw [hoff, hN']; ext <;> simp) ρ μ
            simp only [← hJ] at this
            rw [hN'] at this ⊢
            have e1 : ∀ u : Vec3 ℝ, u.dot (-n) = -(u.dot n) := by intro u; simp [Vec3.dot_def]; ring
            rw [e1, e1] at this
            linarith
          · have hN' : N = n := by
              rw [if_neg (by rw [hbh]; exact q1), hN, Vec3.f_inj] at kn; exact kn
            rw [q2, gMB] at g2; cases g2
            have hb1 : Fixed b1 := by
              have : k.firstHandle = fh := by
                rcases hboth with ⟨q, -⟩ | ⟨q, -⟩
                · exact absurd (q.trans hbh) q1
                · rw [q, hfh]
              rw [this, gMF] at g1; cases g1
              exact fixF o1
            have him : 0 < b.im := im2 (by rw [(staticRel_iff.mp (moved_static (fin t) ib YB)).2.2.1]; exact hmB)
            have := bounce_second hb1 him (p := pp) (N := N) (l := -r) (by rw [hN']; exact hS.one) (by rw [hoff, hN']) ρ μ
            simp only [← hJ] at this
            rw [hN'] at this ⊢
            exact this
        rw [hup, hbv, hρρ]
        have he : (0 : ℝ) < eps := by unfold eps; norm_num
        have := mul_nonneg hρ0 (by linarith : 0 ≤ -(v.dot n))
        linarith
    · push Not at hnamed
      rw [hget, if_neg (fun h => hnamed.2 h.symm), if_neg (fun h => hnamed.1 h.symm)]
      exact ⟨_, gMB, oB', by rw [mvB.2.2]; exact nB, v, a, mvB.1, mvB.2.1, hav⟩
  exact ⟨B2, F2, o', v', a', gB2, gF2, oB2, ou', hcen', vB2, aB2, oF2, vF2, aF2, nB2, nF2, hav2, ocl⟩

/-- The generators of this kind push at the position of the entity. -/
def Central {γ : Type} [ForceGenerator XReal γ] (G : γ → Prop) : Prop :=
  ∀ {x x' : γ} {dt : XReal} {w : World XReal} {h : Handle} {e : Entity XReal} {f : Force XReal}, G x → w.getEntity h = some e →
    ForceGenerator.makeForce x dt w h = .ok (f, x') → f.position = e.position

theorem central_gravity : Central (fun g : GravityGenerator XReal => Finite3 g.acceleration) := by
  intro x x' dt w h e f _ he hf
  simp only [ForceGenerator.makeForce, he, unwrap, Res.ok_bind, Except.ok.injEq, Prod.mk.injEq] at hf
  rw [← hf.1]

variable [ForceGenerator XReal γ]

theorem asked_central {G : γ → Prop} (tame : Tame G) (central : Central G) {dt : XReal} {w : World XReal} {h : Handle} {e : Entity XReal}
    (he : w.getEntity h = some e) {gens : List Handle}
    {g g' : Arena γ} {fs : List (Force XReal)} (ha : Asked dt w h gens g fs g') (hg : ∀ k x, g.get k = some x → G x) :
    ∀ f ∈ fs, f.position = e.position := by
  induction ha with
  | nil g => simp
  | @cons gh gens g g' x x' f fs h1 h2 _ ih =>
    have hset : ∀ k y, (g.set gh x').get k = some y → G y := by
      intro k y hy
      rw [Arena.get_set] at hy
      split at hy
      · rename_i hk
        rw [h1] at hy
        cases hy
        exact tame.keep (hg _ _ h1) h2
      · exact hg k y hy
    intro y hy
    rcases List.mem_cons.mp hy with rfl | hy
    · exact central (hg _ _ h1) he h2
    · exact ih hset y hy

/-- Integration of one entity leaves the spin if there is no inertia or no torque, and the velocity if the mass is infinite. -/
theorem spin_one {G : γ → Prop} (tame : Tame G) {d : ℝ} {gens : List Handle} {s s' : System XReal γ} {k h : Handle} {i : StepInfo XReal}
    (hh : integrateOne (fin d) gens s k = .ok (s', i)) (hs : FineWorld s.toWorld) (hg : ∀ k x, s.generators.get k = some x → G x)
    {E : InternalEntity XReal} (hE : s.entities.get h = some E)
    (hno : (∀ o : Orientation ℝ, o.Unit → o.f.finalizeMomentOfInertia E.preppedMoment = Mat3.o.f) ∨ Central G) :
    ∃ E', s'.entities.get h = some E' ∧ VelRel E E' ∧ E'.angularVelocity = E.angularVelocity ∧ (E.totalMass = posInf → E'.velocity = E.velocity) := by
  have fine' := (fine_one tame hh hs hg).1
  obtain ⟨e, g, a, t, he, hac, rfl, rfl⟩ := integrateOne_spec hh
  by_cases hk : h = k
  · subst hk
    rw [hE] at he; cases he
    refine ⟨_, Arena.get_set_self hE _, rfl, ?_, ?_⟩
    · have fE := hs _ _ hE
      have fE' := fine' _ _ (Arena.get_set_self hE _)
      obtain ⟨o, ho, hu⟩ := fE.pose
      obtain ⟨w, hw⟩ := fE.ang
      obtain ⟨I, hI, -, -⟩ := fE.moment o hu
      have hinv : E.inverseMomentOfInertia = I.inv.f := by
        unfold inverseMomentOfInertia momentOfInertia
        rw [ho, hI]
        have := Mat3.f_tryInverse I
        revert this
        cases (Mat3.f I).tryInverse <;> exact fun h => h
      show E.angularVelocity + E.inverseMomentOfInertia.mulVec (t.scale (fin d)) = _
      suffices hz : ∃ u : Vec3 ℝ, t.scale (fin d) = u.f ∧ I.inv.mulVec u = .o by
        obtain ⟨u, hu', hz⟩ := hz
        rw [hinv, hu', Mat3.f_mulVec, hz, hw, Vec3.f_add]
        congr 1; ext <;> simp
      by_cases hc : (Scalar.isFinite E.totalMass && Scalar.lt EPSILON E.totalMass) = true
      · unfold Accelerates at hac
        rw [if_pos hc] at hac
        obtain ⟨fs, f1, -, f3⟩ := generatorLoop_asked hac
        have hmk : s.getEntity h = some E.makePub := getEntity_eq_some.mpr ⟨E, hE, rfl⟩
        obtain ⟨k1, -⟩ := asked_finite tame (dt := fin d) rfl hs.finite hmk (by exact hc) f1 hg
        have hLM : ∃ L : Mat3 ℝ, E.makePub.lastMomentOfInertia = L.f := by
          have hmk' : E.makePub.makeOrientation = (⟨o.position, Quat.exp (Quat.log o.rotation), o.internalOriginOffset⟩ : Orientation ℝ).f := by
            rw [← Orientation.f_new, ← Orientation.f_rotationVec, ← ho]
            show Orientation.new E.orientation.position E.orientation.rotationVec E.orientation.internalOriginOffset = _
            rw [ho]; rfl
          obtain ⟨L, hL, -⟩ := fE.moment ⟨o.position, Quat.exp (Quat.log o.rotation), o.internalOriginOffset⟩ (Quat.exp_normSq _)
          refine ⟨L, ?_⟩
          unfold Entity.lastMomentOfInertia
          rw [hmk']
          exact hL
        obtain ⟨L, hL⟩ := hLM
        obtain ⟨c, hcp⟩ := (fE.entity).1.f
        rcases hno with hno | hno
        · have hI0 : I = .o := by rw [hno o hu, Mat3.f_inj] at hI; exact hI.symm
          have : t.Fin := by
            rw [f3]
            refine fin_fold (fun f => E.makePub.lastMomentOfInertia.mulVec ((f.position - E.makePub.position).cross f.force)) fs _ ⟨.o, by simp⟩ ?_
            intro f hf
            obtain ⟨x, hx⟩ := (k1 f hf).1.f
            obtain ⟨y, hy⟩ := (k1 f hf).2.f
            exact ⟨L.mulVec ((y - c).cross x), by rw [hL, hx, hy, hcp, Vec3.f_sub, Vec3.f_cross, Mat3.f_mulVec]⟩
          obtain ⟨t', rfl⟩ := this
          refine ⟨t'.scale d, by rw [Vec3.f_scale], ?_⟩
          rw [hI0, Mat3.inv_of_det (by simp [Mat3.det, Mat3.o])]
          ext <;> simp
        · have hcen := asked_central tame hno hmk f1 hg
          have hz : ∀ (l : List (Force XReal)), (∀ f ∈ l, f ∈ fs) →
              l.foldl (fun acc f => acc + E.makePub.lastMomentOfInertia.mulVec ((f.position - E.makePub.position).cross f.force)) Vec3.zeros = (Vec3.zeros : Vec3 XReal) := by
            intro l
            induction l with
            | nil => exact fun _ => rfl
            | cons f l ih =>
              intro hl
              obtain ⟨x, hx⟩ := (k1 f (hl f (by simp))).1.f
              have h0 : (Vec3.zeros : Vec3 XReal) + E.makePub.lastMomentOfInertia.mulVec ((f.position - E.makePub.position).cross f.force) = Vec3.zeros := by
                rw [hcen f (hl f (by simp)), hL, hx, hcp, Vec3.f_sub, Vec3.f_cross, Mat3.f_mulVec, Vec3.f_zeros, Vec3.f_add]; congr 1
                ext <;> simp
              rw [List.foldl_cons, h0]
              exact ih (fun f hf => hl f (by simp [hf]))
          rw [hz fs (fun f hf => hf)] at f3
          refine ⟨.o, ?_, by ext <;> simp⟩
          rw [f3, Vec3.f_zeros, Vec3.f_scale]
          congr 1; ext <;> simp
      · unfold Accelerates at hac
        rw [if_neg hc] at hac
        simp only [Except.ok.injEq, Prod.mk.injEq] at hac
        obtain ⟨-, -, rfl⟩ := hac
        refine ⟨.o, ?_, by ext <;> simp⟩
        rw [Vec3.f_zeros, Vec3.f_scale]
        congr 1; ext <;> simp
    · intro hm
      unfold Accelerates at hac
      rw [if_neg (by rw [hm]; simp)] at hac
      simp only [Except.ok.injEq, Prod.mk.injEq] at hac
      obtain ⟨-, rfl, -⟩ := hac
      obtain ⟨v, hv⟩ := (hs _ _ hE).vel
      show E.velocity + Vec3.zeros.scale (fin d) = _
      rw [hv, Vec3.f_zeros, Vec3.f_scale, Vec3.f_add]
      congr 1; ext <;> simp
  · exact ⟨E, by rw [Arena.get_set_ne hk]; exact hE, VelRel.refl _, rfl, fun _ => rfl⟩

theorem spin_all {G : γ → Prop} (tame : Tame G) {d : ℝ} {gens : List Handle} {h : Handle} : ∀ {l : List Handle} {s s' : System XReal γ} {infos : List (StepInfo XReal)}
    {E : InternalEntity XReal},
    integrateAll (fin d) gens l s = .ok (s', infos) → FineWorld s.toWorld → (∀ k x, s.generators.get k = some x → G x) → s.entities.get h = some E →
    ((∀ o : Orientation ℝ, o.Unit → o.f.finalizeMomentOfInertia E.preppedMoment = Mat3.o.f) ∨ Central G) →
    ∃ E', s'.entities.get h = some E' ∧ VelRel E E' ∧ E'.angularVelocity = E.angularVelocity ∧ (E.totalMass = posInf → E'.velocity = E.velocity)
  | [], s, s', infos, E, hh, hs, hg, hE, hno => by
    unfold integrateAll at hh; cases hh; exact ⟨E, hE, VelRel.refl _, rfl, fun _ => rfl⟩
  | k :: l, s, s', infos, E, hh, hs, hg, hE, hno => by
    unfold integrateAll at hh
    obtain ⟨⟨m, i⟩, e1, hh⟩ := Res.bind_eq_ok.mp hh
    obtain ⟨⟨s2, is⟩, e2, hh⟩ := Res.bind_eq_ok.mp hh
    cases hh
    obtain ⟨a1, a2, -⟩ := fine_one tame e1 hs hg
    obtain ⟨E1, g1, r1, w1, v1⟩ := spin_one tame e1 hs hg hE hno
    have hp : E1.preppedMoment = E.preppedMoment := by rw [r1]
    have hm : E1.totalMass = E.totalMass := by rw [r1]
    obtain ⟨E2, g2, r2, w2, v2⟩ := spin_all tame e2 a1 a2 g1 (by rw [hp]; exact hno)
    refine ⟨E2, g2, ?_, w2.trans w1, fun hi => (v2 (by rw [hm]; exact hi)).trans (v1 hi)⟩
    rw [VelRel] at *; rw [r2, r1]

/-- A whole step. -/
theorem hover_final {G : γ → Prop} (tame : Tame G) {s s' : System XReal γ} {ord : IterOrder} {d : ℝ} (hd : 1 / 1000000 ≤ d)
    (hh : s.step ord (fin d) = .ok s') (hcol : ∀ j c, s.colliders.get j = some c → FiniteNumbers c) (hfw : FineWorld s.toWorld)
    (hg : ∀ k x, s.generators.get k = some x → G x) (hrec : ∀ x ∈ s'.collisionRecords, SoundContact s' x ∨ ¬A ∧ Names x bh)
    (hmB : ¬A → B0.totalMass ≠ fin 0 ∧ B0.totalMass ≠ posInf)
    (hS : Setting s A bh fh ch ch' B0 F0 sc pl q r c P n) (hR : ¬A → ∀ x ∈ s'.collisionRecords, Names x bh → Names x fh) (hG : ((∀ o : Orientation ℝ, o.Unit → o.f.finalizeMomentOfInertia B0.preppedMoment = Mat3.o.f) ∨ Central G))
    {o : Orientation ℝ} (ho : B0.orientation = o.f) (hou : o.Unit) (hoc : c + o.internalOriginOffset = .o) (hq : F0.orientation = q.f)
    (ha : B0.angularVelocity = (Vec3.o).f) (hFv : F0.velocity = (Vec3.o).f) (hFa : F0.angularVelocity = (Vec3.o).f)
    (nb1 : fh ∉ B0.neighbors) (nb2 : bh ∉ F0.neighbors) (p : Phases ord s s' (fin d)) :
    Hover A bh fh q r c P n (min (clearance o.position P n r) (-eps) - eps * d) p.final.world := by
  have hd0 : 0 ≤ d := le_trans (by norm_num) hd
  have fr := (step_frame hh).1
  obtain ⟨a1, a2, a3⟩ := fine_all tame p.integrate hfw hg
  have start : FineLoop s.entities ⟨p.mid.toWorld, p.infos, fin d, zero⟩ := fun _ => ⟨a1, a3, d, rfl⟩
  obtain ⟨B1, gB1, rB, wB, -⟩ := spin_all tame p.integrate hfw hg (h := bh) (E := B0) hS.get1 hG
  obtain ⟨F1, gF1, rF, wF, vF⟩ := spin_all tame p.integrate hfw hg (h := fh) (E := F0) hS.get2
    (Or.inl (fun o' ho' => by rw [hS.still, finalize_o ho']))
  set K : ℝ := min (clearance o.position P n r) (-eps) with hK
  have hov : Hover A bh fh q r c P n (K - eps * (0 * d)) p.mid.toWorld := by
    obtain ⟨v, hv⟩ := (a1 _ _ gB1).vel
    refine ⟨B1, F1, o, v, .o, gB1, gF1, by rw [rB]; exact ho, hou, hoc, hv, by rw [wB, ha], by rw [rF]; exact hq, by rw [vF hS.heavy, hFv],
      by rw [wF, hFa], by rw [rB]; exact nb1, by rw [rF]; exact nb2, Or.inl rfl, ?_⟩
    rw [zero_mul, mul_zero, sub_zero]; exact min_le_left _ _
  let Good : LoopState XReal → Prop := fun st => ∀ x ∈ st.world.collisionRecords,
    (SoundIn s.entities x ∨ ¬A ∧ Names x bh) ∧ (¬A → Names x bh → Names x fh)
  have hmid : p.mid.toWorld.collisionRecords = [] := by
    rw [(integrateAll_spec (Arena.handles_nodup _) p.integrate).1]
  have key : ∃ e, Running s d e p.final ∧ FineLoop s.entities p.final ∧ (Good p.final → Hover A bh fh q r c P n (K - eps * (e * d)) p.final.world ∧
      ∀ x ∈ p.final.world.collisionRecords, SoundIn s.entities x) := by
    refine iterate_induct (P := fun st => ∃ e, Running s d e st ∧ FineLoop s.entities st ∧
      (Good st → Hover A bh fh q r c P n (K - eps * (e * d)) st.world ∧ ∀ x ∈ st.world.collisionRecords, SoundIn s.entities x)) ?_
      ⟨0, p.running.1, start, fun _ => ⟨hov, by rw [hmid]; simp⟩⟩ p.iterate
    rintro st best w st1 ⟨e, hr, hfl, hgo⟩ h1 h2 h3
    obtain ⟨t, ht, t0, t1, -, r1, r2⟩ := hr.body hd0 h1 h2 h3
    obtain ⟨k1, k2⟩ := fine_body (dt := fin d) (Arena.handles_nodup _) hcol hr.inv hfl h1 h2 h3
    have hcr : st1.world.collisionRecords = st.world.collisionRecords := by
      have hnd : ((({ st with world := w } : LoopState XReal)).infos.map StepInfo.handle).Nodup := by
        show (st.infos.map StepInfo.handle).Nodup
        rw [hr.inv.handles]; exact Arena.handles_nodup _
      rw [(advance_spec hnd h3).1]; simp only []; rw [(wakeColliding_evolves h2).1]
    have main := fun hgood => hover_body hS hcol hd0 hr (min_le_right _ _) h1 h2 h3 (hgo hgood).1 ht t0 t1
    refine ⟨fun _ => ⟨_, r1, k1, fun hgood => ?_⟩, ?_⟩
    · have hgood' : Good st := by intro x hx; exact hgood x (by rw [hcr]; exact hx)
      exact ⟨(main hgood').1, by rw [hcr]; exact (hgo hgood').2⟩
    intro k st2 hb h4
    refine ⟨_, (r2 k st2 hb h4).1, k2 k st2 hb h4, fun hgood => ?_⟩
    obtain ⟨x1, x2, y1, y2, -, -, -, -, -, hst2⟩ := respond_spec h4
    have hsub : ∀ x ∈ st1.world.collisionRecords, x ∈ st2.world.collisionRecords := by
      intro x hx; rw [hst2]; simp [hx]
    have hgood' : Good st := by intro x hx; exact hgood x (hsub x (by rw [hcr]; exact hx))
    have hold := (hgo hgood').2
    have hall : ∀ x ∈ st2.world.collisionRecords, SoundIn s.entities x := by
      intro x hx
      rw [hst2] at hx
      simp only [List.mem_append, List.mem_singleton] at hx
      rcases hx with hx | hx
      · exact hold x (by rw [← hcr]; exact hx)
      · have hxm : x ∈ st2.world.collisionRecords := by rw [hst2]; simp [hx]
        rcases (hgood x hxm).1 with h | ⟨hA, hn⟩
        · exact h
        · have hf := (hgood x hxm).2 hA hn
          have hx1 : x.firstEntity = k.firstHandle := by rw [hx]; rfl
          have hx2 : x.secondEntity = k.secondHandle := by rw [hx]; rfl
          have hx3 : x.position = k.collision.position := by rw [hx]; rfl
          have hx4 : x.normal = k.collision.normal := by rw [hx]; rfl
          unfold Names at hn hf
          rw [hx1, hx2] at hn hf
          have hboth : k.firstHandle = bh ∧ k.secondHandle = fh ∨ k.firstHandle = fh ∧ k.secondHandle = bh := by
            rcases hn with hb | hb
            · left; exact ⟨hb, hf.resolve_left (fun hc => hS.ne (hb.symm.trans hc))⟩
            · right; exact ⟨hf.resolve_right (fun hc => hS.ne (hb.symm.trans hc)), hb⟩
          subst hb
          obtain ⟨q1, q2⟩ := hover_sound hS hA hd0 hr (hgo hgood').1 (searchFirst_contact h1) hboth
          refine ⟨by rw [hx3]; exact q1, by rw [hx4]; exact q2, ?_⟩
          obtain ⟨z1, z2⟩ := hmB hA
          have hi : (posInf : XReal) ≠ fin 0 := by intro h; cases h
          intro E F hE hF
          rw [hx1] at hE
          rw [hx2] at hF
          rcases hboth with ⟨e1, e2⟩ | ⟨e1, e2⟩
          · rw [e1, hS.get1] at hE; cases hE
            rw [e2, hS.get2] at hF; cases hF
            exact ⟨z1, by rw [hS.heavy]; exact hi, Or.inl z2⟩
          · rw [e1, hS.get2] at hE; cases hE
            rw [e2, hS.get1] at hF; cases hF
            exact ⟨by rw [hS.heavy]; exact hi, z1, Or.inr z2⟩
    refine ⟨(main hgood').2 k st2 hb h4 ?_ r1.inv.frame (fun x hx => ⟨hall x hx, (hgood x hx).2⟩), hall⟩
    exact (k1 (fun x hx => hall x (hsub x hx))).1
  obtain ⟨e, hr, -, hgo⟩ := key
  obtain ⟨f1, f2⟩ := sleepLoop_frame p.selfless p.sleep
  have hr' : s'.collisionRecords = p.final.world.collisionRecords := by rw [f2]; split <;> rfl
  obtain ⟨⟨X, F, o', v, a, gX, gF, hX, z1, z2, z3, z4, z5, z6, z7, z8, z9, z10, hcl⟩, -⟩ := hgo (by
    intro x hx
    rw [← hr'] at hx
    refine ⟨?_, fun hA => hR hA x hx⟩
    refine (hrec x hx).imp (fun h => ?_) id
    obtain ⟨r1, r2, r3⟩ := h
    refine ⟨r1, r2, ?_⟩
    intro E F hE hF
    obtain ⟨E', hE', zE⟩ := fr.entities.get hE
    obtain ⟨F', hF', zF⟩ := fr.entities.get hF
    have := r3 E'.makePub F'.makePub (getEntity_iff.mpr ⟨E', hE', rfl⟩) (getEntity_iff.mpr ⟨F', hF', rfl⟩)
    rw [← (staticRel_iff.mp zE).2.2.1, ← (staticRel_iff.mp zF).2.2.1]
    exact this)
  refine ⟨X, F, o', v, a, gX, gF, hX, z1, z2, z3, z4, z5, z6, z7, z8, z9, z10, ?_⟩
  have he : (0 : ℝ) < eps := by unfold eps; norm_num
  have : eps * (e * d) ≤ eps * d := by
    apply mul_le_mul_of_nonneg_left _ he.le
    have := mul_le_mul_of_nonneg_right hr.clock.le_one hd0
    linarith
  linarith

theorem hover_step {G : γ → Prop} (tame : Tame G) {s s' : System XReal γ} {ord : IterOrder} {d : ℝ} (hd : 1 / 1000000 ≤ d)
    (hh : s.step ord (fin d) = .ok s') (hcol : ∀ j c, s.colliders.get j = some c → FiniteNumbers c) (hfw : FineWorld s.toWorld)
    (hg : ∀ k x, s.generators.get k = some x → G x) (hrec : ∀ x ∈ s'.collisionRecords, SoundContact s' x ∨ ¬A ∧ Names x bh)
    (hmB : ¬A → B0.totalMass ≠ fin 0 ∧ B0.totalMass ≠ posInf)
    (hS : Setting s A bh fh ch ch' B0 F0 sc pl q r c P n) (hR : ¬A → ∀ x ∈ s'.collisionRecords, Names x bh → Names x fh) (hG : ((∀ o : Orientation ℝ, o.Unit → o.f.finalizeMomentOfInertia B0.preppedMoment = Mat3.o.f) ∨ Central G))
    {o : Orientation ℝ} (ho : B0.orientation = o.f) (hou : o.Unit) (hoc : c + o.internalOriginOffset = .o) (hq : F0.orientation = q.f)
    (ha : B0.angularVelocity = (Vec3.o).f) (hFv : F0.velocity = (Vec3.o).f) (hFa : F0.angularVelocity = (Vec3.o).f)
    (nb1 : fh ∉ B0.neighbors) (nb2 : bh ∉ F0.neighbors) :
    ∃ B' o', s'.entities.get bh = some B' ∧ B'.orientation = Orientation.f o' ∧
      min (clearance o.position P n r) (-eps) - eps * d ≤ clearance o'.position P n r := by
  obtain ⟨p⟩ := step_phases (proper_fin hd) hh
  obtain ⟨X, F, o', v, a, gX, gF, hX, -, -, -, -, -, -, -, -, -, -, hcl⟩ :=
    hover_final tame hd hh hcol hfw hg hrec hmB hS hR hG ho hou hoc hq ha hFv hFa nb1 nb2 p
  obtain ⟨f1, f2⟩ := sleepLoop_frame p.selfless p.sleep
  have hent : (if p.concluded then p.final.world else { p.final.world with debug := p.final.world.debug ++ [.ranOut] }).entities =
      p.final.world.entities := by split <;> rfl
  obtain ⟨E, hE, -⟩ := f1.entities.get (by rw [hent]; exact gX)
  have hnd : (p.final.infos.map StepInfo.handle).Nodup := by rw [p.inv.handles]; exact Arena.handles_nodup _
  have hn := sleepLoop_spec hnd p.selfless p.sleep bh X E (by rw [hent]; exact gX) hE
  refine ⟨E, o', hE, ?_, hcl⟩
  · rw [hn]
    show (if bh ∈ p.final.infos.map StepInfo.handle then settle _ (fin d) X else X).orientation = _
    rw [← hX]
    split
    · unfold settle; (repeat' split) <;> rfl
    · rfl

/-- A ball over an immovable plane: entity `bh` has the sphere collider `ch` of radius `r` with its centre at the entity's position `x`, and does not spin; entity `fh`
has the plane collider `ch'` with the unit normal `n`, which goes through `P`, is immovable and at rest. -/
structure BallOverFloor (s : System XReal γ) (bh fh ch ch' : Handle) (ball floor : Entity XReal) (sc : SphereCollider XReal)
    (pl : PlaneCollider XReal) (r : ℝ) (x P n : Vec3 ℝ) : Prop where
  different : bh ≠ fh
  isBall : s.getEntity bh = some ball
  isFloor : s.getEntity fh = some floor
  hasSphere : ch ∈ ball.colliders
  hasPlane : ch' ∈ floor.colliders
  sphere : s.getCollider ch = some (.sphere sc)
  plane : s.getCollider ch' = some (.plane pl)
  radius : sc.radius = fin r
  nonneg : 0 ≤ r
  position : ball.position = x.f
  center : ball.lastOrientation.positionIntoWorld sc.center = ball.position
  normal : pl.normal = n.f
  unit : n.dot n = 1
  through : floor.lastOrientation.positionIntoWorld pl.position = P.f
  immovable : ∃ c ∈ linked s floor, c.mass = posInf
  still : floor.velocity = (Vec3.o).f ∧ floor.angularVelocity = (Vec3.o).f
  /-- Neither remembers the other as a neighbour; `strangers_awake`: that is so if both are awake. -/
  strangers : ∀ B F, s.entities.get bh = some B → s.entities.get fh = some F → fh ∉ B.neighbors ∧ bh ∉ F.neighbors

theorem strangers_awake {s : System XReal γ} (hr : Reachable s) {ball floor : Entity XReal} (h1 : s.getEntity bh = some ball)
    (h2 : s.getEntity fh = some floor) (a1 : ball.asleep = false) (a2 : floor.asleep = false) :
    ∀ B F, s.entities.get bh = some B → s.entities.get fh = some F → fh ∉ B.neighbors ∧ bh ∉ F.neighbors := by
  intro B F hB hF
  obtain ⟨B', hB', rfl⟩ := getEntity_iff.mp h1
  obtain ⟨F', hF', rfl⟩ := getEntity_iff.mp h2
  rw [hB] at hB'; cases hB'
  rw [hF] at hF'; cases hF'
  exact C27_partial_awake_pairs hr hB hF a1 a2

/-- The sphere is the ball's only collider and has no friction, the ball's mass is finite, and all other entities consist of planes. -/
structure Slippery (s : System XReal γ) (bh ch : Handle) (ball : Entity XReal) (sc : SphereCollider XReal) : Prop where
  sole : ball.colliders = [ch]
  mass : ball.lastTotalMass ≠ posInf
  static : sc.material.staticFriction = fin 0
  dynamic : sc.material.dynamicFriction = fin 0
  planes : ∀ k e, s.getEntity k = some e → k ≠ bh → ∀ j ∈ e.colliders, ∃ pl, s.getCollider j = some (.plane pl)

theorem Slippery.slick {s : System XReal γ} {B0 : InternalEntity XReal} (h : Slippery s bh ch B0.makePub sc) : Slick s bh ch B0 sc := by
  refine ⟨h.sole, h.mass, h.static, h.dynamic, fun k E hE hk j hj => ?_⟩
  obtain ⟨pl, hpl⟩ := h.planes k E.makePub (getEntity_iff.mpr ⟨E, hE, rfl⟩) hk j hj
  rw [getCollider_eq] at hpl
  exact ⟨pl, hpl⟩

/-- What is stored about a ball over a floor. -/
theorem floor_setting {G : γ → Prop} (tame : Tame G) {s : System XReal γ} (hf : FiniteHistory G s) {ball floor : Entity XReal} {x : Vec3 ℝ}
    (hB : BallOverFloor s bh fh ch ch' ball floor sc pl r x P n)
    (hA : A → (∀ o : Orientation ℝ, o.Unit → o.f.finalizeMomentOfInertia ball.lastPreppedMoment = Mat3.o.f) ∨ Slippery s bh ch ball sc)
    (hO : ¬A → ball.colliders = [ch] ∧ floor.colliders = [ch'] ∧ ∃ a b : ℝ, sc.material.restitution = fin a ∧ pl.material.restitution = fin b ∧ 0 ≤ a * b) :
    ∃ (B0 F0 : InternalEntity XReal) (o q : Orientation ℝ) (c : Vec3 ℝ), ball = B0.makePub ∧ floor = F0.makePub ∧ FineWorld s.toWorld ∧
      (∀ k x, s.generators.get k = some x → G x) ∧ Setting s A bh fh ch ch' B0 F0 sc pl q r c P n ∧ B0.orientation = o.f ∧ o.Unit ∧
      c + o.internalOriginOffset = .o ∧ F0.orientation = q.f ∧ o.position = x ∧ fh ∉ B0.neighbors ∧ bh ∉ F0.neighbors := by
  obtain ⟨B0, gB, rfl⟩ := getEntity_iff.mp hB.isBall
  obtain ⟨F0, gF, rfl⟩ := getEntity_iff.mp hB.isFloor
  have hr := hf.reachable
  obtain ⟨fw, hg⟩ := hf.fine tame
  obtain ⟨o, ho, hou⟩ := (fw _ _ gB).pose
  obtain ⟨q, hq, hqu⟩ := (fw _ _ gF).pose
  obtain ⟨hm, hI⟩ := stored_infinite hr gF hB.immovable
  have hcol := hf.colliders
  obtain ⟨nb1, nb2⟩ := hB.strangers B0 F0 gB gF
  have hs := hB.sphere; rw [getCollider_eq] at hs
  have hp := hB.plane; rw [getCollider_eq] at hp
  obtain ⟨c, hc⟩ : ∃ c : Vec3 ℝ, sc.center = c.f := (hcol _ _ hs).1.f
  have hx : o.position = x := by
    have := hB.position
    change B0.orientation.position = _ at this
    rw [ho] at this
    exact (Vec3.f_inj _ _).mp this
  have hcen : c + o.internalOriginOffset = .o := by
    have := hB.center
    change B0.orientation.positionIntoWorld sc.center = B0.orientation.position at this
    rw [ho, hc, Orientation.f_positionIntoWorld o c hou] at this
    have e : o.position + o.rotation.rot (c + o.internalOriginOffset) = o.position := (Vec3.f_inj _ _).mp this
    have e2 : o.rotation.rot (c + o.internalOriginOffset) = .o := by
      have := congrArg (fun u => u - o.position) e
      ext
      · have := congrArg Vec3.x e; simp at this; simpa using this
      · have := congrArg Vec3.y e; simp at this; simpa using this
      · have := congrArg Vec3.z e; simp at this; simpa using this
    have := Quat.rot_conj_rot (c + o.internalOriginOffset) hou
    rw [e2, Quat.rot_o] at this
    exact this.symm
  exact ⟨B0, F0, o, q, c, rfl, rfl, fw, hg, ⟨hB.different, gB, gF, hB.hasSphere, hB.hasPlane, hs, hp, hB.radius, hc, hB.normal, by rw [← hq]; exact hB.through, hqu, hB.nonneg, hB.unit,
      hm, hI, fun h => (hA h).imp id Slippery.slick, fun hA => by
        obtain ⟨o1, o2, a, b, e1, e2, e3⟩ := hO hA
        exact ⟨o1, o2, a * b, e3, by rw [e1, e2, fin_mul], by rw [e1, e2, fin_mul, mul_comm]⟩⟩, ho, hou, hcen, hq, hx, nb1, nb2⟩

theorem floor_core {G : γ → Prop} (tame : Tame G) {s s' : System XReal γ} (hf : FiniteHistory G s) {ord : IterOrder} {d : ℝ} (hd : 1 / 1000000 ≤ d)
    (hh : s.step ord (fin d) = .ok s') (hrec : ∀ x ∈ s'.collisionRecords, SoundContact s' x ∨ ¬A ∧ Names x bh) {ball floor : Entity XReal} {x : Vec3 ℝ}
    (hB : BallOverFloor s bh fh ch ch' ball floor sc pl r x P n) (spinless : ball.angularVelocity = (Vec3.o).f) (hmB : ¬A → ball.lastTotalMass ≠ fin 0 ∧ ball.lastTotalMass ≠ posInf) (hG : (∀ o : Orientation ℝ, o.Unit → o.f.finalizeMomentOfInertia ball.lastPreppedMoment = Mat3.o.f) ∨ Central G)
    (hA : A → (∀ o : Orientation ℝ, o.Unit → o.f.finalizeMomentOfInertia ball.lastPreppedMoment = Mat3.o.f) ∨ Slippery s bh ch ball sc)
    (hO : ¬A → ball.colliders = [ch] ∧ floor.colliders = [ch'] ∧ (∃ a b : ℝ, sc.material.restitution = fin a ∧ pl.material.restitution = fin b ∧ 0 ≤ a * b) ∧
      ∀ x ∈ s'.collisionRecords, Names x bh → Names x fh) :
    ∃ ball' x', s'.getEntity bh = some ball' ∧ ball'.position = Vec3.f x' ∧ min (clearance x P n r) (-eps) - eps * d ≤ clearance x' P n r := by
  obtain ⟨B0, F0, o, q, c, rfl, rfl, fw, hg, hS, ho, hou, hcen, hq, hx, nb1, nb2⟩ := floor_setting tame hf hB hA (fun h => ⟨(hO h).1, (hO h).2.1, (hO h).2.2.1⟩)
  have hcol := hf.colliders
  obtain ⟨B', o', g', h', hcl⟩ := hover_step tame hd hh hcol fw hg hrec hmB hS (fun hA => (hO hA).2.2.2) hG ho hou hcen hq spinless hB.still.1 hB.still.2 nb1 nb2
  refine ⟨B'.makePub, o'.position, getEntity_iff.mpr ⟨B', g', rfl⟩, ?_, ?_⟩
  · show B'.orientation.position = _
    rw [h']; rfl
  · rw [hx] at hcl; exact hcl

/-- **C56 (partial).** One step of any length `d` with forces that act at the position of the entity (gravity), in which the ball, of finite positive mass, meets nothing
but the floor: if the entities have just the sphere and the plane as colliders and the product of the restitutions is not negative, then the ball is after the step not
deeper below the plane than it was before (or than EPSILON, if it was not below), plus `EPSILON * d`.  Contacts of others have to be sound (as for C37).
Missing: a ball that spins at the start of the step (`C56_false`), and one that is pushed by others. -/
theorem C56_gravity_partial {G : γ → Prop} (tame : Tame G) (central : Central G) {s s' : System XReal γ} (hf : FiniteHistory G s) {ord : IterOrder} {d : ℝ}
    (hd : 1 / 1000000 ≤ d) (hh : s.step ord (fin d) = .ok s') (hrec : ∀ x ∈ s'.collisionRecords, SoundContact s' x ∨ Names x bh ∧ Names x fh)
    (halone : ∀ x ∈ s'.collisionRecords, Names x bh → Names x fh) {ball floor : Entity XReal} {x : Vec3 ℝ}
    (hB : BallOverFloor s bh fh ch ch' ball floor sc pl r x P n) (spinless : ball.angularVelocity = (Vec3.o).f) (hm : ball.lastTotalMass ≠ fin 0 ∧ ball.lastTotalMass ≠ posInf)
    (h1 : ball.colliders = [ch]) (h2 : floor.colliders = [ch']) {a b : ℝ}
    (ha : sc.material.restitution = fin a) (hb : pl.material.restitution = fin b) (hab : 0 ≤ a * b) :
    ∃ ball' x', s'.getEntity bh = some ball' ∧ ball'.position = Vec3.f x' ∧ min (clearance x P n r) (-eps) - eps * d ≤ clearance x' P n r :=
  floor_core (A := False) tame hf hd hh (fun x hx => (hrec x hx).imp id (fun h => ⟨id, h.1⟩)) hB spinless (fun _ => hm) (Or.inr central) (fun h => h.elim)
    (fun _ => ⟨h1, h2, ⟨a, b, ha, hb, hab⟩, halone⟩)

/-- **C56 (partial), the two alone**: the same if there are no other entities; then nothing has to be known about the contacts.
Missing: a ball that spins at the start of the step (`C56_false`). -/
theorem C56_alone_partial {G : γ → Prop} (tame : Tame G) (central : Central G) {s s' : System XReal γ} (hf : FiniteHistory G s) {ord : IterOrder} {d : ℝ}
    (hd : 1 / 1000000 ≤ d) (hh : s.step ord (fin d) = .ok s') (halone : ∀ h e, s.getEntity h = some e → h = bh ∨ h = fh) {ball floor : Entity XReal} {x : Vec3 ℝ}
    (hB : BallOverFloor s bh fh ch ch' ball floor sc pl r x P n) (spinless : ball.angularVelocity = (Vec3.o).f) (hm : ball.lastTotalMass ≠ fin 0 ∧ ball.lastTotalMass ≠ posInf)
    (h1 : ball.colliders = [ch]) (h2 : floor.colliders = [ch']) {a b : ℝ}
    (ha : sc.material.restitution = fin a) (hb : pl.material.restitution = fin b) (hab : 0 ≤ a * b) :
    ∃ ball' x', s'.getEntity bh = some ball' ∧ ball'.position = Vec3.f x' ∧ min (clearance x P n r) (-eps) - eps * d ≤ clearance x' P n r := by
  have hboth : ∀ x ∈ s'.collisionRecords, Names x bh ∧ Names x fh := by
    intro x hx
    obtain ⟨hne, e1, e2⟩ := (C30_records_bounded (proper_fin hd) hh).2 x hx
    have live : ∀ h, s'.getEntity h ≠ none → h = bh ∨ h = fh := by
      intro h hn
      obtain ⟨E, hE⟩ := Option.ne_none_iff_exists'.mp hn
      obtain ⟨Y, hY, -⟩ := getEntity_iff.mp hE
      obtain ⟨X, hX, -⟩ := (step_frame hh).1.entities.get' hY
      exact halone h X.makePub (getEntity_iff.mpr ⟨X, hX, rfl⟩)
    unfold Names
    rcases live _ e1 with h | h <;> rcases live _ e2 with h' | h'
    · exact absurd (h.trans h'.symm) hne
    · exact ⟨Or.inl h, Or.inr h'⟩
    · exact ⟨Or.inr h', Or.inl h⟩
    · exact absurd (h.trans h'.symm) hne
  exact C56_gravity_partial tame central hf hd hh (fun x hx => Or.inr (hboth x hx)) (fun x hx _ => (hboth x hx).2) hB spinless hm h1 h2 ha hb hab

/-- A body all of whose colliders have no mass and no moment has no moment of inertia. -/
theorem point_moment {G : γ → Prop} (tame : Tame G) {s : System XReal γ} (hf : FiniteHistory G s) {ball : Entity XReal} (hb : s.getEntity bh = some ball)
    (hpoint : ∀ c ∈ linked s ball, c.mass = fin 0 ∧ c.momentOfInertia = Mat3.o.f) :
    ∀ o : Orientation ℝ, o.Unit → o.f.finalizeMomentOfInertia ball.lastPreppedMoment = Mat3.o.f := by
  obtain ⟨B0, gB, rfl⟩ := getEntity_iff.mp hb
  obtain ⟨fw, -⟩ := hf.fine tame
  obtain ⟨o, ho, hou⟩ := (fw _ _ gB).pose
  rw [linked_eq] at hpoint
  have hls : ∃ ls : List Lump, List.Forall₂ Lump.Of ls (found s.colliders B0.colliders) ∧ ∀ l ∈ ls, l.m = 0 ∧ l.t = .o := by
    have hfin : ∀ c ∈ found s.colliders B0.colliders, Finite3 c.localCenterOfMass := by
      intro c hc
      have hm := (hpoint c hc).1
      simp only [found, List.mem_filterMap] at hc
      obtain ⟨k, -, hc⟩ := hc
      exact (FiniteNumbers.sound (hf.colliders k c hc) hm).1.2.1
    have hp' : ∀ c ∈ found s.colliders B0.colliders, c.mass = fin 0 ∧ c.momentOfInertia = Mat3.o.f := hpoint
    revert hfin hp'
    generalize found s.colliders B0.colliders = l
    intro hfin hp'
    induction l with
    | nil => exact ⟨[], .nil, by simp⟩
    | cons c l ih =>
      obtain ⟨ls, i1, i2⟩ := ih (fun c hc => hfin c (by simp [hc])) (fun c hc => hp' c (by simp [hc]))
      obtain ⟨u, hu⟩ := (hfin c (by simp)).f
      obtain ⟨p1, p2⟩ := hp' c (by simp)
      refine ⟨⟨0, u, .o⟩ :: ls, .cons ⟨p1, hu, p2⟩ i1, ?_⟩
      intro l hl
      rcases List.mem_cons.mp hl with rfl | hl
      · exact ⟨rfl, rfl⟩
      · exact i2 l hl
  obtain ⟨ls, hls, hz⟩ := hls
  have hpm : B0.preppedMoment = _ := (stored_real hf.reachable gB ho hls).2
  intro q hq
  show q.f.finalizeMomentOfInertia B0.preppedMoment = _
  rw [hpm]
  have : Mat3.sum (ls.map fun l => l.about (o.internalOriginOffset + l.c)) = .o := by
    clear hls hpm
    induction ls with
    | nil => simp
    | cons l ls ih =>
      obtain ⟨z1, z2⟩ := hz l (by simp)
      rw [List.map_cons, Mat3.sum_cons, ih (fun l hl => hz l (by simp [hl]))]
      unfold Lump.about
      rw [z1, z2]
      ext <;> simp [Mat3.scale, Mat3.o]
  rw [this, finalize_o hq]

/-- **C56 (partial), in company.** The same bound if the ball has no moment of inertia (all its mass is its own, its colliders have mass and moment zero), with any forces,
any number of other entities and collisions, and any colliders on either.
Missing: balls with a moment of inertia in the company of others than planes (`C56_slippery_partial`). -/
theorem C56_point_partial {G : γ → Prop} (tame : Tame G) {s s' : System XReal γ} (hf : FiniteHistory G s) {ord : IterOrder} {d : ℝ}
    (hd : 1 / 1000000 ≤ d) (hh : s.step ord (fin d) = .ok s') (hrec : ∀ x ∈ s'.collisionRecords, SoundContact s' x) {ball floor : Entity XReal} {x : Vec3 ℝ}
    (hB : BallOverFloor s bh fh ch ch' ball floor sc pl r x P n) (spinless : ball.angularVelocity = (Vec3.o).f)
    (hpoint : ∀ c ∈ linked s ball, c.mass = fin 0 ∧ c.momentOfInertia = Mat3.o.f) :
    ∃ ball' x', s'.getEntity bh = some ball' ∧ ball'.position = Vec3.f x' ∧ min (clearance x P n r) (-eps) - eps * d ≤ clearance x' P n r := by
  exact floor_core (A := True) tame hf hd hh (fun x hx => Or.inl (hrec x hx)) hB spinless (fun h => (h trivial).elim) (Or.inl (point_moment tame hf hB.isBall hpoint))
    (fun _ => Or.inl (point_moment tame hf hB.isBall hpoint)) (fun h => (h trivial).elim)

/-- **C56 (partial), among planes.** The same bound for a ball with a moment of inertia among any number of planes, movable or not, if its sphere is without friction
and the forces act at the position of the entity (gravity).
Missing: balls with friction in the company of others than the floor, and those that spin at the start of the step (`C56_false`). -/
theorem C56_slippery_partial {G : γ → Prop} (tame : Tame G) (central : Central G) {s s' : System XReal γ} (hf : FiniteHistory G s) {ord : IterOrder} {d : ℝ}
    (hd : 1 / 1000000 ≤ d) (hh : s.step ord (fin d) = .ok s') (hrec : ∀ x ∈ s'.collisionRecords, SoundContact s' x) {ball floor : Entity XReal} {x : Vec3 ℝ}
    (hB : BallOverFloor s bh fh ch ch' ball floor sc pl r x P n) (spinless : ball.angularVelocity = (Vec3.o).f) (slippery : Slippery s bh ch ball sc) :
    ∃ ball' x', s'.getEntity bh = some ball' ∧ ball'.position = Vec3.f x' ∧ min (clearance x P n r) (-eps) - eps * d ≤ clearance x' P n r :=
  floor_core (A := True) tame hf hd hh (fun x hx => Or.inl (hrec x hx)) hB spinless (fun h => (h trivial).elim) (Or.inr central)
    (fun _ => Or.inr slippery) (fun h => (h trivial).elim)

end

end Fluffy.Props
