import Verif.Props.Lying
import Verif.Props.Rolling
/- A ball that slides and spins on an immovable plane, step after step. -/
set_option linter.unusedSectionVars false
set_option linter.unusedSimpArgs false
namespace Fluffy.Props
open InternalEntity Step XReal

/-! ### Specification -/

/-- How a ball moves along the ground. -/
structure Gait where
  vel : Vec3 ℝ
  spin : Vec3 ℝ

/-- The velocity of the lowest point of a ball of radius `r` on the ground with the normal `n`. -/
def Gait.slip (n : Vec3 ℝ) (r : ℝ) (g : Gait) : Vec3 ℝ := g.vel - (g.spin.cross n).scale r

/-- One step: first the velocity changes by `h`, then the friction, which is at most `c`, takes something off the slip. -/
noncomputable def Gait.next (n : Vec3 ℝ) (r m i c : ℝ) (h : Vec3 ℝ) (g : Gait) : Gait :=
  let S := Gait.slip n r ⟨g.vel + h, g.spin⟩
  let x := min 1 (c / S.len)
  ⟨g.vel + h - S.scale (x / m), g.spin + (n.cross S).scale (r * x / i)⟩

/-- The part along the ground. -/
def along' (n u : Vec3 ℝ) : Vec3 ℝ := u - n.scale (u.dot n)

theorem along_perp {n : Vec3 ℝ} (hn : n.dot n = 1) (u : Vec3 ℝ) : (along' n u).dot n = 0 := by
  unfold along'; rw [Vec3.sub_dot, Vec3.scale_dot, hn]; ring

theorem Gait.slip_perp {n : Vec3 ℝ} {r : ℝ} {g : Gait} (h : g.vel.dot n = 0) : (g.slip n r).dot n = 0 := by
  unfold Gait.slip
  have : (g.vel - (g.spin.cross n).scale r).dot n = g.vel.dot n := by simp [Vec3.dot_def]; ring
  rw [this, h]

theorem Gait.next_perp {n : Vec3 ℝ} {r m i c : ℝ} {h : Vec3 ℝ} {g : Gait} (hg : g.vel.dot n = 0) (hh : h.dot n = 0) : (g.next n r m i c h).vel.dot n = 0 := by
  unfold Gait.next
  have h1 : (g.vel + h).dot n = 0 := by rw [Vec3.add_dot, hg, hh, add_zero]
  simp only
  rw [Vec3.sub_dot, h1, Vec3.scale_dot, Gait.slip_perp (g := ⟨g.vel + h, g.spin⟩) h1]; ring

/-- The slip after a step. -/
theorem Gait.slip_next {n : Vec3 ℝ} {r m i c : ℝ} {h : Vec3 ℝ} {g : Gait} (hn : n.dot n = 1) (hg : g.vel.dot n = 0) (hh : h.dot n = 0) :
    (g.next n r m i c h).slip n r = rubbed (yielding r m i) c (g.slip n r + h) := by
  have h1 : (g.vel + h).dot n = 0 := by rw [Vec3.add_dot, hg, hh, add_zero]
  have hS := Gait.slip_perp (r := r) (g := ⟨g.vel + h, g.spin⟩) h1
  have e : g.slip n r + h = Gait.slip n r ⟨g.vel + h, g.spin⟩ := by unfold Gait.slip; ext <;> simp <;> ring
  rw [e]
  unfold Gait.next
  simp only
  set S := Gait.slip n r ⟨g.vel + h, g.spin⟩ with hSd
  set x := min 1 (c / S.len)
  have e2 : (n.cross S).cross n = S := by
    have : (n.cross S).cross n = S.scale (n.dot n) - n.scale (S.dot n) := by ext <;> simp [Vec3.dot_def] <;> ring
    rw [this, hn, hS]; ext <;> simp
  have e3 : Gait.slip n r ⟨g.vel + h - S.scale (x / m), g.spin + (n.cross S).scale (r * x / i)⟩ =
      S - S.scale (x / m) - (((n.cross S).cross n).scale (r * x / i)).scale r := by
    rw [hSd]
    unfold Gait.slip
    ext <;> simp <;> ring
  rw [e3, e2]
  unfold rubbed yielding
  ext <;> simp <;> ring

/-- The friction constants of a pair of materials, in either order. -/
structure Coarse (m1 m2 : Material XReal) (t μs μd : ℝ) : Prop where
  thr : m1.frictionThreshold * m2.frictionThreshold = fin t ∧ m2.frictionThreshold * m1.frictionThreshold = fin t
  stat : m1.staticFriction * m2.staticFriction = fin μs ∧ m2.staticFriction * m1.staticFriction = fin μs
  dyn : m1.dynamicFriction * m2.dynamicFriction = fin μd ∧ m2.dynamicFriction * m1.dynamicFriction = fin μd
  dead : m1.restitution * m2.restitution = fin 0 ∧ m2.restitution * m1.restitution = fin 0

theorem Coarse.of {m1 m2 : Material XReal} {t μs μd : ℝ} (h : Coarse m1 m2 t μs μd) {k : Candidate XReal} (hk : Constants k m1 m2 ∨ Constants k m2 m1) :
    k.frictionThreshold = fin t ∧ k.staticFriction = fin μs ∧ k.dynamicFriction = fin μd ∧ k.restitution = fin 0 := by
  rcases hk with ⟨k1, k2, k3, k4⟩ | ⟨k1, k2, k3, k4⟩
  · exact ⟨k2.trans h.thr.1, k3.trans h.stat.1, k4.trans h.dyn.1, k1.trans h.dead.1⟩
  · exact ⟨k2.trans h.thr.2, k3.trans h.stat.2, k4.trans h.dyn.2, k1.trans h.dead.2⟩

/-- A ball of which all axes are alike stays so when it turns. -/
theorem finalize_diag {o : Orientation ℝ} (hu : o.Unit) (i : ℝ) : o.f.finalizeMomentOfInertia (Mat3.diag ⟨i, i, i⟩).f = (Mat3.diag ⟨i, i, i⟩).f := by
  have e : o.f.finalizeMomentOfInertia (Mat3.diag ⟨i, i, i⟩).f = ((o.rotation.matrix.mul (Mat3.diag ⟨i, i, i⟩)).mul o.rotation.matrix.transpose).f := by
    simp [Orientation.finalizeMomentOfInertia, rotateMomentOfInertia]
  rw [e, Mat3.f_inj]
  apply Mat3.ext_mulVec
  intro u
  have hd : ∀ v : Vec3 ℝ, (Mat3.diag ⟨i, i, i⟩ : Mat3 ℝ).mulVec v = v.scale i := fun v => by ext <;> simp [Mat3.diag] <;> ring
  rw [Mat3.mul_mulVec, Mat3.mul_mulVec, Quat.matrix_transpose_mulVec hu, hd, hd, ← Quat.rot_eq_matrix _ _ hu, Quat.rot_scale, Quat.rot_rot_conj _ hu]

/-! ### The response -/

section
variable {e1 e2 : InternalEntity XReal} {k : Candidate XReal} {b f : Body} {p n : Vec3 ℝ} {μs μd t r m i w : ℝ}

/-- What the ground does to a ball that touches it. -/
structure Struck (b b' : Body) (n : Vec3 ℝ) (w r m i c : ℝ) : Prop where
  vel : b'.vel = (Gait.next n r m i c (n.scale w) ⟨b.vel, b.ang⟩).vel
  ang : b'.ang = (Gait.next n r m i c (n.scale w) ⟨b.vel, b.ang⟩).spin

theorem grip_eq {S : Vec3 ℝ} (hw : 0 < w) {u : ℝ} (hu : |u| = w) :
    S = .o ∨ min 1 (|1 + 0| * |u| * (if |(0:ℝ)| * |u| < t * S.len then μs else μd) / S.len) = min 1 (w * (if 0 < t then μs else μd) / S.len) := by
  by_cases hS : S = .o
  · exact Or.inl hS
  right
  have hl : 0 < S.len := lt_of_le_of_ne (Vec3.len_nonneg _) (fun h => hS ((Vec3.len_eq_zero _).mp h.symm))
  rw [hu]
  have : (|(0:ℝ)| * w < t * S.len) ↔ 0 < t := by
    rw [abs_zero, zero_mul]
    exact ⟨fun h => by by_contra h'; push Not at h'; nlinarith, fun h => mul_pos h hl⟩
  simp only [this, add_zero, abs_one, one_mul]

theorem struck_first (h : Impact e1 e2 k b f p (-n) 0 μs μd) (hT : Treads b f p (-n) r m i) (ht : k.frictionThreshold = fin t) (hw : 0 < w) (hv : b.vel.dot n = -w)
    (rt ta : XReal) (i1 i2 : StepInfo XReal) :
    ∃ b' : Body, b'.Of (Step.respondPair k rt ta e1 e2 i1 i2).first ∧ Struck b b' n w r m i (w * (if 0 < t then μs else μd)) := by
  obtain ⟨b', h1, -, -, -, -, h2, h3⟩ := C93_slip_first h hT ht rt ta i1 i2
  have hn : n.dot n = 1 := by rw [← h.unit]; simp [Vec3.dot_def]
  have hat : b.at' p = b.vel - (b.ang.cross n).scale r := by
    unfold Body.at'; rw [hT.below]; ext <;> simp <;> ring
  have hd : (b.at' p).dot (-n) = w := by
    rw [hat]
    have : (b.vel - (b.ang.cross n).scale r).dot (-n) = -b.vel.dot n := by simp [Vec3.dot_def]; ring
    rw [this, hv, neg_neg]
  have hS : Props.slip b p (-n) = Gait.slip n r ⟨b.vel + n.scale w, b.ang⟩ := by
    unfold Props.slip Gait.slip
    rw [hd, hat]; ext <;> simp <;> ring
  rw [hd, hS] at h2 h3
  refine ⟨b', h1, ?_, ?_⟩
  · rw [h2]; unfold Gait.next; simp only
    rcases grip_eq (S := Gait.slip n r ⟨b.vel + n.scale w, b.ang⟩) (t := t) (μs := μs) (μd := μd) hw (abs_of_pos hw) with h0 | h0
    · rw [h0]; ext <;> simp
    · rw [h0]; ext <;> simp
  · rw [h3]; unfold Gait.next; simp only
    rcases grip_eq (S := Gait.slip n r ⟨b.vel + n.scale w, b.ang⟩) (t := t) (μs := μs) (μd := μd) hw (abs_of_pos hw) with h0 | h0
    · rw [h0]; ext <;> simp
    · rw [h0]; ext <;> simp <;> ring

theorem struck_second (h : Impact e1 e2 k f b p n 0 μs μd) (hT : Treads b f p n (-r) m i) (ht : k.frictionThreshold = fin t) (hw : 0 < w) (hv : b.vel.dot n = -w)
    (rt ta : XReal) (i1 i2 : StepInfo XReal) :
    ∃ b' : Body, b'.Of (Step.respondPair k rt ta e1 e2 i1 i2).second ∧ Struck b b' n w r m i (w * (if 0 < t then μs else μd)) := by
  obtain ⟨b', h1, -, -, -, -, h2, h3⟩ := C93_slip_second h hT ht rt ta i1 i2
  have hn : n.dot n = 1 := h.unit
  have hat : b.at' p = b.vel - (b.ang.cross n).scale r := by
    unfold Body.at'; rw [hT.below]; ext <;> simp <;> ring
  have hd : (b.at' p).dot n = -w := by
    rw [hat]
    have : (b.vel - (b.ang.cross n).scale r).dot n = b.vel.dot n := by simp [Vec3.dot_def]; ring
    rw [this, hv]
  have hS : Props.slip b p n = Gait.slip n r ⟨b.vel + n.scale w, b.ang⟩ := by
    unfold Props.slip Gait.slip
    rw [hd, hat]; ext <;> simp <;> ring
  rw [hd, hS] at h2 h3
  have hab : |-w| = w := by rw [abs_neg, abs_of_pos hw]
  refine ⟨b', h1, ?_, ?_⟩
  · rw [h2]; unfold Gait.next; simp only
    rcases grip_eq (S := Gait.slip n r ⟨b.vel + n.scale w, b.ang⟩) (t := t) (μs := μs) (μd := μd) hw hab with h0 | h0
    · rw [h0]; ext <;> simp
    · rw [h0]; ext <;> simp
  · rw [h3]; unfold Gait.next; simp only
    rcases grip_eq (S := Gait.slip n r ⟨b.vel + n.scale w, b.ang⟩) (t := t) (μs := μs) (μd := μd) hw hab with h0 | h0
    · rw [h0]; ext <;> simp
    · rw [h0]; ext <;> simp <;> ring
end

/-! ### The loop -/

/-- The ball on the floor with the velocity `v` and the spin `a`, awake; `F1` is the floor at the start of the loop. -/
structure Glide (bh fh : Handle) (o q : Orientation ℝ) (v a : Vec3 ℝ) (F1 B F : InternalEntity XReal) (st : LoopState XReal) : Prop where
  get1 : st.world.entities.get bh = some B
  get2 : st.world.entities.get fh = some F
  pose1 : B.orientation = o.f
  pose2 : F.orientation = q.f
  vel1 : B.velocity = v.f
  ang1 : B.angularVelocity = a.f
  vel2 : F.velocity = (Vec3.o).f
  ang2 : F.angularVelocity = (Vec3.o).f
  free1 : fh ∉ B.neighbors
  free2 : bh ∉ F.neighbors
  awake : B.asleep = false
  floor : F.asleep = F1.asleep

section
variable {γ : Type} [ForceGenerator XReal γ] {bh fh ch ch' : Handle} {B0 F0 F1 : InternalEntity XReal} {sc : SphereCollider XReal}
    {pl : PlaneCollider XReal} {o q : Orientation ℝ} {r : ℝ} {c P n v a : Vec3 ℝ}

theorem glide_facing {s : System XReal γ} (hS : Setting s False bh fh ch ch' B0 F0 sc pl q r c P n) {d e : ℝ} {st : LoopState XReal}
    (hr : Running s d e st) {B F : InternalEntity XReal} (h : Glide bh fh o q v a F1 B F st) (ou : o.Unit) (cen : c + o.internalOriginOffset = .o) :
    ∃ ib jf, Facing st.world st.infos ib jf B F ch ch' sc pl o q r c P n v a (v.scale ((1 - e) * d)) (a.scale ((1 - e) * d)) ∧
      ib.handle = bh ∧ jf.handle = fh ∧ StaticRel B0 B ∧ StaticRel F0 F := by
  have hbm : bh ∈ st.infos.map StepInfo.handle := by rw [hr.inv.handles]; exact Arena.mem_handles.mpr ⟨B0, hS.get1⟩
  have hfm : fh ∈ st.infos.map StepInfo.handle := by rw [hr.inv.handles]; exact Arena.mem_handles.mpr ⟨F0, hS.get2⟩
  obtain ⟨ib, mb, hbh⟩ := List.mem_map.mp hbm
  obtain ⟨jf, mf, hfh⟩ := List.mem_map.mp hfm
  obtain ⟨nb, hnb⟩ := List.getElem?_of_mem mb
  obtain ⟨nf, hnf⟩ := List.getElem?_of_mem mf
  obtain ⟨B', gB', lb, ab⟩ := hr.course nb ib hnb
  obtain ⟨F', gF', lf, af⟩ := hr.course nf jf hnf
  rw [hbh, h.get1] at gB'; cases gB'
  rw [hfh, h.get2] at gF'; cases gF'
  have hleft := hr.clock.left
  obtain ⟨XB, yB, zB⟩ := hr.inv.frame.entities.get' h.get1
  rw [hS.get1] at yB; cases yB
  obtain ⟨XF, yF, zF⟩ := hr.inv.frame.entities.get' h.get2
  rw [hS.get2] at yF; cases yF
  rw [h.vel1, hleft, Vec3.f_scale] at lb
  rw [h.ang1, hleft, Vec3.f_scale] at ab
  rw [h.vel2, hleft, Vec3.f_scale, show (Vec3.o : Vec3 ℝ).scale ((1 - e) * d) = .o by ext <;> simp] at lf
  rw [h.ang2, hleft, Vec3.f_scale, show (Vec3.o : Vec3 ℝ).scale ((1 - e) * d) = .o by ext <;> simp] at af
  refine ⟨ib, jf, ?_, hbh, hfh, zB, zF⟩
  refine ⟨mb, mf, by rw [hbh, hfh]; exact hS.ne, by rw [hbh]; exact h.get1, by rw [hfh]; exact h.get2, by rw [hfh]; exact h.free1, by rw [hbh]; exact h.free2,
    by rw [StaticRel.colliders zB]; exact hS.col1, by rw [StaticRel.colliders zF]; exact hS.col2, ?_, ?_, h.pose1, h.pose2,
    ⟨hS.radius, hS.center, hS.normal, cen, hS.place, ou, hS.unit, hS.nonneg, hS.one⟩, h.vel1, h.ang1, h.vel2, h.ang2, lb, ab, lf, af⟩
  · rw [hr.inv.frame.colliders]; exact hS.ball
  · rw [hr.inv.frame.colliders]; exact hS.plane

/-- A ball that does not sink moves on to the end of the step. -/
theorem Glide.rest {s : System XReal γ} (hS : Setting s False bh fh ch ch' B0 F0 sc pl q r c P n)
    (halone : ∀ h e, s.entities.get h = some e → h = bh ∨ h = fh) {d : ℝ} (hd : 0 ≤ d) {ord : IterOrder} {st st' : LoopState XReal} {m : Nat} {b : Bool}
    (hr : Running s d 0 st) (hm : m ≠ 0) (ou : o.Unit) (cen : c + o.internalOriginOffset = .o) (hh : Step.iterate ord (fin d) m st = .ok (st', b))
    {B F : InternalEntity XReal} (h : Glide bh fh o q v a F1 B F st) (flat : v.dot n = 0) :
    ∃ B' F', Glide bh fh (o.after (v.scale d) (a.scale d)) q v a F1 B' F' st' := by
  obtain ⟨N, rfl⟩ := Nat.exists_eq_succ_of_ne_zero hm
  unfold Step.iterate at hh
  obtain ⟨best, h1, hh1⟩ := Res.bind_eq_ok.mp hh
  obtain ⟨w, h2, hh2⟩ := Res.bind_eq_ok.mp hh1
  obtain ⟨st1, h3, hh3⟩ := Res.bind_eq_ok.mp hh2
  clear hh hh1 hh2
  have hnd : (st.infos.map StepInfo.handle).Nodup := by rw [hr.inv.handles]; exact Arena.handles_nodup _
  obtain ⟨oc1, oc2, -⟩ := hS.only id
  obtain ⟨ib, jf, face, e1, e2, zB, zF⟩ := glide_facing hS hr h ou cen
  have hb : best = none := by
    cases best with
    | none => rfl
    | some k =>
      exfalso
      have hk := searchFirst_contact h1
      obtain ⟨hsink, -⟩ := face.found hnd (by rw [StaticRel.colliders zB]; exact oc1) (by rw [StaticRel.colliders zF]; exact oc2)
        hk (by rw [e1, e2]; exact contact_both halone hr hk) (by linarith) rfl (Or.inr (Or.inl flat.ge))
      have : (0 : ℝ) < eps := by unfold eps; norm_num
      linarith
  subst hb
  cases h2
  simp only [Except.ok.injEq, Prod.mk.injEq] at hh3
  obtain ⟨rfl, -⟩ := hh3
  have hp : percentOf (none : Option (Candidate XReal)) = fin 1 := by rw [← one_eq]; rfl
  obtain ⟨a1, -, -, a4⟩ := advance_spec (st := { st with world := st.world }) hnd h3
  obtain ⟨YB, gYB, gMB⟩ := a4 ib face.mem1
  obtain ⟨YF, gYF, gMF⟩ := a4 jf face.mem2
  rw [e1] at gYB gMB
  rw [e2] at gYF gMF
  have gYB' : st.world.entities.get bh = some YB := gYB
  rw [h.get1] at gYB'; cases gYB'
  have gYF' : st.world.entities.get fh = some YF := gYF
  rw [h.get2] at gYF'; cases gYF'
  have mvF : moved (fin 1) jf F = F := by
    unfold moved
    split
    · rfl
    · rw [face.mov2, face.turn2, h.pose2, Vec3.f_scale, show (Vec3.o : Vec3 ℝ).scale 1 = .o by ext <;> simp, Orientation.f_afterAffected, after_o, ← h.pose2]
  have mvB : moved (fin 1) ib B = { B with orientation := (o.after (v.scale d) (a.scale d)).f } := by
    unfold moved
    rw [if_neg (by rw [h.awake]; simp), face.mov1, face.turn1, h.pose1, Vec3.f_scale, Vec3.f_scale, Orientation.f_afterAffected]
    have s1 : ∀ u : Vec3 ℝ, (u.scale ((1 - 0) * d)).scale 1 = u.scale d := fun u => by ext <;> simp
    rw [s1, s1]
  rw [hp, mvB] at gMB
  rw [hp, mvF] at gMF
  exact ⟨_, F, gMB, gMF, rfl, h.pose2, h.vel1, h.ang1, h.vel2, h.ang2, h.free1, h.free2, h.awake, h.floor⟩

/-- A ball that touches the floor and sinks is struck at once. -/
theorem rub_body {s : System XReal γ} (hS : Setting s False bh fh ch ch' B0 F0 sc pl q r c P n)
    (halone : ∀ h e, s.entities.get h = some e → h = bh ∨ h = fh) (hcol : ∀ j c, s.colliders.get j = some c → FiniteNumbers c)
    {t μs μd : ℝ} (coarse : Coarse sc.material pl.material t μs μd)
    {d : ℝ} (hd : 0 ≤ d) {ord : IterOrder} {st st1 : LoopState XReal}
    {best : Option (Candidate XReal)} {w : World XReal} (hr : Running s d 0 st) (hfl : FineLoop s.entities st) (hrec : st.world.collisionRecords = [])
    (hou : o.Unit) (hoc : c + o.internalOriginOffset = .o) {B1 : InternalEntity XReal} (h : Glide bh fh o q v a F1 B1 F1 st)
    {k : ℝ} (hk : eps ≤ k) (sinks : v.dot n = -k) {m i : ℝ} (hm : 0 < m) (hi : 0 ≤ i) (mass : B1.totalMass = fin m) (moment : B1.preppedMoment = (Mat3.diag ⟨i, i, i⟩).f)
    (touch : clearance o.position P n r ≤ 0) (h1 : searchFirst ord st.world 0 st.infos none = .ok best)
    (h2 : wakeColliding ord best st.world = .ok w) (h3 : advance best { st with world := w } = .ok st1) :
    ∃ K, best = some K ∧ ∀ st2, respond (fin d) K st1 = .ok st2 → Running s d 0 st2 ∧
      let g := Gait.next n r m i (k * (if 0 < t then μs else μd)) (n.scale k) ⟨v, a⟩
      ∃ B F, Glide bh fh o q g.vel g.spin F1 B F st2 := by
  have hnd : (st.infos.map StepInfo.handle).Nodup := by rw [hr.inv.handles]; exact Arena.handles_nodup _
  have hτ : 0 ≤ (1 - 0) * d := by linarith
  have he : (0 : ℝ) < eps := by unfold eps; norm_num
  obtain ⟨oc1, oc2, -⟩ := hS.only id
  obtain ⟨ib, jf, face, e1, e2, zB, zF⟩ := glide_facing hS hr h hou hoc
  -- the search finds the two at time zero
  obtain ⟨p, hp, p0, p1, pn, r1, r2⟩ := hr.body hd h1 h2 h3
  have hp0 : p = 0 := by
    rcases ball_over (r := r) hS.nonneg (x := o.position) (m := v.scale ((1 - 0) * d)) (P := P) (n := n) hS.one with
      ⟨-, h, -⟩ | ⟨C, t, c1, c2, t0, t1, c3, c4, c5⟩
    · linarith
    · have ht : t = 0 := by
        rcases c5 with ⟨h, -⟩ | ⟨h, -⟩
        · exact h
        · linarith
      obtain ⟨K, hK, hKt⟩ := face.contact c1 c2 c3 c4 (by
        have : (v + a.cross ((v.scale ((1 - 0) * d)).scale t)).dot n = v.dot n := by rw [ht]; simp [Vec3.dot_def]
        rw [this, sinks]; linarith)
      have := search_before h1 hK hKt hp
      linarith
  subst hp0
  cases best with
  | none => exact absurd (pn rfl) (by norm_num)
  | some K =>
  refine ⟨K, rfl, fun st2 h4 => ?_⟩
  refine ⟨by have := (r2 K st2 rfl h4).1; rwa [show (0:ℝ) + (1 - 0) * 0 = 0 by norm_num] at this, ?_⟩
  have hc := searchFirst_contact h1
  have hboth := contact_both halone hr hc
  obtain ⟨-, t', kt, kp, kn, kr⟩ := face.found hnd (by rw [StaticRel.colliders zB]; exact oc1) (by rw [StaticRel.colliders zF]; exact oc2)
    hc (by rw [e1, e2]; exact hboth) hτ rfl (Or.inr (Or.inr touch))
  have hK0 : K.percent = fin 0 := hp
  have ht : t' = 0 := by rw [hK0] at kt; exact (fin_inj.mp kt).symm
  subst ht
  obtain ⟨hthr, hμ, hν, hρ⟩ := coarse.of kr
  -- the two after waking and advancing
  obtain ⟨w1, w2⟩ := wakeColliding_evolves h2
  obtain ⟨a1, a2, a3, a4⟩ := advance_spec (st := { st with world := w }) hnd h3
  obtain ⟨YB, gYB, gMB⟩ := a4 ib face.mem1
  obtain ⟨YF, gYF, gMF⟩ := a4 jf face.mem2
  rw [e1] at gYB gMB
  rw [e2] at gYF gMF
  have gYB : w.entities.get bh = some YB := gYB
  have gYF : w.entities.get fh = some YF := gYF
  obtain ⟨_, gB2, rB⟩ := w2.get' gYB
  rw [h.get1] at gB2; cases gB2
  obtain ⟨_, gF2, rF⟩ := w2.get' gYF
  rw [h.get2] at gF2; cases gF2
  rw [hp] at gMB gMF
  have hmF : F1.totalMass = posInf := by rw [(staticRel_iff.mp zF).2.2.1]; exact hS.heavy
  have mv : ∀ (i : StepInfo XReal) (E : InternalEntity XReal) (z : Orientation ℝ) (x y : Vec3 ℝ), i.linearMovement = x.f → i.angularMovement = y.f →
      E.orientation = z.f → moved (fin 0) i E = E := by
    intro i E z x y m1 m2 hz
    unfold moved
    split
    · rfl
    · rw [m1, m2, hz, Vec3.f_scale, Vec3.f_scale, show x.scale 0 = .o by ext <;> simp, show y.scale 0 = .o by ext <;> simp,
        Orientation.f_afterAffected, after_o, ← hz]
  have oYB : YB.orientation = o.f := by rw [rB]; exact h.pose1
  have oYF : YF.orientation = q.f := by rw [rF]; exact h.pose2
  rw [mv ib YB o _ _ face.mov1 face.turn1 oYB] at gMB
  rw [mv jf YF q _ _ face.mov2 face.turn2 oYF] at gMF
  have awake : YB.asleep = false := wakeColliding_up h2 (by rcases hboth with h | h; exacts [Or.inl h.1, Or.inr h.2]) h.get1 gYB (by rw [mass]; rfl)
  have same : YF.asleep = F1.asleep := wakeColliding_heavy h2 h.get2 gYF (by rw [hmF]; rfl) (by rw [hmF]; rfl)
  have nB : fh ∉ YB.neighbors := fun hn => h.free1 (wakeColliding_neighbors h2 h.get1 gYB _ hn)
  have nF : bh ∉ YF.neighbors := fun hn => h.free2 (wakeColliding_neighbors h2 h.get2 gYF _ hn)
  have mB : YB.totalMass = fin m := by rw [WakeRel.totalMass rB]; exact mass
  have mF : YF.totalMass = posInf := by rw [WakeRel.totalMass rF]; exact hmF
  -- the bodies
  have hcr : st1.world.collisionRecords = [] := by rw [a1]; simp only []; rw [w1]; exact hrec
  have fw : FineWorld st1.world := by
    have := (fine_body (dt := fin d) (Arena.handles_nodup _) hcol hr.inv hfl h1 h2 h3).1
    exact (this (by rw [hcr]; simp)).1
  obtain ⟨b, ob, pb, qb⟩ := (fw _ _ gMB).body (by rw [mB]; intro h; rw [fin_inj] at h; exact hm.ne' h)
  obtain ⟨f, of, pf, -⟩ := (fw _ _ gMF).body (by rw [mF]; intro h; cases h)
  have qb := qb (by rw [mB]; intro h; cases h)
  have vYF : YF.velocity = (Vec3.o).f := by rw [rF]; exact h.vel2
  have aYF : YF.angularVelocity = (Vec3.o).f := by rw [rF]; exact h.ang2
  have fix : Fixed f := fixed_of of mF (by
    unfold momentOfInertia
    have : YF.preppedMoment = F1.preppedMoment := by rw [rF]
    rw [oYF, this, (staticRel_iff.mp zF).2.2.2.1, hS.still, finalize_o hS.unit]) vYF aYF
  have bm : b.mass = some m := by
    obtain ⟨x, hx⟩ := Option.ne_none_iff_exists'.mp qb
    have := ob.mass
    rw [mB, hx] at this
    rw [hx, show x = m from (fin_inj.mp this).symm]
  have bI : b.inertia = Mat3.diag ⟨i, i, i⟩ := by
    have := ob.inertia
    unfold momentOfInertia at this
    rw [oYB, show YB.preppedMoment = B1.preppedMoment by rw [rB], moment, finalize_diag hou, Mat3.f_inj] at this
    exact this.symm
  have bv : b.vel = v := by
    have := ob.vel; rw [show YB.velocity = B1.velocity by rw [rB], h.vel1, Vec3.f_inj] at this; exact this.symm
  have ba : b.ang = a := by
    have := ob.ang; rw [show YB.angularVelocity = B1.angularVelocity by rw [rB], h.ang1, Vec3.f_inj] at this; exact this.symm
  have bp : b.pos = o.position := by
    have := ob.pos; rw [oYB] at this; exact ((Vec3.f_inj _ _).mp this).symm
  have kp' : K.collision.position = (o.position - n.scale r).f := by
    rw [kp, Vec3.f_inj]; ext <;> simp
  have hk0 : 0 < k := by linarith
  -- the response
  obtain ⟨x1, x2, i1, i2, hne, g1, g2, n1, n2, rfl⟩ := respond_spec h4
  have rv1 := respondPair_first K (st1.currentPercent * fin d) st1.timeLeft x1 x2 i1 i2
  have rv2 := respondPair_second K (st1.currentPercent * fin d) st1.timeLeft x1 x2 i1 i2
  have hget := fun h => respond_get (y1 := (respondPair K (st1.currentPercent * fin d) st1.timeLeft x1 x2 i1 i2).first)
    (y2 := (respondPair K (st1.currentPercent * fin d) st1.timeLeft x1 x2 i1 i2).second) hne g1 g2 h
  rcases hboth with ⟨f1, f2⟩ | ⟨f1, f2⟩
  · rw [f1, gMB] at g1; cases g1
    rw [f2, gMF] at g2; cases g2
    have kn' : K.collision.normal = (-n).f := by rw [kn, if_pos (by rw [f1, e1])]
    have hN : (-n).dot (-n) = 1 := by rw [← hS.one]; simp [Vec3.dot_def]
    have hT : Treads b f (o.position - n.scale r) (-n) r m i := ⟨bm, bI, ⟨hm, hi⟩, by rw [bp]; ext <;> simp, fix⟩
    have hI : Impact YB YF K b f (o.position - n.scale r) (-n) 0 μs μd := ⟨ob, of, pb, pf, Or.inl qb, kp', kn', hN, hρ, hμ, hν⟩
    obtain ⟨b', ob', struck⟩ := struck_first hI hT hthr hk0 (by rw [bv]; exact sinks) (st1.currentPercent * fin d) st1.timeLeft i1 i2
    obtain ⟨fF, ofF, eF⟩ : ∃ f' : Body, f'.Of (respondPair K (st1.currentPercent * fin d) st1.timeLeft YB YF i1 i2).second ∧ f' = f := by
      obtain ⟨ν, F, -, -, -, h1⟩ := hI.respond (st1.currentPercent * fin d) st1.timeLeft i1 i2
      exact ⟨_, h1, by rw [fix.kick, fix.kick]⟩
    subst eF
    have sv := struck.vel; have sa := struck.ang
    rw [bv, ba] at sv sa
    generalize respondPair K (st1.currentPercent * fin d) st1.timeLeft YB YF i1 i2 = R at *
    refine ⟨R.first, R.second, ?_, ?_, by rw [rv1]; exact oYB, by rw [rv2]; exact oYF, by rw [ob'.vel, sv], by rw [ob'.ang, sa], by rw [ofF.vel, fix.vel],
      by rw [ofF.ang, fix.ang], by rw [rv1]; exact nB, by rw [rv2]; exact nF, by rw [rv1]; exact awake, by rw [rv2]; exact same⟩
    · show ((st1.world.entities.set K.firstHandle R.first).set K.secondHandle R.second).get bh = _
      rw [hget, if_neg (by rw [f2]; exact hS.ne), if_pos f1.symm]
    · show ((st1.world.entities.set K.firstHandle R.first).set K.secondHandle R.second).get fh = _
      rw [hget, if_pos f2.symm]
  · rw [f1, gMF] at g1; cases g1
    rw [f2, gMB] at g2; cases g2
    have kn' : K.collision.normal = n.f := by rw [kn, if_neg (by rw [f1, e1]; exact hS.ne.symm)]
    have hT : Treads b f (o.position - n.scale r) n (-r) m i := ⟨bm, bI, ⟨hm, hi⟩, by rw [bp]; ext <;> simp, fix⟩
    have hI : Impact YF YB K f b (o.position - n.scale r) n 0 μs μd := ⟨of, ob, pf, pb, Or.inr qb, kp', kn', hS.one, hρ, hμ, hν⟩
    obtain ⟨b', ob', struck⟩ := struck_second hI hT hthr hk0 (by rw [bv]; exact sinks) (st1.currentPercent * fin d) st1.timeLeft i1 i2
    obtain ⟨fF, ofF, eF⟩ : ∃ f' : Body, f'.Of (respondPair K (st1.currentPercent * fin d) st1.timeLeft YF YB i1 i2).first ∧ f' = f := by
      obtain ⟨ν, F, -, -, h1, -⟩ := hI.respond (st1.currentPercent * fin d) st1.timeLeft i1 i2
      exact ⟨_, h1, by rw [fix.kick, fix.kick]⟩
    subst eF
    have sv := struck.vel; have sa := struck.ang
    rw [bv, ba] at sv sa
    generalize respondPair K (st1.currentPercent * fin d) st1.timeLeft YF YB i1 i2 = R at *
    refine ⟨R.second, R.first, ?_, ?_, by rw [rv2]; exact oYB, by rw [rv1]; exact oYF, by rw [ob'.vel, sv], by rw [ob'.ang, sa], by rw [ofF.vel, fix.vel],
      by rw [ofF.ang, fix.ang], by rw [rv2]; exact nB, by rw [rv1]; exact nF, by rw [rv2]; exact awake, by rw [rv1]; exact same⟩
    · show ((st1.world.entities.set K.firstHandle R.first).set K.secondHandle R.second).get bh = _
      rw [hget, if_pos f2.symm]
    · show ((st1.world.entities.set K.firstHandle R.first).set K.secondHandle R.second).get fh = _
      rw [hget, if_neg (by rw [f2]; exact hS.ne.symm), if_pos f1.symm]

end
end Fluffy.Props
