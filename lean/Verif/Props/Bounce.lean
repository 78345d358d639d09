import Verif.Props.Slope
/-
C102: what a step does to a ball that does not spin over an immovable plane, and how high it bounces.
-/
set_option linter.unusedSectionVars false
set_option linter.unusedSimpArgs false
namespace Fluffy.Props
open Fluffy XReal InternalEntity Step Demo

/-! ### Specification -/

/-- The velocity of a ball that does not spin after a contact with a floor with the normal `n`: the part towards the floor is turned round and multiplied with the
restitution `ρ`, and friction takes something off the part along the floor. -/
noncomputable def Rebound (n : Vec3 ℝ) (m ρ t μs μd : ℝ) (v : Vec3 ℝ) : Vec3 ℝ :=
  let S := along' n v
  let u := |v.dot n|
  let μ := if ρ * u < t * S.len then μs else μd
  v - n.scale ((1 + ρ) * v.dot n) - S.scale (min 1 ((1 + ρ) * u * μ / S.len) / m)

/-- A ball at `x` with velocity `v` goes to `x'` with velocity `v'` in the time `d`, without forces: either in a straight line, if it does not get to the floor or is slow,
or with one contact after the time `τ`, when it gets there (at once if it touches the floor from the beginning). -/
def Leap (P n : Vec3 ℝ) (r m ρ t μs μd d : ℝ) (x v x' v' : Vec3 ℝ) : Prop :=
  (x' = x + v.scale d ∧ v' = v ∧
    (-(1 / 1000000) < v.dot n ∨ 0 < clearance x P n r ∧ (-(1 / 1000000) < d * v.dot n ∨ 0 ≤ clearance (x + v.scale d) P n r))) ∨
  ∃ τ, 0 ≤ τ ∧ τ < d ∧ v.dot n ≤ -(1 / 1000000) ∧ (τ = 0 ∧ clearance x P n r ≤ 0 ∨ 0 < clearance x P n r ∧ clearance (x + v.scale τ) P n r = 0) ∧
    v' = Rebound n m ρ t μs μd v ∧ x' = x + v.scale τ + v'.scale (d - τ)

theorem Rebound.up {n : Vec3 ℝ} (hn : n.dot n = 1) (m ρ t μs μd : ℝ) (v : Vec3 ℝ) : (Rebound n m ρ t μs μd v).dot n = -ρ * v.dot n := by
  unfold Rebound
  simp only [Vec3.sub_dot, Vec3.scale_dot, along_perp hn, hn]
  ring

/-- The constants of a pair of materials, in either order. -/
structure Springy (m1 m2 : Material XReal) (ρ t μs μd : ℝ) : Prop where
  thr : m1.frictionThreshold * m2.frictionThreshold = fin t ∧ m2.frictionThreshold * m1.frictionThreshold = fin t
  stat : m1.staticFriction * m2.staticFriction = fin μs ∧ m2.staticFriction * m1.staticFriction = fin μs
  dyn : m1.dynamicFriction * m2.dynamicFriction = fin μd ∧ m2.dynamicFriction * m1.dynamicFriction = fin μd
  back : m1.restitution * m2.restitution = fin ρ ∧ m2.restitution * m1.restitution = fin ρ

theorem Springy.of {m1 m2 : Material XReal} {ρ t μs μd : ℝ} (h : Springy m1 m2 ρ t μs μd) {k : Candidate XReal} (hk : Constants k m1 m2 ∨ Constants k m2 m1) :
    k.frictionThreshold = fin t ∧ k.staticFriction = fin μs ∧ k.dynamicFriction = fin μd ∧ k.restitution = fin ρ := by
  rcases hk with ⟨k1, k2, k3, k4⟩ | ⟨k1, k2, k3, k4⟩
  · exact ⟨k2.trans h.thr.1, k3.trans h.stat.1, k4.trans h.dyn.1, k1.trans h.back.1⟩
  · exact ⟨k2.trans h.thr.2, k3.trans h.stat.2, k4.trans h.dyn.2, k1.trans h.back.2⟩

section
variable {e1 e2 : InternalEntity XReal} {k : Candidate XReal} {b f : Body} {p n : Vec3 ℝ} {μs μd t r m i ρ : ℝ}

theorem rebound_first (h : Impact e1 e2 k b f p (-n) ρ μs μd) (hT : Treads b f p (-n) r m i) (hi : i = 0 ∨ μs = 0 ∧ μd = 0) (ht : k.frictionThreshold = fin t) (hρ : 0 ≤ ρ) (ha : b.ang = .o)
    (rt ta : XReal) (i1 i2 : StepInfo XReal) :
    ∃ b' : Body, b'.Of (Step.respondPair k rt ta e1 e2 i1 i2).first ∧ b'.vel = Rebound n m ρ t μs μd b.vel ∧ b'.ang = .o := by
  obtain ⟨b', h1, -, -, -, -, h2, h3⟩ := C93_slip_first h hT ht rt ta i1 i2
  have hat : b.at' p = b.vel := by unfold Body.at'; rw [ha]; ext <;> simp
  have hd : (b.at' p).dot (-n) = -b.vel.dot n := by rw [hat]; simp [Vec3.dot_def]; ring
  have hS : Props.slip b p (-n) = along' n b.vel := by
    unfold Props.slip along'
    rw [hd, hat]; ext <;> simp
  rw [hd, hS] at h2 h3
  refine ⟨b', h1, ?_, ?_⟩
  swap
  · rw [h3, ha]
    rcases hi with rfl | ⟨rfl, rfl⟩ <;> ext <;> simp
  rw [h2]; unfold Rebound
  simp only [abs_neg, abs_of_nonneg hρ, abs_of_nonneg (by linarith : 0 ≤ 1 + ρ)]
  ext <;> simp

theorem rebound_second (h : Impact e1 e2 k f b p n ρ μs μd) (hT : Treads b f p n (-r) m i) (hi : i = 0 ∨ μs = 0 ∧ μd = 0) (ht : k.frictionThreshold = fin t) (hρ : 0 ≤ ρ) (ha : b.ang = .o)
    (rt ta : XReal) (i1 i2 : StepInfo XReal) :
    ∃ b' : Body, b'.Of (Step.respondPair k rt ta e1 e2 i1 i2).second ∧ b'.vel = Rebound n m ρ t μs μd b.vel ∧ b'.ang = .o := by
  obtain ⟨b', h1, -, -, -, -, h2, h3⟩ := C93_slip_second h hT ht rt ta i1 i2
  have hat : b.at' p = b.vel := by unfold Body.at'; rw [ha]; ext <;> simp
  have hS : Props.slip b p n = along' n b.vel := by
    unfold Props.slip along'
    rw [hat]
  rw [hat, hS] at h2 h3
  refine ⟨b', h1, ?_, ?_⟩
  swap
  · rw [h3, ha]
    rcases hi with rfl | ⟨rfl, rfl⟩ <;> ext <;> simp
  rw [h2]; unfold Rebound
  simp only [abs_of_nonneg hρ, abs_of_nonneg (by linarith : 0 ≤ 1 + ρ)]

end

section
variable {γ : Type} [ForceGenerator XReal γ] {bh fh ch ch' : Handle} {B0 F0 F1 : InternalEntity XReal} {sc : SphereCollider XReal}
    {pl : PlaneCollider XReal} {o q : Orientation ℝ} {r : ℝ} {c P n v a : Vec3 ℝ}

/-- An iteration without a contact, whatever the clock shows. -/
theorem Glide.go {s : System XReal γ} (hS : Setting s False bh fh ch ch' B0 F0 sc pl q r c P n) {d e : ℝ} {st st1 : LoopState XReal}
    (hr : Running s d e st) (ou : o.Unit) (cen : c + o.internalOriginOffset = .o) {B F : InternalEntity XReal} (h : Glide bh fh o q v a F1 B F st)
    (h3 : advance none { st with world := st.world } = .ok st1) :
    ∃ B' F', Glide bh fh (o.after (v.scale ((1 - e) * d)) (a.scale ((1 - e) * d))) q v a F1 B' F' st1 := by
  have hnd : (st.infos.map StepInfo.handle).Nodup := by rw [hr.inv.handles]; exact Arena.handles_nodup _
  obtain ⟨ib, jf, face, e1, e2, zB, zF⟩ := glide_facing hS hr h ou cen
  have hp : percentOf (none : Option (Candidate XReal)) = fin 1 := by rw [← one_eq]; rfl
  obtain ⟨a1, -, -, a4⟩ := advance_spec (st := { st with world := st.world }) hnd h3
  obtain ⟨YB, gYB, gMB⟩ := a4 ib face.mem1
  obtain ⟨YF, gYF, gMF⟩ := a4 jf face.mem2
  rw [e1] at gYB gMB
  rw [e2] at gYF gMF
  have gYB' : st.world.entities.get bh = some YB := gYB
  rw [h.get1] at gYB'; cases gYB'
  have gYF' : st.world.entities.get fh = some YF := gYF
  rw [h.get2] at gYF'; cases gYF'
  have mvF : moved (fin 1) jf F = F := by
    unfold moved
    split
    · rfl
    · rw [face.mov2, face.turn2, h.pose2, Vec3.f_scale, show (Vec3.o : Vec3 ℝ).scale 1 = .o by ext <;> simp, Orientation.f_afterAffected, after_o, ← h.pose2]
  have mvB : moved (fin 1) ib B = { B with orientation := (o.after (v.scale ((1 - e) * d)) (a.scale ((1 - e) * d))).f } := by
    unfold moved
    rw [if_neg (by rw [h.awake]; simp), face.mov1, face.turn1, h.pose1, Vec3.f_scale, Vec3.f_scale, Orientation.f_afterAffected]
    have s1 : ∀ u : Vec3 ℝ, u.scale 1 = u := fun u => by ext <;> simp
    rw [s1, s1]
  rw [hp, mvB] at gMB
  rw [hp, mvF] at gMF
  exact ⟨_, F, gMB, gMF, rfl, h.pose2, h.vel1, h.ang1, h.vel2, h.ang2, h.free1, h.free2, h.awake, h.floor⟩

/-- A ball that does not sink moves on to the end of the step. -/
theorem Glide.leave {s : System XReal γ} (hS : Setting s False bh fh ch ch' B0 F0 sc pl q r c P n)
    (halone : ∀ h e, s.entities.get h = some e → h = bh ∨ h = fh) {d e : ℝ} (hd : 0 ≤ d) {ord : IterOrder} {st st' : LoopState XReal} {m : Nat} {b : Bool}
    (hr : Running s d e st) (hm : m ≠ 0) (ou : o.Unit) (cen : c + o.internalOriginOffset = .o) (hh : Step.iterate ord (fin d) m st = .ok (st', b))
    {B F : InternalEntity XReal} (h : Glide bh fh o q v a F1 B F st) (up : 0 ≤ v.dot n) :
    ∃ B' F', Glide bh fh (o.after (v.scale ((1 - e) * d)) (a.scale ((1 - e) * d))) q v a F1 B' F' st' := by
  obtain ⟨N, rfl⟩ := Nat.exists_eq_succ_of_ne_zero hm
  unfold Step.iterate at hh
  obtain ⟨best, h1, hh1⟩ := Res.bind_eq_ok.mp hh
  obtain ⟨w, h2, hh2⟩ := Res.bind_eq_ok.mp hh1
  obtain ⟨st1, h3, hh3⟩ := Res.bind_eq_ok.mp hh2
  clear hh hh1 hh2
  have hnd : (st.infos.map StepInfo.handle).Nodup := by rw [hr.inv.handles]; exact Arena.handles_nodup _
  obtain ⟨oc1, oc2, -⟩ := hS.only id
  obtain ⟨ib, jf, face, e1, e2, zB, zF⟩ := glide_facing hS hr h ou cen
  have hτ : 0 ≤ (1 - e) * d := mul_nonneg (by linarith [hr.clock.le_one]) hd
  have hb : best = none := by
    cases best with
    | none => rfl
    | some k =>
      exfalso
      have hk := searchFirst_contact h1
      obtain ⟨hsink, -⟩ := face.found hnd (by rw [StaticRel.colliders zB]; exact oc1) (by rw [StaticRel.colliders zF]; exact oc2)
        hk (by rw [e1, e2]; exact contact_both halone hr hk) hτ rfl (Or.inr (Or.inl up))
      have : (0 : ℝ) < eps := by unfold eps; norm_num
      linarith
  subst hb
  cases h2
  simp only [Except.ok.injEq, Prod.mk.injEq] at hh3
  obtain ⟨rfl, -⟩ := hh3
  exact h.go hS hr ou cen h3

/-- A contact: the ball has come down to the floor and is thrown back. -/
theorem rebound_body {s : System XReal γ} (hS : Setting s False bh fh ch ch' B0 F0 sc pl q r c P n)
    (halone : ∀ h e, s.entities.get h = some e → h = bh ∨ h = fh) (hcol : ∀ j c, s.colliders.get j = some c → FiniteNumbers c)
    {ρ t μs μd : ℝ} (springy : Springy sc.material pl.material ρ t μs μd) (hρ0 : 0 ≤ ρ)
    {d : ℝ} (hd : 0 < d) {ord : IterOrder} {st st1 : LoopState XReal}
    {K : Candidate XReal} {w : World XReal} (hr : Running s d 0 st) (hfl : FineLoop s.entities st) (hrec : st.world.collisionRecords = [])
    (hou : o.Unit) (hoc : c + o.internalOriginOffset = .o) {B1 : InternalEntity XReal} (h : Glide bh fh o q v .o F1 B1 F1 st)
    {m i : ℝ} (hm : 0 < m) (hi0 : 0 ≤ i) (hi : i = 0 ∨ μs = 0 ∧ μd = 0) (mass : B1.totalMass = fin m) (moment : B1.preppedMoment = (Mat3.diag ⟨i, i, i⟩).f)
    (h1 : searchFirst ord st.world 0 st.infos none = .ok (some K))
    (h2 : wakeColliding ord (some K) st.world = .ok w) (h3 : advance (some K) { st with world := w } = .ok st1) :
    ∃ p, 0 ≤ p ∧ p < 1 ∧ v.dot n ≤ -eps ∧ (p = 0 ∧ clearance o.position P n r ≤ 0 ∨ 0 < clearance o.position P n r ∧ clearance o.position P n r + p * (d * v.dot n) = 0) ∧
      ∀ st2, respond (fin d) K st1 = .ok st2 → Running s d p st2 ∧
        ∃ B F, Glide bh fh (o.after (v.scale (p * d)) .o) q (Rebound n m ρ t μs μd v) .o F1 B F st2 := by
  have hnd : (st.infos.map StepInfo.handle).Nodup := by rw [hr.inv.handles]; exact Arena.handles_nodup _
  have hτ : 0 ≤ (1 - 0) * d := by linarith
  have he : (0 : ℝ) < eps := by unfold eps; norm_num
  obtain ⟨oc1, oc2, -⟩ := hS.only id
  obtain ⟨ib, jf, face, e1, e2, zB, zF⟩ := glide_facing hS hr h hou hoc
  obtain ⟨p, hp, p0, p1, -, r1, r2⟩ := hr.body hd.le h1 h2 h3
  have hKp : K.percent = fin p := hp
  have hc := searchFirst_contact h1
  have hboth := contact_both halone hr hc
  obtain ⟨hsink, t', kt, kp, kn, kcl, kr⟩ := face.met hnd (by rw [StaticRel.colliders zB]; exact oc1) (by rw [StaticRel.colliders zF]; exact oc2)
    hc (by rw [e1, e2]; exact hboth) hτ rfl (Or.inl rfl)
  have ht : t' = p := by rw [hKp] at kt; exact (fin_inj.mp kt).symm
  subst ht
  have hlt : t' < 1 := by
    have := (C55_search h1).2.1
    rw [hKp, one_eq] at this
    simpa using this
  have hmn : (v.scale ((1 - 0) * d)).dot n = d * v.dot n := by rw [Vec3.scale_dot]; ring
  rw [hmn] at kcl
  refine ⟨t', p0, hlt, hsink, ?_, fun st2 h4 => ⟨by have := (r2 K st2 rfl h4).1; rwa [show (0:ℝ) + (1 - 0) * t' = t' by ring] at this, ?_⟩⟩
  · rcases ball_over (r := r) hS.nonneg (x := o.position) (m := v.scale ((1 - 0) * d)) (P := P) (n := n) hS.one with
      ⟨hnone, h5, h6⟩ | ⟨C, t, c1, c2, t0, t1, c3, c4, c5⟩
    · exfalso
      obtain ⟨i, j, i1, i2, hij, hi, hj, first, second, g1, g2, hne, -, -, ch1, m1, ch2, m2, d1, d2, C, k1, k2, hC, hcl, rfl⟩ := hc
      have hdis := face.over.dispatch (v.scale ((1 - 0) * d)) ((Vec3.o : Vec3 ℝ).scale ((1 - 0) * d))
      rw [hnone] at hdis
      have uniq : ∀ {x y : StepInfo XReal}, x ∈ st.infos → y ∈ st.infos → x.handle = y.handle → x = y := fun hx hy hxy => List.inj_on_of_nodup_map hnd hx hy hxy
      have cB : B1.colliders = [ch] := by rw [StaticRel.colliders zB]; exact oc1
      have cF : F1.colliders = [ch'] := by rw [StaticRel.colliders zF]; exact oc2
      rcases hboth with ⟨q1, q2⟩ | ⟨q1, q2⟩
      · simp only at q1 q2
        have := uniq (List.mem_of_getElem? hi) face.mem1 (q1.trans e1.symm)
        have := uniq (List.mem_of_getElem? hj) face.mem2 (q2.trans e2.symm)
        subst i1 i2
        rw [face.get1] at g1; cases g1
        rw [face.get2] at g2; cases g2
        rw [cB, List.mem_singleton] at m1
        rw [cF, List.mem_singleton] at m2
        subst m1 m2
        rw [face.ball] at k1; cases k1
        rw [face.plane] at k2; cases k2
        unfold collide at hC
        rw [face.pose1, face.pose2, face.mov1, face.turn1, face.mov2, face.turn2] at hC
        simp only [hdis, Option.map_none, Except.ok.injEq, reduceCtorEq] at hC
      · simp only at q1 q2
        have := uniq (List.mem_of_getElem? hi) face.mem2 (q1.trans e2.symm)
        have := uniq (List.mem_of_getElem? hj) face.mem1 (q2.trans e1.symm)
        subst i1 i2
        rw [face.get2] at g1; cases g1
        rw [face.get1] at g2; cases g2
        rw [cF, List.mem_singleton] at m1
        rw [cB, List.mem_singleton] at m2
        subst m1 m2
        rw [face.plane] at k1; cases k1
        rw [face.ball] at k2; cases k2
        unfold collide at hC
        rw [face.pose1, face.pose2, face.mov1, face.turn1, face.mov2, face.turn2] at hC
        simp only [hdis, Option.map_none, Except.ok.injEq, reduceCtorEq] at hC
    · obtain ⟨K', hK, hKt⟩ := face.contact c1 c2 c3 c4 (by
        have : (v + (Vec3.o : Vec3 ℝ).cross ((v.scale ((1 - 0) * d)).scale t)).dot n = v.dot n := by simp [Vec3.dot_def]
        rw [this]; linarith)
      have hle := search_before h1 hK hKt hp
      rcases c5 with ⟨rfl, c6⟩ | ⟨c6, c7⟩
      · exact Or.inl ⟨le_antisymm hle p0, c6⟩
      · right
        refine ⟨c6, ?_⟩
        rw [hmn] at c7
        have : d * v.dot n < 0 := by nlinarith
        nlinarith
  obtain ⟨hthr, hμ, hν, hρ⟩ := springy.of kr
  -- the two after waking and advancing
  obtain ⟨w1, w2⟩ := wakeColliding_evolves h2
  obtain ⟨a1, a2, a3, a4⟩ := advance_spec (st := { st with world := w }) hnd h3
  obtain ⟨YB, gYB, gMB⟩ := a4 ib face.mem1
  obtain ⟨YF, gYF, gMF⟩ := a4 jf face.mem2
  rw [e1] at gYB gMB
  rw [e2] at gYF gMF
  have gYB : w.entities.get bh = some YB := gYB
  have gYF : w.entities.get fh = some YF := gYF
  obtain ⟨_, gB2, rB⟩ := w2.get' gYB
  rw [h.get1] at gB2; cases gB2
  obtain ⟨_, gF2, rF⟩ := w2.get' gYF
  rw [h.get2] at gF2; cases gF2
  rw [hp] at gMB gMF
  have hmF : F1.totalMass = posInf := by rw [(staticRel_iff.mp zF).2.2.1]; exact hS.heavy
  have oYB : YB.orientation = o.f := by rw [rB]; exact h.pose1
  have oYF : YF.orientation = q.f := by rw [rF]; exact h.pose2
  have awake : YB.asleep = false := wakeColliding_up h2 (by rcases hboth with h | h; exacts [Or.inl h.1, Or.inr h.2]) h.get1 gYB (by rw [mass]; rfl)
  have same : YF.asleep = F1.asleep := wakeColliding_heavy h2 h.get2 gYF (by rw [hmF]; rfl) (by rw [hmF]; rfl)
  have nB : fh ∉ YB.neighbors := fun hn => h.free1 (wakeColliding_neighbors h2 h.get1 gYB _ hn)
  have nF : bh ∉ YF.neighbors := fun hn => h.free2 (wakeColliding_neighbors h2 h.get2 gYF _ hn)
  have mB : YB.totalMass = fin m := by rw [WakeRel.totalMass rB]; exact mass
  have mF : YF.totalMass = posInf := by rw [WakeRel.totalMass rF]; exact hmF
  have mvF : moved (fin t') jf YF = YF := by
    unfold moved
    split
    · rfl
    · rw [face.mov2, face.turn2, oYF, Vec3.f_scale, show (Vec3.o : Vec3 ℝ).scale t' = .o by ext <;> simp, Orientation.f_afterAffected, after_o, ← oYF]
  have mvB : moved (fin t') ib YB = { YB with orientation := (o.after (v.scale (t' * d)) .o).f } := by
    unfold moved
    rw [if_neg (by rw [awake]; simp), face.mov1, face.turn1, oYB, Vec3.f_scale, Vec3.f_scale, Orientation.f_afterAffected]
    have s1 : (v.scale ((1 - 0) * d)).scale t' = v.scale (t' * d) := by ext <;> simp <;> ring
    have s2 : ((Vec3.o : Vec3 ℝ).scale ((1 - 0) * d)).scale t' = .o := by ext <;> simp
    rw [s1, s2]
  rw [mvB] at gMB
  rw [mvF] at gMF
  set ZB : InternalEntity XReal := { YB with orientation := (o.after (v.scale (t' * d)) .o).f } with hZB
  have hzu : (o.after (v.scale (t' * d)) .o).Unit := Orientation.after_unit _ hou _ _
  -- the bodies
  have hcr : st1.world.collisionRecords = [] := by rw [a1]; simp only []; rw [w1]; exact hrec
  have fw : FineWorld st1.world := by
    have := (fine_body (dt := fin d) (Arena.handles_nodup _) hcol hr.inv hfl h1 h2 h3).1
    exact (this (by rw [hcr]; simp)).1
  have mZ : ZB.totalMass = fin m := mB
  obtain ⟨b, ob, pb, qb⟩ := (fw _ _ gMB).body (by rw [mZ]; intro h; rw [fin_inj] at h; exact hm.ne' h)
  obtain ⟨f, of, pf, -⟩ := (fw _ _ gMF).body (by rw [mF]; intro h; cases h)
  have qb := qb (by rw [mZ]; intro h; cases h)
  have vYF : YF.velocity = (Vec3.o).f := by rw [rF]; exact h.vel2
  have aYF : YF.angularVelocity = (Vec3.o).f := by rw [rF]; exact h.ang2
  have fix : Fixed f := fixed_of of mF (by
    unfold momentOfInertia
    have : YF.preppedMoment = F1.preppedMoment := by rw [rF]
    rw [oYF, this, (staticRel_iff.mp zF).2.2.2.1, hS.still, finalize_o hS.unit]) vYF aYF
  have bm : b.mass = some m := by
    obtain ⟨x, hx⟩ := Option.ne_none_iff_exists'.mp qb
    have := ob.mass
    rw [mZ, hx] at this
    rw [hx, show x = m from (fin_inj.mp this).symm]
  have bI : b.inertia = Mat3.diag ⟨i, i, i⟩ := by
    have := ob.inertia
    unfold momentOfInertia at this
    rw [show ZB.orientation = (o.after (v.scale (t' * d)) .o).f from rfl, show ZB.preppedMoment = B1.preppedMoment by show YB.preppedMoment = _; rw [rB], moment,
      finalize_diag hzu, Mat3.f_inj] at this
    exact this.symm
  have bv : b.vel = v := by
    have := ob.vel; rw [show ZB.velocity = B1.velocity by show YB.velocity = _; rw [rB], h.vel1, Vec3.f_inj] at this; exact this.symm
  have ba : b.ang = .o := by
    have := ob.ang; rw [show ZB.angularVelocity = B1.angularVelocity by show YB.angularVelocity = _; rw [rB], h.ang1, Vec3.f_inj] at this; exact this.symm
  have bp : b.pos = o.position + v.scale (t' * d) := by
    have := ob.pos; exact ((Vec3.f_inj _ _).mp this).symm
  have kp' : K.collision.position = (o.position + v.scale (t' * d) - n.scale r).f := by
    rw [kp, Vec3.f_inj]; ext <;> simp <;> ring
  -- the response
  obtain ⟨x1, x2, i1, i2, hne, g1, g2, n1, n2, rfl⟩ := respond_spec h4
  have rv1 := respondPair_first K (st1.currentPercent * fin d) st1.timeLeft x1 x2 i1 i2
  have rv2 := respondPair_second K (st1.currentPercent * fin d) st1.timeLeft x1 x2 i1 i2
  have hget := fun h => respond_get (y1 := (respondPair K (st1.currentPercent * fin d) st1.timeLeft x1 x2 i1 i2).first)
    (y2 := (respondPair K (st1.currentPercent * fin d) st1.timeLeft x1 x2 i1 i2).second) hne g1 g2 h
  rcases hboth with ⟨f1, f2⟩ | ⟨f1, f2⟩
  · rw [f1, gMB] at g1
    rw [f2, gMF] at g2
    obtain rfl := Option.some.inj g1
    obtain rfl := Option.some.inj g2
    have kn' : K.collision.normal = (-n).f := by rw [kn, if_pos (by rw [f1, e1])]
    have hN : (-n).dot (-n) = 1 := by rw [← hS.one]; simp [Vec3.dot_def]
    have hT : Treads b f (o.position + v.scale (t' * d) - n.scale r) (-n) r m i := ⟨bm, bI, ⟨hm, hi0⟩, by rw [bp]; ext <;> simp, fix⟩
    have hI : Impact ZB YF K b f (o.position + v.scale (t' * d) - n.scale r) (-n) ρ μs μd := ⟨ob, of, pb, pf, Or.inl qb, kp', kn', hN, hρ, hμ, hν⟩
    obtain ⟨b', ob', sv, sa⟩ := rebound_first hI hT hi hthr hρ0 ba (st1.currentPercent * fin d) st1.timeLeft i1 i2
    obtain ⟨fF, ofF, eF⟩ : ∃ f' : Body, f'.Of (respondPair K (st1.currentPercent * fin d) st1.timeLeft ZB YF i1 i2).second ∧ f' = f := by
      obtain ⟨ν, F, -, -, -, h1⟩ := hI.respond (st1.currentPercent * fin d) st1.timeLeft i1 i2
      exact ⟨_, h1, by rw [fix.kick, fix.kick]⟩
    subst eF
    rw [bv] at sv
    generalize respondPair K (st1.currentPercent * fin d) st1.timeLeft ZB YF i1 i2 = R at *
    refine ⟨R.first, R.second, ?_, ?_, by rw [rv1], by rw [rv2]; exact oYF, by rw [ob'.vel, sv], by rw [ob'.ang, sa], by rw [ofF.vel, fix.vel],
      by rw [ofF.ang, fix.ang], by rw [rv1]; exact nB, by rw [rv2]; exact nF, by rw [rv1]; exact awake, by rw [rv2]; exact same⟩
    · show ((st1.world.entities.set K.firstHandle R.first).set K.secondHandle R.second).get bh = _
      rw [hget, if_neg (by rw [f2]; exact hS.ne), if_pos f1.symm]
    · show ((st1.world.entities.set K.firstHandle R.first).set K.secondHandle R.second).get fh = _
      rw [hget, if_pos f2.symm]
  · rw [f1, gMF] at g1
    rw [f2, gMB] at g2
    obtain rfl := Option.some.inj g1
    obtain rfl := Option.some.inj g2
    have kn' : K.collision.normal = n.f := by rw [kn, if_neg (by rw [f1, e1]; exact hS.ne.symm)]
    have hT : Treads b f (o.position + v.scale (t' * d) - n.scale r) n (-r) m i := ⟨bm, bI, ⟨hm, hi0⟩, by rw [bp]; ext <;> simp, fix⟩
    have hI : Impact YF ZB K f b (o.position + v.scale (t' * d) - n.scale r) n ρ μs μd := ⟨of, ob, pf, pb, Or.inr qb, kp', kn', hS.one, hρ, hμ, hν⟩
    obtain ⟨b', ob', sv, sa⟩ := rebound_second hI hT hi hthr hρ0 ba (st1.currentPercent * fin d) st1.timeLeft i1 i2
    obtain ⟨fF, ofF, eF⟩ : ∃ f' : Body, f'.Of (respondPair K (st1.currentPercent * fin d) st1.timeLeft YF ZB i1 i2).first ∧ f' = f := by
      obtain ⟨ν, F, -, -, h1, -⟩ := hI.respond (st1.currentPercent * fin d) st1.timeLeft i1 i2
      exact ⟨_, h1, by rw [fix.kick, fix.kick]⟩
    subst eF
    rw [bv] at sv
    generalize respondPair K (st1.currentPercent * fin d) st1.timeLeft YF ZB i1 i2 = R at *
    refine ⟨R.second, R.first, ?_, ?_, by rw [rv2], by rw [rv1]; exact oYF, by rw [ob'.vel, sv], by rw [ob'.ang, sa], by rw [ofF.vel, fix.vel],
      by rw [ofF.ang, fix.ang], by rw [rv2]; exact nB, by rw [rv1]; exact nF, by rw [rv2]; exact awake, by rw [rv1]; exact same⟩
    · show ((st1.world.entities.set K.firstHandle R.first).set K.secondHandle R.second).get bh = _
      rw [hget, if_pos f2.symm]
    · show ((st1.world.entities.set K.firstHandle R.first).set K.secondHandle R.second).get fh = _
      rw [hget, if_neg (by rw [f2]; exact hS.ne.symm), if_pos f1.symm]

end

/-- Nothing but a ball that does not spin and is not turned by contacts (it has no moment of inertia, or there is no friction), an immovable floor, and gravity. -/
structure Drops (s : System XReal (GravityGenerator XReal)) (bh fh ch ch' : Handle) (B F : InternalEntity XReal) (sc : SphereCollider XReal)
    (pl : PlaneCollider XReal) (o q : Orientation ℝ) (r : ℝ) (c P n G : Vec3 ℝ) (m i ρ t μs μd : ℝ) (v : Vec3 ℝ) : Prop where
  setting : Setting s False bh fh ch ch' B F sc pl q r c P n
  alone : ∀ h e, s.entities.get h = some e → h = bh ∨ h = fh
  pose : B.orientation = o.f
  unit : o.Unit
  floor : F.orientation = q.f
  mass : B.totalMass = fin m ∧ 1 / 1000000 < m
  moment : B.preppedMoment = (Mat3.diag ⟨i, i, i⟩).f ∧ 0 ≤ i
  smooth : i = 0 ∨ μs = 0 ∧ μd = 0
  moves : B.velocity = v.f ∧ B.angularVelocity = (Vec3.o).f
  rest : F.velocity = (Vec3.o).f ∧ F.angularVelocity = (Vec3.o).f
  tries : 2 ≤ s.iterationMax
  weight : gravity s.generators = G.f
  shapes : ∀ j c, s.colliders.get j = some c → FiniteNumbers c
  fine : FineWorld s.toWorld
  pulls : ∀ k x, s.generators.get k = some x → Finite3 x.acceleration
  springy : Springy sc.material pl.material ρ t μs μd
  back : 0 ≤ ρ
  centered : c + o.internalOriginOffset = .o
  free1 : fh ∉ B.neighbors
  free2 : bh ∉ F.neighbors
  awake : B.asleep = false

section
variable {bh fh ch ch' : Handle} {B F B' F' : InternalEntity XReal} {sc : SphereCollider XReal}
    {pl : PlaneCollider XReal} {o q : Orientation ℝ} {r : ℝ} {c P n G v v' : Vec3 ℝ} {m i ρ t μs μd : ℝ} {s s' : System XReal (GravityGenerator XReal)}
    {ord : IterOrder} {d : ℝ}

/-- What a step does not change. -/
theorem Drops.after {o' : Orientation ℝ} (hL : Drops s bh fh ch ch' B F sc pl o q r c P n G m i ρ t μs μd v) (hh : s.step ord (fin d) = .ok s')
    (gB : s'.entities.get bh = some B')
    (gF : s'.entities.get fh = some F') (ho : o'.Unit) (k1 : B'.orientation = o'.f) (k2 : F'.orientation = q.f)
    (k3 : B'.velocity = v'.f ∧ B'.angularVelocity = (Vec3.o).f) (k4 : F'.velocity = (Vec3.o).f ∧ F'.angularVelocity = (Vec3.o).f)
    (centered : c + o'.internalOriginOffset = .o)
    (free1 : fh ∉ B'.neighbors) (free2 : bh ∉ F'.neighbors) (awake : B'.asleep = false) :
    Drops s' bh fh ch ch' B' F' sc pl o' q r c P n G m i ρ t μs μd v' := by
  have fr := (step_frame hh).1
  have hS := hL.setting
  have hfw := hL.fine
  have zB := fr.entities.rel _ _ _ hS.get1 gB
  have zF := fr.entities.rel _ _ _ hS.get2 gF
  obtain ⟨hm, hm1⟩ := hL.mass
  have cB := StaticRel.colliders zB
  have cF := StaticRel.colliders zF
  obtain ⟨-, -, tB, pB, -⟩ := staticRel_iff.mp zB
  obtain ⟨-, -, tF, pF, -⟩ := staticRel_iff.mp zF
  refine ⟨⟨hS.ne, gB, gF, by rw [cB]; exact hS.col1, by rw [cF]; exact hS.col2, by rw [fr.colliders]; exact hS.ball, by rw [fr.colliders]; exact hS.plane,
    hS.radius, hS.center, hS.normal, hS.place, hS.unit, hS.nonneg, hS.one, by rw [tF]; exact hS.heavy, by rw [pF]; exact hS.still,
    fun h => h.elim, fun h => by rw [cB, cF]; exact hS.only h⟩, ?_, k1, ho, k2, ⟨by rw [tB]; exact hm, hm1⟩, ⟨by rw [pB]; exact hL.moment.1, hL.moment.2⟩, hL.smooth, k3, k4,
    by rw [fr.iterationMax]; exact hL.tries, by rw [(generators_kept hh).2]; exact hL.weight, by rw [fr.colliders]; exact hL.shapes, ?_,
    fun k x hx => hL.pulls k x (by rw [← (generators_kept hh).1]; exact hx), hL.springy, hL.back, centered, free1, free2, awake⟩
  · intro h E hE
    obtain ⟨X, hX, -⟩ := fr.entities.get' hE
    exact hL.alone h X hX
  · intro h E hE
    obtain ⟨X, hX, -⟩ := fr.entities.get' hE
    rcases hL.alone h X hX with rfl | rfl
    · have hE' : s'.entities.get h = some E := hE
      rw [gB] at hE'; cases hE'
      exact (hfw _ B hS.get1).of zB ⟨_, k1, ho⟩ ⟨_, k3.1⟩ ⟨_, k3.2⟩
    · have hE' : s'.entities.get h = some E := hE
      rw [gF] at hE'; cases hE'
      exact (hfw _ F hS.get2).of zF (by rw [k2, ← hL.floor]; exact (hfw _ F hS.get2).pose) ⟨_, k4.1⟩ ⟨_, k4.2⟩

/-- Gravity changes the velocity of the ball only. -/
theorem Drops.opening (hL : Drops s bh fh ch ch' B F sc pl o q r c P n G m i ρ t μs μd v) (p : Phases ord s s' (fin d)) :
    FineLoop s.entities ⟨p.mid.toWorld, p.infos, fin d, zero⟩ ∧ p.mid.entities.get bh = some { B with velocity := (v + G.scale d).f } ∧
      p.mid.entities.get fh = some F ∧ p.mid.toWorld.collisionRecords = [] := by
  have hS := hL.setting
  obtain ⟨hm, hm1⟩ := hL.mass
  obtain ⟨a1, a2, a3⟩ := fine_all tame_gravity p.integrate hL.fine hL.pulls
  obtain ⟨B1, gB1, rB, wB, -⟩ := spin_all tame_gravity p.integrate hL.fine hL.pulls (h := bh) (E := B) hS.get1 (Or.inr central_gravity)
  obtain ⟨F1, gF1, rF, wF, vF⟩ := spin_all tame_gravity p.integrate hL.fine hL.pulls (h := fh) (E := F) hS.get2
    (Or.inl (fun o' ho' => by rw [hS.still, finalize_o ho']))
  have vB : B1.velocity = (v + G.scale d).f := by
    have hB : ({ s with collisionRecords := [], debug := [] } : System XReal (GravityGenerator XReal)).getEntity bh = some B.makePub :=
      getEntity_iff.mpr ⟨B, hS.get1, rfl⟩
    obtain ⟨p', hp', hv, -⟩ := C22_gravity p.integrate hB (by
      show (Scalar.isFinite B.totalMass && Scalar.lt EPSILON B.totalMass) = true
      rw [hm]; simpa using hm1)
    obtain ⟨Y, gY, rfl⟩ := getEntity_iff.mp hp'
    have : p.mid.entities.get bh = some Y := gY
    rw [gB1] at this; cases this
    have e : B1.velocity = B.velocity + (gravity s.generators).scale (fin d) := hv
    rw [e, hL.moves.1, hL.weight, Vec3.f_scale, Vec3.f_add]
  refine ⟨fun _ => ⟨a1, a3, d, rfl⟩, ?_, ?_, by rw [(integrateAll_spec (Arena.handles_nodup _) p.integrate).1]⟩
  · rw [gB1, rB, vB, wB]
  · rw [gF1, rF, vF hS.heavy, wF]

/-- A step. -/
theorem drop_step (hd : 1 / 1000000 ≤ d) (hh : s.step ord (fin d) = .ok s') (hL : Drops s bh fh ch ch' B F sc pl o q r c P n G m i ρ t μs μd v) :
    ∃ B' F' o' v', s'.entities.get bh = some B' ∧ s'.entities.get fh = some F' ∧
      Leap P n r m ρ t μs μd d o.position (v + G.scale d) o'.position v' ∧ B'.orientation = o'.f ∧
      (B'.asleep = false → B'.velocity = v'.f) ∧ (F.asleep = true → F'.asleep = true) ∧
      (Scalar.lt s.energySleepThreshold (fin (m * v'.dot v' / 2)) = true → B'.asleep = false) ∧
      (B'.asleep = false → F'.asleep = F.asleep → Drops s' bh fh ch ch' B' F' sc pl o' q r c P n G m i ρ t μs μd v') := by
  have hd0 : 0 < d := lt_of_lt_of_le (by norm_num) hd
  have heps : (1 / 1000000 : ℝ) = eps := by unfold eps; norm_num
  obtain ⟨p⟩ := step_phases (proper_fin hd) hh
  have fr := (step_frame hh).1
  have hS := hL.setting
  obtain ⟨hm, hm1⟩ := hL.mass
  have hm0 : 0 < m := lt_trans (by norm_num) hm1
  obtain ⟨start, gB1, gF1, hmid⟩ := hL.opening p
  obtain ⟨B', gB', -⟩ := fr.entities.get hS.get1
  obtain ⟨F', gF', -⟩ := fr.entities.get hS.get2
  set v1 := v + G.scale d with hv1
  have hgl : Glide bh fh o q v1 .o F { B with velocity := v1.f } F ⟨p.mid.toWorld, p.infos, fin d, zero⟩ :=
    ⟨gB1, gF1, hL.pose, hL.floor, rfl, hL.moves.2, hL.rest.1, hL.rest.2, hL.free1, hL.free2, hL.awake, rfl⟩
  obtain ⟨v', o', B2, F2, hleap, ho', hoo', hst⟩ : ∃ v' o' B2 F2, Leap P n r m ρ t μs μd d o.position v1 o'.position v' ∧ o'.Unit ∧
      o'.internalOriginOffset = o.internalOriginOffset ∧ Glide bh fh o' q v' .o F B2 F2 p.final := by
    have hit := p.iterate
    obtain ⟨N, hN⟩ := Nat.exists_eq_succ_of_ne_zero (show s.iterationMax ≠ 0 by have := hL.tries; omega)
    have hN0 : N ≠ 0 := by have := hL.tries; omega
    rw [hN] at hit
    unfold Step.iterate at hit
    obtain ⟨best, h1, hit1⟩ := Res.bind_eq_ok.mp hit
    obtain ⟨w, h2, hit2⟩ := Res.bind_eq_ok.mp hit1
    obtain ⟨st1, h3, hit3⟩ := Res.bind_eq_ok.mp hit2
    clear hit hit1 hit2
    cases best with
    | none =>
      cases h2
      simp only [Except.ok.injEq, Prod.mk.injEq] at hit3
      obtain ⟨e1, -⟩ := hit3
      obtain ⟨B2, F2, hst⟩ := hgl.go hS p.running.1 hL.unit hL.centered h3
      rw [e1] at hst
      have s1 : v1.scale ((1 - 0) * d) = v1.scale d := by ext <;> simp
      have s2 : (Vec3.o : Vec3 ℝ).scale ((1 - 0) * d) = .o := by ext <;> simp
      rw [s1, s2] at hst
      refine ⟨v1, _, B2, F2, Or.inl ⟨rfl, rfl, ?_⟩, Orientation.after_unit _ hL.unit _ _, rfl, hst⟩
      by_cases hslow : -(1 / 1000000) < v1.dot n
      · exact Or.inl hslow
      right
      obtain ⟨ib, jf, face, -⟩ := glide_facing hS p.running.1 hgl hL.unit hL.centered
      have hmn : (v1.scale ((1 - 0) * d)).dot n = d * v1.dot n := by rw [Vec3.scale_dot]; ring
      have hcl : clearance (o.position + v1.scale d) P n r = clearance o.position P n r + d * v1.dot n := by rw [clearance_add, Vec3.scale_dot]; ring
      rcases ball_over (r := r) hS.nonneg (x := o.position) (m := v1.scale ((1 - 0) * d)) (P := P) (n := n) hS.one with
        ⟨-, h5, h6⟩ | ⟨C, t, c1, c2, t0, t1, c3, c4, c5⟩
      · rw [hmn] at h6
        refine ⟨h5, h6.imp (fun h => by rw [heps]; exact h) (fun h => ?_)⟩
        rw [hcl]; exact h.le
      · obtain ⟨K, hK, hKt⟩ := face.contact c1 c2 c3 c4 (by
          have : (v1 + (Vec3.o : Vec3 ℝ).cross ((v1.scale ((1 - 0) * d)).scale t)).dot n = v1.dot n := by simp [Vec3.dot_def]
          rw [this, ← heps]; linarith)
        have := search_before h1 hK hKt (show percentOf none = fin 1 by rw [← one_eq]; rfl)
        have ht : t = 1 := le_antisymm t1 this
        rcases c5 with ⟨h, -⟩ | ⟨h, h'⟩
        · linarith
        · rw [hmn, ht, one_mul] at h'
          exact ⟨h, Or.inr (by rw [hcl]; linarith)⟩
    | some K =>
      obtain ⟨pp, p0, p1, hsink, hcl, hK⟩ := rebound_body (st := ⟨p.mid.toWorld, p.infos, fin d, zero⟩) hS hL.alone hL.shapes hL.springy hL.back hd0 p.running.1 start hmid
        hL.unit hL.centered hgl hm0 hL.moment.2 hL.smooth hm hL.moment.1 h1 h2 h3
      obtain ⟨st2, h4, hit⟩ := Res.bind_eq_ok.mp hit3
      obtain ⟨hrun, B2, F2, hgl2⟩ := hK st2 h4
      have hup := Rebound.up hS.one m ρ t μs μd v1
      have he : (0 : ℝ) < eps := by unfold eps; norm_num
      have hou : (o.after (v1.scale (pp * d)) .o).Unit := Orientation.after_unit _ hL.unit _ _
      obtain ⟨B3, F3, hst⟩ := hgl2.leave hS hL.alone hd0.le hrun hN0 hou hL.centered hit (by
        rw [hup]; have := mul_nonneg hL.back (by linarith : 0 ≤ -(v1.dot n)); linarith)
      refine ⟨_, _, B3, F3, Or.inr ⟨pp * d, mul_nonneg p0 hd0.le, ?_, by rw [heps]; exact hsink, ?_, rfl, ?_⟩, Orientation.after_unit _ hou _ _, rfl, hst⟩
      · nlinarith
      · refine hcl.imp (fun h => ⟨by rw [h.1, zero_mul], h.2⟩) (fun h => ⟨h.1, ?_⟩)
        rw [clearance_add, Vec3.scale_dot]
        linarith [h.2]
      · show o.position + v1.scale (pp * d) + (Rebound n m ρ t μs μd v1).scale ((1 - pp) * d) = _
        rw [show (1 - pp) * d = d - pp * d by ring]
  obtain ⟨nB, -, l2, l3⟩ := closing p hst.get1 gB'
  obtain ⟨nF, -, m2, m3⟩ := closing p hst.get2 gF'
  have zB := p.inv.frame.entities.rel _ _ _ hS.get1 hst.get1
  have hmB : B2.totalMass = fin m := by rw [(staticRel_iff.mp zB).2.2.1]; exact hm
  have hE : B2.totalEnergy = fin (m * v'.dot v' / 2) := by
    have h2 : (2 : ℝ) ≠ 0 := by norm_num
    have hI : B2.orientation.finalizeMomentOfInertia B2.preppedMoment = (Mat3.diag ⟨i, i, i⟩).f := by
      rw [hst.pose1, (staticRel_iff.mp zB).2.2.2.1, hL.moment.1, finalize_diag ho']
    unfold totalEnergy momentOfInertia
    rw [hI, hmB, hst.vel1, hst.ang1]
    simp [fin_div h2, Vec3.scale_dot, Mat3.diag, Vec3.dot_def]
    ring
  have fs : F2.asleep = F.asleep := hst.floor
  have e1 : B'.asleep = false → B'.velocity = B2.velocity ∧ B'.angularVelocity = B2.angularVelocity := by
    intro _
    rw [nB]; show (settle s.toWorld (fin d) B2).velocity = _ ∧ (settle s.toWorld (fin d) B2).angularVelocity = _
    unfold settle
    rw [if_neg (by rw [hst.awake]; simp)]
    split <;> exact ⟨rfl, rfl⟩
  refine ⟨B', F', o', v', gB', gF', hleap, (settled_pose nB).trans hst.pose1, fun h => (e1 h).1.trans hst.vel1, fun h => settled_sleeps nF (fs.trans h),
    fun h => ?_, fun h h' => ?_⟩
  · rw [nB]; show (settle s.toWorld (fin d) B2).asleep = false
    unfold settle
    rw [if_neg (by rw [hst.awake]; simp), if_pos (by rw [hE]; exact h)]
    exact hst.awake
  refine hL.after hh gB' gF' ho' ((settled_pose nB).trans hst.pose1) ((settled_pose nF).trans hst.pose2) ?_ (settled_still nF hst.vel2 hst.ang2) ?_ ?_ ?_ h
  · rw [(e1 h).1, (e1 h).2]; exact ⟨hst.vel1, hst.ang1⟩
  · rw [hoo']; exact hL.centered
  · intro hn
    rcases l3 fh hn with k | ⟨-, k⟩ | ⟨f, f', g1, g2, a, a'⟩
    · exact hst.free1 k
    · rw [h] at k; cases k
    · rw [hst.get2] at g1; cases g1
      rw [gF'] at g2; cases g2
      rw [h', ← fs, a] at a'; cases a'
  · intro hn
    rcases m3 bh hn with k | ⟨k, k'⟩ | ⟨f, f', g1, g2, a, a'⟩
    · exact hst.free2 k
    · rw [h', ← fs, k] at k'; cases k'
    · rw [gB'] at g2; cases g2
      rw [h] at a'; cases a'

/-! ### Energy -/

/-- The energy, over the mass, of the movement towards and away from the floor: `γ` is the pull towards the floor, `h` the height and `u` the speed. -/
noncomputable def lift (γ h u : ℝ) : ℝ := u ^ 2 / 2 + γ * h

/-- A leap does not gain energy, or it ends with not more than a bounce off the floor can give. -/
theorem Leap.energy {x x' : Vec3 ℝ} (hn : n.dot n = 1) (hγ : 0 ≤ -(G.dot n)) (hρ : 0 ≤ ρ) (hρ1 : ρ < 1) (hd : 0 ≤ d)
    (h : Leap P n r m ρ t μs μd d x (v + G.scale d) x' v') :
    lift (-(G.dot n)) (clearance x' P n r) (v'.dot n) ≤
      max (lift (-(G.dot n)) (clearance x P n r) (v.dot n)) (2 * ρ * (-(G.dot n) * d / (1 - ρ)) ^ 2) := by
  set γ := -(G.dot n) with hγd
  have hw : (v + G.scale d).dot n = v.dot n - γ * d := by rw [Vec3.add_dot, Vec3.scale_dot, hγd]; ring
  set w := v.dot n
  set H := clearance x P n r
  rcases h with ⟨rfl, rfl, -⟩ | ⟨τ, τ0, τ1, hs, hc, rfl, rfl⟩
  · apply le_max_of_le_left
    rw [clearance_add, Vec3.scale_dot, hw]
    unfold lift
    nlinarith [sq_nonneg (γ * d)]
  · have hup := Rebound.up hn m ρ t μs μd (v + G.scale d)
    have hH : H + τ * (v + G.scale d).dot n ≤ 0 := by
      rcases hc with ⟨rfl, h⟩ | ⟨-, h⟩
      · rw [zero_mul, add_zero]; exact h
      · rw [clearance_add, Vec3.scale_dot] at h; linarith
    rw [clearance_add, clearance_add, Vec3.scale_dot, Vec3.scale_dot, hup]
    rw [hw] at hs hH ⊢
    obtain ⟨u, hu⟩ : ∃ u, w - γ * d = -u := ⟨_, (neg_neg _).symm⟩
    rw [hu] at hs hH ⊢
    have hu0 : 0 ≤ u := by linarith
    have hwu : w = γ * d - u := by linarith
    have hq : 0 < 1 - ρ := by linarith
    unfold lift
    by_cases hfast : 2 * (γ * d) ≤ (1 - ρ) * u
    · apply le_max_of_le_left
      rw [hwu]
      have h1 : γ * (d - τ) ≤ γ * d := by nlinarith
      have h2 : 0 ≤ (1 + ρ) * u * ((1 - ρ) * u / 2 - γ * (d - τ)) := mul_nonneg (by positivity) (by linarith)
      nlinarith [sq_nonneg (γ * d)]
    · apply le_max_of_le_right
      push Not at hfast
      set U := 2 * (γ * d) / (1 - ρ) with hU
      have hlt : u ≤ U := by rw [hU, le_div_iff₀ hq]; linarith
      have hUγ : γ * d = (1 - ρ) * U / 2 := by rw [hU]; field_simp
      have h1 : γ * (d - τ) ≤ γ * d := by nlinarith
      have h2 : ρ * u * (γ * (d - τ)) ≤ ρ * U * (γ * d) := by
        apply mul_le_mul (mul_le_mul_of_nonneg_left hlt hρ) h1 (mul_nonneg hγ (by linarith)) (mul_nonneg hρ (le_trans hu0 hlt))
      have h3 : (ρ * u) ^ 2 ≤ (ρ * U) ^ 2 := by
        apply pow_le_pow_left₀ (mul_nonneg hρ hu0); exact mul_le_mul_of_nonneg_left hlt hρ
      have h4 : γ * (H + -u * τ) ≤ 0 := mul_nonpos_of_nonneg_of_nonpos hγ (by linarith)
      have h5 : 2 * ρ * (γ * d / (1 - ρ)) ^ 2 = ρ * U ^ 2 / 2 := by rw [hU]; field_simp
      rw [h5]
      have h6 : (ρ * U) ^ 2 / 2 + ρ * U * (γ * d) = ρ * U ^ 2 / 2 := by rw [hUγ]; ring
      nlinarith

theorem drop_run {ds : List ℝ} {D : ℝ} (hγ : 0 ≤ -(G.dot n)) (hρ1 : ρ < 1) (hrun : Wakeful bh fh s ds s') : ∀ {B F : InternalEntity XReal} {o : Orientation ℝ} {v : Vec3 ℝ},
    (∀ d ∈ ds, 1 / 1000000 ≤ d ∧ d ≤ D) → Drops s bh fh ch ch' B F sc pl o q r c P n G m i ρ t μs μd v →
    ∃ B' F' o' v', Drops s' bh fh ch ch' B' F' sc pl o' q r c P n G m i ρ t μs μd v' ∧
      lift (-(G.dot n)) (clearance o'.position P n r) (v'.dot n) ≤
        max (lift (-(G.dot n)) (clearance o.position P n r) (v.dot n)) (2 * ρ * (-(G.dot n) * D / (1 - ρ)) ^ 2) := by
  induction hrun with
  | nil s => intro B F o v _ hL; exact ⟨B, F, o, v, hL, le_max_left _ _⟩
  | @cons ord s m' s' d ds first ball floor rest ih =>
    intro B F o v hds hL
    obtain ⟨h1, h2⟩ := hds d (by simp)
    obtain ⟨B1, F1, o1, v1, gB, gF, hl, -, -, -, -, hR⟩ := drop_step h1 first hL
    have hR := hR (ball _ (getEntity_iff.mpr ⟨B1, gB, rfl⟩)) (floor _ _ (getEntity_iff.mpr ⟨F, hL.setting.get2, rfl⟩) (getEntity_iff.mpr ⟨F1, gF, rfl⟩))
    obtain ⟨B2, F2, o2, v2, k1, k2⟩ := ih (fun d hd => hds d (by simp [hd])) hR
    have hd0 : 0 ≤ d := le_trans (by norm_num) h1
    have he := hl.energy hL.setting.one hγ hL.back hρ1 hd0
    have hq : 0 < 1 - ρ := by linarith
    have hmono : 2 * ρ * (-(G.dot n) * d / (1 - ρ)) ^ 2 ≤ 2 * ρ * (-(G.dot n) * D / (1 - ρ)) ^ 2 := by
      apply mul_le_mul_of_nonneg_left _ (by linarith [hL.back])
      apply pow_le_pow_left₀ (div_nonneg (mul_nonneg hγ hd0) hq.le)
      exact div_le_div_of_nonneg_right (mul_le_mul_of_nonneg_left h2 hγ) hq.le
    exact ⟨B2, F2, o2, v2, k1, k2.trans (max_le (he.trans (max_le_max_left _ hmono)) (le_max_right _ _))⟩

/-- A ball over an immovable floor, and nothing else but gravity. The ball does not spin, and contacts do not turn it: it has no moment of inertia, or there is no friction.
Everything in terms of what the public interface shows. -/
structure DropsOn (s : System XReal (GravityGenerator XReal)) (bh fh ch ch' : Handle) (ball floor : Entity XReal) (sc : SphereCollider XReal)
    (pl : PlaneCollider XReal) (r : ℝ) (x P n G : Vec3 ℝ) (m i ρ t μs μd : ℝ) (v : Vec3 ℝ) : Prop where
  history : FiniteHistory (fun g : GravityGenerator XReal => Finite3 g.acceleration) s
  alone : ∀ h e, s.getEntity h = some e → h = bh ∨ h = fh
  over : BallOverFloor s bh fh ch ch' ball floor sc pl r x P n
  moves : ball.velocity = v.f ∧ ball.angularVelocity = (Vec3.o).f
  mass : ball.lastTotalMass = fin m ∧ 1 / 1000000 < m
  moment : ball.lastPreppedMoment = (Mat3.diag ⟨i, i, i⟩).f ∧ 0 ≤ i
  smooth : i = 0 ∨ μs = 0 ∧ μd = 0
  sphereOnly : ball.colliders = [ch]
  planeOnly : floor.colliders = [ch']
  rest : sc.material.restitution * pl.material.restitution = fin ρ ∧ 0 ≤ ρ
  thr : sc.material.frictionThreshold * pl.material.frictionThreshold = fin t
  stat : sc.material.staticFriction * pl.material.staticFriction = fin μs
  dyn : sc.material.dynamicFriction * pl.material.dynamicFriction = fin μd
  tries : 2 ≤ s.iterationMax
  /-- The sum of the accelerations of all gravity generators. -/
  weight : gravity s.generators = G.f
  awake : ball.asleep = false

variable {ball floor : Entity XReal} {x : Vec3 ℝ}

theorem DropsOn.drops (hR : DropsOn s bh fh ch ch' ball floor sc pl r x P n G m i ρ t μs μd v) :
    ∃ B F o q c, ball = B.makePub ∧ floor = F.makePub ∧ o.position = x ∧ Drops s bh fh ch ch' B F sc pl o q r c P n G m i ρ t μs μd v := by
  have hB := hR.over
  have hf := hR.history
  have hco : Springy sc.material pl.material ρ t μs μd :=
    ⟨⟨hR.thr, by rw [mul_cm]; exact hR.thr⟩, ⟨hR.stat, by rw [mul_cm]; exact hR.stat⟩, ⟨hR.dyn, by rw [mul_cm]; exact hR.dyn⟩, hR.rest.1, by rw [mul_cm]; exact hR.rest.1⟩
  obtain ⟨a, ha⟩ : ∃ a : ℝ, sc.material.restitution = fin a := by
    have hs := hB.sphere; rw [getCollider_eq] at hs
    exact isFinite_iff.mp (hf.colliders _ _ hs).material.1
  obtain ⟨b, hb⟩ : ∃ b : ℝ, pl.material.restitution = fin b := by
    have hp := hB.plane; rw [getCollider_eq] at hp
    exact isFinite_iff.mp (hf.colliders _ _ hp).material.1
  obtain ⟨B0, F0, o, q, c, rfl, rfl, fw, hg, hS, ho, hou, hcen, hq, hx, nb1, nb2⟩ := floor_setting (A := False) tame_gravity hf hB (fun h => h.elim)
    (fun _ => ⟨hR.sphereOnly, hR.planeOnly, a, b, ha, hb, by
      have := hR.rest.1
      rw [ha, hb, fin_mul, fin_inj] at this
      rw [this]; exact hR.rest.2⟩)
  refine ⟨B0, F0, o, q, c, rfl, rfl, hx, hS, ?_, ho, hou, hq, hR.mass, hR.moment, hR.smooth,
      hR.moves, hB.still, hR.tries, hR.weight, hf.colliders, fw, hg, hco, hR.rest.2, hcen, nb1, nb2, hR.awake⟩
  intro h e he
  exact hR.alone h e.makePub (getEntity_iff.mpr ⟨e, he, rfl⟩)

/-- **C102 (what the code does).** What one step does to such a ball, as long as it does not fall asleep: gravity changes its velocity, then it moves in a straight line,
with at most one contact. -/
theorem C102_step (hR : DropsOn s bh fh ch ch' ball floor sc pl r x P n G m i ρ t μs μd v) (hd : 1 / 1000000 ≤ d) (hh : s.step ord (fin d) = .ok s')
    {ball' : Entity XReal} (hb : s'.getEntity bh = some ball') (aw : ball'.asleep = false) :
    ∃ x' v', ball'.position = Vec3.f x' ∧ ball'.velocity = Vec3.f v' ∧ Leap P n r m ρ t μs μd d x (v + G.scale d) x' v' := by
  obtain ⟨B, F, o, q, c, rfl, rfl, rfl, hL⟩ := hR.drops
  obtain ⟨B', F', o', v', gB, -, hl, hp, hv, -⟩ := drop_step hd hh hL
  obtain ⟨Y, gY, rfl⟩ := getEntity_iff.mp hb
  rw [gB] at gY; cases gY
  refine ⟨o'.position, v', ?_, hv aw, hl⟩
  show B'.orientation.position = _
  rw [hp]; rfl

/-- **C102 (partial).** If the restitution `ρ` of the two is less than 1, then in any number of steps that are not longer than `D` the ball does not get higher than its
energy at the beginning lets it, or than `2 ρ γ D² / (1 - ρ)²`, where `γ` is the pull of gravity towards the floor. Missing: the second height (`C102_false`), and what
happens when one of the two falls asleep. -/
theorem C102_partial (hR : DropsOn s bh fh ch ch' ball floor sc pl r x P n G m i ρ t μs μd v) (hρ : ρ < 1) {γ D : ℝ} (hγ : 0 < γ) (hG : G.dot n = -γ) {ds : List ℝ}
    (hds : ∀ d ∈ ds, 1 / 1000000 ≤ d ∧ d ≤ D) (hrun : Wakeful bh fh s ds s') :
    ∃ ball' x', s'.getEntity bh = some ball' ∧ ball'.position = Vec3.f x' ∧
      clearance x' P n r ≤ max (clearance x P n r + (v.dot n) ^ 2 / (2 * γ)) (2 * ρ * γ * D ^ 2 / (1 - ρ) ^ 2) := by
  obtain ⟨B, F, o, q, c, rfl, rfl, rfl, hL⟩ := hR.drops
  obtain ⟨B', F', o', v', hL', hE⟩ := drop_run (by rw [hG]; linarith) hρ hrun hds hL
  refine ⟨B'.makePub, o'.position, getEntity_iff.mpr ⟨B', hL'.setting.get1, rfl⟩, ?_, ?_⟩
  · show B'.orientation.position = _
    rw [hL'.pose]; rfl
  · rw [hG, neg_neg] at hE
    unfold lift at hE
    have hq : 1 - ρ ≠ 0 := by linarith
    have e1 : (v.dot n) ^ 2 / 2 + γ * clearance o.position P n r = γ * (clearance o.position P n r + (v.dot n) ^ 2 / (2 * γ)) := by field_simp; ring
    have e2 : 2 * ρ * (γ * D / (1 - ρ)) ^ 2 = γ * (2 * ρ * γ * D ^ 2 / (1 - ρ) ^ 2) := by field_simp
    rw [e1, e2, ← mul_max_of_nonneg _ _ hγ.le] at hE
    exact le_of_mul_le_mul_left (by nlinarith [sq_nonneg (v'.dot n)]) hγ

/-- **C102 (dropped from rest).** A ball that is let go at rest at a height of at least `2 ρ γ D² / (1 - ρ)²` never rises above it. -/
theorem C102_dropped_partial (hR : DropsOn s bh fh ch ch' ball floor sc pl r x P n G m i ρ t μs μd .o) (hρ : ρ < 1) {γ D : ℝ} (hγ : 0 < γ) (hG : G.dot n = -γ)
    (high : 2 * ρ * γ * D ^ 2 / (1 - ρ) ^ 2 ≤ clearance x P n r) {ds : List ℝ}
    (hds : ∀ d ∈ ds, 1 / 1000000 ≤ d ∧ d ≤ D) (hrun : Wakeful bh fh s ds s') :
    ∃ ball' x', s'.getEntity bh = some ball' ∧ ball'.position = Vec3.f x' ∧ clearance x' P n r ≤ clearance x P n r := by
  obtain ⟨b, x', h1, h2, h3⟩ := C102_partial hR hρ hγ hG hds hrun
  refine ⟨b, x', h1, h2, h3.trans (max_le ?_ high)⟩
  simp [Vec3.dot_def]

end
end Fluffy.Props
