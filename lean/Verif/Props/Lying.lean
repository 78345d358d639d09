import Verif.Props.Floor
import Verif.Props.Motion
/- A ball that lies on an immovable plane, step after step. -/
set_option linter.unusedSectionVars false
set_option linter.unusedSimpArgs false
namespace Fluffy.Step
open InternalEntity
variable {α : Type} [Scalar α]

theorem cluster_finite {a : Arena (InternalEntity α)} {start k : Handle} (h : Cluster a start k) {x : InternalEntity α} (hx : a.get k = some x)
    (hm : Scalar.isInfinite x.totalMass = true) : k = start := by
  cases h with
  | start => rfl
  | link _ _ _ hk hf =>
    rw [hx] at hk; cases hk
    rw [hm] at hf; cases hf

theorem wakeIfFinite_heavy {ord : IterOrder} {h k : Handle} {w w' : World α} (hh : wakeIfFinite ord h w = .ok w') {x y : InternalEntity α}
    (hx : w.entities.get k = some x) (hy : w'.entities.get k = some y) (hm : Scalar.isInfinite x.totalMass = true)
    (hm' : Scalar.isFinite x.totalMass = false) : y.asleep = x.asleep := by
  obtain ⟨e, he, (⟨-, rfl⟩ | ⟨hf, b, d, hr, rfl⟩)⟩ := wakeIfFinite_spec hh
  · rw [hx] at hy; cases hy; rfl
  · refine (((wakeUp_spec hr).2.1 k x y hx hy).2.1 ?_).1
    intro hc
    have := cluster_finite hc hx hm
    subst this
    rw [hx] at he; cases he
    rw [hm'] at hf; cases hf

/-- A collision does not wake what has an infinite mass. -/
theorem wakeColliding_heavy {ord : IterOrder} {best : Option (Candidate α)} {k : Handle} {w w' : World α}
    (hh : wakeColliding ord best w = .ok w') {x y : InternalEntity α}
    (hx : w.entities.get k = some x) (hy : w'.entities.get k = some y) (hm : Scalar.isInfinite x.totalMass = true)
    (hm' : Scalar.isFinite x.totalMass = false) : y.asleep = x.asleep := by
  unfold wakeColliding at hh
  split at hh
  · cases hh; rw [hx] at hy; cases hy; rfl
  · obtain ⟨m, h1, h2⟩ := Res.bind_eq_ok.mp hh
    obtain ⟨z, hz, hr⟩ := (wakeIfFinite_evolves h1).2.get hx
    have e := WakeRel.totalMass hr
    exact (wakeIfFinite_heavy h2 hz hy (by rw [e]; exact hm) (by rw [e]; exact hm')).trans (wakeIfFinite_heavy h1 hx hz hm hm')

/-- What the sleep loop does to the neighbours: an entity that falls asleep has those it was left in contact with, and becomes a neighbour of each of them. -/
theorem sleepLoop_links {ord : IterOrder} {dt : α} : ∀ {l : List (StepInfo α)} {w w' : World α},
    (l.map StepInfo.handle).Nodup → (∀ i ∈ l, i.handle ∉ i.neighbors) → sleepLoop ord dt l w = .ok w' →
    ∀ k x y, w.entities.get k = some x → w'.entities.get k = some y →
      ((x.asleep = true ∨ y.asleep = false) → ∀ n ∈ x.neighbors, n ∈ y.neighbors) ∧
      (x.asleep = false → y.asleep = true → ∀ i ∈ l, i.handle = k → ∀ n ∈ i.neighbors, n ∈ y.neighbors) ∧
      (∀ n ∈ y.neighbors, n ∈ x.neighbors ∨ (x.asleep = false ∧ y.asleep = true ∧ ∃ i ∈ l, i.handle = k ∧ n ∈ i.neighbors) ∨
        ∃ i ∈ l, i.handle = n ∧ k ∈ i.neighbors ∧ ∃ e e', w.entities.get n = some e ∧ w'.entities.get n = some e' ∧ e.asleep = false ∧ e'.asleep = true)
  | [], w, w', _, _, hh => by
    unfold sleepLoop at hh; cases hh
    intro k x y hx hy; rw [hx] at hy; cases hy
    exact ⟨fun _ _ h => h, fun _ _ i hi => by simp at hi, fun n hn => Or.inl hn⟩
  | i :: l, w, w', hnd, hl, hh => by
    unfold sleepLoop at hh
    obtain ⟨m, h1, hh⟩ := Res.bind_eq_ok.mp hh
    rw [List.map_cons, List.nodup_cons] at hnd
    have hi := hl i (by simp)
    have hl' : ∀ j ∈ l, j.handle ∉ j.neighbors := fun j hj => hl j (by simp [hj])
    have ih := sleepLoop_links hnd.2 hl' hh
    have sp := sleepLoop_spec hnd.2 hl' hh
    have fr := sleepOne_frame hi h1
    obtain ⟨h2, -, ⟨e, e', he, he', hr, n1, n2, ho⟩, -⟩ := sleepOne_spec hi h1
    obtain ⟨e2, he2, -⟩ := (sleepLoop_frame hl' hh).1.entities.get he'
    have keep : e2.asleep = e'.asleep := by
      have := sp _ _ _ he' he2
      rw [if_neg hnd.1] at this; rw [this]
    -- what was asleep stays asleep
    have mono : ∀ k x y, m.entities.get k = some x → w'.entities.get k = some y → x.asleep = true → y.asleep = true := by
      intro k x y hx hy ha
      have := sp k x y hx hy
      rw [this]
      show (if k ∈ l.map StepInfo.handle then settle m dt x else x).asleep = true
      split
      · unfold settle; rw [if_pos ha]; exact ha
      · exact ha
    intro k x z hx hz
    obtain ⟨y, hy, -⟩ := fr.entities.get hx
    obtain ⟨i1, i2, i3⟩ := ih k y z hy hz
    by_cases hk : k = i.handle
    · subst hk
      rw [he] at hx; cases hx
      rw [he'] at hy; cases hy
      rw [he2] at hz; cases hz
      rw [keep] at i1 i2 i3 ⊢
      refine ⟨fun h n hn => ?_, fun a1 a2 j hj hjk n hn => ?_, fun n hn => ?_⟩
      · refine i1 ?_ n (by rw [n2 h]; exact hn)
        cases e'.asleep <;> simp
      · rcases List.mem_cons.mp hj with rfl | hj
        · exact i1 (Or.inl a2) n (by rw [n1 a1 a2]; exact hn)
        · exact absurd (List.mem_map.mpr ⟨j, hj, hjk⟩) hnd.1
      · by_cases hfell : e.asleep = false ∧ e'.asleep = true
        · rcases i3 n hn with h | ⟨h, h', -⟩ | ⟨j, hj, hjn, hkj, f, f', g, g', a, a'⟩
          · rw [n1 hfell.1 hfell.2] at h
            exact Or.inr (Or.inl ⟨hfell.1, hfell.2, i, by simp, rfl, h⟩)
          · rw [h] at h'; cases h'
          · right; right
            have hne : n ≠ i.handle := by
              rintro rfl
              exact hnd.1 (List.mem_map.mpr ⟨j, hj, hjn⟩)
            obtain ⟨f0, g0, -⟩ := fr.entities.get' g
            have := (ho n f0 f hne g0 g).1
            exact ⟨j, by simp [hj], hjn, hkj, f0, f', g0, g', by rw [this] at a; exact a, a'⟩
        · have : e.asleep = true ∨ e'.asleep = false := by
            rcases Bool.eq_false_or_eq_true e.asleep with h | h
            · exact Or.inl h
            · rcases Bool.eq_false_or_eq_true e'.asleep with h' | h'
              · exact absurd ⟨h, h'⟩ hfell
              · exact Or.inr h'
          rcases i3 n hn with h | ⟨h, h', -⟩ | ⟨j, hj, hjn, hkj, f, f', g, g', a, a'⟩
          · left; rw [← n2 this]; exact h
          · rw [h] at h'; cases h'
          · right; right
            have hne : n ≠ i.handle := by
              rintro rfl
              exact hnd.1 (List.mem_map.mpr ⟨j, hj, hjn⟩)
            obtain ⟨f0, g0, -⟩ := fr.entities.get' g
            have := (ho n f0 f hne g0 g).1
            exact ⟨j, by simp [hj], hjn, hkj, f0, f', g0, g', by rw [this] at a; exact a, a'⟩
    · obtain ⟨hxy, hn⟩ := ho k x y hk hx hy
      have hya : y.asleep = x.asleep := by rw [hxy]
      rw [hya] at i1 i2 i3
      have sub : ∀ n ∈ x.neighbors, n ∈ y.neighbors := by
        intro n h
        rw [hn]; split
        · rw [mem_hsInsert]; exact Or.inl h
        · exact h
      refine ⟨fun h n hn => i1 h n (sub n hn), fun a1 a2 j hj hjk n hn => ?_, fun n hz' => ?_⟩
      · rcases List.mem_cons.mp hj with rfl | hj
        · exact absurd hjk.symm hk
        · exact i2 a1 a2 j hj hjk n hn
      · rcases i3 n hz' with h | h | ⟨j, hj, hjn, hkj, f, f', g, g', a, a'⟩
        · rw [hn] at h
          split at h
          · rename_i hc
            rw [mem_hsInsert] at h
            rcases h with h | rfl
            rotate_left
            · exact Or.inr (Or.inr ⟨i, by simp, rfl, hc.2, e, e2, he, he2, hc.1.1, by rw [keep]; exact hc.1.2⟩)
            · exact Or.inl h
          · exact Or.inl h
        · obtain ⟨a, b, j, hj, hjk, hn⟩ := h
          exact Or.inr (Or.inl ⟨a, b, j, by simp [hj], hjk, hn⟩)
        · right; right
          by_cases hne : n = i.handle
          · subst hne
            exact absurd (List.mem_map.mpr ⟨j, hj, hjn⟩) hnd.1
          · obtain ⟨f0, g0, -⟩ := fr.entities.get' g
            have := (ho n f0 f hne g0 g).1
            exact ⟨j, by simp [hj], hjn, hkj, f0, f', g0, g', by rw [this] at a; exact a, a'⟩

end Fluffy.Step

namespace Fluffy.Props
open InternalEntity Step XReal

/-! ### The response -/

theorem stop_first {b f : Body} (hf : Fixed f) (hb : 0 < b.im) {p N : Vec3 ℝ} {l s : ℝ} (hN : N.dot N = 1) (hp : p - b.pos = N.scale l)
    (hv : b.vel = N.scale s) (ha : b.ang = .o) : b.kick p (Body.normalImpulse b f 0 p N) = { b with vel := .o } := by
  have hcr : (p - b.pos).cross N = .o := by rw [hp]; ext <;> simp <;> ring
  have hd : Body.denom b f p N = b.im := by
    unfold Body.denom Body.comply
    rw [hcr, hf.im, hf.W]; simp
  have hc : Body.closing b f p N = s := by
    unfold Body.closing Body.at'
    rw [hf.vel, hf.ang, hv, ha]
    have h2 : (N.scale s + Vec3.o.cross (p - b.pos) - (Vec3.o + Vec3.o.cross (p - f.pos))).dot N = s * N.dot N := by
      simp [Vec3.dot_def]; ring
    rw [h2, hN, mul_one]
  unfold Body.normalImpulse
  rw [hc, hd]
  unfold Body.kick
  rw [Body.cross_scale, hcr, hv, ha]
  have e1 : N.scale s + (N.scale (-(1 + 0) * s / b.im)).scale b.im = .o := by
    have : -(1 + 0) * s / b.im * b.im = -s := by field_simp; ring
    rw [Vec3.scale_scale, this]; ext <;> simp
  have e2 : Vec3.o + b.W.mulVec ((Vec3.o : Vec3 ℝ).scale (-(1 + 0) * s / b.im)) = .o := by
    rw [show (Vec3.o : Vec3 ℝ).scale (-(1 + 0) * s / b.im) = .o by ext <;> simp, Mat3.mulVec_o]; ext <;> simp
  rw [e1, e2]

theorem stop_second {b f : Body} (hf : Fixed f) (hb : 0 < b.im) {p N : Vec3 ℝ} {l s : ℝ} (hN : N.dot N = 1) (hp : p - b.pos = N.scale l)
    (hv : b.vel = N.scale s) (ha : b.ang = .o) : b.kick p (-Body.normalImpulse f b 0 p N) = { b with vel := .o } := by
  have hcr : (p - b.pos).cross N = .o := by rw [hp]; ext <;> simp <;> ring
  have hd : Body.denom f b p N = b.im := by
    unfold Body.denom Body.comply
    rw [hcr, hf.im, hf.W]; simp
  have hc : Body.closing f b p N = -s := by
    unfold Body.closing Body.at'
    rw [hf.vel, hf.ang, hv, ha]
    have h2 : (Vec3.o + Vec3.o.cross (p - f.pos) - (N.scale s + Vec3.o.cross (p - b.pos))).dot N = -s * N.dot N := by
      simp [Vec3.dot_def]; ring
    rw [h2, hN, mul_one]
  unfold Body.normalImpulse
  rw [hc, hd]
  unfold Body.kick
  rw [Body.cross_neg, Body.cross_scale, hcr, hv, ha]
  have e1 : N.scale s + (-N.scale (-(1 + 0) * -s / b.im)).scale b.im = .o := by
    have : -(1 + 0) * -s / b.im * b.im = s := by field_simp; ring
    have h2 : (-N.scale (-(1 + 0) * -s / b.im)).scale b.im = -(N.scale (-(1 + 0) * -s / b.im * b.im)) := by ext <;> simp <;> ring
    rw [h2, this]; ext <;> simp
  have e2 : Vec3.o + b.W.mulVec (-(Vec3.o : Vec3 ℝ).scale (-(1 + 0) * -s / b.im)) = .o := by
    rw [show -(Vec3.o : Vec3 ℝ).scale (-(1 + 0) * -s / b.im) = .o by ext <;> simp, Mat3.mulVec_o]; ext <;> simp
  rw [e1, e2]

/-- Two bodies that the normal impulse stops are left in contact, and there is no friction. -/
theorem stopped_pair {b1 b2 c1 c2 : Body} {e1 e2 : InternalEntity XReal} (o1 : b1.Of e1) (o2 : b2.Of e2) (p1 : b1.Physical) (p2 : b2.Physical)
    {p N : Vec3 ℝ} (hd : Body.denom b1 b2 p N ≠ 0) (k1 : b1.kick p (Body.normalImpulse b1 b2 0 p N) = c1)
    (k2 : b2.kick p (-Body.normalImpulse b1 b2 0 p N) = c2) (v1 : c1.vel = .o) (v2 : c2.vel = .o) (a1 : c1.ang = .o) (a2 : c2.ang = .o)
    {K : Candidate XReal} (hp : K.collision.position = p.f) (hN : K.collision.normal = N.f) {μ ν : ℝ} (hr : K.restitution = fin 0)
    (hs : K.staticFriction = fin μ) (hdy : K.dynamicFriction = fin ν) (rt ta : XReal) (i1 i2 : StepInfo XReal) :
    let R := respondPair K rt ta e1 e2 i1 i2
    R.first.velocity = (Vec3.o).f ∧ R.first.angularVelocity = (Vec3.o).f ∧ R.second.velocity = (Vec3.o).f ∧ R.second.angularVelocity = (Vec3.o).f ∧
    R.firstInfo.neighbors = hsInsert i1.neighbors K.secondHandle ∧ R.secondInfo.neighbors = hsInsert i2.neighbors K.firstHandle := by
  intro R
  have at1 : c1.at' p = .o := by unfold Body.at'; rw [v1, a1]; ext <;> simp
  have at2 : c2.at' p = .o := by unfold Body.at'; rw [v2, a2]; ext <;> simp
  have hcl : Body.closing c1 c2 p N = 0 := by unfold Body.closing; rw [at1, at2]; simp [Vec3.dot_def]
  have hsl : Body.sliding c1 c2 p N = .o := by unfold Body.sliding; rw [hcl, at1, at2]; ext <;> simp
  obtain ⟨μ', F, -, hF, f1, f2⟩ := Body.respondPair o1 o2 p1 p2 hd hp hN hr hs hdy rt ta i1 i2
  rw [k1, k2] at hF
  have hF' : F = .o := by rw [hF]; unfold Body.frictionImpulse; rw [hsl]; ext <;> simp
  have hno : -(Vec3.o : Vec3 ℝ) = .o := by ext <;> simp
  rw [hF', k1, Body.kick_o] at f1
  rw [hF', k2, hno, Body.kick_o] at f2
  have hcol : K.collision = ⟨K.collision.times, p.f, N.f⟩ := by rw [← hp, ← hN]
  have himp := Body.collisionImpulse o1 o2 p1 p2 K.collision.times hd 0 (n := N) (p := p)
  rw [← hcol, ← hr] at himp
  have hb : (Step.frictionImpulse (e1.applyImpulse K.collision.position (Step.collisionImpulse e1 e2 K.restitution K.collision))
      (e2.applyImpulse K.collision.position (-Step.collisionImpulse e1 e2 K.restitution K.collision))
      (Step.collisionImpulse e1 e2 K.restitution K.collision) K).2 = true := by
    have q1 := o1.kick p1 p (Body.normalImpulse b1 b2 0 p N)
    have q2 := o2.kick p2 p (-Body.normalImpulse b1 b2 0 p N)
    rw [k1] at q1
    rw [k2] at q2
    simp only [Step.frictionImpulse]
    rw [himp, hp, hN, Vec3.f_neg, q1.at, q2.at, Vec3.f_sub, Vec3.f_dot]
    unfold Body.closing at hcl
    rw [hcl]
    simp
  have hi := Scene.respondPair_infos K rt ta e1 e2 i1 i2
  refine ⟨by rw [f1.vel, v1], by rw [f1.ang, a1], by rw [f2.vel, v2], by rw [f2.ang, a2], ?_, ?_⟩
  · show R.firstInfo.neighbors = _
    rw [hi.1, hb]; simp
  · show R.secondInfo.neighbors = _
    rw [hi.2, hb]; simp

/-! ### The loop -/

/-- The ball at rest in the place it had before, awake, and left in contact with the floor; `B1` and `F1` are the two at the start of the loop. -/
structure Stopped (bh fh : Handle) (o q : Orientation ℝ) (B1 F1 B F : InternalEntity XReal) (ib jf : StepInfo XReal) (st : LoopState XReal) : Prop where
  get1 : st.world.entities.get bh = some B
  get2 : st.world.entities.get fh = some F
  mem1 : ib ∈ st.infos
  mem2 : jf ∈ st.infos
  han1 : ib.handle = bh
  han2 : jf.handle = fh
  pose1 : B.orientation = o.f
  pose2 : F.orientation = q.f
  vel1 : B.velocity = (Vec3.o).f
  ang1 : B.angularVelocity = (Vec3.o).f
  vel2 : F.velocity = (Vec3.o).f
  ang2 : F.angularVelocity = (Vec3.o).f
  free1 : fh ∉ B.neighbors
  free2 : bh ∉ F.neighbors
  awake : B.asleep = false
  floor : F.asleep = F1.asleep
  clock1 : B.fallingAsleep = B1.fallingAsleep ∧ B.fallingAsleepTime = B1.fallingAsleepTime
  clock2 : F.fallingAsleep = F1.fallingAsleep ∧ F.fallingAsleepTime = F1.fallingAsleepTime
  met1 : fh ∈ ib.neighbors
  met2 : bh ∈ jf.neighbors

/-- Movement without turning. -/
theorem after_straight (o : Orientation ℝ) (l : Vec3 ℝ) : o.after l .o = { o with position := o.position + l } := by
  have : Quat.e.mul o.rotation = o.rotation := by ext <;> simp [Quat.e, Quat.mul]
  simp [Orientation.after, Quat.exp_o, this]

section
variable {γ : Type} [ForceGenerator XReal γ] {bh fh ch ch' : Handle} {B0 F0 B1 F1 : InternalEntity XReal} {sc : SphereCollider XReal}
    {pl : PlaneCollider XReal} {o q : Orientation ℝ} {r : ℝ} {c P n : Vec3 ℝ}

/-- If there is nothing else, a contact is one of the two. -/
theorem contact_both {s : System XReal γ} (halone : ∀ h e, s.entities.get h = some e → h = bh ∨ h = fh) {d e : ℝ} {st : LoopState XReal}
    (hr : Running s d e st) {k : Candidate XReal} (hk : Contact st.world st.infos k) :
    k.firstHandle = bh ∧ k.secondHandle = fh ∨ k.firstHandle = fh ∧ k.secondHandle = bh := by
  obtain ⟨-, hne, i1, i2, g1, g2, e1, e2, -⟩ := hk.indices
  have live : ∀ i ∈ st.infos, i.handle = bh ∨ i.handle = fh := by
    intro i hi
    have : i.handle ∈ s.entities.handles := by rw [← hr.inv.handles]; exact List.mem_map.mpr ⟨i, hi, rfl⟩
    obtain ⟨x, hx⟩ := Arena.mem_handles.mp this
    exact halone _ x hx
  have l1 := live i1 (List.mem_of_getElem? g1)
  have l2 := live i2 (List.mem_of_getElem? g2)
  rw [e1] at l1
  rw [e2] at l2
  rcases l1 with h | h <;> rcases l2 with h' | h'
  · exact absurd (h.trans h'.symm) hne
  · exact Or.inl ⟨h, h'⟩
  · exact Or.inr ⟨h, h'⟩
  · exact absurd (h.trans h'.symm) hne

theorem Stopped.hover {B F : InternalEntity XReal} {ib jf : StepInfo XReal} {st : LoopState XReal} (h : Stopped bh fh o q B1 F1 B F ib jf st)
    (hou : o.Unit) (hoc : c + o.internalOriginOffset = .o) : Hover False bh fh q r c P n (clearance o.position P n r) st.world :=
  ⟨B, F, o, .o, .o, h.get1, h.get2, h.pose1, hou, hoc, h.vel1, h.ang1, h.pose2, h.vel2, h.ang2, h.free1, h.free2, Or.inl rfl, le_rfl⟩

/-- Once at rest the ball stays there. -/
theorem Stopped.body {s : System XReal γ} (hS : Setting s False bh fh ch ch' B0 F0 sc pl q r c P n)
    (halone : ∀ h e, s.entities.get h = some e → h = bh ∨ h = fh) {d e : ℝ} (hd : 0 ≤ d) {ord : IterOrder} {st st1 : LoopState XReal}
    {best : Option (Candidate XReal)} {w : World XReal} (hr : Running s d e st) (hou : o.Unit) (hoc : c + o.internalOriginOffset = .o)
    (h1 : searchFirst ord st.world 0 st.infos none = .ok best)
    (h2 : wakeColliding ord best st.world = .ok w) (h3 : advance best { st with world := w } = .ok st1)
    {B F : InternalEntity XReal} {ib jf : StepInfo XReal} (h : Stopped bh fh o q B1 F1 B F ib jf st) :
    best = none ∧ ∃ B' F' ib' jf', Stopped bh fh o q B1 F1 B' F' ib' jf' st1 := by
  have hnd : (st.infos.map StepInfo.handle).Nodup := by rw [hr.inv.handles]; exact Arena.handles_nodup _
  have hτ : 0 ≤ (1 - e) * d := mul_nonneg (by linarith [hr.clock.le_one]) hd
  obtain ⟨oc1, oc2, -⟩ := hS.only id
  obtain ⟨ib', jf', B', F', o', v, a, face, e1, e2, zB, zF, hav, -⟩ := hover_facing hS hr (h.hover (P := P) (r := r) (n := n) hou hoc)
  have uniq : ∀ {x y : StepInfo XReal}, x ∈ st.infos → y ∈ st.infos → x.handle = y.handle → x = y :=
    fun hx hy hxy => List.inj_on_of_nodup_map hnd hx hy hxy
  cases uniq face.mem1 h.mem1 (e1.trans h.han1.symm)
  cases uniq face.mem2 h.mem2 (e2.trans h.han2.symm)
  have g1 := face.get1; rw [e1, h.get1] at g1; cases g1
  have g2 := face.get2; rw [e2, h.get2] at g2; cases g2
  have hv : v = .o := by have := face.vel1; rw [h.vel1, Vec3.f_inj] at this; exact this.symm
  have ha : a = .o := by have := face.ang1; rw [h.ang1, Vec3.f_inj] at this; exact this.symm
  have hb : best = none := by
    cases best with
    | none => rfl
    | some k =>
      exfalso
      have hk := searchFirst_contact h1
      obtain ⟨-, hsink, -⟩ := face.hit hnd (by rw [StaticRel.colliders zB]; exact oc1) (by rw [StaticRel.colliders zF]; exact oc2)
        hk (by rw [e1, e2]; exact contact_both halone hr hk) hτ rfl (hav.imp id And.right)
      rw [hv] at hsink
      have : (0 : ℝ) < eps := by unfold eps; norm_num
      simp [Vec3.dot_def] at hsink
      linarith
  refine ⟨hb, ?_⟩
  subst hb
  cases h2
  obtain ⟨a1, -, -, a4⟩ := advance_spec (st := { st with world := st.world }) hnd h3
  obtain ⟨YB, gYB, gMB⟩ := a4 ib h.mem1
  obtain ⟨YF, gYF, gMF⟩ := a4 jf h.mem2
  rw [h.han1] at gYB gMB
  rw [h.han2] at gYF gMF
  have gYB' : st.world.entities.get bh = some YB := gYB
  rw [h.get1] at gYB'; cases gYB'
  have gYF' : st.world.entities.get fh = some YF := gYF
  rw [h.get2] at gYF'; cases gYF'
  have l1 : ib.linearMovement = (Vec3.o).f := by rw [face.mov1, hv]; congr 1; ext <;> simp
  have l2 : ib.angularMovement = (Vec3.o).f := by rw [face.turn1, ha]; congr 1; ext <;> simp
  have mv : ∀ (i : StepInfo XReal) (E : InternalEntity XReal) (z : Orientation ℝ), i.linearMovement = (Vec3.o).f → i.angularMovement = (Vec3.o).f →
      E.orientation = z.f → moved one i E = E := by
    intro i E z m1 m2 hz
    unfold moved
    split
    · rfl
    · rw [m1, m2, hz, one_eq, Vec3.f_scale, show (Vec3.o : Vec3 ℝ).scale 1 = .o by ext <;> simp, Orientation.f_afterAffected, after_o, ← hz]
  have hp : percentOf (none : Option (Candidate XReal)) = one := rfl
  rw [hp, mv ib B o l1 l2 h.pose1] at gMB
  rw [hp, mv jf F q face.mov2 face.turn2 h.pose2] at gMF
  have hi : st1.infos = st.infos.map (shrink one) := by rw [a1]; rfl
  exact ⟨B, F, shrink one ib, shrink one jf, gMB, gMF, by rw [hi]; exact List.mem_map_of_mem h.mem1, by rw [hi]; exact List.mem_map_of_mem h.mem2,
    h.han1, h.han2, h.pose1, h.pose2, h.vel1, h.ang1, h.vel2, h.ang2, h.free1, h.free2, h.awake, h.floor, h.clock1, h.clock2, h.met1, h.met2⟩

theorem Stopped.iterate {s : System XReal γ} (hS : Setting s False bh fh ch ch' B0 F0 sc pl q r c P n)
    (halone : ∀ h e, s.entities.get h = some e → h = bh ∨ h = fh) {d e : ℝ} (hd : 0 ≤ d) {ord : IterOrder} {st st' : LoopState XReal} {m : Nat} {b : Bool}
    (hr : Running s d e st) (hou : o.Unit) (hoc : c + o.internalOriginOffset = .o) (hh : Step.iterate ord (fin d) m st = .ok (st', b))
    {B F : InternalEntity XReal} {ib jf : StepInfo XReal} (h : Stopped bh fh o q B1 F1 B F ib jf st) :
    ∃ B' F' ib' jf', Stopped bh fh o q B1 F1 B' F' ib' jf' st' := by
  have := iterate_induct (ord := ord) (dt := fin d) (P := fun st => ∃ e, Running s d e st ∧ ∃ B F ib jf, Stopped bh fh o q B1 F1 B F ib jf st) ?_
    ⟨e, hr, B, F, ib, jf, h⟩ hh
  · exact this.choose_spec.2
  rintro st best w st1 ⟨e, hr, B, F, ib, jf, h⟩ h1 h2 h3
  obtain ⟨hb, B', F', ib', jf', h'⟩ := h.body hS halone hd hr hou hoc h1 h2 h3
  obtain ⟨t, ht, t0, t1, -, r1, r2⟩ := hr.body hd h1 h2 h3
  exact ⟨fun _ => ⟨_, r1, B', F', ib', jf', h'⟩, fun k st2 hk => by rw [hb] at hk; cases hk⟩

/-- A ball that touches the floor and sinks along the normal is stopped at once. -/
theorem touch_body {s : System XReal γ} (hS : Setting s False bh fh ch ch' B0 F0 sc pl q r c P n)
    (halone : ∀ h e, s.entities.get h = some e → h = bh ∨ h = fh) (hcol : ∀ j c, s.colliders.get j = some c → FiniteNumbers c)
    (dead : sc.material.restitution * pl.material.restitution = fin 0 ∧ pl.material.restitution * sc.material.restitution = fin 0)
    {d e : ℝ} (hd : 0 ≤ d) {ord : IterOrder} {st st1 : LoopState XReal}
    {best : Option (Candidate XReal)} {w : World XReal} (hr : Running s d e st) (hfl : FineLoop s.entities st) (hrec : st.world.collisionRecords = [])
    (hou : o.Unit) (hoc : c + o.internalOriginOffset = .o)
    (get1 : st.world.entities.get bh = some B1) (get2 : st.world.entities.get fh = some F1) (pose1 : B1.orientation = o.f) (pose2 : F1.orientation = q.f)
    {k : ℝ} (hk : eps ≤ k) (vel1 : B1.velocity = (n.scale (-k)).f) (ang1 : B1.angularVelocity = (Vec3.o).f)
    (vel2 : F1.velocity = (Vec3.o).f) (ang2 : F1.angularVelocity = (Vec3.o).f) (free1 : fh ∉ B1.neighbors) (free2 : bh ∉ F1.neighbors)
    {m : ℝ} (hm : 0 < m) (mass : B1.totalMass = fin m) (touch : clearance o.position P n r ≤ 0)
    (h1 : searchFirst ord st.world 0 st.infos none = .ok best)
    (h2 : wakeColliding ord best st.world = .ok w) (h3 : advance best { st with world := w } = .ok st1) :
    ∃ K, best = some K ∧ ∀ st2, respond (fin d) K st1 = .ok st2 → ∃ B F ib jf, Stopped bh fh o q B1 F1 B F ib jf st2 := by
  have hnd : (st.infos.map StepInfo.handle).Nodup := by rw [hr.inv.handles]; exact Arena.handles_nodup _
  have hτ : 0 ≤ (1 - e) * d := mul_nonneg (by linarith [hr.clock.le_one]) hd
  have he : (0 : ℝ) < eps := by unfold eps; norm_num
  obtain ⟨oc1, oc2, -⟩ := hS.only id
  have hH : Hover False bh fh q r c P n (clearance o.position P n r) st.world :=
    ⟨B1, F1, o, n.scale (-k), .o, get1, get2, pose1, hou, hoc, vel1, ang1, pose2, vel2, ang2, free1, free2, Or.inl rfl, le_rfl⟩
  obtain ⟨ib, jf, B', F', o', v, a, face, e1, e2, zB, zF, hav, -⟩ := hover_facing hS hr hH
  have g1 := face.get1; rw [e1, get1] at g1; cases g1
  have g2 := face.get2; rw [e2, get2] at g2; cases g2
  have hv : v = n.scale (-k) := by have := face.vel1; rw [vel1, Vec3.f_inj] at this; exact this.symm
  have ha : a = .o := by have := face.ang1; rw [ang1, Vec3.f_inj] at this; exact this.symm
  have hoo : o' = o := by have := face.pose1; rw [pose1] at this; exact ((Orientation.f_inj _ _).mp this).symm
  subst hoo
  have hvn : v.dot n = -k := by rw [hv, Vec3.scale_dot, hS.one, one_mul]
  -- the search finds the two at time zero
  obtain ⟨p, hp, p0, p1, pn, r1, -⟩ := hr.body hd h1 h2 h3
  have hp0 : p = 0 := by
    rcases ball_over (r := r) hS.nonneg (x := o'.position) (m := v.scale ((1 - e) * d)) (P := P) (n := n) hS.one with
      ⟨-, h, -⟩ | ⟨C, t, c1, c2, t0, t1, c3, c4, c5⟩
    · linarith
    · have ht : t = 0 := by
        rcases c5 with ⟨h, -⟩ | ⟨h, -⟩
        · exact h
        · linarith
      obtain ⟨K, hK, hKt⟩ := face.contact c1 c2 c3 c4 (by
        have : (v + a.cross ((v.scale ((1 - e) * d)).scale t)).dot n = v.dot n := by rw [ha]; simp [Vec3.dot_def]
        rw [this, hvn]; linarith)
      have := search_before h1 hK hKt hp
      linarith
  subst hp0
  cases best with
  | none => exact absurd (pn rfl) (by norm_num)
  | some K =>
  refine ⟨K, rfl, fun st2 h4 => ?_⟩
  have hc := searchFirst_contact h1
  have hboth := contact_both halone hr hc
  obtain ⟨-, -, t, kt, kp, kn, kr⟩ := face.hit hnd (by rw [StaticRel.colliders zB]; exact oc1) (by rw [StaticRel.colliders zF]; exact oc2)
    hc (by rw [e1, e2]; exact hboth) hτ rfl (hav.imp id And.right)
  have hK0 : K.percent = fin 0 := hp
  have ht : t = 0 := by rw [hK0] at kt; exact (fin_inj.mp kt).symm
  subst ht
  have hρ : K.restitution = fin 0 := by rcases kr with kr | kr <;> rw [kr]; exacts [dead.1, dead.2]
  -- the two after waking and advancing
  obtain ⟨w1, w2⟩ := wakeColliding_evolves h2
  obtain ⟨a1, a2, a3, a4⟩ := advance_spec (st := { st with world := w }) hnd h3
  obtain ⟨YB, gYB, gMB⟩ := a4 ib face.mem1
  obtain ⟨YF, gYF, gMF⟩ := a4 jf face.mem2
  rw [e1] at gYB gMB
  rw [e2] at gYF gMF
  have gYB : w.entities.get bh = some YB := gYB
  have gYF : w.entities.get fh = some YF := gYF
  obtain ⟨_, gB2, rB⟩ := w2.get' gYB
  rw [get1] at gB2; cases gB2
  obtain ⟨_, gF2, rF⟩ := w2.get' gYF
  rw [get2] at gF2; cases gF2
  rw [hp] at gMB gMF
  have hmF : F1.totalMass = posInf := by rw [(staticRel_iff.mp zF).2.2.1]; exact hS.heavy
  have mv : ∀ (i : StepInfo XReal) (E : InternalEntity XReal) (z : Orientation ℝ) (x y : Vec3 ℝ), i.linearMovement = x.f → i.angularMovement = y.f →
      E.orientation = z.f → moved (fin 0) i E = E := by
    intro i E z x y m1 m2 hz
    unfold moved
    split
    · rfl
    · rw [m1, m2, hz, Vec3.f_scale, Vec3.f_scale, show x.scale 0 = .o by ext <;> simp, show y.scale 0 = .o by ext <;> simp,
        Orientation.f_afterAffected, after_o, ← hz]
  have oYB : YB.orientation = o'.f := by rw [rB]; exact pose1
  have oYF : YF.orientation = q.f := by rw [rF]; exact pose2
  rw [mv ib YB o' _ _ face.mov1 face.turn1 oYB] at gMB
  rw [mv jf YF q _ _ face.mov2 face.turn2 oYF] at gMF
  have awake : YB.asleep = false := wakeColliding_up h2 (by rcases hboth with h | h; exacts [Or.inl h.1, Or.inr h.2]) get1 gYB (by rw [mass]; rfl)
  have same : YF.asleep = F1.asleep := wakeColliding_heavy h2 get2 gYF (by rw [hmF]; rfl) (by rw [hmF]; rfl)
  have nB : fh ∉ YB.neighbors := fun h => free1 (wakeColliding_neighbors h2 get1 gYB _ h)
  have nF : bh ∉ YF.neighbors := fun h => free2 (wakeColliding_neighbors h2 get2 gYF _ h)
  have mB : YB.totalMass = fin m := by rw [WakeRel.totalMass rB]; exact mass
  have mF : YF.totalMass = posInf := by rw [WakeRel.totalMass rF]; exact hmF
  -- the bodies
  have hcr : st1.world.collisionRecords = [] := by rw [a1]; simp only []; rw [w1]; exact hrec
  have fw : FineWorld st1.world := by
    have := (fine_body (dt := fin d) (Arena.handles_nodup _) hcol hr.inv hfl h1 h2 h3).1
    exact (this (by rw [hcr]; simp)).1
  obtain ⟨b, ob, pb, qb⟩ := (fw _ _ gMB).body (by rw [mB]; intro h; rw [fin_inj] at h; exact hm.ne' h)
  obtain ⟨f, of, pf, -⟩ := (fw _ _ gMF).body (by rw [mF]; intro h; cases h)
  have qb := qb (by rw [mB]; intro h; cases h)
  have bim : 0 < b.im := by
    obtain ⟨x, hx⟩ := Option.ne_none_iff_exists'.mp qb
    exact pb.im_pos hx
  have vYF : YF.velocity = (Vec3.o).f := by rw [rF]; exact vel2
  have aYF : YF.angularVelocity = (Vec3.o).f := by rw [rF]; exact ang2
  have fix : Fixed f := fixed_of of mF (by
    unfold momentOfInertia
    have : YF.preppedMoment = F1.preppedMoment := by rw [rF]
    rw [oYF, this, (staticRel_iff.mp zF).2.2.2.1, hS.still, finalize_o hS.unit]) vYF aYF
  have bv : b.vel = n.scale (-k) := by
    have := ob.vel; rw [show YB.velocity = B1.velocity by rw [rB], vel1, Vec3.f_inj] at this; exact this.symm
  have ba : b.ang = .o := by
    have := ob.ang; rw [show YB.angularVelocity = B1.angularVelocity by rw [rB], ang1, Vec3.f_inj] at this; exact this.symm
  have bp : b.pos = o'.position := by
    have := ob.pos; rw [oYB] at this; exact ((Vec3.f_inj _ _).mp this).symm
  have kp' : K.collision.position = (o'.position - n.scale r).f := by
    rw [kp, Vec3.f_inj]; ext <;> simp
  have hoff : o'.position - n.scale r - b.pos = n.scale (-r) := by rw [bp]; ext <;> simp
  obtain ⟨μ, ν, hμ, hν⟩ : ∃ μ ν, K.staticFriction = fin μ ∧ K.dynamicFriction = fin ν := by
    obtain ⟨m, n, i1, i2, -, -, -, first, second, -, -, -, -, -, ch1, -, ch2, -, c1, c2, cc, k1, k2, -, -, rfl⟩ := hc
    rw [hr.inv.frame.colliders] at k1 k2
    obtain ⟨-, u2, u3⟩ := (hcol _ _ k1).material
    obtain ⟨-, v2, v3⟩ := (hcol _ _ k2).material
    obtain ⟨u2', u2⟩ := isFinite_iff.mp u2
    obtain ⟨u3', u3⟩ := isFinite_iff.mp u3
    obtain ⟨v2', v2⟩ := isFinite_iff.mp v2
    obtain ⟨v3', v3⟩ := isFinite_iff.mp v3
    exact ⟨u2' * v2', u3' * v3', by simp only [u2, v2, fin_mul], by simp only [u3, v3, fin_mul]⟩
  -- the response
  obtain ⟨⟨j1, j2, q1, q2, q3, q4⟩, hidx⟩ := contact_infos hnd h1 h3
  obtain ⟨x1, x2, i1, i2, hne, g1, g2, n1, n2, rfl⟩ := respond_spec h4
  rw [n1, Option.some.injEq] at q1; subst q1
  rw [n2, Option.some.injEq] at q2; subst q2
  have l1 : K.firstIndex < st1.infos.length := (List.getElem?_eq_some_iff.mp n1).1
  have l2 : K.secondIndex < st1.infos.length := (List.getElem?_eq_some_iff.mp n2).1
  have mem1 : ∀ x y : StepInfo XReal, x ∈ (st1.infos.set K.firstIndex x).set K.secondIndex y := by
    intro x y
    refine List.mem_of_getElem? (i := K.firstIndex) ?_
    rw [List.getElem?_set_ne (by exact fun h => hidx h.symm), List.getElem?_set_self l1]
  have mem2 : ∀ x y : StepInfo XReal, y ∈ (st1.infos.set K.firstIndex x).set K.secondIndex y := by
    intro x y
    refine List.mem_of_getElem? (i := K.secondIndex) ?_
    rw [List.getElem?_set_self (by rw [List.length_set]; exact l2)]
  have hi := Scene.respondPair_infos K (st1.currentPercent * fin d) st1.timeLeft x1 x2 i1 i2
  have rv1 := respondPair_first K (st1.currentPercent * fin d) st1.timeLeft x1 x2 i1 i2
  have rv2 := respondPair_second K (st1.currentPercent * fin d) st1.timeLeft x1 x2 i1 i2
  have hget := fun h => respond_get (y1 := (respondPair K (st1.currentPercent * fin d) st1.timeLeft x1 x2 i1 i2).first)
    (y2 := (respondPair K (st1.currentPercent * fin d) st1.timeLeft x1 x2 i1 i2).second) hne g1 g2 h
  have hb1 : (respondPair K (st1.currentPercent * fin d) st1.timeLeft x1 x2 i1 i2).firstInfo.handle = i1.handle := by rw [hi.1]
  have hb2 : (respondPair K (st1.currentPercent * fin d) st1.timeLeft x1 x2 i1 i2).secondInfo.handle = i2.handle := by rw [hi.2]
  rcases hboth with ⟨f1, f2⟩ | ⟨f1, f2⟩
  · rw [f1, gMB] at g1; cases g1
    rw [f2, gMF] at g2; cases g2
    have kn' : K.collision.normal = (-n).f := by rw [kn, if_pos (by rw [f1, e1])]
    have hN : (-n).dot (-n) = 1 := by rw [← hS.one]; simp [Vec3.dot_def]
    have key := stopped_pair ob of pb pf (Body.denom_pos pb pf (Or.inl qb) _ _).ne'
      (stop_first fix bim (l := r) (s := k) hN (by rw [hoff]; ext <;> simp) (by rw [bv]; ext <;> simp) ba) (fix.kick _ _)
      rfl fix.vel ba fix.ang kp' kn' hρ hμ hν (st1.currentPercent * fin d) st1.timeLeft i1 i2
    obtain ⟨u1, u2, u3, u4, u5, u6⟩ := key
    generalize respondPair K (st1.currentPercent * fin d) st1.timeLeft YB YF i1 i2 = R at *
    refine ⟨R.first, R.second, R.firstInfo, R.secondInfo, ?_, ?_, mem1 _ _, mem2 _ _, by rw [hb1, q3, f1], by rw [hb2, q4, f2], by rw [rv1]; exact oYB,
      by rw [rv2]; exact oYF, u1, u2, u3, u4, by rw [rv1]; exact nB, by rw [rv2]; exact nF, by rw [rv1]; exact awake, by rw [rv2]; exact same, ?_, ?_, ?_, ?_⟩
    · show ((st1.world.entities.set K.firstHandle R.first).set K.secondHandle R.second).get bh = _
      rw [hget, if_neg (by rw [f2]; exact hS.ne), if_pos f1.symm]
    · show ((st1.world.entities.set K.firstHandle R.first).set K.secondHandle R.second).get fh = _
      rw [hget, if_pos f2.symm]
    · rw [rv1]; constructor <;> show _ = _ <;> rw [rB]
    · rw [rv2]; constructor <;> show _ = _ <;> rw [rF]
    · rw [u5, mem_hsInsert]; exact Or.inr f2.symm
    · rw [u6, mem_hsInsert]; exact Or.inr f1.symm
  · rw [f1, gMF] at g1; cases g1
    rw [f2, gMB] at g2; cases g2
    have kn' : K.collision.normal = n.f := by rw [kn, if_neg (by rw [f1, e1]; exact hS.ne.symm)]
    have key := stopped_pair of ob pf pb (Body.denom_pos pf pb (Or.inr qb) _ _).ne' (fix.kick _ _)
      (stop_second fix bim (l := -r) (s := -k) hS.one hoff bv ba)
      fix.vel rfl fix.ang ba kp' kn' hρ hμ hν (st1.currentPercent * fin d) st1.timeLeft i1 i2
    obtain ⟨u1, u2, u3, u4, u5, u6⟩ := key
    generalize respondPair K (st1.currentPercent * fin d) st1.timeLeft YF YB i1 i2 = R at *
    refine ⟨R.second, R.first, R.secondInfo, R.firstInfo, ?_, ?_, mem2 _ _, mem1 _ _, by rw [hb2, q4, f2], by rw [hb1, q3, f1], by rw [rv2]; exact oYB,
      by rw [rv1]; exact oYF, u3, u4, u1, u2, by rw [rv2]; exact nB, by rw [rv1]; exact nF, by rw [rv2]; exact awake, by rw [rv1]; exact same, ?_, ?_, ?_, ?_⟩
    · show ((st1.world.entities.set K.firstHandle R.first).set K.secondHandle R.second).get bh = _
      rw [hget, if_pos f2.symm]
    · show ((st1.world.entities.set K.firstHandle R.first).set K.secondHandle R.second).get fh = _
      rw [hget, if_neg (by rw [f2]; exact hS.ne.symm), if_pos f1.symm]
    · rw [rv2]; constructor <;> show _ = _ <;> rw [rB]
    · rw [rv1]; constructor <;> show _ = _ <;> rw [rF]
    · rw [u6, mem_hsInsert]; exact Or.inr f1.symm
    · rw [u5, mem_hsInsert]; exact Or.inr f2.symm

/-- Two of which one remembers the other are left alone: the ball moves on without a contact, unless it sleeps. -/
theorem linked_iterate {s : System XReal γ} (hS : Setting s False bh fh ch ch' B0 F0 sc pl q r c P n)
    (halone : ∀ h e, s.entities.get h = some e → h = bh ∨ h = fh) {d : ℝ} (hd : 0 ≤ d) {ord : IterOrder} {st st' : LoopState XReal} {m : Nat} {b : Bool}
    (hr : Running s d 0 st) (hm : m ≠ 0) (hh : Step.iterate ord (fin d) m st = .ok (st', b)) (get1 : st.world.entities.get bh = some B1)
    (get2 : st.world.entities.get fh = some F1) (pose1 : B1.orientation = o.f) {v : Vec3 ℝ} (vel1 : B1.velocity = v.f) (ang1 : B1.angularVelocity = (Vec3.o).f)
    (pose2 : F1.orientation = q.f) (vel2 : F1.velocity = (Vec3.o).f) (ang2 : F1.angularVelocity = (Vec3.o).f)
    (near : fh ∈ B1.neighbors ∨ bh ∈ F1.neighbors) :
    st'.world.entities.get bh = some (if B1.asleep then B1 else { B1 with orientation := ({ o with position := o.position + v.scale d } : Orientation ℝ).f }) ∧
    st'.world.entities.get fh = some F1 ∧ st'.infos.map StepInfo.handle = st.infos.map StepInfo.handle := by
  obtain ⟨N, rfl⟩ := Nat.exists_eq_succ_of_ne_zero hm
  unfold Step.iterate at hh
  obtain ⟨best, h1, hh1⟩ := Res.bind_eq_ok.mp hh
  obtain ⟨w, h2, hh2⟩ := Res.bind_eq_ok.mp hh1
  obtain ⟨st1, h3, hh3⟩ := Res.bind_eq_ok.mp hh2
  clear hh hh1 hh2
  have hnd : (st.infos.map StepInfo.handle).Nodup := by rw [hr.inv.handles]; exact Arena.handles_nodup _
  have hb : best = none := by
    cases best with
    | none => rfl
    | some k =>
      exfalso
      have hk := searchFirst_contact h1
      have hboth := contact_both halone hr hk
      obtain ⟨_, _, i1, i2, _, _, _, x, y, g1, g2, _, f1, f2, _, _, _, _, _, _, _, _, _, _, _, hkk⟩ := hk
      rw [hkk] at hboth
      rcases hboth with ⟨q1, q2⟩ | ⟨q1, q2⟩
      · simp only at q1 q2
        rw [q1, get1] at g1; cases g1
        rw [q2, get2] at g2; cases g2
        rw [q2] at f1; rw [q1] at f2
        exact near.elim f1 f2
      · simp only at q1 q2
        rw [q2, get1] at g2; cases g2
        rw [q1, get2] at g1; cases g1
        rw [q1] at f2; rw [q2] at f1
        exact near.elim f2 f1
  subst hb
  cases h2
  simp only [Except.ok.injEq, Prod.mk.injEq] at hh3
  obtain ⟨rfl, -⟩ := hh3
  have hp : percentOf (none : Option (Candidate XReal)) = fin 1 := by rw [← one_eq]; rfl
  obtain ⟨a1, -, -, a4⟩ := advance_spec (st := { st with world := st.world }) hnd h3
  refine ⟨?_, ?_, ?_⟩
  · obtain ⟨i, hi, hib⟩ := List.mem_map.mp (show bh ∈ st.infos.map StepInfo.handle by rw [hr.inv.handles]; exact Arena.mem_handles.mpr ⟨B0, hS.get1⟩)
    obtain ⟨Y, gY, gM⟩ := a4 i hi
    obtain ⟨j, hj⟩ := List.getElem?_of_mem hi
    obtain ⟨E, gE, lE, aE⟩ := hr.course j i hj
    rw [hib] at gY gM gE
    have gY' : st.world.entities.get bh = some Y := gY
    rw [get1] at gY' gE; cases gY'; cases gE
    rw [hr.clock.left, vel1, Vec3.f_scale, show v.scale ((1 - 0) * d) = v.scale d by ext <;> simp] at lE
    rw [hr.clock.left, ang1, Vec3.f_scale, show (Vec3.o : Vec3 ℝ).scale ((1 - 0) * d) = .o by ext <;> simp] at aE
    rw [gM]; unfold moved
    split
    · rfl
    · rw [lE, aE, pose1, hp, Vec3.f_scale, Vec3.f_scale,
        show (Vec3.o : Vec3 ℝ).scale 1 = .o by ext <;> simp, show (v.scale d).scale 1 = v.scale d by ext <;> simp, Orientation.f_afterAffected,
        after_straight]
  · obtain ⟨i, hi, hib⟩ := List.mem_map.mp (show fh ∈ st.infos.map StepInfo.handle by rw [hr.inv.handles]; exact Arena.mem_handles.mpr ⟨F0, hS.get2⟩)
    obtain ⟨Y, gY, gM⟩ := a4 i hi
    obtain ⟨j, hj⟩ := List.getElem?_of_mem hi
    obtain ⟨E, gE, lE, aE⟩ := hr.course j i hj
    rw [hib] at gY gM gE
    have gY' : st.world.entities.get fh = some Y := gY
    rw [get2] at gY' gE; cases gY'; cases gE
    rw [hr.clock.left, vel2, Vec3.f_scale, show (Vec3.o : Vec3 ℝ).scale ((1 - 0) * d) = .o by ext <;> simp] at lE
    rw [hr.clock.left, ang2, Vec3.f_scale, show (Vec3.o : Vec3 ℝ).scale ((1 - 0) * d) = .o by ext <;> simp] at aE
    rw [gM]; unfold moved
    split
    · rfl
    · rw [lE, aE, pose2, hp, Vec3.f_scale,
        show (Vec3.o : Vec3 ℝ).scale 1 = .o by ext <;> simp, Orientation.f_afterAffected, after_o, ← pose2]
  · obtain ⟨t, ht, t0, t1, -, r1, -⟩ := hr.body hd h1 rfl h3
    rw [r1.inv.handles, hr.inv.handles]

end

/-! ### The parts of a step -/

theorem generators_kept {ord : IterOrder} {s s' : System XReal (GravityGenerator XReal)} {dt : XReal} (hh : s.step ord dt = .ok s') :
    (∀ h, s'.generators.get h = s.generators.get h) ∧ gravity s'.generators = gravity s.generators := by
  cases hdt : Scalar.lt (Scalar.abs dt) EPSILON with
  | true => unfold System.step at hh; rw [if_pos hdt] at hh; cases hh; exact ⟨fun _ => rfl, rfl⟩
  | false =>
    obtain ⟨p⟩ := step_phases hdt hh
    have hsh := (step_frame hh).2
    have hget : ∀ h, s'.generators.get h = s.generators.get h := by
      rw [p.generators]
      have : ∀ (l : List Handle) (t t' : System XReal (GravityGenerator XReal)) (is : List (StepInfo XReal)) (gens : List Handle),
          integrateAll dt gens l t = .ok (t', is) → (∀ h, t.generators.get h = s.generators.get h) → ∀ h, t'.generators.get h = s.generators.get h := by
        intro l
        induction l with
        | nil => intro t t' is gens h ht; unfold integrateAll at h; cases h; exact ht
        | cons k l ih =>
          intro t t' is gens h ht
          unfold integrateAll at h
          obtain ⟨⟨m, i⟩, h1, h⟩ := Res.bind_eq_ok.mp h
          obtain ⟨⟨s2, is⟩, h2, h⟩ := Res.bind_eq_ok.mp h
          cases h
          obtain ⟨e, g, a, u, -, hac, rfl, -⟩ := integrateOne_spec h1
          exact ih _ _ _ _ h2 (accelerates_kept (kept_gravity s.generators) hac ht)
      exact this _ _ _ _ _ p.integrate (fun _ => rfl)
    refine ⟨hget, ?_⟩
    unfold gravity
    rw [hsh.handles, funext hget]

theorem quiet_ball {E : InternalEntity XReal} (hf : Fine E) {m : ℝ} (hm : E.totalMass = fin m) (hv : E.velocity = (Vec3.o).f)
    (ha : E.angularVelocity = (Vec3.o).f) : E.totalEnergy = fin 0 := by
  obtain ⟨o, ho, hu⟩ := hf.pose
  obtain ⟨I, hI, -⟩ := hf.moment o hu
  have h2 : (2 : ℝ) ≠ 0 := by norm_num
  unfold totalEnergy momentOfInertia
  rw [hm, hv, ha, ho, hI]
  simp [fin_div h2]

theorem quiet_floor {E : InternalEntity XReal} (hm : E.totalMass = posInf) (hv : E.velocity = (Vec3.o).f)
    (ha : E.angularVelocity = (Vec3.o).f) : E.totalEnergy = fin 0 := by
  unfold totalEnergy
  rw [hm, hv, ha, if_pos (show Scalar.isInfinite (posInf : XReal) = true from rfl), if_pos]
  · exact zero_eq
  · rw [Vec3.f_magnitude, show (Vec3.o : Vec3 ℝ).len = 0 by unfold Vec3.len; simp [Vec3.dot_def]]
    simp

/-- Nothing but a ball that does not spin and an immovable floor at rest, and gravity. -/
structure Pairing (s : System XReal (GravityGenerator XReal)) (bh fh ch ch' : Handle) (B F : InternalEntity XReal) (sc : SphereCollider XReal)
    (pl : PlaneCollider XReal) (o q : Orientation ℝ) (r : ℝ) (c P n v G : Vec3 ℝ) : Prop where
  setting : Setting s False bh fh ch ch' B F sc pl q r c P n
  alone : ∀ h e, s.entities.get h = some e → h = bh ∨ h = fh
  pose : B.orientation = o.f
  unit : o.Unit
  floor : F.orientation = q.f
  mass : ∃ m, B.totalMass = fin m ∧ 1 / 1000000 < m
  moves : B.velocity = v.f ∧ B.angularVelocity = (Vec3.o).f
  rest : F.velocity = (Vec3.o).f ∧ F.angularVelocity = (Vec3.o).f
  tries : s.iterationMax ≠ 0
  weight : gravity s.generators = G.f
  shapes : ∀ j c, s.colliders.get j = some c → FiniteNumbers c
  fine : FineWorld s.toWorld
  pulls : ∀ k x, s.generators.get k = some x → Finite3 x.acceleration

section
variable {bh fh ch ch' : Handle} {B F B' F' : InternalEntity XReal} {sc : SphereCollider XReal}
    {pl : PlaneCollider XReal} {o o' q : Orientation ℝ} {r : ℝ} {c P n v v' G : Vec3 ℝ} {g : ℝ} {s s' : System XReal (GravityGenerator XReal)} {ord : IterOrder} {d : ℝ}

/-- What a step does not change. -/
theorem Pairing.after (hL : Pairing s bh fh ch ch' B F sc pl o q r c P n v G) (hh : s.step ord (fin d) = .ok s') (gB : s'.entities.get bh = some B')
    (gF : s'.entities.get fh = some F') (ho : o'.Unit) (k1 : B'.orientation = o'.f) (k2 : F'.orientation = q.f)
    (k3 : B'.velocity = v'.f ∧ B'.angularVelocity = (Vec3.o).f) (k4 : F'.velocity = (Vec3.o).f ∧ F'.angularVelocity = (Vec3.o).f) :
    Pairing s' bh fh ch ch' B' F' sc pl o' q r c P n v' G := by
  have fr := (step_frame hh).1
  have hS := hL.setting
  have hfw := hL.fine
  have zB := fr.entities.rel _ _ _ hS.get1 gB
  have zF := fr.entities.rel _ _ _ hS.get2 gF
  obtain ⟨m, hm, hm1⟩ := hL.mass
  have cB := StaticRel.colliders zB
  have cF := StaticRel.colliders zF
  obtain ⟨-, -, tB, pB, -⟩ := staticRel_iff.mp zB
  obtain ⟨-, -, tF, pF, -⟩ := staticRel_iff.mp zF
  refine ⟨⟨hS.ne, gB, gF, by rw [cB]; exact hS.col1, by rw [cF]; exact hS.col2, by rw [fr.colliders]; exact hS.ball, by rw [fr.colliders]; exact hS.plane,
    hS.radius, hS.center, hS.normal, hS.place, hS.unit, hS.nonneg, hS.one, by rw [tF]; exact hS.heavy, by rw [pF]; exact hS.still,
    fun h => h.elim, fun h => by rw [cB, cF]; exact hS.only h⟩, ?_, k1, ho, k2, ⟨m, by rw [tB]; exact hm, hm1⟩, k3, k4,
    by rw [fr.iterationMax]; exact hL.tries, by rw [(generators_kept hh).2]; exact hL.weight, by rw [fr.colliders]; exact hL.shapes, ?_,
    fun k x hx => hL.pulls k x (by rw [← (generators_kept hh).1]; exact hx)⟩
  · intro h E hE
    obtain ⟨X, hX, -⟩ := fr.entities.get' hE
    exact hL.alone h X hX
  · intro h E hE
    obtain ⟨X, hX, -⟩ := fr.entities.get' hE
    rcases hL.alone h X hX with rfl | rfl
    · have hE' : s'.entities.get h = some E := hE
      rw [gB] at hE'; cases hE'
      exact (hfw _ B hS.get1).of zB ⟨_, k1, ho⟩ ⟨_, k3.1⟩ ⟨_, k3.2⟩
    · have hE' : s'.entities.get h = some E := hE
      rw [gF] at hE'; cases hE'
      exact (hfw _ F hS.get2).of zF (by rw [k2, ← hL.floor]; exact (hfw _ F hS.get2).pose) ⟨_, k4.1⟩ ⟨_, k4.2⟩

/-- Gravity changes the velocity of the ball only. -/
theorem Pairing.opening (hL : Pairing s bh fh ch ch' B F sc pl o q r c P n v G) (p : Phases ord s s' (fin d)) :
    FineLoop s.entities ⟨p.mid.toWorld, p.infos, fin d, zero⟩ ∧ p.mid.entities.get bh = some { B with velocity := (v + G.scale d).f } ∧
      p.mid.entities.get fh = some F ∧ p.mid.toWorld.collisionRecords = [] := by
  have hS := hL.setting
  obtain ⟨m, hm, hm1⟩ := hL.mass
  obtain ⟨a1, a2, a3⟩ := fine_all tame_gravity p.integrate hL.fine hL.pulls
  obtain ⟨B1, gB1, rB, wB, -⟩ := spin_all tame_gravity p.integrate hL.fine hL.pulls (h := bh) (E := B) hS.get1 (Or.inr central_gravity)
  obtain ⟨F1, gF1, rF, wF, vF⟩ := spin_all tame_gravity p.integrate hL.fine hL.pulls (h := fh) (E := F) hS.get2
    (Or.inl (fun o' ho' => by rw [hS.still, finalize_o ho']))
  have vB : B1.velocity = (v + G.scale d).f := by
    have hB : ({ s with collisionRecords := [], debug := [] } : System XReal (GravityGenerator XReal)).getEntity bh = some B.makePub :=
      getEntity_iff.mpr ⟨B, hS.get1, rfl⟩
    obtain ⟨p', hp', hv, -⟩ := C22_gravity p.integrate hB (by
      show (Scalar.isFinite B.totalMass && Scalar.lt EPSILON B.totalMass) = true
      rw [hm]; simpa using hm1)
    obtain ⟨Y, gY, rfl⟩ := getEntity_iff.mp hp'
    have : p.mid.entities.get bh = some Y := gY
    rw [gB1] at this; cases this
    have e : B1.velocity = B.velocity + (gravity s.generators).scale (fin d) := hv
    rw [e, hL.moves.1, hL.weight, Vec3.f_scale, Vec3.f_add]
  refine ⟨fun _ => ⟨a1, a3, d, rfl⟩, ?_, ?_, by rw [(integrateAll_spec (Arena.handles_nodup _) p.integrate).1]⟩
  · rw [gB1, rB, vB, wB]
  · rw [gF1, rF, vF hS.heavy, wF]

/-- What the end of a step makes of an entity. -/
theorem closing (p : Phases ord s s' (fin d)) {h : Handle} {X Y : InternalEntity XReal} (hX : p.final.world.entities.get h = some X)
    (hY : s'.entities.get h = some Y) : NeighborRel (settle s.toWorld (fin d) X) Y ∧
      ((X.asleep = true ∨ Y.asleep = false) → ∀ n ∈ X.neighbors, n ∈ Y.neighbors) ∧
      (X.asleep = false → Y.asleep = true → ∀ i ∈ p.final.infos, i.handle = h → ∀ n ∈ i.neighbors, n ∈ Y.neighbors) ∧
      (∀ n ∈ Y.neighbors, n ∈ X.neighbors ∨ (X.asleep = false ∧ Y.asleep = true) ∨ ∃ e e', p.final.world.entities.get n = some e ∧
        s'.entities.get n = some e' ∧ e.asleep = false ∧ e'.asleep = true) := by
  have hent : (if p.concluded then p.final.world else { p.final.world with debug := p.final.world.debug ++ [.ranOut] }).entities =
      p.final.world.entities := by split <;> rfl
  have hthr : ∀ x : InternalEntity XReal, settle (if p.concluded then p.final.world else { p.final.world with debug := p.final.world.debug ++ [.ranOut] })
      (fin d) x = settle s.toWorld (fin d) x := by
    intro x
    have e1 : p.final.world.energySleepThreshold = s.energySleepThreshold := p.inv.frame.energy
    have e2 : p.final.world.sleepTimeThreshold = s.sleepTimeThreshold := p.inv.frame.time
    cases p.concluded with
    | true => rw [if_pos rfl]; unfold settle; rw [e1, e2]
    | false => rw [if_neg (by simp)]; unfold settle; simp only [e1, e2]
  have hnd : (p.final.infos.map StepInfo.handle).Nodup := by rw [p.inv.handles]; exact Arena.handles_nodup _
  have live : h ∈ p.final.infos.map StepInfo.handle := by
    rw [p.inv.handles]
    obtain ⟨x, hx, -⟩ := p.inv.frame.entities.get' hX
    exact Arena.mem_handles.mpr ⟨x, hx⟩
  have sp := sleepLoop_spec hnd p.selfless p.sleep h X Y (by rw [hent]; exact hX) hY
  obtain ⟨l1, l2, l3⟩ := sleepLoop_links hnd p.selfless p.sleep h X Y (by rw [hent]; exact hX) hY
  rw [if_pos live, hthr] at sp
  refine ⟨sp, l1, l2, fun n hn => (l3 n hn).imp id (Or.imp (fun h => ⟨h.1, h.2.1⟩) ?_)⟩
  rintro ⟨i, -, -, -, e, e', g, h'⟩
  rw [hent] at g
  exact ⟨e, e', g, h'⟩

theorem settled_pose {X Y : InternalEntity XReal} {w : World XReal} {dt : XReal} (h : NeighborRel (settle w dt X) Y) : Y.orientation = X.orientation := by
  rw [h]; show (settle w dt X).orientation = _
  unfold settle; split
  · rfl
  · split <;> rfl

theorem settled_still {X Y : InternalEntity XReal} {w : World XReal} {dt : XReal} (h : NeighborRel (settle w dt X) Y)
    (h1 : X.velocity = (Vec3.o).f) (h2 : X.angularVelocity = (Vec3.o).f) : Y.velocity = (Vec3.o).f ∧ Y.angularVelocity = (Vec3.o).f := by
  rw [h]; show (settle w dt X).velocity = _ ∧ (settle w dt X).angularVelocity = _
  unfold settle; split
  · exact ⟨Vec3.f_zeros, Vec3.f_zeros⟩
  · split <;> exact ⟨h1, h2⟩

theorem settled_sleeps {X Y : InternalEntity XReal} {w : World XReal} {dt : XReal} (h : NeighborRel (settle w dt X) Y) (ha : X.asleep = true) :
    Y.asleep = true := by
  rw [h]; show (settle w dt X).asleep = _
  unfold settle; rw [if_pos ha]; exact ha

/-! ### Lying on the floor -/

/-- The ball is at rest on the floor and gravity pulls it towards the floor. -/
structure Lying (s : System XReal (GravityGenerator XReal)) (bh fh ch ch' : Handle) (B F : InternalEntity XReal) (sc : SphereCollider XReal)
    (pl : PlaneCollider XReal) (o q : Orientation ℝ) (r : ℝ) (c P n : Vec3 ℝ) (g : ℝ) : Prop where
  pairing : Pairing s bh fh ch ch' B F sc pl o q r c P n .o (n.scale (-g))
  dead : sc.material.restitution * pl.material.restitution = fin 0 ∧ pl.material.restitution * sc.material.restitution = fin 0
  centered : c + o.internalOriginOffset = .o
  touch : clearance o.position P n r ≤ 0
  energy : Scalar.lt s.energySleepThreshold (fin 0) = false

/-- A quiet entity after another step of quiet. -/
def Ticked (thr dt : XReal) (X Y : InternalEntity XReal) : Prop :=
  Y.fallingAsleep = true ∧ Y.fallingAsleepTime = (if X.fallingAsleep then X.fallingAsleepTime + dt else X.fallingAsleepTime) ∧
    Y.asleep = !Scalar.lt Y.fallingAsleepTime thr

theorem settled_ticked {X X' Y : InternalEntity XReal} {w : World XReal} {dt : XReal} (h : NeighborRel (settle w dt X) Y) (ha : X.asleep = false)
    (hE : Scalar.lt w.energySleepThreshold X.totalEnergy = false) (e1 : X.fallingAsleep = X'.fallingAsleep) (e2 : X.fallingAsleepTime = X'.fallingAsleepTime) :
    Ticked w.sleepTimeThreshold dt X' Y := by
  have : settle w dt X = { X with
      fallingAsleep := true, fallingAsleepTime := if X'.fallingAsleep then X'.fallingAsleepTime + dt else X'.fallingAsleepTime
      asleep := !Scalar.lt (if X'.fallingAsleep then X'.fallingAsleepTime + dt else X'.fallingAsleepTime) w.sleepTimeThreshold } := by
    unfold settle
    rw [if_neg (by rw [ha]; simp), if_neg (by rw [hE]; simp), e1, e2]
  rw [this] at h
  unfold Ticked
  rw [h]
  exact ⟨rfl, rfl, rfl⟩

/-- A step in which the ball is not linked with the floor: it is stopped by the floor, and both get more tired. -/
theorem touch_step (hd : 1 / 1000000 ≤ d) (hh : s.step ord (fin d) = .ok s') (hL : Lying s bh fh ch ch' B F sc pl o q r c P n g) (hgd : eps ≤ g * d)
    (fr1 : fh ∉ B.neighbors) (fr2 : bh ∉ F.neighbors) :
    ∃ B' F', Lying s' bh fh ch ch' B' F' sc pl o q r c P n g ∧ Ticked s.sleepTimeThreshold (fin d) B B' ∧
      (F.asleep = true → F'.asleep = true) ∧ (F.asleep = false → Ticked s.sleepTimeThreshold (fin d) F F') ∧
      (B'.asleep = true → fh ∈ B'.neighbors) ∧ (F.asleep = false → F'.asleep = true → bh ∈ F'.neighbors) ∧
      (B'.asleep = false → F'.asleep = F.asleep → fh ∉ B'.neighbors ∧ bh ∉ F'.neighbors) := by
  have hd0 : 0 ≤ d := le_trans (by norm_num) hd
  obtain ⟨p⟩ := step_phases (proper_fin hd) hh
  have fr := (step_frame hh).1
  have hP := hL.pairing
  have hS := hP.setting
  obtain ⟨m, hm, hm1⟩ := hP.mass
  have hm0 : 0 < m := lt_trans (by norm_num) hm1
  obtain ⟨start, gB1, gF1, hmid⟩ := hP.opening p
  obtain ⟨B', gB', -⟩ := fr.entities.get hS.get1
  obtain ⟨F', gF', -⟩ := fr.entities.get hS.get2
  obtain ⟨B2, F2, ib, jf, hst⟩ : ∃ B2 F2 ib jf, Stopped bh fh o q { B with velocity := (.o + (n.scale (-g)).scale d).f } F B2 F2 ib jf p.final := by
    have hit := p.iterate
    obtain ⟨N, hN⟩ := Nat.exists_eq_succ_of_ne_zero hP.tries
    rw [hN] at hit
    unfold Step.iterate at hit
    obtain ⟨best, h1, hit⟩ := Res.bind_eq_ok.mp hit
    obtain ⟨w, h2, hit⟩ := Res.bind_eq_ok.mp hit
    obtain ⟨st1, h3, hit⟩ := Res.bind_eq_ok.mp hit
    obtain ⟨K, rfl, hK⟩ := touch_body (st := ⟨p.mid.toWorld, p.infos, fin d, zero⟩) (k := g * d) hS hP.alone hP.shapes hL.dead hd0 p.running.1 start hmid hP.unit hL.centered
      gB1 gF1 hP.pose hP.floor hgd (by rw [Vec3.f_inj]; ext <;> simp <;> ring) hP.moves.2 hP.rest.1 hP.rest.2 fr1 fr2 hm0 hm hL.touch h1 h2 h3
    obtain ⟨st2, h4, hit⟩ := Res.bind_eq_ok.mp hit
    obtain ⟨B2, F2, ib, jf, hst⟩ := hK st2 h4
    obtain ⟨t, -, -, -, -, -, r2⟩ := p.running.1.body hd0 h1 h2 h3
    exact hst.iterate hS hP.alone hd0 (r2 K st2 rfl h4).1 hP.unit hL.centered hit
  obtain ⟨nB, -, l2, l3⟩ := closing p hst.get1 gB'
  obtain ⟨nF, -, m2, m3⟩ := closing p hst.get2 gF'
  have hEB : B2.totalEnergy = fin 0 := by
    refine quiet_ball (m := m) ?_ ?_ hst.vel1 hst.ang1
    · exact (hP.fine bh B hS.get1).of (p.inv.frame.entities.rel _ _ _ hS.get1 hst.get1) ⟨o, hst.pose1, hP.unit⟩ ⟨_, hst.vel1⟩ ⟨_, hst.ang1⟩
    · rw [(staticRel_iff.mp (p.inv.frame.entities.rel _ _ _ hS.get1 hst.get1)).2.2.1]; exact hm
  have hEF : F2.totalEnergy = fin 0 := by
    refine quiet_floor ?_ hst.vel2 hst.ang2
    rw [(staticRel_iff.mp (p.inv.frame.entities.rel _ _ _ hS.get2 hst.get2)).2.2.1]; exact hS.heavy
  have fs : F2.asleep = F.asleep := hst.floor
  have tB : Ticked s.sleepTimeThreshold (fin d) B B' := settled_ticked nB hst.awake (by rw [hEB]; exact hL.energy) hst.clock1.1 hst.clock1.2
  refine ⟨B', F', ⟨hP.after hh gB' gF' hP.unit ((settled_pose nB).trans hst.pose1) ((settled_pose nF).trans hst.pose2) (settled_still nB hst.vel1 hst.ang1) (settled_still nF hst.vel2 hst.ang2),
    hL.dead, hL.centered, hL.touch, by rw [fr.energy]; exact hL.energy⟩, tB, fun h => settled_sleeps nF (fs.trans h),
    fun h => settled_ticked nF (fs.trans h) (by rw [hEF]; exact hL.energy) hst.clock2.1 hst.clock2.2,
    fun h => l2 hst.awake h ib hst.mem1 hst.han1 fh hst.met1, fun h h' => m2 (fs.trans h) h' jf hst.mem2 hst.han2 bh hst.met2, fun h h' => ⟨fun hn => ?_, fun hn => ?_⟩⟩
  · rcases l3 fh hn with k | ⟨-, k⟩ | ⟨f, f', g1, g2, a, a'⟩
    · exact hst.free1 k
    · rw [h] at k; cases k
    · rw [hst.get2] at g1; cases g1
      rw [gF'] at g2; cases g2
      rw [h', ← fs, a] at a'; cases a'
  · rcases m3 bh hn with k | ⟨k, k'⟩ | ⟨f, f', g1, g2, a, a'⟩
    · exact hst.free2 k
    · rw [h', ← fs, k] at k'; cases k'
    · rw [gB'] at g2; cases g2
      rw [h] at a'; cases a'

/-- The ball sleeps on the floor. -/
def Bedded (fh : Handle) (B : InternalEntity XReal) : Prop := B.asleep = true ∧ fh ∈ B.neighbors

/-- It goes on sleeping. -/
theorem bed_step (hd : 1 / 1000000 ≤ d) (hh : s.step ord (fin d) = .ok s') (hL : Lying s bh fh ch ch' B F sc pl o q r c P n g) (hbed : Bedded fh B) :
    ∃ B' F', Lying s' bh fh ch ch' B' F' sc pl o q r c P n g ∧ Bedded fh B' := by
  have hd0 : 0 ≤ d := le_trans (by norm_num) hd
  obtain ⟨p⟩ := step_phases (proper_fin hd) hh
  have fr := (step_frame hh).1
  have hP := hL.pairing
  have hS := hP.setting
  obtain ⟨-, gB1, gF1, -⟩ := hP.opening p
  obtain ⟨B', gB', -⟩ := fr.entities.get hS.get1
  obtain ⟨F', gF', -⟩ := fr.entities.get hS.get2
  obtain ⟨f1, f2, -⟩ := linked_iterate hS hP.alone hd0 p.running.1 hP.tries p.iterate gB1 gF1 hP.pose rfl hP.moves.2 hP.floor hP.rest.1 hP.rest.2
    (Or.inl hbed.2)
  rw [if_pos hbed.1] at f1
  obtain ⟨nB, l1, -⟩ := closing p f1 gB'
  obtain ⟨nF, -⟩ := closing p f2 gF'
  refine ⟨B', F', ⟨hP.after hh gB' gF' hP.unit ((settled_pose nB).trans hP.pose) ((settled_pose nF).trans hP.floor) ?_ (settled_still nF hP.rest.1 hP.rest.2),
    hL.dead, hL.centered, hL.touch, by rw [fr.energy]; exact hL.energy⟩, settled_sleeps nB hbed.1, l1 (Or.inl hbed.1) fh hbed.2⟩
  rw [nB]; show (settle s.toWorld (fin d) _).velocity = _ ∧ (settle s.toWorld (fin d) _).angularVelocity = _
  unfold settle; rw [if_pos (by exact hbed.1)]
  exact ⟨Vec3.f_zeros, Vec3.f_zeros⟩

/-- An awake ball that is linked with the floor falls freely. -/
theorem drift_step (hd : 1 / 1000000 ≤ d) (hh : s.step ord (fin d) = .ok s') (hP : Pairing s bh fh ch ch' B F sc pl o q r c P n v G)
    (awake : B.asleep = false) (hF : F.asleep = true) (near : bh ∈ F.neighbors)
    (fast : ∀ m, B.totalMass = fin m → Scalar.lt s.energySleepThreshold (fin (m * (v + G.scale d).dot (v + G.scale d) / 2)) = true) :
    ∃ B' F', Pairing s' bh fh ch ch' B' F' sc pl { o with position := o.position + (v + G.scale d).scale d } q r c P n (v + G.scale d) G ∧
      B'.asleep = false ∧ F'.asleep = true ∧ bh ∈ F'.neighbors := by
  have hd0 : 0 ≤ d := le_trans (by norm_num) hd
  obtain ⟨p⟩ := step_phases (proper_fin hd) hh
  have fr := (step_frame hh).1
  have hS := hP.setting
  obtain ⟨m, hm, -⟩ := hP.mass
  obtain ⟨-, gB1, gF1, -⟩ := hP.opening p
  obtain ⟨B', gB', -⟩ := fr.entities.get hS.get1
  obtain ⟨F', gF', -⟩ := fr.entities.get hS.get2
  obtain ⟨f1, f2, -⟩ := linked_iterate hS hP.alone hd0 p.running.1 hP.tries p.iterate gB1 gF1 hP.pose rfl hP.moves.2 hP.floor hP.rest.1 hP.rest.2
    (Or.inr near)
  rw [if_neg (by show ¬ B.asleep = true; rw [awake]; simp)] at f1
  obtain ⟨nB, -⟩ := closing p f1 gB'
  obtain ⟨nF, m1, -⟩ := closing p f2 gF'
  have hu : ({ o with position := o.position + (v + G.scale d).scale d } : Orientation ℝ).Unit := hP.unit
  have hE : ({ B with velocity := (v + G.scale d).f, orientation := ({ o with position := o.position + (v + G.scale d).scale d } : Orientation ℝ).f } :
      InternalEntity XReal).totalEnergy = fin (m * (v + G.scale d).dot (v + G.scale d) / 2) := by
    obtain ⟨I, hI, -⟩ := (hP.fine bh B hS.get1).moment _ hu
    have h2 : (2 : ℝ) ≠ 0 := by norm_num
    unfold totalEnergy momentOfInertia
    dsimp only
    rw [hm, hP.moves.2, hI]
    simp [fin_div h2, Vec3.scale_dot, mul_comm]
  have hset : settle s.toWorld (fin d) { B with velocity := (v + G.scale d).f, orientation := ({ o with position := o.position + (v + G.scale d).scale d } : Orientation ℝ).f } =
      { B with velocity := (v + G.scale d).f, orientation := ({ o with position := o.position + (v + G.scale d).scale d } : Orientation ℝ).f,
               fallingAsleep := false, fallingAsleepTime := zero } := by
    unfold settle
    rw [if_neg (by show ¬ B.asleep = true; rw [awake]; simp), if_pos (by rw [hE]; exact fast m hm)]
  have nB' := nB
  rw [hset] at nB'
  exact ⟨B', F', hP.after hh gB' gF' hu (settled_pose nB) ((settled_pose nF).trans hP.floor) ⟨by rw [nB'], by rw [nB']; exact hP.moves.2⟩ (settled_still nF hP.rest.1 hP.rest.2),
    by rw [nB']; exact awake, settled_sleeps nF hF, m1 (Or.inl hF) bh near⟩

/-- The two do not remember each other, and the floor sleeps or has not been quiet for longer than the ball. -/
def Apart (bh fh : Handle) (B F : InternalEntity XReal) : Prop :=
  fh ∉ B.neighbors ∧ bh ∉ F.neighbors ∧ ∃ x : ℝ, 0 ≤ x ∧ B.fallingAsleepTime = fin x ∧
    (F.asleep = true ∨ ∃ y : ℝ, F.fallingAsleepTime = fin y ∧ y ≤ x ∧ (F.fallingAsleep = true → B.fallingAsleep = true))

/-- A step leaves the ball where it is. -/
theorem lying_step (hd : 1 / 1000000 ≤ d) (hh : s.step ord (fin d) = .ok s') (hL : Lying s bh fh ch ch' B F sc pl o q r c P n g) (hgd : eps ≤ g * d)
    (memory : Apart bh fh B F ∨ Bedded fh B) :
    ∃ B' F', Lying s' bh fh ch ch' B' F' sc pl o q r c P n g ∧ (Bedded fh B' ∨ ¬Bedded fh B ∧ Apart bh fh B' F' ∧ B'.fallingAsleep = true ∧
      ∃ x', B'.fallingAsleepTime = fin x' ∧ Scalar.lt (fin x') s.sleepTimeThreshold = true ∧
        ∀ x, B.fallingAsleepTime = fin x → x' = if B.fallingAsleep then x + d else x) := by
  by_cases hbed : Bedded fh B
  · obtain ⟨B', F', h1, h2⟩ := bed_step hd hh hL hbed
    exact ⟨B', F', h1, Or.inl h2⟩
  have hd0 : 0 ≤ d := le_trans (by norm_num) hd
  obtain ⟨fr1, fr2, x, hx0, hx, hclock⟩ := memory.resolve_right hbed
  obtain ⟨B', F', hL', ⟨b1, b2, b3⟩, f1, f2, n1, n2, n3⟩ := touch_step hd hh hL hgd fr1 fr2
  refine ⟨B', F', hL', ?_⟩
  obtain ⟨x', hx', hxx⟩ : ∃ x', B'.fallingAsleepTime = fin x' ∧ x' = if B.fallingAsleep then x + d else x := by
    rw [b2, hx]
    split
    · exact ⟨_, by rw [fin_add], rfl⟩
    · exact ⟨_, rfl, rfl⟩
  rw [hx'] at b3
  cases hlt : Scalar.lt (fin x') s.sleepTimeThreshold with
  | false => exact Or.inl ⟨by rw [b3, hlt]; rfl, n1 (by rw [b3, hlt]; rfl)⟩
  | true =>
    have sB' : B'.asleep = false := by rw [b3, hlt]; rfl
    -- the floor does not fall asleep before the ball
    have hFs : F'.asleep = F.asleep ∧ (F'.asleep = true ∨ ∃ y : ℝ, F'.fallingAsleepTime = fin y ∧ y ≤ x') := by
      rcases Bool.eq_false_or_eq_true F.asleep with h | h
      · exact ⟨by rw [f1 h, h], Or.inl (f1 h)⟩
      · rcases hclock with h' | ⟨y, hy, hyx, himp⟩
        · rw [h'] at h; cases h
        obtain ⟨c1, c2, c3⟩ := f2 h
        obtain ⟨y', hy', hyy⟩ : ∃ y', F'.fallingAsleepTime = fin y' ∧ y' ≤ x' := by
          rw [c2, hy, hxx]
          cases hF : F.fallingAsleep with
          | true => rw [himp hF, if_pos rfl, if_pos rfl, fin_add]; exact ⟨_, rfl, by linarith⟩
          | false =>
            rw [if_neg (by simp)]
            refine ⟨_, rfl, ?_⟩
            split <;> linarith
        have hly : Scalar.lt (fin y') s.sleepTimeThreshold = true := by
          revert hlt
          cases s.sleepTimeThreshold with
          | fin u => simp; intro hlt; linarith
          | _ => simp
        exact ⟨by rw [c3, hy', hly, h]; rfl, Or.inr ⟨y', hy', hyy⟩⟩
    obtain ⟨z1, z2⟩ := n3 sB' hFs.1
    refine Or.inr ⟨hbed, ⟨z1, z2, x', ?_, hx', ?_⟩, b1, x', hx', hlt, fun z hz => ?_⟩
    · rw [hxx]; split <;> linarith
    · rcases hFs.2 with h | ⟨y, h, h'⟩
      · exact Or.inl h
      · exact Or.inr ⟨y, h, h', fun _ => b1⟩
    · rw [hx] at hz; cases hz; exact hxx

end

end Fluffy.Props
