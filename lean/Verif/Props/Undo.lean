import Verif.Props.Inertia
import Verif.Props.Commute
/-
C107: to link a collider to an entity and to take it off again leaves no trace.
-/
set_option linter.unusedSectionVars false
set_option linter.unusedSimpArgs false
namespace Fluffy.Props
open Fluffy InternalEntity

section
open XReal Step
variable {γ : Type} [ForceGenerator XReal γ] {s s1 s2 : System XReal γ}

theorem hsRemove_hsInsert {l : List Handle} {h : Handle} (hn : h ∉ l) : hsRemove (hsInsert l h) h = l := by
  unfold hsRemove hsInsert
  rw [if_neg hn, List.filter_append, List.filter_eq_self.mpr (by intro x hx; simpa using fun e : x = h => hn (e ▸ hx))]
  simp

/-- To recentre a pose that has its centre there already changes nothing. -/
theorem recentered_self {o : Orientation ℝ} {c : Vec3 ℝ} (h : o.internalOriginOffset = -c) : o.recentered c = o := by
  have h0 : c + o.internalOriginOffset = Vec3.o := by rw [h]; ext <;> simp
  cases o with
  | mk p q d =>
    simp only [Orientation.recentered, Orientation.toWorld] at *
    subst h
    congr
    simp [Quat.rot, h0]

theorem recentered_twice (o : Orientation ℝ) (c d : Vec3 ℝ) : (o.recentered c).recentered d = o.recentered d := by
  conv_lhs => unfold Orientation.recentered
  rw [show (⟨o.toWorld c, o.rotation, -c⟩ : Orientation ℝ) = o.recentered c from rfl, Orientation.toWorld_recentered]
  rfl

/-- **C107 (exact arithmetic).** A collider that belongs to nobody is put on an entity and taken off again.  If the numbers are finite (or masses infinite), and the entity is where its
colliders have put it - the colliders it has are of positive finite mass, or it is at the origin of its local space - then the system is the same as before, in every respect. -/
theorem C107_partial (hr : Reachable s) {k c : Handle} {e : Entity XReal} {C : Collider XReal} {o1 o2 : IterOrder}
    (he : s.getEntity k = some e) (hc : s.getCollider c = some C) (hfree : C.entity = none) (hf : FinitePose e.lastOrientation)
    (hb : (∀ d ∈ linked s e, FiniteBody d) ∨ ∃ d ∈ linked s e, d.mass = posInf) (hC : FiniteBody C ∨ C.mass = posInf)
    (hpos : ((∀ d ∈ linked s e, FiniteBody d) ∧ Scalar.lt (fin 0) (massSum (linked s e)) = true) ∨
      e.lastOrientation.localOriginInWorld = e.position)
    {b1 b2 : Bool} (h1 : s.exec o1 (.linkCollider c (some k)) = .ok (s1, .ok b1)) (h2 : s1.exec o2 (.linkCollider c none) = .ok (s2, .ok b2)) :
    b1 = true ∧ b2 = true ∧ s2 = s := by
  have hr1 := live_after hr h1
  have hr2 := live_after hr1 h2
  obtain ⟨E, hE, rfl⟩ := getEntity_iff.mp he
  rw [getCollider_eq] at hc
  rw [linked_eq] at hb hpos
  have hf : FinitePose E.orientation := hf
  obtain ⟨o, ho, hu⟩ := reachable_unit hr hE hf
  simp only [System.exec] at h1 h2
  obtain ⟨⟨t1, c1⟩, hl1, x1⟩ := Res.bind_eq_ok.mp h1
  obtain ⟨⟨t2, c2⟩, hl2, x2⟩ := Res.bind_eq_ok.mp h2
  simp only [Except.ok.injEq, Prod.mk.injEq, Out.ok.injEq] at x1 x2
  obtain ⟨rfl, rfl⟩ := x1
  obtain ⟨rfl, rfl⟩ := x2
  clear h1 h2
  have hn : c ∉ E.colliders := by
    intro hm
    obtain ⟨D, hD, hD'⟩ := (hr.inv.links k E c hE).mp hm
    rw [hc] at hD; cases hD; rw [hfree] at hD'; cases hD'
  -- the first call
  rcases System.linkCollider_spec hr.inv hl1 with ⟨-, -, h | ⟨h, hh, h'⟩⟩ | ⟨rfl, D, hD, -, hs1, sh1, all1⟩
  · rw [hc] at h; cases h
  · cases hh; rw [hE] at h'; cases h'
  rw [hc] at hD; cases hD
  have hc1 : t1.colliders.get c = some (C.setEntity (some k)) := by rw [hs1]; simp [Arena.get_set, hc]
  rcases System.linkCollider_spec hr1.inv hl2 with ⟨-, -, h | ⟨h, hh, h'⟩⟩ | ⟨rfl, D, hD, -, hs2, sh2, all2⟩
  · rw [hc1] at h; cases h
  · cases hh
  rw [hc1] at hD; cases hD
  refine ⟨rfl, rfl, ?_⟩
  have hcol1 : t1.colliders = s.colliders.set c (C.setEntity (some k)) := by rw [hs1]
  have hcol2' : t2.colliders = t1.colliders.set c ((C.setEntity (some k)).setEntity none) := by rw [hs2]
  have hback : (C.setEntity (some k)).setEntity none = C := by
    clear hc1 hs2 all2 hl1 hl2 hc all1 hs1 hcol1 hcol2' hC
    cases C <;> (rename_i x; cases x; simp only [Collider.setEntity, Collider.entity] at hfree ⊢; rw [hfree])
  have hcol2 : t2.colliders = s.colliders := by
    rw [hcol2', hcol1, hback]
    refine Arena.ext_get ((Arena.sameShape_set _ _ _).trans (Arena.sameShape_set _ _ _)) fun j => ?_
    rw [Arena.get_set, Arena.get_set, Arena.get_set]
    split
    · rename_i h; subst h; simp [hc]
    · rfl
  have hents : t2.entities = s.entities := by
    refine Arena.ext_get (sh2.trans sh1) fun j => ?_
    cases hj : s.entities.get j with
    | none =>
      have := (sh2.trans sh1).isSome j
      rw [hj] at this
      simpa using this
    | some X =>
      obtain ⟨Y, hY, y1, y2, -⟩ := all1 j X hj
      obtain ⟨Z, hZ, z1, -, z2⟩ := all2 j Y hY
      rw [hZ]
      by_cases hjk : j = k
      · subst hjk
        rw [hE] at hj; cases hj
        have hrec1 := y2 rfl
        have hrec2 := z2 (by simp) (by simp)
        rw [← hcol1] at hrec1
        rw [← hcol2'] at hrec2
        have m1 := recalculateMass_massRel hrec1
        have m2 := recalculateMass_massRel hrec2
        have hYc : Y.colliders = hsInsert E.colliders c := m1.colliders
        have hZc : Z.colliders = E.colliders := by
          rw [m2.colliders]; show hsRemove Y.colliders c = _
          rw [hYc, hsRemove_hsInsert hn]
        have p1 : (o1.colliders j (hsInsert E.colliders c)).Perm Y.colliders := by rw [hYc]; exact o1.colliders_perm _ _
        have p2 : (o2.colliders j (hsRemove Y.colliders c)).Perm Z.colliders := by
          rw [m2.colliders]; exact o2.colliders_perm _ _
        have f1 : (found t1.colliders (o1.colliders j (hsInsert E.colliders c))).Perm (found t1.colliders Y.colliders) := p1.filterMap _
        have f2 : (found t2.colliders (o2.colliders j (hsRemove Y.colliders c))).Perm (found s.colliders E.colliders) := by
          rw [← hZc, ← hcol2]; exact p2.filterMap _
        have hfound1 : found t1.colliders Y.colliders = found s.colliders E.colliders ++ [C.setEntity (some j)] := by
          rw [hYc, hsInsert, if_neg hn]
          unfold found
          rw [List.filterMap_append]
          congr 1
          · refine List.filterMap_congr fun d hd => ?_
            rw [hcol1, Arena.get_set, if_neg (by rintro rfl; exact hn hd)]
          · simp [hc1]
        have hbC : FiniteBody (C.setEntity (some j)) ∨ (C.setEntity (some j)).mass = posInf := by
          simpa [FiniteBody] using hC
        obtain ⟨a, ha⟩ := recalculate_space hrec1 (live_of_inv hr1.inv hY p1) ho hu (by
          rcases hbC with hbC | hbC
          · rcases hb with hb | ⟨d, hd, hm⟩
            · refine Or.inl fun d hd => ?_
              rw [f1.mem_iff, hfound1, List.mem_append] at hd
              rcases hd with hd | hd
              · exact hb d hd
              · rw [List.mem_singleton.mp hd]; exact hbC
            · exact Or.inr ⟨d, by rw [f1.mem_iff, hfound1]; simp [hd], hm⟩
          · exact Or.inr ⟨_, by rw [f1.mem_iff, hfound1]; simp, hbC⟩)
        have hu1 : (o.recentered a).Unit := Orientation.recentered_unit hu a
        have hzero : E.orientation.localOriginInWorld = E.orientation.position → o.internalOriginOffset = -Vec3.o := by
          intro h
          rw [ho, Orientation.localOriginInWorld, Vec3.f_zeros, Orientation.f_positionIntoWorld _ _ hu, Orientation.f_position, Vec3.f_inj] at h
          have h0 : o.rotation.rot o.internalOriginOffset = Vec3.o := by
            simp only [Orientation.toWorld, Vec3.o_add, Vec3.ext_iff, Vec3.add_x, Vec3.add_y, Vec3.add_z] at h ⊢
            exact ⟨by simpa using h.1, by simpa using h.2.1, by simpa using h.2.2⟩
          have h3 := Quat.rot_conj_rot o.internalOriginOffset hu
          rw [h0] at h3
          rw [← h3]
          ext <;> simp [Quat.rot]
        have hlive2 := live_of_inv hr2.inv hZ p2
        have hor : Z.orientation = E.orientation := by
          rw [ho]
          rcases hb with hb | ⟨d, hd, hm⟩
          · obtain ⟨ls, hls⟩ := lumps hb
            have hni : ∀ d ∈ found t2.colliders (o2.colliders j (hsRemove Y.colliders c)), Scalar.isInfinite d.mass = false :=
              fun d hd => forall₂_infinite hls d (f2.mem_iff.mp hd)
            rw [recalculateMass_loose _ hlive2 hni, loose_perm _ f2] at hrec2
            injection hrec2 with hrec2
            rw [← hrec2, (loose_real (e := { Y with colliders := hsRemove Y.colliders c }) ha hu1 hls).1, recentered_twice]
            by_cases hM : 0 < Lump.total ls
            · rw [recentered_self ((stored_real hr hE ho hls).1 hM)]
            · rcases hpos with ⟨-, hp⟩ | hp
              · rw [massSum_lumps hls] at hp
                exact absurd (by simpa using hp) hM
              · have hmean : Lump.mean ls = Vec3.o := by rw [Lump.mean, if_neg hM]
                rw [hmean, recentered_self (hzero hp)]
          · have hp : E.orientation.localOriginInWorld = E.orientation.position := by
              rcases hpos with ⟨hp, -⟩ | hp
              · have := (hp d hd).1
                rw [hm] at this; cases this
              · exact hp
            rw [recalculateMass_infinite _ hlive2 ⟨d, f2.mem_iff.mpr hd, by rw [hm]; rfl⟩] at hrec2
            injection hrec2 with hrec2
            rw [← hrec2, (fixed_real (e := { Y with colliders := hsRemove Y.colliders c }) ha).1, recentered_twice, recentered_self (hzero hp)]
        have hown : Z.ownMass = E.ownMass := by rw [m2.ownMass]; exact m1.ownMass
        have hboth : Z.totalMass = E.totalMass ∧ Z.preppedMoment = E.preppedMoment := by
          have q1 := stored_total hr hE
          have q2 := stored_total hr2 hZ
          rw [hcol2, hZc] at q2
          rcases hb with hb | hb
          · obtain ⟨ls, hls⟩ := lumps hb
            have q3 := (stored_real hr hE ho hls).2
            have q4 := (stored_real hr2 hZ (hor.trans ho) (ls := ls) (by rw [hcol2, hZc]; exact hls)).2
            have hni : ∀ d ∈ found s.colliders E.colliders, d.mass ≠ posInf := by
              intro d hd hm
              have := forall₂_infinite hls d hd
              rw [hm] at this; cases this
            exact ⟨by rw [q1.2 hni, q2.2 hni, hown], by rw [q3, q4]⟩
          · have q3 := stored_infinite hr hE (by rw [linked_eq]; exact hb)
            have q4 := stored_infinite hr2 hZ (by rw [linked_eq, hcol2, hZc]; exact hb)
            exact ⟨by rw [q3.1, q4.1], by rw [q3.2, q4.2]⟩
        rw [m2, hor, hboth.1, hboth.2]
        simp only
        rw [hYc, hsRemove_hsInsert hn, m1]
      · have hYX : Y = X := y1 (by simpa using fun h => hjk h.symm) (by rw [hfree]; simp)
        have hZY : Z = Y := z1 (by simp) (by simpa using fun h => hjk h.symm)
        rw [hZY, hYX]
  rw [hs2, ← hcol2', hcol2, hents, hs1]

/-- `C107_partial` speaks about something: a bar whose centre is 3 m off is put on a body at the origin, which thereby moves to its centre, and is taken off again. -/
example : ∃ (s s1 s2 : Demo.Sys) (e e1 : Entity XReal) (C : Collider XReal), Reachable s ∧ s.getEntity Demo.h0 = some e ∧ s.getCollider Demo.h0 = some C ∧ C.entity = none ∧
    FinitePose e.lastOrientation ∧ (∀ d ∈ linked s e, FiniteBody d) ∧ FiniteBody C ∧ e.lastOrientation.localOriginInWorld = e.position ∧
    s.exec .id (.linkCollider Demo.h0 (some Demo.h0)) = .ok (s1, .ok true) ∧ s1.exec .id (.linkCollider Demo.h0 none) = .ok (s2, .ok true) ∧
    s1.getEntity Demo.h0 = some e1 ∧ e1.position ≠ e.position ∧ s2 = s := by
  have hb : bar.newFrom = some bar := by simp [bar, Collider.newFrom, NullCollider.isValid]
  obtain ⟨s, t, E', hs, hex, ht, hE, hE', hC, hcol, hrec, hh, -⟩ := demo_link (γ := GravityGenerator XReal) hb
  have hor : Demo.ballE.orientation = (⟨Vec3.o, Quat.e, Vec3.o⟩ : Orientation ℝ).f := by
    have := Orientation.f_new Vec3.o Vec3.o Vec3.o
    rw [Quat.exp_o] at this
    rw [← this]
    simp [Demo.ballE, Demo.ball, Entity.makeOrientation, Entity.new, Orientation.new]
  have hlump : List.Forall₂ Lump.Of [⟨2, ⟨3, 0, 0⟩, Mat3.diag ⟨1, 2, 3⟩⟩] (found t.colliders [Demo.h0]) := by
    rw [show found t.colliders [Demo.h0] = [bar.setEntity (some Demo.h0)] by simp [found, hC]]
    exact .cons ⟨rfl, rfl, rfl⟩ .nil
  rw [recalculateMass_loose _ (by intro h hh; simp at hh; subst hh; exact ⟨_, hC⟩) (forall₂_infinite hlump)] at hrec
  injection hrec with hrec
  have r1 := (loose_real (e := { Demo.ballE with colliders := [Demo.h0] }) hor (by simp [Orientation.Unit]) hlump).1
  rw [hrec, show Lump.mean [⟨2, ⟨3, 0, 0⟩, Mat3.diag ⟨1, 2, 3⟩⟩] = ⟨3, 0, 0⟩ by (norm_num [Lump.mean, Lump.total]; ext <;> norm_num)] at r1
  have hl : s.linkCollider .id Demo.h0 (some Demo.h0) = .ok (t, true) := by
    simp only [System.exec] at hex
    obtain ⟨⟨a, b⟩, h, x⟩ := Res.bind_eq_ok.mp hex
    simp only [Except.ok.injEq, Prod.mk.injEq, Out.ok.injEq] at x
    obtain ⟨rfl, rfl⟩ := x
    exact h
  rcases System.linkCollider_spec hs.inv hl with ⟨h, -, -⟩ | ⟨-, C, hCs, -, hst, sh, -⟩
  · cases h
  have hCt : C.setEntity (some Demo.h0) = bar.setEntity (some Demo.h0) := by
    rw [hst] at hC
    simpa [Arena.get_set, hCs] using hC
  have hfree : C.entity = none := by
    cases hc : C.entity with
    | none => rfl
    | some k =>
      obtain ⟨X, hX⟩ := hs.inv.linkLive _ C k hCs hc
      have hk : k = Demo.h0 := by
        have : k ∈ s.entities.handles := Arena.mem_handles.mpr ⟨X, hX⟩
        rw [← sh.handles, hh] at this
        simpa using this
      subst hk
      have := (hs.inv.links _ _ Demo.h0 hE).mpr ⟨C, hCs, hc⟩
      simp [Demo.ballE] at this
  have hFC : FiniteBody C := by
    have : FiniteBody (C.setEntity (some Demo.h0)) := by
      rw [hCt]
      simp [FiniteBody, bar, Collider.setEntity, Collider.mass, Collider.localCenterOfMass, Collider.momentOfInertia, Finite3, Mat3.f, Vec3.f, Scalar.isFinite]
    simpa [FiniteBody] using this
  obtain ⟨u, b, hu, hb', -⟩ := C10_link_collider ht .id Demo.h0 none
  have hbt : b = true := hb'.mpr ⟨by rw [getCollider_eq, hC]; simp, by rintro h ⟨⟩⟩
  subst hbt
  have hex2 : t.exec .id (.linkCollider Demo.h0 none) = .ok (u, .ok true) := by simp only [System.exec, hu]; rfl
  have e1 : s.getEntity Demo.h0 = some Demo.ballE.makePub := getEntity_iff.mpr ⟨_, hE, rfl⟩
  have e2 : s.getCollider Demo.h0 = some C := by rw [getCollider_eq, hCs]
  have e3 : FinitePose Demo.ballE.makePub.lastOrientation := by
    show FinitePose Demo.ballE.orientation
    rw [hor]; exact finitePose_f _
  have e4 : ∀ d ∈ linked s Demo.ballE.makePub, FiniteBody d := by
    rw [linked_eq]; simp [Demo.ballE, found]
  have e5 : Demo.ballE.makePub.lastOrientation.localOriginInWorld = Demo.ballE.makePub.position := by
    show Demo.ballE.orientation.localOriginInWorld = Demo.ballE.orientation.position
    rw [hor, Orientation.localOriginInWorld, Vec3.f_zeros, Orientation.f_positionIntoWorld _ _ (by simp [Orientation.Unit]), Orientation.f_position, Vec3.f_inj]
    ext <;> simp [Orientation.toWorld, Quat.rot]
  refine ⟨s, t, u, _, _, C, hs, e1, e2, hfree, e3, e4, hFC, e5, hex, hex2, getEntity_iff.mpr ⟨_, hE', rfl⟩, ?_,
    (C107_partial hs e1 e2 hfree e3 (Or.inl e4) (Or.inl hFC) (Or.inr e5) hex hex2).2.2⟩
  show E'.orientation.position ≠ Demo.ballE.orientation.position
  rw [r1, hor, Orientation.f_position, Orientation.f_position, Ne, Vec3.f_inj]
  intro h
  have := congrArg Vec3.x h
  simp only [Orientation.toWorld, Orientation.recentered, Quat.rot_e] at this
  norm_num at this
end

section
open F32 Demo
variable [Libm]

/-- A body with a ball that is not at its place, and the ball that is put on a copy of the body. -/
def lopsided : List (Op F32 (GravityGenerator F32)) :=
  [.addEntity (thing (num 1) (vec 0 0 0) (vec 0 0 0)), .addCollider (ball (vec 1 0 0) (num 1) (num 1) (num 0)), .linkCollider h0 (some h0),
   .addCollider (ball (vec 0 0 0) (num 1) (num 1) (num 0))]

/-- A body without colliders, and a ball whose centre is far away from its place. -/
def remote : List (Op F32 (GravityGenerator F32)) :=
  [.addEntity (thing (num 1) (vec 1 0 0) (vec 0 0 0)), .addCollider (ball (vec 1073741824 0 0) (num 1) (num 1) (num 0))]

def putOn (c k : Handle) : Op F32 (GravityGenerator F32) := .linkCollider c (some k)
def takeOff (c : Handle) : Op F32 (GravityGenerator F32) := .linkCollider c none

/-- The entity is there, with the `x` coordinate `q`. -/
def placedAt (s : System F32 (GravityGenerator F32)) (k : Handle) (q : ℚ) : Bool :=
  match s.getEntity k with
  | some e => valued e.position.x q
  | none => false

theorem placedAt_iff {s : System F32 (GravityGenerator F32)} {k : Handle} {q : ℚ} (h : placedAt s k q = true) : ∃ e, s.getEntity k = some e ∧ Val e.position.x q := by
  unfold placedAt at h
  split at h
  · rename_i e he; exact ⟨e, he, valued_iff.mp h⟩
  · cases h

/-- **C107 is false** for a body that was added as a copy of another one: `add_entity` keeps the origin offset of the copied body, but not its colliders.  The copy of a body whose ball
sits one metre off is placed where the centre of mass of the original was, at 1; after a collider has been put on it and taken off again, it is at 0. -/
theorem C107_false : ∃ (s0 s s1 s2 : System F32 (GravityGenerator F32)) (e p q : Entity F32) (C : Collider F32), Reachable s0 ∧ s0.getEntity h0 = some e ∧
    s0.exec .id (.addEntity e) = .ok (s, .entity (some h1)) ∧ s.getCollider h1 = some C ∧ C.entity = none ∧
    s.exec .id (.linkCollider h1 (some h1)) = .ok (s1, .ok true) ∧ s1.exec .id (.linkCollider h1 none) = .ok (s2, .ok true) ∧
    s.getEntity h1 = some p ∧ s2.getEntity h1 = some q ∧ Val p.position.x 1 ∧ Val q.position.x 0 := by
  have h : ((play (plain lopsided) (System.new : System F32 (GravityGenerator F32))).test fun r =>
    match r.1.getEntity h0 with
    | none => false
    | some e => (r.1.exec .id (.addEntity e)).test fun a => (match a.2 with | .entity (some k) => k == h1 | _ => false) &&
      ((a.1.getCollider h1).map fun C => C.entity) == some none && placedAt a.1 h1 1 &&
      (a.1.exec .id (putOn h1 h1)).test fun b => (match b.2 with | .ok t => t | _ => false) &&
      (b.1.exec .id (takeOff h1)).test fun c => (match c.2 with | .ok t => t | _ => false) && placedAt c.1 h1 0) = true := by kernel_refl
  obtain ⟨⟨s0, outs⟩, hplay, h⟩ := Res.of_test h
  simp only at h
  split at h
  · cases h
  rename_i e he
  obtain ⟨⟨s, x⟩, hs, h⟩ := Res.of_test h
  simp only [Bool.and_eq_true] at h
  obtain ⟨⟨⟨hx, hC⟩, hp⟩, h⟩ := h
  obtain ⟨⟨s1, y⟩, hs1, h⟩ := Res.of_test h
  simp only [Bool.and_eq_true] at h
  obtain ⟨hy, h⟩ := h
  obtain ⟨⟨s2, z⟩, hs2, h⟩ := Res.of_test h
  simp only [Bool.and_eq_true] at h
  obtain ⟨hz, hq⟩ := h
  have ex : x = .entity (some h1) := by
    split at hx
    · rw [beq_iff_eq] at hx; subst hx; rfl
    · cases hx
  have ey : y = .ok true := by split at hy; · subst hy; rfl
                               · cases hy
  have ez : z = .ok true := by split at hz; · subst hz; rfl
                               · cases hz
  subst ex ey ez
  simp only [beq_iff_eq, Option.map_eq_some_iff] at hC
  obtain ⟨C, hC, hC'⟩ := hC
  obtain ⟨p, hp, hp'⟩ := placedAt_iff hp
  obtain ⟨q, hq, hq'⟩ := placedAt_iff hq
  exact ⟨s0, s, s1, s2, e, p, q, C, play_reachable hplay, he, hs, hC, hC', hs1, hs2, hp, hq, hp', hq'⟩

/-- **C107 is false** in binary32, because of rounding: a body without colliders at 1, on which a ball with a far away centre is put, is at 0 when the ball is taken off again. -/
theorem C107_rounding_false : ∃ (s s1 s2 : System F32 (GravityGenerator F32)) (p q : Entity F32), Reachable s ∧ s.getEntity h0 = some p ∧ p.colliders = [] ∧
    s.exec .id (.linkCollider h0 (some h0)) = .ok (s1, .ok true) ∧ s1.exec .id (.linkCollider h0 none) = .ok (s2, .ok true) ∧
    s2.getEntity h0 = some q ∧ Val p.position.x 1 ∧ Val p.lastOrientation.internalOriginOffset.x 0 ∧ Val q.position.x 0 := by
  have h : ((play (plain remote) (System.new : System F32 (GravityGenerator F32))).test fun r =>
      (match r.1.getEntity h0 with | some p => p.colliders.isEmpty && valued p.position.x 1 && valued p.lastOrientation.internalOriginOffset.x 0 | none => false) &&
      (r.1.exec .id (putOn h0 h0)).test fun b => (match b.2 with | .ok t => t | _ => false) &&
      (b.1.exec .id (takeOff h0)).test fun c => (match c.2 with | .ok t => t | _ => false) && placedAt c.1 h0 0) = true := by kernel_refl
  obtain ⟨⟨s, outs⟩, hplay, h⟩ := Res.of_test h
  simp only [Bool.and_eq_true] at h
  obtain ⟨hp, h⟩ := h
  split at hp
  · rename_i p hpe
    simp only [Bool.and_eq_true, List.isEmpty_iff, valued_iff] at hp
    obtain ⟨⟨s1, y⟩, hs1, h⟩ := Res.of_test h
    simp only [Bool.and_eq_true] at h
    obtain ⟨hy, h⟩ := h
    obtain ⟨⟨s2, z⟩, hs2, h⟩ := Res.of_test h
    simp only [Bool.and_eq_true] at h
    obtain ⟨hz, hq⟩ := h
    have ey : y = .ok true := by split at hy; · subst hy; rfl
                                 · cases hy
    have ez : z = .ok true := by split at hz; · subst hz; rfl
                                 · cases hz
    subst ey ez
    obtain ⟨q, hq, hq'⟩ := placedAt_iff hq
    exact ⟨s, s1, s2, p, q, play_reachable hplay, hpe, hp.1.1, hs1, hs2, hq, hp.1.2, hp.2, hq'⟩
  · cases hp
end
end Fluffy.Props
