import Verif.Props.Undo
/-
C109: to write a collider back as it was read, or to link it where it is linked already, changes nothing.
-/
set_option linter.unusedSectionVars false
set_option linter.unusedSimpArgs false
namespace Fluffy.Props
open Fluffy InternalEntity

section
open XReal Step
variable {γ : Type} [ForceGenerator XReal γ] {s t : System XReal γ}

/-- To recalculate an entity that is where its colliders have put it changes nothing. -/
theorem recalculated_same (hr : Reachable s) (hr2 : Reachable t) {k : Handle} {E Z : InternalEntity XReal} {order : List Handle}
    (hE : s.entities.get k = some E) (hZ : t.entities.get k = some Z) (hcol : t.colliders = s.colliders) (hp : order.Perm E.colliders)
    (hrec : recalculateMass order t.colliders E = .ok Z) (hf : FinitePose E.orientation)
    (hb : (∀ d ∈ found s.colliders E.colliders, FiniteBody d) ∨ ∃ d ∈ found s.colliders E.colliders, d.mass = posInf)
    (hpos : ((∀ d ∈ found s.colliders E.colliders, FiniteBody d) ∧ Scalar.lt (fin 0) (massSum (found s.colliders E.colliders)) = true) ∨
      E.orientation.localOriginInWorld = E.orientation.position) : Z = E := by
  obtain ⟨o, ho, hu⟩ := reachable_unit hr hE hf
  have m := recalculateMass_massRel hrec
  have hZc : Z.colliders = E.colliders := m.colliders
  have p2 : order.Perm Z.colliders := hZc ▸ hp
  have f2 : (found t.colliders order).Perm (found s.colliders E.colliders) := by rw [hcol]; exact hp.filterMap _
  have hzero : E.orientation.localOriginInWorld = E.orientation.position → o.internalOriginOffset = -Vec3.o := by
    intro h
    rw [ho, Orientation.localOriginInWorld, Vec3.f_zeros, Orientation.f_positionIntoWorld _ _ hu, Orientation.f_position, Vec3.f_inj] at h
    have h0 : o.rotation.rot o.internalOriginOffset = Vec3.o := by
      simp only [Orientation.toWorld, Vec3.o_add, Vec3.ext_iff, Vec3.add_x, Vec3.add_y, Vec3.add_z] at h ⊢
      exact ⟨by simpa using h.1, by simpa using h.2.1, by simpa using h.2.2⟩
    have h3 := Quat.rot_conj_rot o.internalOriginOffset hu
    rw [h0] at h3
    rw [← h3]
    ext <;> simp [Quat.rot]
  have hlive2 := live_of_inv hr2.inv hZ p2
  have hor : Z.orientation = E.orientation := by
    rw [ho]
    rcases hb with hb | ⟨d, hd, hm⟩
    · obtain ⟨ls, hls⟩ := lumps hb
      have hni : ∀ d ∈ found t.colliders order, Scalar.isInfinite d.mass = false :=
        fun d hd => forall₂_infinite hls d (f2.mem_iff.mp hd)
      rw [recalculateMass_loose _ hlive2 hni, loose_perm _ f2] at hrec
      injection hrec with hrec
      rw [← hrec, (loose_real ho hu hls).1]
      by_cases hM : 0 < Lump.total ls
      · rw [recentered_self ((stored_real hr hE ho hls).1 hM)]
      · rcases hpos with ⟨-, hp⟩ | hp
        · rw [massSum_lumps hls] at hp
          exact absurd (by simpa using hp) hM
        · have hmean : Lump.mean ls = Vec3.o := by rw [Lump.mean, if_neg hM]
          rw [hmean, recentered_self (hzero hp)]
    · have hp : E.orientation.localOriginInWorld = E.orientation.position := by
        rcases hpos with ⟨hp, -⟩ | hp
        · have := (hp d hd).1
          rw [hm] at this; cases this
        · exact hp
      rw [recalculateMass_infinite _ hlive2 ⟨d, f2.mem_iff.mpr hd, by rw [hm]; rfl⟩] at hrec
      injection hrec with hrec
      rw [← hrec, (fixed_real ho).1, recentered_self (hzero hp)]
  have hboth : Z.totalMass = E.totalMass ∧ Z.preppedMoment = E.preppedMoment := by
    have q1 := stored_total hr hE
    have q2 := stored_total hr2 hZ
    rw [hcol, hZc] at q2
    rcases hb with hb | hb
    · obtain ⟨ls, hls⟩ := lumps hb
      have q3 := (stored_real hr hE ho hls).2
      have q4 := (stored_real hr2 hZ (hor.trans ho) (ls := ls) (by rw [hcol, hZc]; exact hls)).2
      have hni : ∀ d ∈ found s.colliders E.colliders, d.mass ≠ posInf := by
        intro d hd hm
        have := forall₂_infinite hls d hd
        rw [hm] at this; cases this
      exact ⟨by rw [q1.2 hni, q2.2 hni, m.ownMass], by rw [q3, q4]⟩
    · have q3 := stored_infinite hr hE (by rw [linked_eq]; exact hb)
      have q4 := stored_infinite hr2 hZ (by rw [linked_eq, hcol, hZc]; exact hb)
      exact ⟨by rw [q3.1, q4.1], by rw [q3.2, q4.2]⟩
  rw [m, hor, hboth.1, hboth.2]

theorem setEntity_same {C : Collider XReal} {k : Option Handle} (h : C.entity = k) : C.setEntity k = C := by
  subst h; cases C <;> rfl

theorem colliders_set_same {c : Handle} {C : Collider XReal} (hc : s.colliders.get c = some C) : s.colliders.set c C = s.colliders := by
  refine Arena.ext_get (Arena.sameShape_set _ _ _) fun j => ?_
  rw [Arena.get_set]
  split
  · rename_i h; subst h; simp [hc]
  · rfl

/-- A collider that takes its own values stays as it is, if it takes them at all. -/
theorem updateFrom_self {C D : Collider XReal} (h : C.updateFrom C = .updated D) : D = C := by
  cases C with
  | box b =>
    simp only [Collider.updateFrom] at h
    split at h
    · cases h
    · rename_i hv
      injection h with h
      rw [← h]
      obtain ⟨p, q, lo, hi, m, w⟩ := b
      have hle : ∀ a b : XReal, Scalar.lt EPSILON (b - a) = true → fmin a b = a ∧ fmax a b = b := by
        intro a b hab
        have he : (EPSILON : XReal) = fin eps := XReal.EPSILON_eq
        rw [he] at hab
        cases a <;> cases b <;> first
          | (exfalso; revert hab; simp; done)
          | (refine ⟨?_, ?_⟩ <;> simp [fmin, fmax]; done)
          | (rename_i x y
             have : eps < y - x := by simpa using hab
             have h0 := eps_pos
             exact ⟨by simp [fmin, show x < y by linarith], by simp [fmax, show ¬ y < x by linarith]⟩)
      simp only [BoxCollider.isValid, Bool.not_eq_true', Bool.not_eq_false, Bool.and_eq_true] at hv
      obtain ⟨⟨⟨hx, hy⟩, hz⟩, -⟩ := hv
      have hx := hle lo.x hi.x hx
      have hy := hle lo.y hi.y hy
      have hz := hle lo.z hi.z hz
      simp only [cornerMin, cornerMax, hx.1, hx.2, hy.1, hy.2, hz.1, hz.2]
  | _ b => 
    simp only [Collider.updateFrom] at h
    split at h
    · cases h
    · injection h with h; rw [← h]

/-- To refresh an entity that is where its colliders have put it changes nothing. -/
theorem refresh_same (hr : Reachable s) (hr2 : Reachable t) {k : Handle} {E : InternalEntity XReal} {ord : IterOrder} (hE : s.entities.get k = some E)
    (h : System.refreshEntity ord s (some k) = .ok t) (hf : FinitePose E.orientation)
    (hb : (∀ d ∈ found s.colliders E.colliders, FiniteBody d) ∨ ∃ d ∈ found s.colliders E.colliders, d.mass = posInf)
    (hpos : ((∀ d ∈ found s.colliders E.colliders, FiniteBody d) ∧ Scalar.lt (fin 0) (massSum (found s.colliders E.colliders)) = true) ∨
      E.orientation.localOriginInWorld = E.orientation.position) : t = s := by
  simp only [System.refreshEntity, hE] at h
  obtain ⟨Z, hZ, h⟩ := Res.bind_eq_ok.mp h
  simp only [Except.ok.injEq] at h
  have hent : t.entities = s.entities.set k Z := by rw [← h]
  have hcol : t.colliders = s.colliders := by rw [← h]
  have hZE := recalculated_same hr hr2 hE (Z := Z) (by rw [hent]; simp [Arena.get_set, hE]) hcol (ord.colliders_perm _ _) (by rw [hcol]; exact hZ) hf hb hpos
  rw [← h, hZE]
  have : s.entities.set k E = s.entities := by
    refine Arena.ext_get (Arena.sameShape_set _ _ _) fun j => ?_
    rw [Arena.get_set]
    split
    · rename_i h; subst h; simp [hE]
    · rfl
  rw [this]

/-- **C109, links (exact arithmetic).** To link a collider to the entity it is linked to already changes nothing at all, if the numbers are finite (or masses infinite) and the entity is
where its colliders have put it.  Missing from C109: arithmetic with rounding, see `C109_false`. -/
theorem C109_link_partial (hr : Reachable s) {k c : Handle} {e : Entity XReal} {C : Collider XReal} {ord : IterOrder}
    (he : s.getEntity k = some e) (hc : s.getCollider c = some C) (hk : C.entity = some k) (hf : FinitePose e.lastOrientation)
    (hb : (∀ d ∈ linked s e, FiniteBody d) ∨ ∃ d ∈ linked s e, d.mass = posInf)
    (hpos : ((∀ d ∈ linked s e, FiniteBody d) ∧ Scalar.lt (fin 0) (massSum (linked s e)) = true) ∨
      e.lastOrientation.localOriginInWorld = e.position)
    {b : Bool} (h : s.exec ord (.linkCollider c (some k)) = .ok (t, .ok b)) : b = true ∧ t = s := by
  have hr2 := live_after hr h
  obtain ⟨E, hE, rfl⟩ := getEntity_iff.mp he
  rw [getCollider_eq] at hc
  rw [linked_eq] at hb hpos
  simp only [System.exec] at h
  obtain ⟨⟨u, b'⟩, hl, x⟩ := Res.bind_eq_ok.mp h
  simp only [Except.ok.injEq, Prod.mk.injEq, Out.ok.injEq] at x
  obtain ⟨rfl, rfl⟩ := x
  rcases System.linkCollider_spec hr.inv hl with ⟨-, -, h | ⟨h, hh, h'⟩⟩ | ⟨rfl, D, hD, -, hs, sh, all⟩
  · rw [hc] at h; cases h
  · cases hh; rw [hE] at h'; cases h'
  rw [hc] at hD; cases hD
  rw [setEntity_same hk, colliders_set_same hc] at hs all
  refine ⟨rfl, ?_⟩
  have hcol : u.colliders = s.colliders := by rw [hs]
  have hin : hsInsert E.colliders c = E.colliders := by
    unfold hsInsert
    rw [if_pos ((hr.inv.links k E c hE).mpr ⟨C, hc, hk⟩)]
  have hents : u.entities = s.entities := by
    refine Arena.ext_get sh fun j => ?_
    cases hj : s.entities.get j with
    | none =>
      have := sh.isSome j
      rw [hj] at this
      simpa using this
    | some X =>
      obtain ⟨Y, hY, y1, y2, -⟩ := all j X hj
      rw [hY]
      by_cases hjk : j = k
      · subst hjk
        rw [hE] at hj; cases hj
        have hrec := y2 rfl
        rw [hin] at hrec
        rw [recalculated_same hr hr2 hE hY hcol (ord.colliders_perm _ _) (by rw [hcol]; exact hrec) hf hb hpos]
      · rw [y1 (by simpa using fun h => hjk h.symm) (by rw [hk]; simpa using fun h => hjk h.symm)]
  rw [hs, hents]

/-- **C109, colliders (exact arithmetic).** To write a linked collider back as it was read changes nothing at all, if the numbers of the entity and its colliders are finite (or masses
infinite) and the entity is where its colliders have put it. -/
theorem C109_write_partial (hr : Reachable s) {k c : Handle} {e : Entity XReal} {C : Collider XReal} {ord : IterOrder}
    (he : s.getEntity k = some e) (hc : s.getCollider c = some C) (hk : C.entity = some k) (hf : FinitePose e.lastOrientation)
    (hb : (∀ d ∈ linked s e, FiniteBody d) ∨ ∃ d ∈ linked s e, d.mass = posInf)
    (hpos : ((∀ d ∈ linked s e, FiniteBody d) ∧ Scalar.lt (fin 0) (massSum (linked s e)) = true) ∨
      e.lastOrientation.localOriginInWorld = e.position)
    {b : Bool} (h : s.exec ord (.updateCollider c C) = .ok (t, .ok b)) : t = s := by
  have hr2 := live_after hr h
  obtain ⟨E, hE, rfl⟩ := getEntity_iff.mp he
  rw [getCollider_eq] at hc
  rw [linked_eq] at hb hpos
  simp only [System.exec] at h
  obtain ⟨⟨u, b'⟩, hl, x⟩ := Res.bind_eq_ok.mp h
  simp only [Except.ok.injEq, Prod.mk.injEq, Out.ok.injEq] at x
  obtain ⟨rfl, rfl⟩ := x
  rcases System.updateCollider_spec hl with ⟨-, rfl, -⟩ | ⟨-, D, hD, -, h⟩ | ⟨-, D, D', hD, hu, h⟩
  · rfl
  · rw [hc] at hD; cases hD
    rw [hk] at h
    exact refresh_same hr hr2 hE h hf hb hpos
  · rw [hc] at hD; cases hD
    rw [updateFrom_self hu, hk, colliders_set_same hc] at h
    exact refresh_same hr hr2 hE h hf hb hpos

/-- **C109, colliders that belong to nobody.** To write such a collider back as it was read, or to unlink it once more, changes nothing at all. -/
theorem C109_free (hr : Reachable s) {c : Handle} {C : Collider XReal} {ord : IterOrder} (hc : s.getCollider c = some C) (hk : C.entity = none) {b : Bool}
    (h : s.exec ord (.updateCollider c C) = .ok (t, .ok b) ∨ s.exec ord (.linkCollider c none) = .ok (t, .ok b)) : t = s := by
  rw [getCollider_eq] at hc
  rcases h with h | h
  · simp only [System.exec] at h
    obtain ⟨⟨u, b'⟩, hl, x⟩ := Res.bind_eq_ok.mp h
    simp only [Except.ok.injEq, Prod.mk.injEq, Out.ok.injEq] at x
    obtain ⟨rfl, rfl⟩ := x
    rcases System.updateCollider_spec hl with ⟨-, rfl, -⟩ | ⟨-, D, hD, -, h⟩ | ⟨-, D, D', hD, hu, h⟩
    · rfl
    · rw [hc] at hD; cases hD
      rw [hk] at h
      simpa [System.refreshEntity] using h.symm
    · rw [hc] at hD; cases hD
      rw [updateFrom_self hu, hk, colliders_set_same hc] at h
      simpa [System.refreshEntity] using h.symm
  · simp only [System.exec] at h
    obtain ⟨⟨u, b'⟩, hl, x⟩ := Res.bind_eq_ok.mp h
    simp only [Except.ok.injEq, Prod.mk.injEq, Out.ok.injEq] at x
    obtain ⟨rfl, rfl⟩ := x
    rcases System.linkCollider_spec hr.inv hl with ⟨-, rfl, -⟩ | ⟨rfl, D, hD, -, hs, sh, all⟩
    · rfl
    rw [hc] at hD; cases hD
    rw [setEntity_same hk, colliders_set_same hc] at hs
    have hents : u.entities = s.entities := by
      refine Arena.ext_get sh fun j => ?_
      cases hj : s.entities.get j with
      | none =>
        have := sh.isSome j
        rw [hj] at this
        simpa using this
      | some X =>
        obtain ⟨Y, hY, y1, -, -⟩ := all j X hj
        rw [hY, y1 (by simp) (by rw [hk]; simp)]
    rw [hs, hents]

/-- `C109_link_partial` and `C109_write_partial` speak about something: a bar of mass 2 whose centre is 3 m off, on a body that has moved there. -/
theorem idle_bar : ∃ (s : Demo.Sys) (e : Entity XReal) (C : Collider XReal), Reachable s ∧ s.getEntity Demo.h0 = some e ∧ s.getCollider Demo.h0 = some C ∧ C.entity = some Demo.h0 ∧
    FinitePose e.lastOrientation ∧ (∀ d ∈ linked s e, FiniteBody d) ∧ Scalar.lt (fin 0) (massSum (linked s e)) = true ∧ e.lastOrientation.localOriginInWorld ≠ e.position ∧
    s.exec .id (.linkCollider Demo.h0 (some Demo.h0)) = .ok (s, .ok true) ∧ s.exec .id (.updateCollider Demo.h0 C) = .ok (s, .ok true) ∧
    ∀ k E, s.entities.get k = some E → E.neighbors = [] := by
  have hb : bar.newFrom = some bar := by simp [bar, Collider.newFrom, NullCollider.isValid]
  obtain ⟨s, t, E', hs, hex, ht, hE, hE', hC, hcol, hrec, hh, -⟩ := demo_link (γ := GravityGenerator XReal) hb
  have hnb : E'.neighbors = [] := (recalculateMass_massRel hrec).neighbors
  have hor : Demo.ballE.orientation = (⟨Vec3.o, Quat.e, Vec3.o⟩ : Orientation ℝ).f := by
    have := Orientation.f_new Vec3.o Vec3.o Vec3.o
    rw [Quat.exp_o] at this
    rw [← this]
    simp [Demo.ballE, Demo.ball, Entity.makeOrientation, Entity.new, Orientation.new]
  have hfound : found t.colliders [Demo.h0] = [bar.setEntity (some Demo.h0)] := by simp [found, hC]
  have hlump : List.Forall₂ Lump.Of [⟨2, ⟨3, 0, 0⟩, Mat3.diag ⟨1, 2, 3⟩⟩] (found t.colliders [Demo.h0]) := by
    rw [hfound]
    exact .cons ⟨rfl, rfl, rfl⟩ .nil
  have hcs : E'.colliders = [Demo.h0] := (recalculateMass_massRel hrec).colliders
  rw [recalculateMass_loose _ (by intro h hh; simp at hh; subst hh; exact ⟨_, hC⟩) (forall₂_infinite hlump)] at hrec
  injection hrec with hrec
  have r1 := (loose_real (e := { Demo.ballE with colliders := [Demo.h0] }) hor (by simp [Orientation.Unit]) hlump).1
  rw [hrec, show Lump.mean [⟨2, ⟨3, 0, 0⟩, Mat3.diag ⟨1, 2, 3⟩⟩] = ⟨3, 0, 0⟩ by (norm_num [Lump.mean, Lump.total]; ext <;> norm_num)] at r1
  have hu : (Orientation.recentered ⟨Vec3.o, Quat.e, Vec3.o⟩ ⟨3, 0, 0⟩ : Orientation ℝ).Unit := Orientation.recentered_unit (by simp [Orientation.Unit]) _
  have e1 : t.getEntity Demo.h0 = some E'.makePub := getEntity_iff.mpr ⟨_, hE', rfl⟩
  have e2 : t.getCollider Demo.h0 = some (bar.setEntity (some Demo.h0)) := by rw [getCollider_eq, hC]
  have e3 : FinitePose E'.makePub.lastOrientation := by
    show FinitePose E'.orientation
    rw [r1]; exact finitePose_f _
  have e4 : ∀ d ∈ linked t E'.makePub, FiniteBody d := by
    rw [linked_eq, hcs, hfound]
    simp [FiniteBody, bar, Collider.setEntity, Collider.mass, Collider.localCenterOfMass, Collider.momentOfInertia, Finite3, Mat3.f, Vec3.f, Scalar.isFinite]
  have e5 : Scalar.lt (fin 0) (massSum (linked t E'.makePub)) = true := by
    rw [linked_eq, hcs, massSum_lumps hlump]
    norm_num [Lump.total]
  have e6 : E'.makePub.lastOrientation.localOriginInWorld ≠ E'.makePub.position := by
    show E'.orientation.localOriginInWorld ≠ E'.orientation.position
    rw [r1, Orientation.localOriginInWorld, Vec3.f_zeros, Orientation.f_positionIntoWorld _ _ hu, Orientation.f_position, Ne, Vec3.f_inj]
    intro h
    have := congrArg Vec3.x h
    simp only [Orientation.toWorld, Orientation.recentered, Quat.rot_e] at this
    norm_num at this
  have e7 : (bar.setEntity (some Demo.h0)).entity = some Demo.h0 := rfl
  obtain ⟨u, b, hu1, hb1, -⟩ := C10_link_collider ht .id Demo.h0 (some Demo.h0)
  have x1 : t.exec .id (.linkCollider Demo.h0 (some Demo.h0)) = .ok (u, .ok b) := by simp only [System.exec, hu1]; rfl
  obtain ⟨hbu, hut⟩ := C109_link_partial ht e1 e2 e7 e3 (Or.inl e4) (Or.inl ⟨e4, e5⟩) x1
  rw [hbu, hut] at x1
  obtain ⟨v, b, hv1, hb2, -⟩ := C07_update_collider ht .id Demo.h0 (bar.setEntity (some Demo.h0))
  have x2 : t.exec .id (.updateCollider Demo.h0 (bar.setEntity (some Demo.h0))) = .ok (v, .ok b) := by simp only [System.exec, hv1]; rfl
  have hbt : b = true := hb2.mpr ⟨_, e2, rfl, by simp [ValidCollider, bar, Collider.setEntity]⟩
  rw [C109_write_partial ht e1 e2 e7 e3 (Or.inl e4) (Or.inl ⟨e4, e5⟩) x2, hbt] at x2
  refine ⟨_, _, _, ht, e1, e2, e7, e3, e4, e5, e6, x1, x2, fun k E hk => ?_⟩
  have : k ∈ t.entities.handles := Arena.mem_handles.mpr ⟨_, hk⟩
  rw [hh, List.mem_singleton] at this
  subst this
  rw [hE'] at hk; cases hk
  exact hnb
end

section
open F32 Demo
variable [Libm]

/-- A body with two balls, of the masses 2 and 3. -/
def wobbly : List (Op F32 (GravityGenerator F32)) :=
  [.addEntity (thing (num 1) (vec (-3) 0 0) (vec 0 0 0)), .addCollider (ball (vec 3 0 0) (num 1) (num 2) (num 0)), .linkCollider h0 (some h0),
   .addCollider (ball (vec 6 0 0) (num 1) (num 3) (num 0)), .linkCollider h1 (some h0)]

/-- The system with the two balls. -/
def wobbling : Res (System F32 (GravityGenerator F32)) :=
  (play (plain wobbly) (System.new : System F32 (GravityGenerator F32))).bind fun r => .ok r.1

/-- The first ball is linked where it is. -/
def relinked (s : System F32 (GravityGenerator F32)) : Res (System F32 (GravityGenerator F32) × Out (GravityGenerator F32)) := s.exec .id (putOn h0 h0)
/-- The first ball is written back as it was read. -/
def rewritten (s : System F32 (GravityGenerator F32)) : Res (System F32 (GravityGenerator F32) × Out (GravityGenerator F32)) :=
  match s.getCollider h0 with
  | some C => s.exec .id (.updateCollider h0 C)
  | none => .error .unwrapNone
/-- The body is written back as it was read. -/
def resaved (s : System F32 (GravityGenerator F32)) : Res (System F32 (GravityGenerator F32) × Out (GravityGenerator F32)) :=
  match s.getEntity h0 with
  | some e => s.exec .id (.updateEntity h0 e)
  | none => .error .unwrapNone

theorem wobbly_there : (wobbling.test fun s => placedAt s h0 (7549747 / 4194304) && ((s.getCollider h0).map fun C => C.entity) == some (some h0) &&
    (relinked s).test fun a => (match a.2 with | .ok t => t | _ => false) && placedAt a.1 h0 (15099491 / 8388608)) = true := by kernel_refl
theorem wobbly_back : (wobbling.bind fun s => (relinked s).bind fun a => relinked a.1) = wobbling.bind fun s => .ok (s, .ok true) := by kernel_refl
theorem wobbly_write : wobbling.bind rewritten = wobbling.bind relinked := by kernel_refl
theorem wobbly_write_back : (wobbling.bind fun s => (relinked s).bind fun a => rewritten a.1) = wobbling.bind fun s => .ok (s, .ok true) := by kernel_refl
theorem wobbly_save : wobbling.bind resaved = wobbling.bind relinked := by kernel_refl
theorem wobbly_save_back : (wobbling.bind fun s => (relinked s).bind fun a => resaved a.1) = wobbling.bind fun s => .ok (s, .ok true) := by kernel_refl

/-- **C109 is false** in binary32: there is a body with two balls, and two different states of the system, such that to link the first ball where it is already, to write it back as it was
read, and to write the body back as it was read, all lead from the first state to the second and from the second back to the first.  So the body jumps to and fro as long as one does so. -/
theorem C109_false : ∃ (s1 s2 : System F32 (GravityGenerator F32)) (e1 e2 : Entity F32) (C1 C2 : Collider F32), Reachable s1 ∧
    s1.getEntity h0 = some e1 ∧ s2.getEntity h0 = some e2 ∧ Val e1.position.x (7549747 / 4194304) ∧ Val e2.position.x (15099491 / 8388608) ∧
    s1.getCollider h0 = some C1 ∧ s2.getCollider h0 = some C2 ∧ C1.entity = some h0 ∧ 
    s1.exec .id (.linkCollider h0 (some h0)) = .ok (s2, .ok true) ∧ s2.exec .id (.linkCollider h0 (some h0)) = .ok (s1, .ok true) ∧
    s1.exec .id (.updateCollider h0 C1) = .ok (s2, .ok true) ∧ s2.exec .id (.updateCollider h0 C2) = .ok (s1, .ok true) ∧
    s1.exec .id (.updateEntity h0 e1) = .ok (s2, .ok true) ∧ s2.exec .id (.updateEntity h0 e2) = .ok (s1, .ok true) := by
  obtain ⟨s1, hw, h⟩ := Res.of_test wobbly_there
  simp only [Bool.and_eq_true] at h
  obtain ⟨⟨hp, hC⟩, h⟩ := h
  obtain ⟨⟨s2, y⟩, hl, h⟩ := Res.of_test h
  simp only [Bool.and_eq_true] at h
  obtain ⟨hy, hq⟩ := h
  have ey : y = .ok true := by split at hy; · subst hy; rfl
                               · cases hy
  subst ey
  simp only [beq_iff_eq, Option.map_eq_some_iff] at hC
  obtain ⟨C1, hC, hC'⟩ := hC
  obtain ⟨e1, hp, hp'⟩ := placedAt_iff hp
  obtain ⟨e2, hq, hq'⟩ := placedAt_iff hq
  have b := @wobbly_back _
  have w := @wobbly_write _
  have wb := @wobbly_write_back _
  have v := @wobbly_save _
  have vb := @wobbly_save_back _
  simp only [hw, Except.bind, hl] at b w wb v vb
  have hr : Reachable s1 := by
    unfold wobbling at hw
    obtain ⟨⟨a, o⟩, ha, hb⟩ := Res.bind_eq_ok.mp hw
    cases hb
    exact play_reachable ha
  unfold rewritten at w wb
  unfold resaved at v vb
  rw [hC] at w
  rw [hp] at v
  rw [hq] at vb
  split at wb
  · rename_i C2 hC2
    exact ⟨s1, s2, e1, e2, C1, C2, hr, hp, hq, hp', hq', hC, hC2, hC', hl, b, w, wb, v, vb⟩
  · cases wb
end
end Fluffy.Props
