import Verif.Props.Idle
import Verif.Props.Jam
/-
C110: an entity is put where update_entity says, and to say it twice is to say it once.
-/
set_option linter.unusedSectionVars false
set_option linter.unusedSimpArgs false
namespace Fluffy.Props
open Fluffy InternalEntity

section
open XReal Step
variable {γ : Type} [ForceGenerator XReal γ] {s t : System XReal γ}

/-- The centre of mass of the entity is where its finite colliders of a positive mass have put it, or at the origin of its local space. -/
def Seated (s : System XReal γ) (e : Entity XReal) : Prop :=
  ((∀ d ∈ linked s e, FiniteBody d) ∧ Scalar.lt (fin 0) (massSum (linked s e)) = true) ∨ e.lastOrientation.localOriginInWorld = e.position

theorem offset_seated {o : Orientation ℝ} (hu : o.Unit) : o.f.localOriginInWorld = o.f.position ↔ o.internalOriginOffset = -Vec3.o := by
  rw [Orientation.localOriginInWorld, Vec3.f_zeros, Orientation.f_positionIntoWorld _ _ hu, Orientation.f_position, Vec3.f_inj]
  constructor
  · intro h
    have h0 : o.rotation.rot o.internalOriginOffset = Vec3.o := by
      simp only [Orientation.toWorld, Vec3.o_add, Vec3.ext_iff, Vec3.add_x, Vec3.add_y, Vec3.add_z] at h ⊢
      exact ⟨by simpa using h.1, by simpa using h.2.1, by simpa using h.2.2⟩
    have h3 := Quat.rot_conj_rot o.internalOriginOffset hu
    rw [h0] at h3
    rw [← h3]
    ext <;> simp [Quat.rot]
  · intro h
    rw [Orientation.toWorld, h]
    ext <;> simp [Quat.rot]

/-- What a successful update leaves in the entity that is updated. -/
theorem seated_update (hr : Reachable s) {k : Handle} {p x : Entity XReal} {ord : IterOrder} (hp : s.getEntity k = some p) (hf : FinitePose p.lastOrientation)
    (hb : (∀ d ∈ linked s p, FiniteBody d) ∨ ∃ d ∈ linked s p, d.mass = posInf) (hs : Seated s p) (hx : Finite3 x.position) (hx' : Finite3 x.rotation)
    (h : s.exec ord (.updateEntity k x) = .ok (t, .ok true)) :
    ∃ Z, t.entities.get k = some Z ∧ Z.ownMass = x.ownMass ∧ Z.velocity = x.velocity ∧ Z.angularVelocity = x.angularVelocity ∧
      Z.orientation = ⟨x.position, Quat.fromScaledAxis x.rotation, p.lastOrientation.internalOriginOffset⟩ ∧ t.colliders = s.colliders ∧ Z.colliders = p.colliders := by
  obtain ⟨E, hE, rfl⟩ := getEntity_iff.mp hp
  unfold Seated at hs
  rw [linked_eq] at hb hs
  obtain ⟨o, ho, hu⟩ := reachable_unit hr hE hf
  obtain ⟨a, ha⟩ := hx.f
  obtain ⟨r, hr'⟩ := hx'.f
  simp only [System.exec] at h
  obtain ⟨⟨v, b'⟩, hl, y⟩ := Res.bind_eq_ok.mp h
  simp only [Except.ok.injEq, Prod.mk.injEq, Out.ok.injEq] at y
  obtain ⟨rfl, rfl⟩ := y
  rcases System.updateEntity_spec hl with ⟨hc, -⟩ | ⟨-, E', E1, E2, w, hE', hup, hrm, hw⟩
  · cases hc
  rw [hE] at hE'; cases hE'
  obtain ⟨-, -, hE1⟩ := System.updateFrom_fields hup
  have m := recalculateMass_massRel hrm
  have hcs : E1.colliders = E.colliders := by rw [hE1]
  let n : Orientation ℝ := ⟨a, Quat.exp r, o.internalOriginOffset⟩
  have hn : E1.orientation = n.f := by rw [hE1, ho, ha, hr', Quat.f_fromScaledAxis]; rfl
  have hnu : n.Unit := Quat.exp_normSq r
  have hp2 : (ord.colliders k E1.colliders).Perm E.colliders := hcs ▸ ord.colliders_perm _ _
  have hlive := live_of_inv hr.inv hE hp2
  have f2 : (found s.colliders (ord.colliders k E1.colliders)).Perm (found s.colliders E.colliders) := hp2.filterMap _
  have hzero : E.orientation.localOriginInWorld = E.orientation.position → n.internalOriginOffset = -Vec3.o := by
    rw [ho]; exact (offset_seated hu).mp
  have hor : E2.orientation = n.f := by
    rcases hb with hb | ⟨d, hd, hm⟩
    · obtain ⟨ls, hls⟩ := lumps hb
      have hni : ∀ d ∈ found s.colliders (ord.colliders k E1.colliders), Scalar.isInfinite d.mass = false :=
        fun d hd => forall₂_infinite hls d (f2.mem_iff.mp hd)
      rw [recalculateMass_loose _ hlive hni, loose_perm _ f2] at hrm
      injection hrm with hrm
      rw [← hrm, (loose_real hn hnu hls).1]
      by_cases hM : 0 < Lump.total ls
      · rw [recentered_self (show n.internalOriginOffset = _ from (stored_real hr hE ho hls).1 hM)]
      · rcases hs with ⟨-, hp⟩ | hp
        · rw [massSum_lumps hls] at hp
          exact absurd (by simpa using hp) hM
        · rw [show Lump.mean ls = Vec3.o by rw [Lump.mean, if_neg hM], recentered_self (hzero hp)]
    · have hp : E.orientation.localOriginInWorld = E.orientation.position := by
        rcases hs with ⟨hp, -⟩ | hp
        · have := (hp d hd).1
          rw [hm] at this; cases this
        · exact hp
      rw [recalculateMass_infinite _ hlive ⟨d, f2.mem_iff.mpr hd, by rw [hm]; rfl⟩] at hrm
      injection hrm with hrm
      rw [← hrm, (fixed_real hn).1, recentered_self (hzero hp)]
  have hall : E2.ownMass = x.ownMass ∧ E2.velocity = x.velocity ∧ E2.angularVelocity = x.angularVelocity ∧
      E2.orientation = ⟨x.position, Quat.fromScaledAxis x.rotation, E.orientation.internalOriginOffset⟩ ∧ E2.colliders = E.colliders :=
    ⟨by rw [m.ownMass, hE1], by rw [m, hE1], by rw [m, hE1], by rw [hor, ha, hr', ho, Quat.f_fromScaledAxis]; rfl, by rw [m.colliders, hcs]⟩
  have hset : (s.entities.set k E2).get k = some E2 := by simp [Arena.get_set, hE]
  rcases hw with ⟨-, rfl⟩ | ⟨-, b, d, hwk, rfl⟩
  · exact ⟨E2, hset, hall.1, hall.2.1, hall.2.2.1, hall.2.2.2.1, rfl, hall.2.2.2.2⟩
  · obtain ⟨Z, hZ, hrel⟩ := (wakeUp_spec hwk).1.get hset
    refine ⟨Z, hZ, ?_⟩
    rw [hrel]
    exact ⟨hall.1, hall.2.1, hall.2.2.1, hall.2.2.2.1, rfl, hall.2.2.2.2⟩

/-- **C110, the place (exact arithmetic).** A body whose centre of mass is where it belongs and that `update_entity` accepts is afterwards at the position, in the orientation and with the
velocities that were asked for: the recalculation that follows does not move it, whatever its colliders are.  Missing from C110: arithmetic with rounding, and copies of bodies, see
`C110_rounding_false` and `C110_false`. -/
theorem C110_place_partial (hr : Reachable s) {k : Handle} {p x : Entity XReal} {ord : IterOrder} (hp : s.getEntity k = some p) (hf : FinitePose p.lastOrientation)
    (hb : (∀ d ∈ linked s p, FiniteBody d) ∨ ∃ d ∈ linked s p, d.mass = posInf) (hs : Seated s p) (hx : Finite3 x.position) (hx' : Finite3 x.rotation)
    (h : s.exec ord (.updateEntity k x) = .ok (t, .ok true)) :
    ∃ q, t.getEntity k = some q ∧ q.position = x.position ∧ q.lastOrientation = Orientation.new x.position x.rotation p.lastOrientation.internalOriginOffset ∧
      q.velocity = x.velocity ∧ q.angularVelocity = x.angularVelocity ∧ q.ownMass = x.ownMass := by
  obtain ⟨Z, hZ, z1, z2, z3, z4, -, -⟩ := seated_update hr hp hf hb hs hx hx' h
  refine ⟨Z.makePub, getEntity_iff.mpr ⟨_, hZ, rfl⟩, ?_, ?_, z2, z3, z1⟩
  · show Z.orientation.position = _
    rw [z4]
  · show Z.orientation = _
    rw [z4]; rfl

/-- **C110, twice (exact arithmetic).** To make the same `update_entity` call once more, with nothing in between, changes nothing at all: no value of any entity, nobody's sleep, nobody's
neighbours and nothing in the debug list. -/
theorem C110_twice_partial (hr : Reachable s) {k : Handle} {p x : Entity XReal} {ord ord' : IterOrder} (hp : s.getEntity k = some p) (hf : FinitePose p.lastOrientation)
    (hb : (∀ d ∈ linked s p, FiniteBody d) ∨ ∃ d ∈ linked s p, d.mass = posInf) (hs : Seated s p) (hx : Finite3 x.position) (hx' : Finite3 x.rotation)
    (hv : Finite3 x.velocity) (hv' : Finite3 x.angularVelocity) (hm : x.ownMass ≠ nan) (h : s.exec ord (.updateEntity k x) = .ok (t, .ok true)) :
    t.exec ord' (.updateEntity k x) = .ok (t, .ok true) := by
  have hr1 := live_after hr h
  obtain ⟨Z, hZ, z1, z2, z3, z4, hcol, hcs⟩ := seated_update hr hp hf hb hs hx hx' h
  obtain ⟨E, hE, rfl⟩ := getEntity_iff.mp hp
  obtain ⟨o, ho, hu⟩ := reachable_unit hr hE hf
  obtain ⟨a, ha⟩ := hx.f
  obtain ⟨r, hr'⟩ := hx'.f
  obtain ⟨v, hv⟩ := hv.f
  obtain ⟨w, hw⟩ := hv'.f
  unfold Seated at hs
  rw [linked_eq] at hb hs
  have hcs : Z.colliders = E.colliders := hcs
  have z5 : Z.orientation = (⟨a, Quat.exp r, o.internalOriginOffset⟩ : Orientation ℝ).f := by
    rw [z4, ha, hr', Quat.f_fromScaledAxis]
    show (⟨_, _, E.orientation.internalOriginOffset⟩ : Orientation XReal) = _
    rw [ho]; rfl
  have hzu : (⟨a, Quat.exp r, o.internalOriginOffset⟩ : Orientation ℝ).Unit := Quat.exp_normSq r
  have hfound : found t.colliders Z.colliders = found s.colliders E.colliders := by rw [hcol, hcs]
  have hse : ((∀ d ∈ found t.colliders Z.colliders, FiniteBody d) ∧ Scalar.lt (fin 0) (massSum (found t.colliders Z.colliders)) = true) ∨
      Z.orientation.localOriginInWorld = Z.orientation.position := by
    rw [hfound]
    rcases hs with hs | hs
    · exact Or.inl hs
    · refine Or.inr ?_
      have hs : E.orientation.localOriginInWorld = E.orientation.position := hs
      rw [ho, offset_seated hu] at hs
      rw [z5, offset_seated hzu]
      exact hs
  have hch : Z.changed x = false := by
    have := (changed_iff (e := Z) (src := x) (a := ⟨a, Quat.exp r, v, w⟩) (b := ⟨a, Quat.exp r, v, w⟩)
      ⟨by rw [z5]; rfl, by rw [z5]; rfl, by rw [z2, hv], by rw [z3, hw]⟩ ⟨ha, ⟨r, hr', rfl⟩, hv, hw⟩ hm).not
    rw [Bool.not_eq_true] at this
    refine this.mpr ?_
    have hz : ∀ v : Vec3 ℝ, (v - v).len = 0 := fun v => by rw [Vec3.sub_self']; simp [Vec3.len]
    have hg : ∀ q : Quat ℝ, Quat.gap q q = 0 := fun q => by simp [Quat.gap]
    simp only [z1, Situation.Apart, hz, hg]
    norm_num
  obtain ⟨⟨u', b'⟩, hl⟩ := (updateEntity_unless ord' hr1.inv k x).1 (by
    rintro ⟨⟨E0, E1, g, hup⟩, -⟩
    rw [hZ] at g; cases g
    have := (System.updateFrom_fields hup).2.1
    rw [hch] at this; cases this)
  have h' : t.exec ord' (.updateEntity k x) = .ok (u', .ok b') := by simp only [System.exec, hl]; rfl
  have hr2 := live_after hr1 h'
  rcases System.updateEntity_spec hl with ⟨-, -, hno⟩ | ⟨rfl, E', E1, E2, c, hE', hup, hrm, hw'⟩
  · exfalso
    have h0 := hno Z hZ
    simp only [System.exec] at h
    obtain ⟨⟨t', b''⟩, hl', y'⟩ := Res.bind_eq_ok.mp h
    simp only [Except.ok.injEq, Prod.mk.injEq, Out.ok.injEq] at y'
    obtain ⟨-, rfl⟩ := y'
    rcases System.updateEntity_spec hl' with ⟨hc, -⟩ | ⟨-, X, X1, X2, c, -, hup, -, -⟩
    · cases hc
    have hlt := (System.updateFrom_fields hup).1
    unfold InternalEntity.updateFrom at h0
    rw [hlt] at h0
    simp at h0
  rw [hZ] at hE'; cases hE'
  obtain ⟨-, hc, hE1⟩ := System.updateFrom_fields hup
  have hE1 : E1 = Z := by
    have : ({ Z.orientation with position := x.position, rotation := Quat.fromScaledAxis x.rotation } : Orientation XReal) = Z.orientation := by rw [z4]
    rw [hE1, this, ← z1, ← z2, ← z3]
  subst hE1
  rw [hch] at hc
  subst hc
  rcases hw' with ⟨-, hu'⟩ | ⟨hc, -⟩
  · have hcol' : u'.colliders = t.colliders := by rw [hu']
    have hent : u'.entities = t.entities.set k E2 := by rw [hu']
    have := recalculated_same hr1 hr2 hZ (Z := E2) (by rw [hent]; simp [Arena.get_set, hZ]) hcol' (ord'.colliders_perm _ _) (by rw [hcol']; exact hrm)
      (by rw [z5]; exact finitePose_f _) (by rw [hfound]; exact hb) hse
    rw [h', hu', this]
    have : t.entities.set k E1 = t.entities := by
      refine Arena.ext_get (Arena.sameShape_set _ _ _) fun j => ?_
      rw [Arena.get_set]
      split
      · rename_i h; subst h; simp [hZ]
      · rfl
    rw [this]
  · cases hc

/-- `C110_place_partial` and `C110_twice_partial` speak about something: a body with a bar of mass 2 whose centre is 3 m off is put somewhere else, once and twice. -/
example (x : Entity XReal) (hx : Finite3 x.position) (hx' : Finite3 x.rotation) (hv : Finite3 x.velocity) (hv' : Finite3 x.angularVelocity) (hm : x.ownMass = fin 1) :
    ∃ (s t : Demo.Sys) (p q : Entity XReal), Reachable s ∧ s.getEntity Demo.h0 = some p ∧ p.lastOrientation.localOriginInWorld ≠ p.position ∧
    s.exec .id (.updateEntity Demo.h0 x) = .ok (t, .ok true) ∧ t.exec .id (.updateEntity Demo.h0 x) = .ok (t, .ok true) ∧
    t.getEntity Demo.h0 = some q ∧ q.position = x.position ∧ q.lastOrientation.internalOriginOffset = p.lastOrientation.internalOriginOffset := by
  obtain ⟨s, p, C, hr, hp, -, -, hf, hb, hpos, hne, -, -, hn⟩ := idle_bar
  have hlt : Scalar.lt x.ownMass zero = false := by rw [hm, zero_eq]; simp
  have go : ∃ t, s.exec .id (.updateEntity Demo.h0 x) = .ok (t, .ok true) := by
    obtain ⟨⟨t, b⟩, h⟩ := (updateEntity_unless .id hr.inv Demo.h0 x).1 (by
      rintro ⟨-, k, e, n, -, hk, hmem, -⟩
      rw [hn k e hk] at hmem
      cases hmem)
    obtain ⟨E, hE, rfl⟩ := getEntity_iff.mp hp
    rcases System.updateEntity_spec h with ⟨-, -, hno⟩ | ⟨rfl, -⟩
    · exfalso
      have := hno E hE
      rw [InternalEntity.updateFrom, hlt] at this
      simp at this
    · exact ⟨t, by simp only [System.exec, h]; rfl⟩
  obtain ⟨t, ht⟩ := go
  obtain ⟨q, hq, q1, q2, -⟩ := C110_place_partial hr hp hf (Or.inl hb) (Or.inl ⟨hb, hpos⟩) hx hx' ht
  have hu := C110_twice_partial (ord' := .id) hr hp hf (Or.inl hb) (Or.inl ⟨hb, hpos⟩) hx hx' hv hv' (by rw [hm]; simp) ht
  exact ⟨s, _, p, q, hr, hp, hne, ht, hu, hq, q1, by rw [q2]; rfl⟩
end

section
open F32 Demo
variable [Libm]

/-- **C110 is false** for a body that was added as a copy of another one: `add_entity` keeps the origin offset of the copied body, but not its colliders.  The copy of a body whose ball
sits one metre off is at 1; when it is written back as it was read it jumps to 0, and when the same values are written once more it is at 1 again. -/
theorem C110_false : ∃ (s0 s s1 s2 : System F32 (GravityGenerator F32)) (e p q r : Entity F32), Reachable s0 ∧ s0.getEntity h0 = some e ∧
    s0.exec .id (.addEntity e) = .ok (s, .entity (some h1)) ∧ s.getEntity h1 = some p ∧ p.colliders = [] ∧
    s.exec .id (.updateEntity h1 p) = .ok (s1, .ok true) ∧ s1.exec .id (.updateEntity h1 p) = .ok (s2, .ok true) ∧
    s1.getEntity h1 = some q ∧ s2.getEntity h1 = some r ∧ Val p.position.x 1 ∧ Val q.position.x 0 ∧ Val r.position.x 1 := by
  have h : ((play (plain lopsided) (System.new : System F32 (GravityGenerator F32))).test fun r =>
    match r.1.getEntity h0 with
    | none => false
    | some e => (r.1.exec .id (.addEntity e)).test fun a => (match a.2 with | .entity (some k) => k == h1 | _ => false) &&
      match a.1.getEntity h1 with
      | none => false
      | some p => p.colliders == [] && valued p.position.x 1 &&
        (a.1.exec .id (.updateEntity h1 p)).test fun b => (match b.2 with | .ok t => t | _ => false) && placedAt b.1 h1 0 &&
        (b.1.exec .id (.updateEntity h1 p)).test fun c => (match c.2 with | .ok t => t | _ => false) && placedAt c.1 h1 1) = true := by kernel_refl
  obtain ⟨⟨s0, outs⟩, hplay, h⟩ := Res.of_test h
  simp only at h
  split at h
  · cases h
  rename_i e he
  obtain ⟨⟨s, x⟩, hs, h⟩ := Res.of_test h
  simp only [Bool.and_eq_true] at h
  obtain ⟨hx, h⟩ := h
  split at h
  · cases h
  rename_i p hp
  simp only [Bool.and_eq_true] at h
  obtain ⟨⟨hc, hv⟩, h⟩ := h
  obtain ⟨⟨s1, y⟩, hs1, h⟩ := Res.of_test h
  simp only [Bool.and_eq_true] at h
  obtain ⟨⟨hy, hq⟩, h⟩ := h
  obtain ⟨⟨s2, z⟩, hs2, h⟩ := Res.of_test h
  simp only [Bool.and_eq_true] at h
  obtain ⟨hz, hr⟩ := h
  have ex : x = .entity (some h1) := by
    split at hx
    · rw [beq_iff_eq] at hx; subst hx; rfl
    · cases hx
  have ey : y = .ok true := by split at hy; · subst hy; rfl
                               · cases hy
  have ez : z = .ok true := by split at hz; · subst hz; rfl
                               · cases hz
  subst ex ey ez
  obtain ⟨q, hq, hq'⟩ := placedAt_iff hq
  obtain ⟨r, hr, hr'⟩ := placedAt_iff hr
  exact ⟨s0, s, s1, s2, e, p, q, r, play_reachable hplay, he, hs, hp, by simpa using hc, hs1, hs2, hq, hr, valued_iff.mp hv, hq', hr'⟩

/-- **C110 is false** in binary32 because of rounding: there is a body with two balls that is put at the place where it is, with all the values that it has, and is afterwards elsewhere. -/
theorem C110_rounding_false : ∃ (s t : System F32 (GravityGenerator F32)) (p q : Entity F32), Reachable s ∧ s.getEntity h0 = some p ∧
    s.exec .id (.updateEntity h0 p) = .ok (t, .ok true) ∧ t.getEntity h0 = some q ∧ Val p.position.x (7549747 / 4194304) ∧ Val q.position.x (15099491 / 8388608) := by
  obtain ⟨s, t, p, q, -, -, hr, hp, hq, hp', hq', -, -, -, -, -, -, -, h, -⟩ := C109_false
  exact ⟨s, t, p, q, hr, hp, h, hq, hp', hq'⟩
end
end Fluffy.Props
