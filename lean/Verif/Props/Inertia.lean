import Verif.Props.Mass
import Verif.Props.Response
import Verif.Props.Demo
/- C16 to C19 and the infinite-mass part of C36: order independence, inertia, energy. -/
set_option linter.unusedSectionVars false
set_option linter.unusedSimpArgs false
namespace Fluffy.Props
open Fluffy XReal InternalEntity Step

section
variable {γ : Type} [ForceGenerator XReal γ] {s s' : System XReal γ}

/-! ### C16 -/

theorem refresh_order (ord ord' : IterOrder) (s : System XReal γ) (eh : Option Handle)
    (hl : ∀ k E, eh = some k → s.entities.get k = some E → ∀ c ∈ E.colliders, ∃ C, s.colliders.get c = some C) :
    s.refreshEntity ord eh = s.refreshEntity ord' eh := by
  unfold System.refreshEntity
  cases eh with
  | none => rfl
  | some k =>
    simp only
    cases hE : s.entities.get k with
    | none => rfl
    | some E =>
      simp only
      rw [recalculateMass_perm E ((ord.colliders_perm k _).trans (ord'.colliders_perm k _).symm)
        (fun c hc => hl k E rfl hE c ((ord.colliders_perm k _).mem_iff.mp hc))]

theorem unlink_order (ord ord' : IterOrder) (s : System XReal γ) (ch : Handle) (prior : Option Handle)
    (hl : ∀ k E, prior = some k → s.entities.get k = some E → ∀ c ∈ hsRemove E.colliders ch, ∃ C, s.colliders.get c = some C) :
    s.unlinkPrior ord ch prior = s.unlinkPrior ord' ch prior := by
  unfold System.unlinkPrior
  cases prior with
  | none => rfl
  | some k =>
    simp only
    cases hE : s.entities.get k with
    | none => rfl
    | some E =>
      simp only
      rw [recalculateMass_perm _ ((ord.colliders_perm k _).trans (ord'.colliders_perm k _).symm)
        (fun c hc => hl k E rfl hE c ((ord.colliders_perm k _).mem_iff.mp hc))]

theorem live_colliders (inv : System.Inv s) {k : Handle} {E : InternalEntity XReal} (hE : s.entities.get k = some E) :
    ∀ c ∈ E.colliders, ∃ C, s.colliders.get c = some C := live_of_inv inv hE (List.Perm.refl _)

theorem live_set {cs : Arena (Collider XReal)} {h c : Handle} {C : Collider XReal} (hc : ∃ D, cs.get c = some D) :
    ∃ D, (cs.set h C).get c = some D := by
  obtain ⟨D, hD⟩ := hc
  rw [Arena.get_set]
  split
  · rename_i h; subst h; rw [hD]; exact ⟨_, rfl⟩
  · exact ⟨D, hD⟩

theorem switch_order (ord ord' : IterOrder) (s : System XReal γ) (ch : Handle) (eh : Option Handle)
    (hl : ∀ k E, (eh ≠ some k) → s.entities.get k = some E → ∀ c ∈ E.colliders, ∃ C, s.colliders.get c = some C) :
    s.switchLink ord ch eh = s.switchLink ord' ch eh := by
  unfold System.switchLink
  cases hC : s.colliders.get ch with
  | none => rfl
  | some C =>
    simp only
    by_cases h : C.entity = eh
    · simp [h]
    · simp only [ne_eq, h, not_false_eq_true, if_true]
      rw [unlink_order ord ord']
      intro k E hk hE c hc
      exact live_set (hl k E (by rw [← hk]; exact fun h' => h h'.symm) hE c (mem_hsRemove.mp hc).1)

/-- **C16.** A call on colliders has the same outcome, the same system in every detail, whatever the iteration order of
the hash sets of colliders.  No number has to be finite. -/
theorem C16_order_independent (hr : Reachable s) (ord ord' : IterOrder) {op : Op XReal γ} (hop : System.ColliderOp op) :
    s.exec ord op = s.exec ord' op := by
  have inv := hr.inv
  cases op with
  | addCollider c => rfl
  | removeCollider h => rfl
  | updateCollider h c =>
    simp only [System.exec]
    unfold System.updateCollider
    cases hC : s.colliders.get h with
    | none => rfl
    | some C =>
      simp only
      cases hu : C.updateFrom c with
      | wrongType => rfl
      | invalid =>
        simp only
        rw [refresh_order ord ord' s _ (fun k E _ hE => live_colliders inv hE)]
      | updated D =>
        simp only
        rw [refresh_order ord ord' { s with colliders := s.colliders.set h D } C.entity
          (fun k E _ hE x hx => live_set (live_colliders inv hE x hx))]
  | linkCollider c e =>
    simp only [System.exec]
    unfold System.linkCollider
    cases hc : s.colliders.contains c with
    | false => rfl
    | true =>
      simp only [Bool.not_true, Bool.false_eq_true, if_false]
      cases e with
      | none =>
        simp only
        rw [switch_order ord ord' s c none (fun k E _ hE => live_colliders inv hE)]
      | some h =>
        simp only
        cases hE : s.entities.get h with
        | none => rfl
        | some E =>
          simp only
          have hlive : ∀ x ∈ hsInsert E.colliders c, ∃ C, s.colliders.get x = some C := by
            intro x hx
            rcases mem_hsInsert.mp hx with hx | rfl
            · exact live_colliders inv hE x hx
            · rw [Arena.contains] at hc
              exact Option.isSome_iff_exists.mp hc
          rw [recalculateMass_perm _ ((ord.colliders_perm h _).trans (ord'.colliders_perm h _).symm)
            (fun x hx => hlive x ((ord.colliders_perm h _).mem_iff.mp hx))]
          congr 1
          cases recalculateMass (ord'.colliders h (hsInsert E.colliders c)) s.colliders
              { E with colliders := hsInsert E.colliders c } with
          | error p => rfl
          | ok F =>
            simp only [Res.ok_bind]
            apply switch_order
            intro k G hk hG
            rw [Arena.get_set, if_neg (fun h' => hk (by rw [h']))] at hG
            exact live_colliders inv hG
  | addEntity e => cases hop
  | removeEntity h => cases hop
  | updateEntity h e => cases hop
  | addGenerator g => cases hop
  | removeGenerator h => cases hop
  | step dt => cases hop
  | configure n e t rs d => cases hop

/-- **C16 (`update_entity`).** The mass data `update_entity` leaves do not depend on the iteration orders. -/
theorem C16_update_entity (hr : Reachable s) {ord ord' : IterOrder} {h : Handle} {src : Entity XReal}
    {t t' : System XReal γ} (hh : s.updateEntity ord h src = .ok (t, true))
    (hh' : s.updateEntity ord' h src = .ok (t', true)) :
    ∃ e e', t.getEntity h = some e ∧ t'.getEntity h = some e' ∧ e'.lastTotalMass = e.lastTotalMass ∧
      e'.position = e.position ∧ e'.lastOrientation = e.lastOrientation ∧ e'.lastPreppedMoment = e.lastPreppedMoment := by
  have inv := hr.inv
  have key : ∀ {ord : IterOrder} {t : System XReal γ}, s.updateEntity ord h src = .ok (t, true) →
      ∃ E E1 E2 w F, s.entities.get h = some E ∧ E.updateFrom src = some (E1, w) ∧
        recalculateMass (ord.colliders h E1.colliders) s.colliders E1 = .ok E2 ∧ t.entities.get h = some F ∧
        F.orientation = E2.orientation ∧ F.totalMass = E2.totalMass ∧ F.preppedMoment = E2.preppedMoment := by
    intro ord t hh
    rcases System.updateEntity_spec hh with ⟨hb, -⟩ | ⟨-, E, E1, E2, w, hE, hu, hm, hw⟩
    · cases hb
    · have hg : (s.entities.set h E2).get h = some E2 := by rw [Arena.get_set, if_pos rfl, hE]; rfl
      rcases hw with ⟨-, rfl⟩ | ⟨-, a, d, hwk, rfl⟩
      · exact ⟨E, E1, E2, w, E2, hE, hu, hm, hg, rfl, rfl, rfl⟩
      · obtain ⟨F, hF, hwr⟩ := (wakeUp_spec hwk).1.get hg
        unfold WakeRel at hwr
        exact ⟨E, E1, E2, w, F, hE, hu, hm, hF, by rw [hwr], by rw [hwr], by rw [hwr]⟩
  obtain ⟨E, E1, E2, w, F, hE, hu, hm, hF, f1, f2, f3⟩ := key hh
  obtain ⟨E', E1', E2', w', F', hE', hu', hm', hF', f1', f2', f3'⟩ := key hh'
  rw [hE] at hE'; cases hE'
  rw [hu] at hu'; cases hu'
  have hcol : E1.colliders = E.colliders := by
    unfold updateFrom at hu
    split at hu
    · cases hu
    · cases hu; rfl
  have := recalculateMass_perm (cs := s.colliders) E1
    ((ord.colliders_perm h E1.colliders).trans (ord'.colliders_perm h _).symm)
    (fun c hc => live_colliders inv hE c (by rw [← hcol]; exact (ord.colliders_perm h _).mem_iff.mp hc))
  rw [this, hm'] at hm
  injection hm with hm
  subst hm
  refine ⟨_, _, getEntity_iff.mpr ⟨F, hF, rfl⟩, getEntity_iff.mpr ⟨F', hF', rfl⟩, ?_, ?_, ?_, ?_⟩
  · show F'.totalMass = F.totalMass; rw [f2, f2']
  · show F'.orientation.position = F.orientation.position; rw [f1, f1']
  · show F'.orientation = F.orientation; rw [f1, f1']
  · show F'.preppedMoment = F.preppedMoment; rw [f3, f3']

/-- **C16 (history).** Nor does it matter how the colliders came to be linked: two entities in two reachable states with
the same linked colliders (up to order), the same own mass, rotation and local origin have the same total mass, position
and moment of inertia. -/
theorem C16_link_order {t : System XReal γ} (hr : Reachable s) (hr' : Reachable t) {k k' : Handle} {E E' : InternalEntity XReal}
    (hE : s.entities.get k = some E) (hE' : t.entities.get k' = some E')
    (hf : FinitePose E.orientation) (hf' : FinitePose E'.orientation)
    (hp : (linked s E.makePub).Perm (linked t E'.makePub)) (hb : ∀ c ∈ linked s E.makePub, FiniteBody c)
    (hM : Scalar.lt (fin 0) (massSum (linked s E.makePub)) = true) (ho : E.ownMass = E'.ownMass)
    (hrot : E.orientation.rotation = E'.orientation.rotation)
    (hor : E.orientation.localOriginInWorld = E'.orientation.localOriginInWorld) :
    E.totalMass = E'.totalMass ∧ E.orientation = E'.orientation ∧ E.momentOfInertia = E'.momentOfInertia := by
  obtain ⟨o, e1, hu⟩ := reachable_unit hr hE hf
  obtain ⟨o', e1', hu'⟩ := reachable_unit hr' hE' hf'
  obtain ⟨ls, hls⟩ := lumps hb
  obtain ⟨ls', hpl, hls'⟩ : ∃ ls', ls.Perm ls' ∧ List.Forall₂ Lump.Of ls' (linked t E'.makePub) := by
    have := List.perm_comp_forall₂ (r := fun c l => Lump.Of l c) hp.symm hls.flip
    obtain ⟨ls', h1, h2⟩ := this
    exact ⟨ls', h2.symm, h1.flip⟩
  have hM : 0 < Lump.total ls := by rw [massSum_lumps hls] at hM; simpa using hM
  have htot : Lump.total ls' = Lump.total ls := (hpl.symm.map Lump.m).sum_eq
  have hsum : ∀ {l l' : List (Vec3 ℝ)}, l.Perm l' → Vec3.sum l = Vec3.sum l' := by
    intro l l' h
    induction h with
    | nil => rfl
    | cons x _ ih => simp [ih]
    | swap x y l => simp only [Vec3.sum_cons]; ext <;> simp <;> ring
    | trans _ _ h1 h2 => exact h1.trans h2
  have hmean : Lump.mean ls' = Lump.mean ls := by
    unfold Lump.mean
    rw [htot, hsum (hpl.symm.map fun l => l.c.scale l.m)]
  have hMs : massSum (linked s E.makePub) = massSum (linked t E'.makePub) := by
    rw [massSum_lumps hls, massSum_lumps hls', htot]
  have noinf : ∀ {ls : List Lump} {l : List (Collider XReal)}, List.Forall₂ Lump.Of ls l → ∀ c ∈ l, c.mass ≠ posInf := by
    intro ls l h c hc hm
    have := forall₂_infinite h c hc
    rw [hm] at this; cases this
  have t1 := (C13_total_mass hr (getEntity_iff.mpr ⟨E, hE, rfl⟩)).2 (noinf hls)
  have t2 := (C13_total_mass hr' (getEntity_iff.mpr ⟨E', hE', rfl⟩)).2 (noinf hls')
  rw [linked_eq] at hls hls'
  obtain ⟨a1, a2⟩ := stored_real hr hE e1 hls
  obtain ⟨b1, b2⟩ := stored_real hr' hE' e1' hls'
  have a1 := a1 hM
  have b1 := b1 (by rw [htot]; exact hM)
  have hoff : o.internalOriginOffset = o'.internalOriginOffset := by rw [a1, b1, hmean]
  have hro : o.rotation = o'.rotation := by
    rw [e1, e1'] at hrot
    simpa using hrot
  have hpos : o.position = o'.position := by
    rw [e1, e1', Orientation.f_localOriginInWorld _ hu, Orientation.f_localOriginInWorld _ hu', hoff, hro, Vec3.f_inj] at hor
    have hx := congrArg Vec3.x hor
    have hy := congrArg Vec3.y hor
    have hz := congrArg Vec3.z hor
    simp only [Vec3.add_x, Vec3.add_y, Vec3.add_z, add_left_inj] at hx hy hz
    ext <;> assumption
  have hoo : o = o' := by cases o; cases o'; simp_all
  have hprep : E.preppedMoment = E'.preppedMoment := by
    rw [a2, b2, hoo, Mat3.f_inj]
    apply Mat3.ext_mulVec
    intro u
    rw [Mat3.sum_mulVec, Mat3.sum_mulVec]
    exact hsum (hpl.map _)
  refine ⟨?_, by rw [e1, e1', hoo], ?_⟩
  · have t1 : E.totalMass = E.ownMass + massSum (linked s E.makePub) := t1
    have t2 : E'.totalMass = E'.ownMass + massSum (linked t E'.makePub) := t2
    rw [t1, t2, ho, hMs]
  · unfold momentOfInertia; rw [hprep, e1, e1', hoo]

/-! ### C17 -/

/-- What a moment of inertia does to a vector `w`, as the sum over the colliders of the turned tensor applied to `w` and
`m (|d|² w - d (d·w))`, `d` being the centre of the collider relative to the position of the entity. -/
noncomputable def parallelAxis (o : Orientation XReal) (l : List (Collider XReal)) (w : Vec3 XReal) : Vec3 XReal :=
  l.foldr (fun c a =>
    let d := o.positionIntoWorld c.localCenterOfMass - o.position
    o.directionIntoWorld (c.momentOfInertia.mulVec (o.directionIntoLocal w)) +
      (w.scale (d.dot d) - d.scale (d.dot w)).scale c.mass + a) Vec3.zeros

theorem parallelAxis_lumps {o : Orientation ℝ} (ho : o.Unit) {ls : List Lump} {l : List (Collider XReal)}
    (h : List.Forall₂ Lump.Of ls l) (w : Vec3 ℝ) :
    parallelAxis o.f l w.f = (Vec3.sum (ls.map fun l => o.rotation.rot (l.t.mulVec (o.rotation.conj.rot w)) +
      (w.scale ((o.internalOriginOffset + l.c).dot (o.internalOriginOffset + l.c)) -
        (o.rotation.rot (o.internalOriginOffset + l.c)).scale
          ((o.rotation.rot (o.internalOriginOffset + l.c)).dot w)).scale l.m)).f := by
  induction h with
  | nil => simp [parallelAxis]
  | @cons l c ls cs hx _ ih =>
    rw [parallelAxis] at ih ⊢
    simp only [List.foldr_cons, List.map_cons, Vec3.sum_cons, ih, hx.1, hx.2.1, hx.2.2]
    rw [Orientation.f_positionIntoWorld _ _ ho]
    have hd : o.toWorld l.c - o.position = o.rotation.rot (o.internalOriginOffset + l.c) := by
      unfold Orientation.toWorld
      rw [Vec3.add_comm' l.c]
      ext <;> simp
    simp only [Orientation.f_position, Vec3.f_sub, hd, Orientation.f_directionIntoLocal, Mat3.f_mulVec,
      Orientation.f_directionIntoWorld, Vec3.f_dot, Vec3.f_scale, Vec3.f_add, Quat.rot_dot _ _ ho]

/-- **C17.** The moment of inertia of an entity acts as the parallel-axis sum over its linked colliders. -/
theorem C17_parallel_axis (hr : Reachable s) {k : Handle} {E : InternalEntity XReal} (hE : s.entities.get k = some E)
    (hf : FinitePose E.orientation) (hb : ∀ c ∈ linked s E.makePub, FiniteBody c) {w : Vec3 XReal} (hw : Finite3 w) :
    E.momentOfInertia.mulVec w = parallelAxis E.orientation (linked s E.makePub) w := by
  obtain ⟨o, ho, hu⟩ := reachable_unit hr hE hf
  obtain ⟨ls, hls⟩ := lumps hb
  obtain ⟨v, rfl⟩ := hw.f
  rw [ho, parallelAxis_lumps hu hls]
  rw [linked_eq] at hls
  have hp := (stored_real hr hE ho hls).2
  obtain ⟨I, hI, hact⟩ := finalize_real hu ls (fun l => o.internalOriginOffset + l.c)
  unfold momentOfInertia
  rw [ho, hp, hI, Mat3.f_mulVec, hact]

/-- The tensor is symmetric and positive semidefinite. -/
def SymPsd (m : Mat3 XReal) : Prop :=
  (∀ u v, Finite3 u → Finite3 v → (m.mulVec u).dot v = u.dot (m.mulVec v)) ∧
  ∀ u, Finite3 u → Scalar.le (fin 0) ((m.mulVec u).dot u) = true

theorem symPsd_f (m : Mat3 ℝ) : SymPsd m.f ↔ m.Symm ∧ m.Psd := by
  constructor
  · rintro ⟨h1, h2⟩
    refine ⟨fun u v => ?_, fun u => ?_⟩
    · have := h1 u.f v.f (finite3_f _) (finite3_f _)
      simpa using this
    · have := h2 u.f (finite3_f _)
      simpa using this
  · rintro ⟨h1, h2⟩
    refine ⟨fun u v hu hv => ?_, fun u hu => ?_⟩
    · obtain ⟨u, rfl⟩ := hu.f
      obtain ⟨v, rfl⟩ := hv.f
      simpa using h1 u v
    · obtain ⟨u, rfl⟩ := hu.f
      simpa using h2 u

/-- The radii of stored spheres are above the minimum. -/
theorem stored_radius (hr : Reachable s) {k : Handle} {c : SphereCollider XReal} (hc : s.colliders.get k = some (.sphere c)) :
    Scalar.lt MINIMUM_RADIUS c.radius = true := by
  obtain ⟨tr, h⟩ := hr
  refine System.steps_colliders (Q := fun _ => True)
    (P := fun c => ∀ d, c = .sphere d → Scalar.lt MINIMUM_RADIUS d.radius = true) ?_ ?_ ?_ h ?_ k _ hc c rfl
  · intro c d _ h x hx
    subst hx
    cases c <;> simp only [Collider.newFrom] at h <;> split at h <;> cases h
    rename_i hv
    simp only [Bool.not_eq_true', Bool.not_eq_false, SphereCollider.isValid, Bool.and_eq_true] at hv
    exact hv.1
  · intro c d r _ h x hx
    subst hx
    cases c <;> cases d <;> simp only [Collider.updateFrom] at h <;> first | (cases h; done) | skip
    all_goals (split at h <;> cases h)
    rename_i hv
    simp only [Bool.not_eq_true', Bool.not_eq_false, SphereCollider.isValid, Bool.and_eq_true] at hv
    exact hv.1
  · intro c t h x hx
    cases c <;> simp only [Collider.setEntity] at hx <;> cases hx
    rename_i c
    exact h c rfl
  · intro x _; unfold System.GivesColliders; split <;> trivial

/-- The tensors of stored spheres, boxes, planes and meshes are symmetric and positive semidefinite. -/
theorem stored_tensor (hr : Reachable s) {k : Handle} {c : Collider XReal} (hc : s.colliders.get k = some c)
    (hn : ∀ n, c = .null n → SymPsd n.momentOfInertia) {l : Lump} (hl : l.Of c) : l.t.Symm ∧ l.t.Psd := by
  rw [← symPsd_f, ← hl.2.2]
  have hm := stored_mass hr hc
  rw [hl.1] at hm
  have hm : 0 ≤ l.m := by simpa using hm
  cases c with
  | null n => exact hn n rfl
  | plane n => simp only [Collider.momentOfInertia, Mat3.f_zeros]; exact (symPsd_f _).mpr ⟨Mat3.symm_o, Mat3.psd_o⟩
  | mesh n => simp only [Collider.momentOfInertia, Mat3.f_zeros]; exact (symPsd_f _).mpr ⟨Mat3.symm_o, Mat3.psd_o⟩
  | sphere n =>
    have hrad := stored_radius hr hc
    have hmm : n.mass = fin l.m := hl.1
    have h3 := hl.2.2
    simp only [Collider.momentOfInertia, hmm] at h3 ⊢
    cases hn : n.radius with
    | nan => rw [hn] at hrad; simp [MINIMUM_RADIUS] at hrad
    | negInf => rw [hn] at hrad; simp [MINIMUM_RADIUS] at hrad
    | posInf =>
      exfalso
      rw [hn] at h3
      have h3 : lit 2 1 / lit 5 1 * fin l.m * posInf = fin l.t.r1.x := congrArg (fun m => m.r1.x) h3
      have := (XReal.fin_of_mul (a := lit 2 1 / lit 5 1 * fin l.m) (b := posInf) (by rw [h3]; rfl)).2
      cases this
    | fin r =>
      rw [hn] at hrad
      have hr0 : 0 < r := by
        simp [MINIMUM_RADIUS] at hrad
        linarith
      have : (lit 2 1 / lit 5 1 * fin l.m * fin r : XReal) = fin (2 / 5 * l.m * r) := by
        simp [XReal.fin_div]
      rw [this]
      have hd := Mat3.f_diagonal ⟨2 / 5 * l.m * r, 2 / 5 * l.m * r, 2 / 5 * l.m * r⟩
      simp only [Vec3.f] at hd
      rw [hd, symPsd_f]
      have : 0 ≤ 2 / 5 * l.m * r := by positivity
      exact ⟨diag_symm _, diag_psd this this this⟩
  | box n =>
    have hmm : n.mass = fin l.m := hl.1
    have h3 := hl.2.2
    simp only [Collider.momentOfInertia] at h3 ⊢
    rw [h3, symPsd_f]
    have hx := congrArg (fun m => m.r1.x) h3
    have hy := congrArg (fun m => m.r2.y) h3
    have hz := congrArg (fun m => m.r3.z) h3
    have hdiag : l.t = Mat3.diag ⟨l.t.r1.x, l.t.r2.y, l.t.r3.z⟩ := by
      have h12 := congrArg (fun m => m.r1.y) h3
      have h13 := congrArg (fun m => m.r1.z) h3
      have h21 := congrArg (fun m => m.r2.x) h3
      have h23 := congrArg (fun m => m.r2.z) h3
      have h31 := congrArg (fun m => m.r3.x) h3
      have h32 := congrArg (fun m => m.r3.y) h3
      simp [Mat3.diagonal, Mat3.f] at h12 h13 h21 h23 h31 h32
      apply Mat3.ext <;> apply Vec3.ext <;> simp [Mat3.diag] <;> linarith
    have hsq : ∀ (a b : XReal) (y : ℝ), fin l.m / lit 12 1 * (a * a + b * b) = fin y → 0 ≤ y := by
      intro a b y h
      have hc : (fin l.m / lit 12 1 : XReal) = fin (l.m / 12) := by simp [XReal.fin_div]
      rw [hc] at h
      have h0 : 0 ≤ l.m / 12 := by positivity
      have hfin := XReal.fin_of_mul (a := fin (l.m / 12)) (b := a * a + b * b) (by rw [h]; rfl)
      obtain ⟨z, hz⟩ := isFinite_iff.mp hfin.2
      obtain ⟨f1, f2⟩ := XReal.fin_of_add (by rw [hz]; rfl)
      obtain ⟨a', rfl⟩ := isFinite_iff.mp (XReal.fin_of_mul f1).1
      obtain ⟨b', rfl⟩ := isFinite_iff.mp (XReal.fin_of_mul f2).1
      simp only [fin_mul, fin_add, XReal.fin.injEq] at h
      rw [← h]
      have := mul_self_nonneg a'
      have := mul_self_nonneg b'
      positivity
    simp only [Mat3.diagonal, Mat3.f, hmm] at hx hy hz
    rw [hdiag]
    exact ⟨diag_symm _, diag_psd (hsq _ _ _ hx) (hsq _ _ _ hy) (hsq _ _ _ hz)⟩

/-- Colliders with the mass data the parallel-axis sum is symmetric and positive semidefinite for. -/
def SoundBody (c : Collider XReal) : Prop := FiniteBody c ∧ ∀ n, c = .null n → SymPsd n.momentOfInertia

/-- The finished tensor for any unit rotation. -/
theorem stored_symPsd (hr : Reachable s) {k : Handle} {E : InternalEntity XReal} (hE : s.entities.get k = some E)
    {o : Orientation ℝ} (ho : E.orientation = o.f) (hb : ∀ c ∈ linked s E.makePub, SoundBody c) {q : Orientation ℝ}
    (hq : q.Unit) : ∃ I : Mat3 ℝ, q.f.finalizeMomentOfInertia E.preppedMoment = I.f ∧ I.Symm ∧ I.Psd := by
  obtain ⟨ls, hls⟩ := lumps (fun c hc => (hb c hc).1)
  rw [linked_eq] at hls hb
  have hp := (stored_real hr hE ho hls).2
  obtain ⟨I, hI, hact⟩ := finalize_real hq ls (fun l => o.internalOriginOffset + l.c)
  refine ⟨I, by rw [hp, hI], ?_⟩
  have hs : ∀ {ls : List Lump} {l : List (Collider XReal)}, List.Forall₂ Lump.Of ls l →
      (∀ c ∈ l, c ∈ found s.colliders E.colliders) → ∀ x ∈ ls, 0 ≤ x.m ∧ x.t.Symm ∧ x.t.Psd := by
    intro ls l h
    induction h with
    | nil => simp
    | @cons l c ls cs hx _ ih =>
      intro hm x hxm
      rcases List.mem_cons.mp hxm with rfl | hxm
      · have hc := hm c (by simp)
        obtain ⟨h, -, hget⟩ := mem_found.mp hc
        have hmass := stored_mass hr hget
        rw [hx.1] at hmass
        exact ⟨by simpa using hmass, stored_tensor hr hget (hb c hc).2 hx⟩
      · exact ih (fun c hc => hm c (by simp [hc])) x hxm
  have hs := hs hls (fun _ h => h)
  have hmove : ∀ (u v : Vec3 ℝ), (q.rotation.rot u).dot v = u.dot (q.rotation.conj.rot v) := by
    intro u v
    have := Quat.rot_dot u (q.rotation.conj.rot v) (q := q.rotation) hq
    rw [Quat.rot_rot_conj _ hq] at this
    exact this
  refine ⟨fun u v => ?_, fun u => ?_⟩
  · rw [hact, hact, Vec3.sum_dot, Vec3.dot_sum]
    congr 1
    apply List.map_congr_left
    intro l hl
    obtain ⟨-, hsym, -⟩ := hs l hl
    have h1 := hsym (q.rotation.conj.rot u) (q.rotation.conj.rot v)
    generalize hgg : (o.internalOriginOffset + l.c).dot (o.internalOriginOffset + l.c) = gg
    rw [Vec3.add_dot, hmove, h1, Vec3.dot_add u]
    rw [Vec3.dot_comm u (q.rotation.rot (l.t.mulVec _)), hmove (l.t.mulVec _) u, Vec3.dot_comm _ (q.rotation.conj.rot u)]
    simp only [Vec3.scale_dot, Vec3.dot_scale, Vec3.sub_dot, Vec3.dot_sub]
    rw [Vec3.dot_comm u (q.rotation.rot _)]
    ring
  · rw [hact, Vec3.sum_dot]
    apply List.sum_nonneg
    intro x hx
    obtain ⟨l, hl, rfl⟩ := List.mem_map.mp hx
    obtain ⟨hm, -, hpsd⟩ := hs l hl
    have h1 := hpsd (q.rotation.conj.rot u)
    rw [Vec3.add_dot, hmove]
    have h2 := Vec3.dot_mul_le (q.rotation.rot (o.internalOriginOffset + l.c)) u
    rw [Quat.rot_dot _ _ hq] at h2
    simp only [Vec3.scale_dot, Vec3.sub_dot]
    have h3 : 0 ≤ u.dot u * ((o.internalOriginOffset + l.c).dot (o.internalOriginOffset + l.c)) -
        (q.rotation.rot (o.internalOriginOffset + l.c)).dot u * (q.rotation.rot (o.internalOriginOffset + l.c)).dot u := by
      linarith
    have := mul_nonneg h3 hm
    linarith

/-- **C17 (symmetric, positive semidefinite).** -/
theorem C17_symmetric_psd (hr : Reachable s) {k : Handle} {E : InternalEntity XReal} (hE : s.entities.get k = some E)
    (hf : FinitePose E.orientation) (hb : ∀ c ∈ linked s E.makePub, SoundBody c) : SymPsd E.momentOfInertia := by
  obtain ⟨o, ho, hu⟩ := reachable_unit hr hE hf
  obtain ⟨I, hI, h⟩ := stored_symPsd hr hE ho hb hu
  unfold momentOfInertia
  rw [ho, hI]
  exact (symPsd_f I).mpr h

/-- **C17 (`get_last_moment_of_inertia`).** The public getter, which goes through the rotation vector, reports the same
tensor as the engine uses, unless the rotation is below the resolution of that vector without being the identity. -/
theorem C17_reported (hr : Reachable s) {k : Handle} {E : InternalEntity XReal} (hE : s.entities.get k = some E)
    (hf : FinitePose E.orientation) (hb : ∀ c ∈ linked s E.makePub, FiniteBody c)
    (hrot : E.orientation.rotation = Quat.identity ∨
      Scalar.lt (lit 2 8388608) E.orientation.rotationVec.magnitude = true) :
    E.makePub.lastMomentOfInertia = E.momentOfInertia := by
  obtain ⟨o, ho, hu⟩ := reachable_unit hr hE hf
  obtain ⟨ls, hls⟩ := lumps hb
  rw [linked_eq] at hls
  have hp := (stored_real hr hE ho hls).2
  have hv : E.orientation.rotationVec = (Quat.log o.rotation).f := by rw [ho, Orientation.f_rotationVec]
  have hmk : E.makePub.makeOrientation = (⟨o.position, Quat.exp (Quat.log o.rotation), o.internalOriginOffset⟩ : Orientation ℝ).f := by
    rw [← Orientation.f_new]
    show Orientation.new E.orientation.position E.orientation.rotationVec E.orientation.internalOriginOffset = _
    rw [hv, ho]; rfl
  have hsame : ∀ v, (Quat.exp (Quat.log o.rotation)).rot v = o.rotation.rot v := by
    rcases hrot with h | h
    · rw [ho] at h
      simp only [Orientation.f_rotation, Quat.f_identity, Quat.f_inj] at h
      intro v
      rw [h, Quat.log_e, Quat.exp_o]
    · rw [hv] at h
      refine fun v => Quat.exp_log_rot hu ?_ v
      simp [Quat.meps] at h ⊢
      linarith
  have hmat : (Quat.exp (Quat.log o.rotation)).matrix = o.rotation.matrix := by
    apply Mat3.ext_mulVec
    intro u
    rw [← Quat.rot_eq_matrix _ _ (Quat.exp_normSq _), ← Quat.rot_eq_matrix _ _ hu, hsame]
  show E.makePub.makeOrientation.finalizeMomentOfInertia E.preppedMoment = E.orientation.finalizeMomentOfInertia E.preppedMoment
  rw [hmk, ho]
  simp only [Orientation.finalizeMomentOfInertia, rotateMomentOfInertia, Orientation.f_rotation, Quat.f_matrix, hmat]

/-! ### C36 -/

/-- An infinite collider leaves no moment of inertia. -/
theorem stored_infinite (hr : Reachable s) {k : Handle} {E : InternalEntity XReal} (hE : s.entities.get k = some E)
    (hi : ∃ c ∈ linked s E.makePub, c.mass = posInf) : E.totalMass = posInf ∧ E.preppedMoment = Mat3.o.f := by
  rw [linked_eq] at hi
  have hinv := hr.inv
  refine ⟨(stored_total hr hE).1 hi, ?_⟩
  rcases hinv.mass k E hE with ⟨h1, h2, h3⟩ | ⟨order, E0, E1, hp, hrec, hcar⟩
  · rw [h3, Mat3.f_zeros]
  · obtain ⟨r1, r2, r3, r4, r5⟩ := staticRel_iff.mp hcar.1
    have hcol : E1.colliders = E.colliders := r5.symm
    rw [hcol] at hp
    have hl := live_of_inv hinv hE hp
    have hperm : (found s.colliders order).Perm (found s.colliders E.colliders) := hp.filterMap _
    obtain ⟨c, hc, hm⟩ := hi
    rw [recalculateMass_infinite E0 hl ⟨c, hperm.mem_iff.mpr hc, by rw [hm]; rfl⟩] at hrec
    injection hrec with hrec
    rw [r4, ← hrec]
    simp [fixed]

theorem finalize_o {o : Orientation ℝ} (hu : o.Unit) : o.f.finalizeMomentOfInertia Mat3.o.f = Mat3.o.f := by
  obtain ⟨I, hI, hact⟩ := finalize_real hu [] (fun l => l.c)
  simp only [List.map_nil, Mat3.sum_nil] at hI
  rw [hI, Mat3.f_inj]
  apply Mat3.ext_mulVec
  intro u
  rw [hact]; simp

/-- **C36 (what an infinite collider does).** An entity with a linked collider of infinite mass has infinite mass and no
moment of inertia, which is what `C36_immovable_partial` asks for. -/
theorem C36_from_collider (hr : Reachable s) {k : Handle} {E : InternalEntity XReal} (hE : s.entities.get k = some E)
    (hf : FinitePose E.orientation) (hi : ∃ c ∈ linked s E.makePub, c.mass = posInf) :
    E.totalMass = posInf ∧ E.momentOfInertia = Mat3.zeros ∧ E.inverseMomentOfInertia = Mat3.zeros := by
  obtain ⟨ht, hp⟩ := stored_infinite hr hE hi
  obtain ⟨o, ho, hu⟩ := reachable_unit hr hE hf
  have hI : E.momentOfInertia = Mat3.o.f := by
    unfold momentOfInertia
    rw [ho, hp, finalize_o hu]
  refine ⟨ht, by rw [hI, Mat3.f_zeros], ?_⟩
  unfold inverseMomentOfInertia
  rw [hI]
  have h := Mat3.f_tryInverse (Mat3.o)
  rw [Mat3.inv_of_det (by simp [Mat3.det, Mat3.o])] at h
  rw [Mat3.f_zeros]
  revert h
  cases (Mat3.f Mat3.o).tryInverse <;> simp [Mat3.f_zeros]

/-! ### C19 -/

theorem stored_own (hr : Reachable s) {k : Handle} {E : InternalEntity XReal} (hE : s.entities.get k = some E) :
    Scalar.lt E.ownMass (fin 0) = false := by
  obtain ⟨tr, h⟩ := hr
  refine System.steps_ownMass (P := fun m => Scalar.lt m (fin 0) = false) h ?_ k E hE
  intro x _
  unfold System.GivesEntities
  split
  · rw [zero_eq]; exact fun h => h
  · rw [zero_eq]; exact fun h => h
  · trivial

/-- A finite total mass is not negative. -/
theorem stored_total_nonneg (hr : Reachable s) {k : Handle} {E : InternalEntity XReal} (hE : s.entities.get k = some E)
    {m : ℝ} (hm : E.totalMass = fin m) : 0 ≤ m := by
  obtain ⟨h1, h2⟩ := C13_total_mass hr (getEntity_iff.mpr ⟨E, hE, rfl⟩)
  by_cases hi : ∃ c ∈ linked s E.makePub, c.mass = posInf
  · have := h1 hi
    rw [show E.makePub.lastTotalMass = E.totalMass from rfl, hm] at this
    cases this
  · push Not at hi
    have ht : E.totalMass = E.ownMass + massSum (linked s E.makePub) := h2 hi
    have hms := C13_masses hr (e := E.makePub)
    have hsum : ∀ l : List (Collider XReal), (∀ c ∈ l, ∃ m, 0 ≤ m ∧ c.mass = fin m) → ∃ M, 0 ≤ M ∧ massSum l = fin M := by
      intro l
      induction l with
      | nil => exact fun _ => ⟨0, le_refl _, rfl⟩
      | cons c l ih =>
        intro h
        obtain ⟨a, ha, hc⟩ := h c (by simp)
        obtain ⟨M, hM, hl⟩ := ih (fun d hd => h d (by simp [hd]))
        refine ⟨a + M, add_nonneg ha hM, ?_⟩
        show c.mass + massSum l = _
        rw [hc, hl, fin_add]
    obtain ⟨M, hM, hl⟩ := hsum _ (fun c hc => (hms c hc).resolve_left (hi c hc))
    rw [hm, hl] at ht
    have hown := stored_own hr hE
    cases ho : E.ownMass with
    | nan => rw [ho] at ht; simp at ht
    | negInf => rw [ho] at ht; simp at ht
    | posInf => rw [ho] at ht; simp at ht
    | fin a =>
      rw [ho] at ht hown
      simp at ht hown
      linarith

/-- **C19.** The kinetic energy of an entity with finite numbers, both the public one (`Entity::get_total_energy`) and
the one the engine compares with the sleep threshold, is a non-negative number; it is zero at rest. -/
theorem C19_energy_nonneg (hr : Reachable s) {k : Handle} {E : InternalEntity XReal} (hE : s.entities.get k = some E)
    (hf : FinitePose E.orientation) (hv : Finite3 E.velocity) (hw : Finite3 E.angularVelocity)
    (hm : Scalar.isFinite E.totalMass = true) (hb : ∀ c ∈ linked s E.makePub, SoundBody c) :
    (∃ x, 0 ≤ x ∧ E.makePub.totalEnergy = fin x) ∧ (∃ x, 0 ≤ x ∧ E.totalEnergy = fin x) ∧
    (E.velocity = Vec3.zeros → E.angularVelocity = Vec3.zeros →
      E.makePub.totalEnergy = fin 0 ∧ E.totalEnergy = fin 0) := by
  obtain ⟨o, ho, hu⟩ := reachable_unit hr hE hf
  obtain ⟨v, hv⟩ := hv.f
  obtain ⟨w, hw⟩ := hw.f
  obtain ⟨m, hm⟩ := isFinite_iff.mp hm
  have hm0 := stored_total_nonneg hr hE hm
  have hmk : E.makePub.makeOrientation = (⟨o.position, Quat.exp (Quat.log o.rotation), o.internalOriginOffset⟩ : Orientation ℝ).f := by
    rw [← Orientation.f_new, ← Orientation.f_rotationVec, ← ho]
    show Orientation.new E.orientation.position E.orientation.rotationVec E.orientation.internalOriginOffset = _
    rw [ho]; rfl
  have hue : (⟨o.position, Quat.exp (Quat.log o.rotation), o.internalOriginOffset⟩ : Orientation ℝ).Unit := Quat.exp_normSq _
  obtain ⟨I, hI, -, hpsd⟩ := stored_symPsd hr hE ho hb hu
  obtain ⟨I', hI', -, hpsd'⟩ := stored_symPsd hr hE ho hb hue
  have e1 : E.totalEnergy = fin (m * v.dot v / 2 + (I.mulVec w).dot w / 2) := by
    unfold totalEnergy momentOfInertia
    rw [hm, ho, hI, hv, hw]
    simp [XReal.fin_div, Vec3.scale_dot, mul_comm]
  have e2 : E.makePub.totalEnergy = fin (m * v.dot v / 2 + (I'.mulVec w).dot w / 2) := by
    unfold Entity.totalEnergy Entity.lastMomentOfInertia
    rw [hmk, show E.makePub.lastPreppedMoment = E.preppedMoment from rfl, hI',
      show E.makePub.velocity = v.f from hv, show E.makePub.angularVelocity = w.f from hw,
      show E.makePub.lastTotalMass = fin m from hm]
    simp [XReal.fin_div, Vec3.scale_dot, mul_comm]
  have hk := mul_nonneg hm0 (Vec3.dot_self_nonneg v)
  refine ⟨⟨_, ?_, e2⟩, ⟨_, ?_, e1⟩, ?_⟩
  · have := hpsd' w; linarith
  · have := hpsd w; linarith
  · intro h1 h2
    rw [hv, Vec3.f_zeros, Vec3.f_inj] at h1
    rw [hw, Vec3.f_zeros, Vec3.f_inj] at h2
    rw [e1, e2, h1, h2]; simp

/-- **C19, infinite mass.** The engine takes the energy of an infinite-mass entity to be zero or infinite; the public
getter yields NaN even at rest. -/
theorem C19_infinite_mass {E : InternalEntity XReal} (hm : E.totalMass = posInf) :
    (E.totalEnergy = fin 0 ∨ E.totalEnergy = posInf) ∧
    (E.velocity = Vec3.zeros → E.makePub.totalEnergy = nan) := by
  refine ⟨?_, ?_⟩
  · unfold totalEnergy
    rw [hm]
    simp only [isInfinite_posInf, if_true]
    split
    · exact Or.inl zero_eq
    · exact Or.inr rfl
  · intro hv
    unfold Entity.totalEnergy
    rw [show E.makePub.velocity = Vec3.zeros from hv, show E.makePub.lastTotalMass = posInf from hm]
    have : ((Vec3.zeros : Vec3 XReal).scale posInf).dot Vec3.zeros = nan := by
      have h0 : (fin 0 : XReal) * posInf = nan := by simp [fin_mul_posInf, infSign]
      simp [Vec3.scale, Vec3.dot, Vec3.f, h0]
    rw [this]
    simp

end

/-! ### C18 -/

/-- The tensor of a solid ball. -/
noncomputable def ballTensor (m r : ℝ) : Mat3 ℝ := Mat3.diag ⟨2/5 * m * r^2, 2/5 * m * r^2, 2/5 * m * r^2⟩
/-- The tensor of a solid box with sides `a`, `b` and `c`. -/
noncomputable def boxTensor (m a b c : ℝ) : Mat3 ℝ :=
  Mat3.diag ⟨m/12 * (b^2 + c^2), m/12 * (a^2 + c^2), m/12 * (a^2 + b^2)⟩

/-- **C18 (boxes).** A box collider has the tensor of a solid box. -/
theorem C18_box (c : BoxCollider XReal) {m : ℝ} {lo hi : Vec3 ℝ} (hm : c.mass = fin m) (hlo : c.minCorner = lo.f)
    (hhi : c.maxCorner = hi.f) :
    (Collider.box c).momentOfInertia = (boxTensor m (hi.x - lo.x) (hi.y - lo.y) (hi.z - lo.z)).f := by
  simp only [Collider.momentOfInertia, hm, hlo, hhi, Vec3.f_sub]
  simp only [boxTensor, ← Mat3.f_diagonal, Vec3.f]
  simp [XReal.fin_div]
  ring_nf

/-- **C18 (spheres), the true part.** A sphere collider has the tensor of a solid ball only if its radius is 1 (or it has
no mass).  Missing: every other radius, since the code multiplies with the radius instead of its square. -/
theorem C18_sphere_partial (c : SphereCollider XReal) {m r : ℝ} (hm : c.mass = fin m) (hr : c.radius = fin r)
    (hv : c.isValid = true) :
    (Collider.sphere c).momentOfInertia = (Mat3.diag ⟨2/5 * m * r, 2/5 * m * r, 2/5 * m * r⟩).f ∧
    ((Collider.sphere c).momentOfInertia = (ballTensor m r).f ↔ m = 0 ∨ r = 1) := by
  have h1 : (Collider.sphere c).momentOfInertia = (Mat3.diag ⟨2/5 * m * r, 2/5 * m * r, 2/5 * m * r⟩).f := by
    simp only [Collider.momentOfInertia, hm, hr, ← Mat3.f_diagonal, Vec3.f]
    simp [XReal.fin_div]
  have hr0 : r ≠ 0 := by
    simp [SphereCollider.isValid, MINIMUM_RADIUS, hr] at hv
    rintro rfl
    linarith [hv.1]
  refine ⟨h1, ?_⟩
  rw [h1, ballTensor, Mat3.f_inj]
  constructor
  · intro h
    have h := congrArg (fun x => x.r1.x) h
    simp only [Mat3.diag] at h
    by_cases hm0 : m = 0
    · exact Or.inl hm0
    · refine Or.inr ?_
      have : (2/5 * m * r) * (r - 1) = 0 := by linear_combination -h
      rcases mul_eq_zero.mp this with h | h
      · exact absurd h (by positivity)
      · linarith
  · rintro (rfl | rfl) <;> simp

/-- **C18** is false: a valid sphere of mass 1 and radius 2 has half the inertia of a solid ball. -/
theorem C18_false : ∃ (c : SphereCollider XReal) (m r : ℝ), c.isValid = true ∧ c.mass = fin m ∧ c.radius = fin r ∧
    (Collider.sphere c).momentOfInertia ≠ (ballTensor m r).f := by
  refine ⟨{ SphereCollider.new (fin 2) with mass := fin 1 }, 1, 2, ?_, rfl, rfl, ?_⟩
  · simp [SphereCollider.isValid, SphereCollider.new, MINIMUM_RADIUS]
    norm_num
  · rw [Ne, (C18_sphere_partial _ rfl rfl ?_).2]
    · norm_num
    · simp [SphereCollider.isValid, SphereCollider.new, MINIMUM_RADIUS]
      norm_num

/-! ### Concrete cases -/

open Demo in
/-- A system with one entity of mass 1 at the origin, before and after a collider is linked to it. -/
theorem demo_link {γ : Type} [ForceGenerator XReal γ] {c : Collider XReal} (hc : c.newFrom = some c) :
    ∃ (s t : System XReal γ) (E : InternalEntity XReal),
    Reachable s ∧ s.exec .id (.linkCollider h0 (some h0)) = .ok (t, .ok true) ∧ Reachable t ∧
    s.entities.get h0 = some ballE ∧ t.entities.get h0 = some E ∧ t.colliders.get h0 = some (c.setEntity (some h0)) ∧
    E.colliders = [h0] ∧ recalculateMass [h0] t.colliders { ballE with colliders := [h0] } = .ok E ∧
    t.entities.handles = [h0] ∧ t.generators = Arena.new ∧ t.iterationMax = 5 := by
  let s1 : System XReal γ := (System.new.addEntity ball).1
  have exec1 : (System.new : System XReal γ).exec .id (.addEntity ball) = .ok (s1, .entity (some h0)) := by
    simp only [System.exec, s1, System.addEntity, ball_newFrom]; rfl
  let s : System XReal γ := (s1.addCollider c).1
  have hs : s1.exec .id (.addCollider c) = .ok (s, .collider (some h0)) := by
    simp only [System.exec, s, s1, System.addEntity, System.addCollider, ball_newFrom, hc]; rfl
  have hreach : Reachable s := ⟨_, .snoc .id _ _ (.snoc .id _ _ .nil exec1) hs⟩
  have hE : s.entities.get h0 = some ballE := by
    simp only [s, s1, System.addEntity, System.addCollider, ball_newFrom, hc]; rfl
  have hC : s.colliders.get h0 = some c := by
    simp only [s, s1, System.addEntity, System.addCollider, ball_newFrom, hc]; rfl
  have hent : ∀ d, c.newFrom = some d → d.entity = none := by
    intro d h
    cases c <;> simp only [Collider.newFrom] at h <;> split at h <;> cases h <;> rfl
  have hent := hent c hc
  obtain ⟨F, hF⟩ := recalculateMass_ok (order := [h0]) (cs := s.colliders) { ballE with colliders := [h0] }
    (by intro h hh; simp at hh; subst hh; exact ⟨c, hC⟩)
  have hins : hsInsert ballE.colliders h0 = [h0] := rfl
  have hex : ∃ t, s.exec .id (.linkCollider h0 (some h0)) = .ok (t, .ok true) := by
    refine ⟨{ s with entities := s.entities.set h0 F, colliders := s.colliders.set h0 (c.setEntity (some h0)) }, ?_⟩
    simp only [System.exec, System.linkCollider]
    have hcon : s.colliders.contains h0 = true := by rw [Arena.contains, hC]; rfl
    rw [hcon, hE]
    simp only [Bool.not_true, Bool.false_eq_true, if_false, hins]
    have : IterOrder.id.colliders h0 [h0] = [h0] := rfl
    rw [this, hF]
    simp only [Res.ok_bind, System.switchLink, hC, hent]
    simp [System.unlinkPrior]
  obtain ⟨t, ht⟩ := hex
  have hreach' : Reachable t := live_after hreach ht
  have ht' := ht
  simp only [System.exec] at ht'
  obtain ⟨⟨m, b⟩, hl, hh⟩ := Res.bind_eq_ok.mp ht'
  injection hh with hh
  injection hh with h1 h2
  subst h1
  injection h2 with h2
  rcases System.linkCollider_spec hreach.inv hl with ⟨hb, -⟩ | ⟨-, D, hD, -, hs', hshape, hev⟩
  · simp only at h2; rw [h2] at hb; cases hb
  · rw [hC] at hD; cases hD
    obtain ⟨G, hG, -, hr, -⟩ := hev h0 ballE hE
    have hr := hr rfl
    have hcol : m.colliders = s.colliders.set h0 (c.setEntity (some h0)) := by rw [hs']
    rw [← hcol] at hr
    refine ⟨s, m, G, hreach, ht, hreach', hE, hG, ?_, (recalculateMass_massRel hr).colliders, hr, ?_, ?_, ?_⟩
    · rw [hcol, Arena.get_set, if_pos rfl, hC]; rfl
    · rw [hshape.handles]
      simp only [s, s1, System.addEntity, System.addCollider, ball_newFrom, hc]; rfl
    · rw [hs']; simp only [s, s1, System.addEntity, System.addCollider, ball_newFrom, hc]; rfl
    · rw [hs']; simp only [s, s1, System.addEntity, System.addCollider, ball_newFrom, hc]; rfl

/-- A null collider of mass 2 at (3, 0, 0). -/
noncomputable def bar : Collider XReal :=
  .null ⟨none, (⟨3, 0, 0⟩ : Vec3 ℝ).f, fin 2, (Mat3.diag ⟨1, 2, 3⟩).f⟩
/-- A null collider of infinite mass. -/
noncomputable def wall : Collider XReal := .null ⟨none, Vec3.zeros, posInf, Mat3.zeros⟩

/-- The hypotheses of C13, C14, C15, C17 and C19 hold for the entity after `bar` was linked, and its position is the
centre (3, 0, 0) of `bar`. -/
example : ∃ (s t : Demo.Sys) (E E' : InternalEntity XReal), Reachable s ∧ Reachable t ∧
    s.exec .id (.linkCollider Demo.h0 (some Demo.h0)) = .ok (t, .ok true) ∧
    System.Touches s Demo.h0 (.linkCollider Demo.h0 (some Demo.h0)) ∧
    s.entities.get Demo.h0 = some E ∧ t.entities.get Demo.h0 = some E' ∧
    FinitePose E.orientation ∧ FinitePose E'.orientation ∧ Finite3 E'.velocity ∧ Finite3 E'.angularVelocity ∧
    (∀ c ∈ linked t E'.makePub, SoundBody c) ∧ massSum (linked t E'.makePub) = fin 2 ∧ E'.totalMass = fin 3 ∧
    E'.orientation.position = (⟨3, 0, 0⟩ : Vec3 ℝ).f := by
  have hb : bar.newFrom = some bar := by simp [bar, Collider.newFrom, NullCollider.isValid]
  obtain ⟨s, t, E', hs, hex, ht, hE, hE', hC, hcol, hrec, -⟩ := demo_link (γ := GravityGenerator XReal) hb
  have hor : Demo.ballE.orientation = (⟨Vec3.o, Quat.e, Vec3.o⟩ : Orientation ℝ).f := by
    have := Orientation.f_new Vec3.o Vec3.o Vec3.o
    rw [Quat.exp_o] at this
    rw [← this]
    simp [Demo.ballE, Demo.ball, Entity.makeOrientation, Entity.new, Orientation.new]
  have hlink : found t.colliders [Demo.h0] = [bar.setEntity (some Demo.h0)] := by
    simp [found, hC]
  have hlump : List.Forall₂ Lump.Of [⟨2, ⟨3, 0, 0⟩, Mat3.diag ⟨1, 2, 3⟩⟩] (found t.colliders [Demo.h0]) := by
    rw [hlink]
    exact .cons ⟨rfl, rfl, rfl⟩ .nil
  have hmr := recalculateMass_massRel hrec
  rw [recalculateMass_loose _ (by intro h hh; simp at hh; subst hh; exact ⟨_, hC⟩) (forall₂_infinite hlump)] at hrec
  injection hrec with hrec
  obtain ⟨r1, r2, r3⟩ := loose_real (e := { Demo.ballE with colliders := [Demo.h0] }) hor (by simp [Orientation.Unit]) hlump
  rw [hrec] at r1 r2 r3
  have hmean : Lump.mean [⟨2, ⟨3, 0, 0⟩, Mat3.diag ⟨1, 2, 3⟩⟩] = ⟨3, 0, 0⟩ := by
    norm_num [Lump.mean, Lump.total]
    ext <;> norm_num
  rw [hmean] at r1
  refine ⟨s, t, _, E', hs, ht, hex, Or.inl rfl, hE, hE', ?_, ?_, ?_, ?_, ?_, ?_, ?_, ?_⟩
  · rw [hor]; exact finitePose_f _
  · rw [r1]; exact finitePose_f _
  · have : E'.velocity = Vec3.zeros := hmr.velocity
    rw [this, Vec3.f_zeros]; exact finite3_f _
  · have : E'.angularVelocity = Vec3.zeros := hmr.angularVelocity
    rw [this, Vec3.f_zeros]; exact finite3_f _
  · rw [linked_eq, hcol, hlink]
    intro c hc
    simp only [List.mem_singleton] at hc
    subst hc
    refine ⟨⟨rfl, finite3_f _, finite3_f _, finite3_f _, finite3_f _⟩, ?_⟩
    rintro n ⟨⟩
    exact (symPsd_f _).mpr ⟨diag_symm _, diag_psd (by norm_num) (by norm_num) (by norm_num)⟩
  · rw [linked_eq, hcol, massSum_lumps hlump]
    norm_num [Lump.total]
  · rw [r2]
    norm_num [Lump.total, Demo.ballE]
  · rw [r1]
    simp [Orientation.toWorld]

/-- The hypotheses of C15 (otherwise) and C36 hold after `wall` was linked. -/
example : ∃ (s t : Demo.Sys) (E' : InternalEntity XReal), Reachable s ∧ Reachable t ∧
    s.exec .id (.linkCollider Demo.h0 (some Demo.h0)) = .ok (t, .ok true) ∧
    System.Touches s Demo.h0 (.linkCollider Demo.h0 (some Demo.h0)) ∧
    t.entities.get Demo.h0 = some E' ∧ FinitePose E'.orientation ∧ ∃ c ∈ linked t E'.makePub, c.mass = posInf := by
  have hb : wall.newFrom = some wall := by simp [wall, Collider.newFrom, NullCollider.isValid]
  obtain ⟨s, t, E', hs, hex, ht, hE, hE', hC, hcol, hrec, -⟩ := demo_link (γ := GravityGenerator XReal) hb
  have hor : Demo.ballE.orientation = (⟨Vec3.o, Quat.e, Vec3.o⟩ : Orientation ℝ).f := by
    have := Orientation.f_new Vec3.o Vec3.o Vec3.o
    rw [Quat.exp_o] at this
    rw [← this]
    simp [Demo.ballE, Demo.ball, Entity.makeOrientation, Entity.new, Orientation.new]
  have hlink : found t.colliders [Demo.h0] = [wall.setEntity (some Demo.h0)] := by
    simp [found, hC]
  rw [recalculateMass_infinite _ (by intro h hh; simp at hh; subst hh; exact ⟨_, hC⟩)
    ⟨_, by rw [hlink]; exact List.mem_singleton.mpr rfl, rfl⟩] at hrec
  injection hrec with hrec
  refine ⟨s, t, E', hs, ht, hex, Or.inl rfl, hE', ?_, ?_⟩
  · rw [← hrec, (fixed_real (e := { Demo.ballE with colliders := [Demo.h0] }) hor).1]
    exact finitePose_f _
  · rw [linked_eq, hcol, hlink]
    exact ⟨_, List.mem_singleton.mpr rfl, rfl⟩

end Fluffy.Props
