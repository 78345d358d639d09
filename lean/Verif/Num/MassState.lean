import Verif.Num.Mass
import Verif.Proofs.Stored
/- What the mass data of a reachable state are, over exact numbers. -/
set_option linter.unusedSectionVars false
set_option linter.unusedSimpArgs false
namespace Fluffy
open XReal InternalEntity Step

/-! ### Finite results come from finite numbers -/

namespace Vec3
/-- All three components are finite. -/
def Fin (v : Vec3 XReal) : Prop := ∃ r : Vec3 ℝ, v = r.f
theorem fin_iff {v : Vec3 XReal} : v.Fin ↔ Scalar.isFinite v.x = true ∧ Scalar.isFinite v.y = true ∧
    Scalar.isFinite v.z = true := by
  constructor
  · rintro ⟨r, rfl⟩; simp
  · rintro ⟨a, b, c⟩; exact exists_f a b c
theorem fin_of_sub {u v : Vec3 XReal} (h : (u - v).Fin) : u.Fin ∧ v.Fin := by
  simp only [fin_iff] at *
  have hx := XReal.fin_of_sub h.1
  have hy := XReal.fin_of_sub h.2.1
  have hz := XReal.fin_of_sub h.2.2
  exact ⟨⟨hx.1, hy.1, hz.1⟩, hx.2, hy.2, hz.2⟩
end Vec3

namespace Quat
/-- All four components are finite. -/
def Fin (q : Quat XReal) : Prop := ∃ r : Quat ℝ, q = r.f

theorem fin_iff {q : Quat XReal} : q.Fin ↔ Scalar.isFinite q.w = true ∧ Scalar.isFinite q.i = true ∧
    Scalar.isFinite q.j = true ∧ Scalar.isFinite q.k = true := by
  constructor
  · rintro ⟨r, rfl⟩; simp [f]
  · rintro ⟨a, b, c, d⟩; exact exists_f a b c d

theorem fin_of_mul {p q : Quat XReal} (h : (p.mul q).Fin) : p.Fin ∧ q.Fin := by
  rw [fin_iff] at h
  simp only [mul] at h
  obtain ⟨h1, -, -, -⟩ := h
  have a1 := fin_of_sub h1
  have a2 := fin_of_sub a1.1
  have a3 := fin_of_sub a2.1
  have b1 := XReal.fin_of_mul a1.2
  have b2 := XReal.fin_of_mul a2.2
  have b3 := XReal.fin_of_mul a3.2
  have b4 := XReal.fin_of_mul a3.1
  exact ⟨fin_iff.mpr ⟨b4.1, b3.1, b2.1, b1.1⟩, fin_iff.mpr ⟨b4.2, b3.2, b2.2, b1.2⟩⟩

theorem fin_of_half {a : XReal} (h : Scalar.isFinite (a / fin 2) = true) : Scalar.isFinite a = true := by
  cases a with
  | fin r => rfl
  | nan => simp at h
  | posInf => rw [posInf_div_fin] at h; simp at h
  | negInf => rw [negInf_div_fin] at h; simp at h

/-- `from_scaled_axis` gives unit quaternions or not-a-number. -/
theorem fromScaledAxis_unit {v : Vec3 XReal} {r : Quat ℝ} (h : fromScaledAxis v = r.f) : r.normSq = 1 := by
  by_cases hv : Scalar.isFinite v.x = true ∧ Scalar.isFinite v.y = true ∧ Scalar.isFinite v.z = true
  · obtain ⟨u, rfl⟩ := Vec3.exists_f hv.1 hv.2.1 hv.2.2
    rw [f_fromScaledAxis, f_inj] at h
    rw [← h]; exact exp_normSq u
  · have hnn : Scalar.isFinite ((v.unscale two).dot (v.unscale two)) = false := by
      by_contra hc
      simp only [Bool.not_eq_false] at hc
      apply hv
      simp only [Vec3.dot, Vec3.unscale, two_eq] at hc
      have a := XReal.fin_of_add hc
      have b := XReal.fin_of_add a.1
      exact ⟨fin_of_half (XReal.fin_of_mul b.1).1, fin_of_half (XReal.fin_of_mul b.2).1,
        fin_of_half (XReal.fin_of_mul a.2).1⟩
    simp only [fromScaledAxis] at h
    generalize (v.unscale two).dot (v.unscale two) = nn at h hnn
    have hpos : nn ≠ negInf → Scalar.le nn (machineEps * machineEps) = false := by
      intro hne
      cases nn <;> simp_all
    by_cases hneg : nn = negInf
    · subst hneg
      rw [if_pos (by simp)] at h
      simp only [f_identity, f_inj] at h
      rw [← h]; exact e_normSq
    · exfalso
      rw [hpos hneg] at h
      simp only [Bool.false_eq_true, if_false] at h
      have := congrArg Quat.w h
      simp only [f_w] at this
      cases nn <;> simp_all
      all_goals cases this

/-- Turning a quaternion keeps its norm, if the result is finite. -/
theorem turns_normSq {p q : Quat XReal} (h : Turns p q) {r : Quat ℝ} (hq : q = r.f) :
    ∃ t : Quat ℝ, p = t.f ∧ t.normSq = r.normSq := by
  induction h generalizing r with
  | refl => exact ⟨r, hq, rfl⟩
  | turn v _ ih =>
    obtain ⟨⟨a, ha⟩, ⟨b, hb⟩⟩ := fin_of_mul ⟨r, hq⟩
    obtain ⟨t, ht, hn⟩ := ih hb
    refine ⟨t, ht, ?_⟩
    rw [ha, hb, f_mul, f_inj] at hq
    rw [hn, ← hq, mul_mul_normSq, fromScaledAxis_unit ha, one_mul]

theorem fin_of_rotate {q : Quat XReal} {v : Vec3 XReal} {u : Vec3 ℝ} (h : q.rotate v = u.f) :
    q.Fin ∧ v.Fin := by
  have hx : Scalar.isFinite (q.rotate v).x = true := by rw [h]; rfl
  have hy : Scalar.isFinite (q.rotate v).y = true := by rw [h]; rfl
  have hz : Scalar.isFinite (q.rotate v).z = true := by rw [h]; rfl
  have ax := XReal.fin_of_add hx
  have ay := XReal.fin_of_add hy
  have az := XReal.fin_of_add hz
  have bx := XReal.fin_of_mul (XReal.fin_of_add ax.1).1
  have by' := XReal.fin_of_mul (XReal.fin_of_add ay.1).1
  have cx := fin_of_sub (XReal.fin_of_mul bx.1).1
  have cy := fin_of_sub (XReal.fin_of_mul by'.1).1
  exact ⟨fin_iff.mpr ⟨bx.2, (XReal.fin_of_mul cy.2).1, (XReal.fin_of_mul cx.1).1, (XReal.fin_of_mul cx.2).1⟩,
    Vec3.fin_iff.mpr ⟨ax.2, ay.2, az.2⟩⟩
end Quat

/-! ### What is stored -/

section
variable {γ : Type} [ForceGenerator XReal γ] {s : System XReal γ}

/-- The masses of stored colliders are non-negative numbers or infinite. -/
theorem stored_mass (hr : Reachable s) {k : Handle} {c : Collider XReal} (hc : s.colliders.get k = some c) :
    c.mass = posInf ∨ ∃ m, 0 ≤ m ∧ c.mass = fin m := by
  obtain ⟨tr, h⟩ := hr
  have key : ∀ x : XReal, Scalar.le zero x = true → x = posInf ∨ ∃ m, 0 ≤ m ∧ x = fin m := by
    intro x hx
    cases x with
    | nan => simp at hx
    | negInf => simp at hx
    | posInf => exact Or.inl rfl
    | fin m => exact Or.inr ⟨m, by simpa using hx, rfl⟩
  refine System.steps_colliders (Q := fun _ => True)
    (P := fun c => c.mass = posInf ∨ ∃ m, 0 ≤ m ∧ c.mass = fin m) ?_ ?_ ?_ h ?_ k c hc
  · intro c d _ h
    cases c <;> simp only [Collider.newFrom] at h <;> split at h <;> cases h <;> rename_i hv <;>
      simp only [Bool.not_eq_true', Bool.not_eq_false, NullCollider.isValid, SphereCollider.isValid, PlaneCollider.isValid,
        BoxCollider.isValid, Bool.and_eq_true] at hv
    · exact key _ hv
    · exact key _ hv.2
    · exact key _ hv.1
    · exact Or.inr ⟨0, le_refl _, by simp [Collider.mass]⟩
    · exact key _ hv.2
  · intro c d r _ h
    cases c <;> cases d <;> simp only [Collider.updateFrom] at h <;> first | (cases h; done) | skip
    all_goals
      split at h <;> cases h
      rename_i hv
      simp only [Bool.not_eq_true', Bool.not_eq_false, NullCollider.isValid, SphereCollider.isValid, PlaneCollider.isValid,
        BoxCollider.isValid, Bool.and_eq_true] at hv
    · exact key _ hv
    · exact key _ hv.2
    · exact key _ hv.1
    · exact Or.inr ⟨0, le_refl _, by simp [Collider.mass]⟩
    · exact key _ hv.2
  · intro c t h; rw [Collider.mass_setEntity]; exact h
  · intro x _; unfold System.GivesColliders; split <;> trivial

/-- A stored rotation is a unit quaternion, or not finite. -/
theorem stored_rotation (hr : Reachable s) {k : Handle} {E : InternalEntity XReal} (hE : s.entities.get k = some E)
    {q : Quat ℝ} (hq : E.orientation.rotation = q.f) : q.normSq = 1 := by
  obtain ⟨tr, h⟩ := hr
  induction h generalizing k E q with
  | nil => simp [System.new, Arena.get_new] at hE
  | snoc ord op out hst hx ih =>
    rcases System.exec_entities (System.steps_inv System.inv_new hst) hx hE with ⟨E0, hE0, h⟩ | ⟨e, rfl, h⟩ |
      ⟨E0, cols, order, hE0, hp, h⟩ | ⟨e, E0, E1, E2, w, order, rfl, hE0, hu, hp, hr, hw⟩
    · obtain ⟨t, ht, hn⟩ := Quat.turns_normSq h.2 hq
      rw [← hn]; exact ih hE0 ht
    · unfold InternalEntity.newFrom at h
      split at h
      · cases h
      · cases h; exact Quat.fromScaledAxis_unit hq
    · rw [(recalculateMass_massRel h).rotation] at hq
      exact ih hE0 hq
    · obtain ⟨-, -, hE1⟩ := System.updateFrom_fields hu
      have : E.orientation.rotation = Quat.fromScaledAxis e.rotation := by
        rw [hw, recalculateMass_massRel hr, hE1]
      rw [this] at hq
      exact Quat.fromScaledAxis_unit hq

/-- All members of a list of handles that belong to an entity are live. -/
theorem live_of_inv (inv : System.Inv s) {k : Handle} {E : InternalEntity XReal} (hE : s.entities.get k = some E)
    {order : List Handle} (hp : order.Perm E.colliders) : ∀ h ∈ order, ∃ c, s.colliders.get h = some c := by
  intro h hh
  obtain ⟨C, hC, -⟩ := (inv.links k E h hE).mp (hp.mem_iff.mp hh)
  exact ⟨C, hC⟩

theorem forall₂_infinite {ls : List Lump} {l : List (Collider XReal)} (h : List.Forall₂ Lump.Of ls l) :
    ∀ c ∈ l, Scalar.isInfinite c.mass = false := by
  induction h with
  | nil => simp
  | cons h _ ih =>
    intro c hc
    rcases List.mem_cons.mp hc with rfl | hc
    · rw [h.1]; rfl
    · exact ih c hc

/-- The offset and the prepared inertia of a stored entity with a finite pose and finite colliders. -/
theorem stored_real (hr : Reachable s) {k : Handle} {E : InternalEntity XReal} (hE : s.entities.get k = some E)
    {o : Orientation ℝ} (ho : E.orientation = o.f) {ls : List Lump}
    (hls : List.Forall₂ Lump.Of ls (found s.colliders E.colliders)) :
    (0 < Lump.total ls → o.internalOriginOffset = -Lump.mean ls) ∧
    E.preppedMoment = (Mat3.sum (ls.map fun l => l.about (o.internalOriginOffset + l.c))).f := by
  have hinv := hr.inv
  rcases hinv.mass k E hE with ⟨h1, -, h3⟩ | ⟨order, E0, E1, hp, hrec, hcar⟩
  · rw [h1] at hls
    cases hls
    simp [Lump.total, h3]
  · obtain ⟨r1, r2, r3, r4, r5⟩ := staticRel_iff.mp hcar.1
    have hcol : E1.colliders = E.colliders := r5.symm
    rw [hcol] at hp
    have hl := live_of_inv hinv hE hp
    have hperm : (found s.colliders order).Perm (found s.colliders E.colliders) := hp.filterMap _
    have hfin : ∀ c ∈ found s.colliders order, Scalar.isInfinite c.mass = false :=
      fun c hc => forall₂_infinite hls c (hperm.mem_iff.mp hc)
    rw [recalculateMass_loose E0 hl hfin, loose_perm E0 hperm] at hrec
    have hE1 : E0.loose (found s.colliders E.colliders) = E1 := by injection hrec
    have hoff : E1.orientation.internalOriginOffset = o.internalOriginOffset.f := by rw [← r1, ho]; rfl
    refine ⟨?_, ?_⟩
    · intro hM
      -- the rotation of `E0` is finite and of unit length
      have hq : E.orientation.rotation = o.rotation.f := by rw [ho]; rfl
      obtain ⟨t, ht, hn⟩ := Quat.turns_normSq hcar.2 hq
      have hu : t.normSq = 1 := by rw [hn]; exact stored_rotation hr hE hq
      have hrot0 : E0.orientation.rotation = t.f := by
        rw [← ht, ← hE1]
        exact (recenter_massRel E0 _).rotation.symm
      -- the offset after the recalculation
      have hmass := Lump.foldl_mass hls 0
      rw [zero_add, ← zero_eq] at hmass
      have hoffs : E1.orientation.internalOriginOffset = E0.orientation.internalOriginOffset -
          E0.orientation.directionIntoLocal ((List.foldl (fun a c => a +
            (E0.orientation.positionIntoWorld c.localCenterOfMass).scale c.mass) Vec3.zeros
            (found s.colliders E.colliders)).unscale (fin (Lump.total ls)) - E0.orientation.position) := by
        rw [← hE1]
        unfold loose recenter
        rw [hmass]
        simp [hM]
      rw [hoff] at hoffs
      obtain ⟨⟨d, hd⟩, ⟨v, hv⟩⟩ := Vec3.fin_of_sub ⟨_, hoffs.symm⟩
      have hmv := (Quat.fin_of_rotate (show _ = _ from hv)).2
      obtain ⟨-, ⟨x, hx⟩⟩ := Vec3.fin_of_sub hmv
      have hor0 : E0.orientation = (⟨x, t, d⟩ : Orientation ℝ).f := by
        cases h : E0.orientation
        rw [h] at hx hd hrot0
        simp only at hx hd hrot0
        rw [hx, hd, hrot0]; rfl
      have := (loose_real hor0 hu hls).1
      rw [hE1] at this
      rw [this] at hoff
      simpa using hoff.symm
    · rw [r4, ← hE1]
      unfold loose
      have hof : (E0.recenter ⟨(found s.colliders E.colliders).foldl (fun a c => a +
          (E0.orientation.positionIntoWorld c.localCenterOfMass).scale c.mass) Vec3.zeros,
          (found s.colliders E.colliders).foldl (fun a c => a + c.mass) zero, false⟩).orientation.internalOriginOffset =
          o.internalOriginOffset.f := by
        rw [← hoff, ← hE1]; rfl
      simp only [Orientation.prepMomentOfInertia, hof]
      have := Lump.foldl_moment o hls Mat3.o
      rw [← Mat3.f_zeros, Mat3.o_add] at this
      simpa only [Orientation.prepMomentOfInertia, Orientation.f_offset] using this

/-- The total mass of a stored entity. -/
theorem stored_total (hr : Reachable s) {k : Handle} {E : InternalEntity XReal} (hE : s.entities.get k = some E) :
    ((∃ c ∈ found s.colliders E.colliders, c.mass = posInf) → E.totalMass = posInf) ∧
    ((∀ c ∈ found s.colliders E.colliders, c.mass ≠ posInf) →
      E.totalMass = E.ownMass + (found s.colliders E.colliders).foldl (fun a c => a + c.mass) (fin 0)) := by
  have hinv := hr.inv
  rcases hinv.mass k E hE with ⟨h1, h2, h3⟩ | ⟨order, E0, E1, hp, hrec, hcar⟩
  · rw [h1]; simp [found, h2]
  · obtain ⟨r1, r2, r3, r4, r5⟩ := staticRel_iff.mp hcar.1
    have hcol : E1.colliders = E.colliders := r5.symm
    rw [hcol] at hp
    have hl := live_of_inv hinv hE hp
    have hperm : (found s.colliders order).Perm (found s.colliders E.colliders) := hp.filterMap _
    refine ⟨?_, ?_⟩
    · rintro ⟨c, hc, hi⟩
      rw [recalculateMass_infinite E0 hl ⟨c, hperm.mem_iff.mpr hc, by rw [hi]; rfl⟩] at hrec
      injection hrec with hrec
      rw [r3, ← hrec]
      simp [fixed, recenter]
    · intro hfin
      have hm : ∀ c ∈ found s.colliders E.colliders, ∃ m, 0 ≤ m ∧ c.mass = fin m := by
        intro c hc
        obtain ⟨h, -, hget⟩ := mem_found.mp hc
        rcases stored_mass hr hget with h | h
        · exact absurd h (hfin c hc)
        · exact h
      have hsum : ∀ (l : List (Collider XReal)) (b : ℝ), 0 ≤ b → (∀ c ∈ l, ∃ m, 0 ≤ m ∧ c.mass = fin m) →
          ∃ M, 0 ≤ M ∧ l.foldl (fun a c => a + c.mass) (fin b) = fin M := by
        intro l
        induction l with
        | nil => exact fun b hb _ => ⟨b, hb, rfl⟩
        | cons c l ih =>
          intro b hb h
          obtain ⟨m, hm, hc⟩ := h c (by simp)
          rw [List.foldl_cons, hc, fin_add]
          exact ih _ (add_nonneg hb hm) (fun d hd => h d (by simp [hd]))
      obtain ⟨M, hM, hMs⟩ := hsum _ 0 (le_refl 0) hm
      rw [recalculateMass_loose E0 hl (fun c hc => by
        obtain ⟨m, -, h⟩ := hm c (hperm.mem_iff.mp hc); rw [h]; rfl), loose_perm E0 hperm] at hrec
      injection hrec with hrec
      rw [hMs, r3, r2, ← hrec]
      simp only [loose]
      rw [zero_eq, hMs]
      unfold recenter
      simp only [zero_eq, fin_lt, Bool.not_false, Bool.and_true, decide_eq_true_eq]
      split
      · rfl
      · have : M = 0 := le_antisymm (not_lt.mp (by assumption)) hM
        rw [this]; simp
end
end Fluffy
