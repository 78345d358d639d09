import Verif.Props.ShiftHit
import Verif.Props.Repeat
/-
C71: nothing depends on where the origin is.  The same calls on a scene moved by a fixed vector give the same results moved by that vector.
-/
set_option linter.unusedSectionVars false
set_option linter.unusedSimpArgs false
namespace Fluffy
open XReal

/-! ### Moving a scene -/

/-- Every value replaced, handles and free slots kept. -/
def Arena.map {τ σ : Type} (g : τ → σ) (a : Arena τ) : Arena σ := ⟨a.items.map (Option.map (Prod.map id g)), a.free, a.generation⟩

/-- A stored entity moved along. -/
noncomputable def InternalEntity.shift (d : Vec3 ℝ) (e : InternalEntity XReal) : InternalEntity XReal := { e with orientation := e.orientation.shift d }
/-- A public entity moved along, its remembered pose too. -/
noncomputable def Entity.shift (d : Vec3 ℝ) (e : Entity XReal) : Entity XReal :=
  { e with position := e.position + d.f, lastOrientation := e.lastOrientation.shift d }
/-- A collision record moved along. -/
noncomputable def CollisionRecord.shift (d : Vec3 ℝ) (r : CollisionRecord XReal) : CollisionRecord XReal := { r with position := r.position + d.f }
/-- A force moved along: the same force at the moved point. -/
noncomputable def Force.shift (d : Vec3 ℝ) (r : Force XReal) : Force XReal := { r with position := r.position + d.f }
/-- Every entity and every collision record moved along; colliders are stored relative to their entities and stay. -/
noncomputable def World.shift (d : Vec3 ℝ) (w : World XReal) : World XReal :=
  { w with entities := w.entities.map (InternalEntity.shift d), collisionRecords := w.collisionRecords.map (CollisionRecord.shift d) }
/-- The world of the system moved along. -/
noncomputable def System.shift {γ : Type} (d : Vec3 ℝ) (s : System XReal γ) : System XReal γ := { s with toWorld := s.toWorld.shift d }
/-- The same call, with the positions in its arguments moved along. -/
noncomputable def Op.shift {γ : Type} (d : Vec3 ℝ) : Op XReal γ → Op XReal γ
  | .addEntity e => .addEntity (e.shift d)
  | .updateEntity h e => .updateEntity h (e.shift d)
  | .configure n e t rs m => .configure n e t (rs.map (CollisionRecord.shift d)) m
  | op => op

namespace Props
open Step InternalEntity

/-- Force generators that do not know where the origin is: in a moved world they make the same force at the moved point. -/
def Homeless (γ : Type) [ForceGenerator XReal γ] : Prop :=
  ∀ (d : Vec3 ℝ) (g : γ) (dt : XReal) (w : World XReal) (h : Handle),
    ForceGenerator.makeForce g dt (w.shift d) h = (ForceGenerator.makeForce g dt w h).map (Prod.map (Force.shift d) id)

/-! ### Arenas -/

section
variable {τ σ : Type} (g : τ → σ) (a : Arena τ)
theorem get_map (h : Handle) : (a.map g).get h = (a.get h).map g := by
  unfold Arena.get Arena.map
  simp only [List.getElem?_map]
  cases a.items[h.index]? with
  | none => rfl
  | some o =>
    cases o with
    | none => rfl
    | some p =>
      simp only [Option.map_some, Prod.map, id]
      split <;> rfl
theorem set_map (h : Handle) (v : τ) : (a.map g).set h (g v) = (a.set h v).map g := by
  unfold Arena.set
  rw [get_map]
  cases a.get h with
  | none => rfl
  | some x => simp only [Option.map_some, Arena.map, List.map_set]; rfl
theorem tryInsert_map (v : τ) : (a.map g).tryInsert (g v) = (a.tryInsert v).map (Prod.map (Arena.map g) id) := by
  unfold Arena.tryInsert
  show (match a.free with | [] => none | i :: rest => _) = _
  cases a.free with
  | nil => rfl
  | cons i rest => simp only [Option.map_some, Prod.map, Arena.map, List.map_set]; rfl
theorem grow_map : (a.map g).grow = a.grow.map g := by
  unfold Arena.grow Arena.map
  simp
theorem insert_map (v : τ) : (a.map g).insert (g v) = Prod.map (Arena.map g) id (a.insert v) := by
  unfold Arena.insert
  rw [tryInsert_map, grow_map, tryInsert_map]
  cases a.tryInsert v with
  | some r => rfl
  | none =>
    cases a.grow.tryInsert v with
    | some r => rfl
    | none => rfl
theorem remove_map (h : Handle) : (a.map g).remove h = Prod.map (Arena.map g) (Option.map g) (a.remove h) := by
  unfold Arena.remove
  rw [get_map]
  cases a.get h with
  | none => rfl
  | some x => simp only [Option.map_some, Prod.map, Arena.map, List.map_set]; rfl
theorem handles_map : (a.map g).handles = a.handles := by
  have : ∀ (l : List (Option (Nat × τ))) (i : Nat), Arena.handlesFrom i (l.map (Option.map (Prod.map id g))) = Arena.handlesFrom i l := by
    intro l
    induction l with
    | nil => intro i; rfl
    | cons o l ih =>
      intro i
      cases o with
      | none => exact ih _
      | some p => simp only [List.map_cons, Option.map_some, Prod.map, id, Arena.handlesFrom, ih]
  exact this _ _
theorem unwrap_map (o : Option τ) : unwrap (o.map g) = (unwrap o).map g := by cases o <;> rfl
end

/-- Every stored rotation is a unit quaternion, or all NaN. -/
def Posed (a : Arena (InternalEntity XReal)) : Prop := ∀ h e, a.get h = some e → e.orientation.rotation.Ok
/-- The scenes the claim is about: no plane with an infinite normal. -/
def Tamed (a : Arena (Collider XReal)) : Prop := ∀ h c, a.get h = some c → TameShape c

theorem Posed.set {a : Arena (InternalEntity XReal)} (ht : Posed a) (h : Handle) {e : InternalEntity XReal} (he : e.orientation.rotation.Ok) : Posed (a.set h e) := by
  intro k x hx
  rw [Arena.get_set] at hx
  split at hx
  · cases hg : a.get h with
    | none => rw [hg] at hx; cases hx
    | some y => rw [hg] at hx; cases hx; exact he
  · exact ht k x hx
theorem Posed.evolves {R : InternalEntity XReal → InternalEntity XReal → Prop} (hR : ∀ x y, R x y → y.orientation = x.orientation) {a b : Arena (InternalEntity XReal)}
    (ht : Posed a) (h : Arena.Evolves R a b) : Posed b := by
  intro k y hy
  obtain ⟨x, hx, hr⟩ := h.get' hy
  rw [hR x y hr]; exact ht k x hx

variable (d : Vec3 ℝ)

/-! ### Entities -/

theorem makePub_shift (e : InternalEntity XReal) : (e.shift d).makePub = e.makePub.shift d := rfl
theorem velocityAt_shift (e : InternalEntity XReal) (p : Vec3 XReal) : (e.shift d).velocityAt (p + d.f) = e.velocityAt p := by
  unfold velocityAt
  rw [show (e.shift d).orientation.position = e.orientation.position + d.f from rfl, Vec3.shift_sub_shift]
  rfl
theorem inverseMoment_shift (e : InternalEntity XReal) : (e.shift d).inverseMomentOfInertia = e.inverseMomentOfInertia := rfl
theorem applyImpulse_shift (e : InternalEntity XReal) (p j : Vec3 XReal) : (e.shift d).applyImpulse (p + d.f) j = (e.applyImpulse p j).shift d := by
  unfold applyImpulse
  rw [show (e.shift d).orientation.position = e.orientation.position + d.f from rfl, Vec3.shift_sub_shift]
  rfl
theorem totalEnergy_shift (e : InternalEntity XReal) : (e.shift d).totalEnergy = e.totalEnergy := rfl
theorem newFrom_shift (e : Entity XReal) : InternalEntity.newFrom (e.shift d) = (InternalEntity.newFrom e).map (InternalEntity.shift d) := by
  unfold InternalEntity.newFrom
  show (if Scalar.lt e.ownMass zero = true then _ else _) = _
  split <;> rfl
theorem updateFrom_shift (e : InternalEntity XReal) (s : Entity XReal) :
    (e.shift d).updateFrom (s.shift d) = (e.updateFrom s).map (Prod.map (InternalEntity.shift d) id) := by
  unfold InternalEntity.updateFrom
  have hc : (e.shift d).changed (s.shift d) = e.changed s := by
    unfold InternalEntity.changed
    rw [show (e.shift d).orientation.position = e.orientation.position + d.f from rfl, show (s.shift d).position = s.position + d.f from rfl,
      Vec3.shift_sub_shift]
    rfl
  rw [hc]
  show (if Scalar.lt s.ownMass zero = true then _ else _) = _
  split <;> rfl

/-- The first loop of `recalculate_mass`: the weighted sum moves by the mass found so far times the vector. -/
theorem massLoop_shift {o : Orientation XReal} (ho : o.rotation.Ok) (cs : Arena (Collider XReal)) : ∀ (l : List Handle) (x y : MassSum XReal),
    (x.totalOtherMass = nan ∧ y.totalOtherMass = nan ∧ x.foundInfinite = y.foundInfinite ∨ ∃ m : ℝ, y = ⟨x.centerOfMass + (d.scale m).f, fin m, x.foundInfinite⟩ ∧ x.totalOtherMass = fin m) →
    (∃ e, massLoop o cs l x = .error e ∧ massLoop (o.shift d) cs l y = .error e) ∨
      ∃ x' y', massLoop o cs l x = .ok x' ∧ massLoop (o.shift d) cs l y = .ok y' ∧
        (x'.totalOtherMass = nan ∧ y'.totalOtherMass = nan ∧ x'.foundInfinite = y'.foundInfinite ∨ ∃ m : ℝ, y' = ⟨x'.centerOfMass + (d.scale m).f, fin m, x'.foundInfinite⟩ ∧ x'.totalOtherMass = fin m)
  | [], x, y, h => .inr ⟨x, y, rfl, rfl, h⟩
  | k :: l, x, y, h => by
    unfold massLoop
    cases hk : cs.get k with
    | none => exact .inl ⟨_, rfl, rfl⟩
    | some c =>
      simp only [unwrap_some, Res.ok_bind]
      by_cases hi : Scalar.isInfinite c.mass = true
      · simp only [hi, if_true]
        refine .inr ⟨_, _, rfl, rfl, ?_⟩
        rcases h with ⟨h1, h2, h3⟩ | ⟨m, h1, h2⟩
        · exact .inl ⟨h1, h2, rfl⟩
        · subst h1; exact .inr ⟨m, rfl, h2⟩
      · simp only [hi, if_false, Bool.false_eq_true]
        apply massLoop_shift ho cs l
        rcases h with ⟨h1, h2, h3⟩ | ⟨m, h1, h2⟩
        · left; simp only [h1, h2, nan_add, h3, and_self]
        · subst h1
          cases hm : c.mass with
          | nan => left; simp
          | posInf => rw [hm] at hi; simp at hi
          | negInf => rw [hm] at hi; simp at hi
          | fin r =>
            right
            refine ⟨m + r, ?_, by simp [h2]⟩
            simp only [MassSum.mk.injEq, fin_add, and_true, true_and]
            rw [Orientation.positionIntoWorld_shift d o _ ho, Vec3.shift_scale,
              show ∀ a b c e : Vec3 XReal, a + b + (c + e) = a + c + (b + e) by intro a b c e; ac_rfl, Vec3.f_add]
            congr 2
            ext <;> simp <;> ring

theorem recenter_shift {e : InternalEntity XReal} {x y : MassSum XReal}
    (h : x.totalOtherMass = nan ∧ y.totalOtherMass = nan ∧ x.foundInfinite = y.foundInfinite ∨ ∃ m : ℝ, y = ⟨x.centerOfMass + (d.scale m).f, fin m, x.foundInfinite⟩ ∧ x.totalOtherMass = fin m) :
    (e.shift d).recenter y = (e.recenter x).shift d := by
  have hpos : ∀ v : Vec3 XReal, e.orientation.position + d.f + v = e.orientation.position + v + d.f := fun v => Vec3.shift_add _ _ _
  rcases h with ⟨h1, h2, h3⟩ | ⟨m, h1, h2⟩
  · unfold recenter
    simp only [h1, h2, h3, lt_nan, Bool.false_and, Bool.false_eq_true, if_false]
    have := hpos
    simp only [InternalEntity.shift, Orientation.shift, InternalEntity.mk.injEq, Orientation.mk.injEq, true_and, and_true]
    exact hpos _
  · subst h1
    unfold recenter
    simp only [h2]
    split
    · rename_i hm
      have hm0 : m ≠ 0 := by
        rintro rfl; simp at hm
      have hmv : ∀ c : Vec3 XReal, (c + (d.scale m).f).unscale (fin m) - (e.shift d).orientation.position = c.unscale (fin m) - e.orientation.position := by
        intro c
        rw [Vec3.shift_unscale _ _ _ hm0, Vec3.scale_scale, mul_inv_cancel₀ hm0, Vec3.scale_one]
        exact Vec3.shift_sub_shift _ _ _
      simp only [hmv]
      simp only [InternalEntity.shift, Orientation.shift, InternalEntity.mk.injEq, Orientation.mk.injEq, true_and, and_true]
      exact ⟨hpos _, rfl⟩
    · simp only [InternalEntity.shift, Orientation.shift, InternalEntity.mk.injEq, Orientation.mk.injEq, true_and, and_true]
      exact hpos _

theorem momentLoop_shift (o : Orientation XReal) (cs : Arena (Collider XReal)) : ∀ (l : List Handle) (m : Mat3 XReal), momentLoop (o.shift d) cs l m = momentLoop o cs l m
  | [], _ => rfl
  | k :: l, m => by
    unfold momentLoop
    cases cs.get k with
    | none => rfl
    | some c => exact momentLoop_shift o cs l _

theorem recalculateMass_shift {e : InternalEntity XReal} (he : e.orientation.rotation.Ok) (order : List Handle) (cs : Arena (Collider XReal)) :
    recalculateMass order cs (e.shift d) = (recalculateMass order cs e).map (InternalEntity.shift d) := by
  unfold recalculateMass
  rw [show (e.shift d).orientation = e.orientation.shift d from rfl]
  rcases massLoop_shift d he cs order ⟨Vec3.zeros, zero, false⟩ ⟨Vec3.zeros, zero, false⟩ (.inr ⟨0, by
      rw [Vec3.scale_zero, zero_eq, MassSum.mk.injEq]; refine ⟨?_, rfl, rfl⟩; ext <;> exact (add_fin_zero _).symm, by simp⟩) with ⟨x, h1, h2⟩ | ⟨x, y, h1, h2, h3⟩
  · rw [h1, h2]; rfl
  · rw [h1, h2]
    simp only [Res.ok_bind]
    rw [recenter_shift d h3]
    have hf : y.foundInfinite = x.foundInfinite := by
      rcases h3 with ⟨-, -, h⟩ | ⟨m, h, -⟩
      · exact h.symm
      · rw [h]
    rw [hf]
    split
    · rfl
    · rw [show ((e.recenter x).shift d).orientation = (e.recenter x).orientation.shift d from rfl, momentLoop_shift]
      cases momentLoop (e.recenter x).orientation cs order Mat3.zeros <;> rfl

theorem recalculateMass_ok {e r : InternalEntity XReal} (he : e.orientation.rotation.Ok) {order : List Handle} {cs : Arena (Collider XReal)}
    (h : recalculateMass order cs e = .ok r) : r.orientation.rotation.Ok := by
  have hr : ∀ x, (e.recenter x).orientation.rotation = e.orientation.rotation := by
    intro x; unfold recenter; simp only; split <;> rfl
  unfold recalculateMass at h
  obtain ⟨x, -, h⟩ := Res.bind_eq_ok.mp h
  split at h
  · cases h; simp only [hr]; exact he
  · obtain ⟨m, -, h⟩ := Res.bind_eq_ok.mp h
    cases h; simp only [hr]; exact he

end Props
end Fluffy
