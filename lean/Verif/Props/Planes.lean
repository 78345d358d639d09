import Verif.Proofs.Stored
import Verif.Props.Motion
import Verif.Props.Demo
/- C08: the normals of stored planes. -/
set_option linter.unusedSectionVars false
set_option linter.unusedSimpArgs false
namespace Fluffy.Props
open XReal System
variable {γ : Type} [ForceGenerator XReal γ]

/-- The vector has length one. -/
def UnitVec (n : Vec3 XReal) : Prop := n.x * n.x + n.y * n.y + n.z * n.z = fin 1

theorem unitVec_f (a : Vec3 ℝ) : UnitVec a.f ↔ a.dot a = 1 := by
  simp [UnitVec, Vec3.dot_def]

/-- The stored normal comes from a history: it has length one, or it is the normal some call of `update_collider`
gave for this very handle, or it comes from a call of `add_collider` with a normal that was not finite. -/
def NormalFrom (tr : List (Op XReal γ × Out γ)) (k : Handle) (n : Vec3 XReal) : Prop :=
  UnitVec n ∨ (∃ p out, (.updateCollider k (.plane p), out) ∈ tr ∧ p.normal = n) ∨
  (∃ p out, (.addCollider (.plane p), out) ∈ tr ∧ ¬ Finite3 p.normal)

theorem NormalFrom.mono {tr : List (Op XReal γ × Out γ)} {k : Handle} {n : Vec3 XReal} (x : Op XReal γ × Out γ)
    (h : NormalFrom tr k n) : NormalFrom (x :: tr) k n := by
  rcases h with h | ⟨p, o, h, e⟩ | ⟨p, o, h, e⟩
  · exact .inl h
  · exact .inr (.inl ⟨p, o, by simp [h], e⟩)
  · exact .inr (.inr ⟨p, o, by simp [h], e⟩)

/-- **C08, partial:** the normal of every stored plane has length one, unless it was given by `update_collider` (which
stores the normal as it is given) or was not finite when it was given to `add_collider`. -/
theorem C08_normal_partial {s : System XReal γ} {tr : List (Op XReal γ × Out γ)} (h : Steps System.new tr s) :
    ∀ k p, s.getCollider k = some (.plane p) → NormalFrom tr k p.normal := by
  simp only [getCollider_eq]
  induction h with
  | nil => intro k c h; simp [System.new, Arena.get_new] at h
  | snoc ord op out hst hx ih =>
    intro k p hk
    rcases exec_colliders (steps_inv inv_new hst) hx hk with h | ⟨d, t, h, h'⟩ | ⟨src, rfl, h'⟩ | ⟨src, d, rfl, hc, h'⟩
    · exact (ih k p h).mono _
    · cases d <;> simp only [Collider.setEntity] at h' <;> cases h'
      exact (ih k _ h).mono _
    · cases src <;> simp only [Collider.newFrom] at h' <;> split at h' <;> cases h'
      rename_i src hv
      by_cases hf : Finite3 src.normal
      · left
        simp only [Bool.not_eq_true', Bool.not_eq_false, PlaneCollider.isValid, Bool.and_eq_true] at hv
        obtain ⟨a, ha⟩ := hf.f
        have hne : a ≠ .o := by
          rintro rfl
          have := hv.2
          rw [ha, Vec3.f_magnitude, XReal.EPSILON_eq] at this
          simp at this
          norm_num at this
        simp only [ha]
        rw [Vec3.f_normalize hne, unitVec_f]
        exact Vec3.unit_normalize hne
      · exact .inr (.inr ⟨src, out, by simp, hf⟩)
    · cases d <;> cases src <;> simp only [Collider.updateFrom] at h' <;> first | (cases h'; done) | skip
      all_goals (split at h' <;> cases h')
      rename_i d src hv
      exact .inr (.inl ⟨src, out, by simp, rfl⟩)

namespace Tilt
/-- A plane through the origin facing upwards. -/
noncomputable def floor : PlaneCollider XReal := PlaneCollider.new
/-- The same plane, its normal given with length two. -/
noncomputable def long : PlaneCollider XReal := { floor with normal := ⟨fin 0, fin 2, fin 0⟩ }

theorem floor_newFrom : (Collider.plane floor).newFrom = some (.plane floor) := by
  have h : floor.normal = (⟨0, 1, 0⟩ : Vec3 ℝ).f := by ext <;> simp [floor, PlaneCollider.new, Vec3.unitY]
  have hl : (⟨0, 1, 0⟩ : Vec3 ℝ).len = 1 := by show Real.sqrt _ = 1; simp [Vec3.dot_def]
  have hv : floor.isValid = true := by
    simp only [PlaneCollider.isValid, h, Vec3.f_magnitude, hl, XReal.EPSILON_eq]
    simp [floor, PlaneCollider.new]; norm_num
  simp only [Collider.newFrom, hv, Bool.not_true, Bool.false_eq_true, if_false, h]
  rw [Vec3.f_normalize (by intro hc; have := congrArg Vec3.y hc; simp at this), hl]
  rw [show (⟨0, 1, 0⟩ : Vec3 ℝ).scale 1⁻¹ = ⟨0, 1, 0⟩ by ext <;> simp, ← h]
  rfl

theorem long_valid : long.isValid = true := by
  have h : long.normal = (⟨0, 2, 0⟩ : Vec3 ℝ).f := by ext <;> simp [long]
  have hl : (⟨0, 2, 0⟩ : Vec3 ℝ).len = 2 := by
    show Real.sqrt _ = 2
    rw [Vec3.dot_def, Real.sqrt_eq_iff_mul_self_eq] <;> norm_num
  simp only [PlaneCollider.isValid, h, Vec3.f_magnitude, hl, XReal.EPSILON_eq]
  simp [long, floor, PlaneCollider.new]; norm_num

/-- After `add_collider(floor)`. -/
noncomputable def s1 : System XReal γ := (System.new.addCollider (.plane floor)).1
theorem exec1 : (System.new : System XReal γ).exec .id (.addCollider (.plane floor)) = .ok (s1, .collider (some ⟨0, 0⟩)) := by
  simp only [System.exec, s1, System.addCollider, floor_newFrom]; rfl
theorem s1_get : (s1 : System XReal γ).colliders.get ⟨0, 0⟩ = some (.plane floor) := by
  simp only [s1, System.addCollider, floor_newFrom]; rfl
/-- After `update_collider` with the longer normal. -/
noncomputable def s2 : System XReal γ := { (s1 : System XReal γ) with colliders := (s1 : System XReal γ).colliders.set ⟨0, 0⟩ (.plane long) }
theorem exec2 : (s1 : System XReal γ).exec .id (.updateCollider ⟨0, 0⟩ (.plane long)) = .ok (s2, .ok true) := by
  have hu : (Collider.plane floor).updateFrom (.plane long) = .updated (.plane long) := by
    simp only [Collider.updateFrom, long_valid]; rfl
  simp only [System.exec, System.updateCollider, s1_get, hu]
  rfl
theorem reachable : Reachable (s2 : System XReal γ) := ⟨_, .snoc .id _ _ (.snoc .id _ _ .nil exec1) exec2⟩
theorem s2_get : (s2 : System XReal γ).getCollider ⟨0, 0⟩ = some (.plane long) := by
  rw [getCollider_eq]
  simp only [s2, Arena.get_set_self s1_get]
end Tilt

/-- **C08 is false:** `update_collider` stores a normal of length two. -/
theorem C08_false : ¬ ∀ s : System XReal γ, Reachable s → ∀ k p, s.getCollider k = some (.plane p) → UnitVec p.normal := by
  intro hall
  have := hall _ Tilt.reachable _ _ Tilt.s2_get
  simp [UnitVec, Tilt.long] at this
  norm_num at this

example : ∃ tr, Steps System.new tr (Tilt.s1 : System XReal γ) ∧ (Tilt.s1 : System XReal γ).getCollider ⟨0, 0⟩ = some (.plane Tilt.floor) :=
  ⟨_, .snoc .id _ _ .nil Tilt.exec1, by rw [getCollider_eq]; exact Tilt.s1_get⟩
end Fluffy.Props
