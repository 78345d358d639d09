import Verif.Proofs.Step
/- What a step may do to the pose and the mass data of an entity. -/
set_option linter.unusedSectionVars false
set_option linter.unusedSimpArgs false
namespace Fluffy.Step
open InternalEntity
variable {α : Type} [Scalar α] {γ : Type}

/-- The rotations reachable from a rotation by turning. -/
inductive Turns : Quat α → Quat α → Prop
  | refl (q : Quat α) : Turns q q
  | turn {p q : Quat α} (v : Vec3 α) : Turns p q → Turns p ((Quat.fromScaledAxis v).mul q)

theorem Turns.trans {a b c : Quat α} (h : Turns a b) (h' : Turns b c) : Turns a c := by
  induction h' with
  | refl => exact h
  | turn v _ ih => exact .turn v ih

/-- The mass data are kept and the rotation changes by turning only. -/
def Carries (e e' : InternalEntity α) : Prop :=
  StaticRel e e' ∧ Turns e.orientation.rotation e'.orientation.rotation

theorem Carries.refl (e : InternalEntity α) : Carries e e := ⟨.refl e, .refl _⟩
theorem Carries.trans {a b c : InternalEntity α} (h : Carries a b) (h' : Carries b c) : Carries a c :=
  ⟨h.1.trans h'.1, h.2.trans h'.2⟩
theorem Carries.of_wake {e e' : InternalEntity α} (h : WakeRel e e') : Carries e e' := by
  refine ⟨Step.WakeRel.static h, ?_⟩
  have : e'.orientation.rotation = e.orientation.rotation := by rw [h]
  rw [this]; exact .refl _
theorem Carries.of_vel {e e' : InternalEntity α} (h : VelRel e e') : Carries e e' := by
  refine ⟨h.static, ?_⟩
  have : e'.orientation.rotation = e.orientation.rotation := by rw [h]
  rw [this]; exact .refl _
theorem Carries.of_moved (p : α) (i : StepInfo α) (e : InternalEntity α) : Carries e (moved p i e) := by
  refine ⟨moved_static p i e, ?_⟩
  unfold moved
  split
  · exact .refl _
  · exact .turn _ (.refl _)

theorem evolves_advance {best : Option (Candidate α)} {st st' : LoopState α}
    (hnd : (st.infos.map StepInfo.handle).Nodup) (hh : advance best st = .ok st') :
    Arena.Evolves Carries st.world.entities st'.world.entities := by
  obtain ⟨-, k2, k3, k4⟩ := advance_spec hnd hh
  refine ⟨k2.shape, ?_⟩
  intro h x y hx hy
  by_cases hm : h ∈ st.infos.map StepInfo.handle
  · obtain ⟨i, hi, rfl⟩ := List.mem_map.mp hm
    obtain ⟨e, he, he'⟩ := k4 i hi
    rw [he] at hx; cases hx
    rw [he'] at hy; cases hy
    exact .of_moved _ _ _
  · rw [k3 h hm, hx] at hy; cases hy; exact .refl _

theorem sleepLoop_carries {ord : IterOrder} {dt : α} : ∀ {l : List (StepInfo α)} {w w' : World α},
    sleepLoop ord dt l w = .ok w' → Arena.Evolves Carries w.entities w'.entities
  | [], w, w', hh => by unfold sleepLoop at hh; cases hh; exact .refl Carries.refl _
  | i :: l, w, w', hh => by
    unfold sleepLoop at hh
    obtain ⟨m, h1, hh⟩ := Res.bind_eq_ok.mp hh
    refine Arena.Evolves.trans (fun a b c => Carries.trans (a := a) (b := b) (c := c)) ?_ (sleepLoop_carries hh)
    have put : ∀ {e e' : InternalEntity α}, w.entities.get i.handle = some e → e'.orientation = e.orientation →
        StaticRel e e' → Arena.Evolves Carries w.entities (w.entities.set i.handle e') := by
      intro e e' he ho hs
      exact .set Carries.refl he ⟨hs, by rw [ho]; exact .refl _⟩
    unfold sleepOne at h1
    obtain ⟨e, he, h1⟩ := Res.bind_eq_ok.mp h1
    rw [unwrap_eq_ok] at he
    split at h1
    · cases h1; exact put he rfl (by rw [staticRel_iff]; simp)
    · split at h1
      · cases h1; exact put he rfl (by rw [staticRel_iff]; simp)
      · simp only at h1
        generalize (if e.fallingAsleep = true then e.fallingAsleepTime + dt else e.fallingAsleepTime) = ft at h1
        split at h1
        · cases h1; exact put he rfl (by rw [staticRel_iff]; simp)
        · obtain ⟨a, ha, h1⟩ := Res.bind_eq_ok.mp h1
          cases h1
          refine Arena.Evolves.trans (fun a b c => Carries.trans (a := a) (b := b) (c := c)) (put he
            (e' := { e with fallingAsleep := true, fallingAsleepTime := ft, asleep := true, neighbors := i.neighbors })
            rfl (by rw [staticRel_iff]; simp)) ?_
          refine (linkNeighbors_spec ha).1.mono (S := Carries) (fun x y h => ⟨h.static, ?_⟩)
          have : y.orientation.rotation = x.orientation.rotation := by rw [h]
          rw [this]; exact .refl _

variable [ForceGenerator α γ]

theorem step_carries {ord : IterOrder} {s s' : System α γ} {dt : α} (hh : s.step ord dt = .ok s') :
    Arena.Evolves Carries s.entities s'.entities := by
  cases hdt : Scalar.lt (Scalar.abs dt) EPSILON with
  | true =>
    unfold System.step at hh
    rw [if_pos hdt] at hh; cases hh
    exact .refl Carries.refl _
  | false =>
    obtain ⟨p⟩ := step_phases hdt hh
    obtain ⟨-, -, k3, -, -, -⟩ := integrateAll_spec (Arena.handles_nodup _) p.integrate
    have hfin : Arena.Evolves Carries p.mid.entities p.final.world.entities := by
      have := iterate_induct (P := fun st => LoopInv s.toWorld s.entities.handles st ∧
          Arena.Evolves Carries p.mid.entities st.world.entities) (ord := ord) (dt := dt) ?_
          ⟨p.inv0, .refl Carries.refl _⟩ p.iterate
      · exact this.2
      · intro st best w st1 hP h1 h2 h3
        obtain ⟨b1, b2⟩ := loopInv_body (dt := dt) (Arena.handles_nodup _) hP.1 h1 h2 h3
        have hnd : (st.infos.map StepInfo.handle).Nodup := by rw [hP.1.handles]; exact Arena.handles_nodup _
        have n1 : Arena.Evolves Carries p.mid.entities st1.world.entities :=
          Arena.Evolves.trans (fun a b c => Carries.trans (a := a) (b := b) (c := c)) hP.2
            (Arena.Evolves.trans (fun a b c => Carries.trans (a := a) (b := b) (c := c))
              ((wakeColliding_evolves h2).2.mono (fun _ _ => Carries.of_wake))
              (evolves_advance (st := { st with world := w }) hnd h3))
        refine ⟨fun _ => ⟨b1, n1⟩, fun k st2 hk h4 => ⟨b2 k st2 hk h4, ?_⟩⟩
        obtain ⟨first, second, i1, i2, hne, hf, hs, -, -, rfl⟩ := respond_spec h4
        exact Arena.Evolves.trans (fun a b c => Carries.trans (a := a) (b := b) (c := c)) n1
          ((respond_evolves hne hf hs (respondPair_first k (st1.currentPercent * dt) st1.timeLeft first
            second i1 i2) (respondPair_second k (st1.currentPercent * dt) st1.timeLeft first second i1 i2)).mono
            (fun _ _ => Carries.of_vel))
    have hsl := sleepLoop_carries p.sleep
    refine Arena.Evolves.trans (fun a b c => Carries.trans (a := a) (b := b) (c := c)) (k3.mono (fun _ _ => Carries.of_vel))
      (Arena.Evolves.trans (fun a b c => Carries.trans (a := a) (b := b) (c := c)) hfin ?_)
    split at hsl <;> exact hsl


end Fluffy.Step
