import Verif.Proofs.Apart
import Verif.Proofs.Paired
import Verif.Num.Kernel
/-
C77: what cannot touch anything has no influence on the rest.
-/
set_option linter.unusedSectionVars false
set_option linter.unusedSimpArgs false
namespace Fluffy.Props
open InternalEntity Step
section
variable {α : Type} [Scalar α] {γ : Type} [ForceGenerator α γ]

/-- Steps, each with its length and with an order of the hash sets. -/
def stepAll : List (IterOrder × α) → System α γ → Res (System α γ)
  | [], s => .ok s
  | (ord, dt) :: l, s => do
    let s ← s.step ord dt
    stepAll l s

theorem stepAll_apart {K : Handle → Bool} (hg : Solitary α γ) : ∀ {l : List (IterOrder × α)} {s t s' : System α γ}, ApartSystem K s t → Shapes K s.toWorld →
    stepAll l s = .ok s' → ∃ t', stepAll l t = .ok t' ∧ ApartSystem K s' t'
  | [], s, t, s', hs, _, hh => by cases hh; exact ⟨t, rfl, hs⟩
  | (ord, dt) :: l, s, t, s', hs, hp, hh => by
    unfold stepAll at hh ⊢
    obtain ⟨m, h1, hh⟩ := Res.bind_eq_ok.mp hh
    obtain ⟨m', h2, h3⟩ := step_apart hg hs (hp.quiet (Arena.handles_nodup _)) (fun _ _ => integrateAll_inv) h1
    rw [h2, Res.ok_bind]
    exact stepAll_apart hg h3 (hp.of_frame (step_frame h1).1) hh

theorem handles_eq_filter {K : Handle → Bool} {τ : Type} {a b : Arena τ} (h : ∀ x, b.get x = if K x then none else a.get x) : b.handles = a.handles.filter (fun x => !K x) := by
  have s1 := Arena.handles_sorted b
  have s2 := (Arena.handles_sorted a).filter (fun x => !K x)
  have hm : ∀ x, x ∈ b.handles ↔ x ∈ a.handles.filter (fun x => !K x) := by
    intro x
    rw [Arena.mem_handles, List.mem_filter, Arena.mem_handles, h]
    cases K x <;> simp
  refine List.Perm.eq_of_pairwise (le := fun x y : Handle => x.index < y.index) (fun x y _ _ h1 h2 => by omega) s1 s2 ?_
  exact (List.perm_ext_iff_of_nodup (Arena.handles_nodup _) ((Arena.handles_nodup _).filter _)).mpr hm

/-- The entity can touch nothing: no collider of it and collider of another entity are of kinds that collide. -/
def Untouchable (s : System α γ) (k : Handle) : Prop :=
  ∀ p h p', s.getEntity k = some p → h ≠ k → s.getEntity h = some p' → ∀ c ∈ p.colliders, ∀ c' ∈ p'.colliders, ∀ x y, s.colliders.get c = some x → s.colliders.get c' = some y → Inert x y

/-- An entity without neighbours, and what is left when it is removed. -/
theorem removed_apart {s t : System α γ} (hr : Reachable s) {k : Handle} {e : InternalEntity α} (he : s.entities.get k = some e) (hn : e.neighbors = [])
    (hf : ∀ h x, s.entities.get h = some x → k ∉ x.neighbors) {ord : IterOrder} {b : Bool} (ht : s.removeEntity ord k = .ok (t, b)) :
    ApartSystem (fun h => decide (h = k)) s t := by
  have inv := hr.inv
  rw [System.removeEntity_some inv he] at ht
  cases ht
  refine ⟨⟨?_, ?_, handles_eq_filter ?_, ?_, ?_, ?_⟩, s.debug, rfl⟩
  · intro h hh
    have : h ≠ k := by simpa using hh
    rw [Arena.get_remove, if_neg this]
  · intro h hh
    have : h = k := by simpa using hh
    rw [Arena.get_remove, if_pos this]
  · intro h
    rw [Arena.get_remove]
    by_cases hh : h = k <;> simp [hh]
  · intro h x hh hx
    have : h = k := by simpa using hh
    subst this
    rw [he] at hx; cases hx; exact hn
  · intro h x hx n hnn
    have : n ≠ k := by rintro rfl; exact hf h x hx hnn
    simpa using this
  · intro h x hh hx c hc
    have hne : h ≠ k := by simpa using hh
    rw [System.get_removeAll, if_neg]
    intro hm
    have hm := (ord.colliders_perm _ _).mem_iff.mp hm
    obtain ⟨C, hC, hCe⟩ := (inv.links k e c he).mp hm
    obtain ⟨C', hC', hCe'⟩ := (inv.links h x c hx).mp hc
    rw [hC] at hC'; cases hC'
    rw [hCe] at hCe'; cases hCe'
    exact hne rfl

/-- **C77**, taking away: let no collider of an entity and of another one be of kinds that collide, let no entity remember it as a neighbour, and let it remember none.  Take it
away.  Then whatever steps are made, all the others are where they would be with it, in the same state, and the records are the same. -/
theorem C77_removed (hg : Solitary α γ) {s t s' : System α γ} (hr : Reachable s) {k : Handle} {e : InternalEntity α} (he : s.entities.get k = some e) (hn : e.neighbors = [])
    (hf : ∀ h x, s.entities.get h = some x → k ∉ x.neighbors) (hu : Untouchable s k) {ord : IterOrder} {b : Bool} (ht : s.removeEntity ord k = .ok (t, b))
    {l : List (IterOrder × α)} (hs : stepAll l s = .ok s') :
    ∃ t', stepAll l t = .ok t' ∧ (∀ h, h ≠ k → t'.entities.get h = s'.entities.get h) ∧ t'.collisionRecords = s'.collisionRecords := by
  have hap := removed_apart hr he hn hf ht
  have hsh : Shapes (fun h => decide (h = k)) s.toWorld := by
    intro h x h' x' hh hne hx hx' c hc c' hc' y z hy hz
    have : h = k := by simpa using hh
    subst this
    exact hu x.makePub h' x'.makePub (by unfold World.getEntity; rw [hx]; rfl) hne (by unfold World.getEntity; rw [hx']; rfl) c hc c' hc' y z hy hz
  obtain ⟨t', h1, h2⟩ := stepAll_apart hg hap hsh hs
  refine ⟨t', h1, fun h hne => h2.apart.get h (by simpa using hne), ?_⟩
  obtain ⟨d, hd⟩ := h2.rest
  rw [hd]

/-- **C77**, adding: add an entity, and make steps.  As long as it has no colliders the others are where they would be without it, in the same state, and the records are
the same. -/
theorem C77_added (hg : Solitary α γ) {s t t' : System α γ} (hr : Reachable s) {source : Entity α} {k : Handle} (ht : s.addEntity source = (t, some k))
    {l : List (IterOrder × α)} (hs : stepAll l t = .ok t') :
    ∃ s', stepAll l s = .ok s' ∧ (∀ h, h ≠ k → s'.entities.get h = t'.entities.get h) ∧ s'.collisionRecords = t'.collisionRecords := by
  have inv := hr.inv
  have hp := reachable_paired hr
  cases hnf : InternalEntity.newFrom source with
  | none => rw [System.addEntity_none hnf] at ht; cases ht
  | some e =>
    rw [System.addEntity_some hnf] at ht
    cases ht
    obtain ⟨hc, -, -, hn⟩ := System.newFrom_fields hnf
    have hfresh := Arena.get_insert_fresh inv.wfE e
    have hgen : (s.entities.insert e).2.generation = s.entities.generation := (Arena.insert_spec inv.wfE e).2.1
    have hap : ApartSystem (fun h => decide (h = (s.entities.insert e).2)) ({ s with entities := (s.entities.insert e).1 } : System α γ) s := by
      have hget := Arena.get_insert inv.wfE e
      refine ⟨⟨?_, ?_, handles_eq_filter ?_, ?_, ?_, ?_⟩, s.debug, rfl⟩
      · intro h hh
        have : h ≠ (s.entities.insert e).2 := by simpa using hh
        rw [hget, if_neg this]
      · intro h hh
        have : h = (s.entities.insert e).2 := by simpa using hh
        rw [this]; exact hfresh
      · intro h
        rw [hget]
        by_cases hh : h = (s.entities.insert e).2
        · rw [hh]; simp [hfresh]
        · simp [hh]
      · intro h x hh hx
        have : h = (s.entities.insert e).2 := by simpa using hh
        rw [hget, if_pos this] at hx
        cases hx; exact hn
      · intro h x hx n hnn
        rw [hget] at hx
        split at hx
        · cases hx; rw [hn] at hnn; cases hnn
        · have : n ≠ (s.entities.insert e).2 := by
            rintro rfl
            rcases hp.old h x _ hx hnn with ho | ho
            · exact ho hfresh
            · omega
          simpa using this
      · intros; rfl
    have hsh : Shapes (fun h => decide (h = (s.entities.insert e).2)) ({ s with entities := (s.entities.insert e).1 } : System α γ).toWorld := by
      intro h x h' x' hh hne hx hx' c hcc
      have : h = (s.entities.insert e).2 := by simpa using hh
      change (s.entities.insert e).1.get h = some x at hx
      rw [Arena.get_insert inv.wfE e, if_pos this] at hx
      cases hx; rw [hc] at hcc; cases hcc
    obtain ⟨s', h1, h2⟩ := stepAll_apart hg hap hsh hs
    refine ⟨s', h1, fun h hne => h2.apart.get h (by simpa using hne), ?_⟩
    obtain ⟨d, hd⟩ := h2.rest
    rw [hd]

/-- Whether the kinds of two colliders are such that they never collide. -/
def inertKinds : Collider α → Collider α → Bool
  | .null _, _ | _, .null _ | .plane _, .plane _ | .box _, .plane _ | .plane _, .box _ | .box _, .box _ | .mesh _, .box _ | .box _, .mesh _ => true
  | _, _ => false

theorem inert_of_kinds {x y : Collider α} (h : inertKinds x y = true) : Inert x y := by
  cases x <;> cases y <;> first | exact fun _ _ _ _ => ⟨rfl, rfl⟩ | cases h

/-- `Untouchable` for a run to compute. -/
def untouchable (s : System α γ) (k : Handle) : Bool :=
  match s.entities.get k with
  | none => true
  | some e => s.entities.handles.all fun h => decide (h = k) || match s.entities.get h with
    | none => true
    | some e' => e.colliders.all fun c => e'.colliders.all fun c' => match s.colliders.get c, s.colliders.get c' with
      | some x, some y => inertKinds x y
      | _, _ => true

theorem untouchable_sound {s : System α γ} {k : Handle} (h : untouchable s k = true) : Untouchable s k := by
  intro p h' p' hp hne hp' c hc c' hc' x y hx hy
  unfold World.getEntity at hp hp'
  cases he : s.entities.get k with
  | none => rw [he] at hp; cases hp
  | some e =>
    cases he' : s.entities.get h' with
    | none => rw [he'] at hp'; cases hp'
    | some e' =>
      rw [he] at hp; rw [he'] at hp'
      cases hp; cases hp'
      unfold untouchable at h
      rw [he] at h
      simp only [List.all_eq_true, Bool.or_eq_true, decide_eq_true_eq] at h
      have := h h' (Arena.mem_handles.mpr ⟨e', he'⟩)
      rcases this with h1 | h1
      · exact absurd h1 hne
      · rw [he'] at h1
        simp only [List.all_eq_true] at h1
        have := h1 c hc c' hc'
        rw [hx, hy] at this
        exact inert_of_kinds this
end

section
open F32 Demo Scene
variable [Libm]

/-- Two balls about to collide, and gravity along the line through their centres. -/
def meetCalls : List (Op F32 (GravityGenerator F32)) :=
  [.addGenerator ⟨vec 1 0 0⟩, .addEntity (thing (num 1) (vec 0 0 0) (vec 4 0 0)), .addCollider (ball (vec 0 0 0) (num 1) (num 1) (num 1)), .linkCollider h0 (some h0),
   .addEntity (thing (num 1) (vec 4 0 0) (vec 0 0 0)), .addCollider (ball (vec 0 0 0) (num 1) (num 1) (num 1)), .linkCollider h1 (some h1)]

/-- `C77_added` speaks of something: the balls collide in the first step, and a third entity passes through both. -/
example : ∃ (s t t' : System F32 (GravityGenerator F32)) (source : Entity F32) (k : Handle), Reachable s ∧ s.addEntity source = (t, some k) ∧
    stepAll [(.id, num 1), (.id, num 1)] t = .ok t' ∧ t'.entities.get k ≠ none ∧ ∃ m, stepAll [(.id, num 1)] t = .ok m ∧ m.collisionRecords ≠ [] := by
  have h : ((play (plain meetCalls) System.new).test fun r => match r.1.addEntity (thing (num 1) (vec 2 1 0) (vec 0 (-1) 0)) with
      | (t, some k) => (stepAll [(.id, num 1), (.id, num 1)] t).test fun t' => (t'.entities.get k).isSome && (stepAll [(.id, num 1)] t).test fun m => !m.collisionRecords.isEmpty
      | _ => false) = true := by kernel_refl
  obtain ⟨⟨s, outs⟩, h1, h⟩ := Res.of_test h
  split at h
  · rename_i t k hk
    obtain ⟨t', h2, h⟩ := Res.of_test h
    rw [Bool.and_eq_true] at h
    obtain ⟨m, h3, h4⟩ := Res.of_test h.2
    refine ⟨s, t, t', _, k, play_reachable h1, hk, h2, ?_, m, h3, ?_⟩
    · intro hc; rw [hc] at h; simp at h
    · intro hc; rw [hc] at h4; simp at h4
  · cases h

/-- `C77_removed` speaks of something: a box above a plane. -/
example : ∃ (s s' : System F32 (GravityGenerator F32)) (k : Handle) (e : InternalEntity F32), Reachable s ∧ s.entities.get k = some e ∧ e.neighbors = [] ∧
    (∀ h x, s.entities.get h = some x → k ∉ x.neighbors) ∧ Untouchable s k ∧ e.colliders ≠ [] ∧ (∃ h x, h ≠ k ∧ s.entities.get h = some x ∧ x.colliders ≠ []) ∧
    stepAll [(.id, num 1)] s = .ok s' := by
  have h : ((play (plain [.addGenerator ⟨vec 0 0 (-1)⟩, .addEntity (thing (num 1) (vec 0 0 1) (vec 0 0 0)), .addCollider (.box ⟨none, vec 0 0 0, vec (-1) (-1) (-1), vec 1 1 1, num 1, Material.default⟩),
      .linkCollider h0 (some h0), .addEntity (thing (num 1) (vec 0 0 0) (vec 0 0 0)), .addCollider (.plane ⟨none, vec 0 0 0, vec 0 0 1, num 1, Material.default⟩),
      .linkCollider h1 (some h1)]) (System.new : System F32 (GravityGenerator F32))).test fun r => (stepAll [(.id, num 1)] r.1).test fun _ => untouchable r.1 h0 && (r.1.entities.handles == [h0, h1]) &&
        match r.1.entities.get h0, r.1.entities.get h1 with
        | some e, some f => e.neighbors == [] && f.neighbors == [] && e.colliders == [h0] && f.colliders == [h1]
        | _, _ => false) = true := by kernel_refl
  obtain ⟨⟨s, outs⟩, h1', h⟩ := Res.of_test h
  obtain ⟨s', h2', h⟩ := Res.of_test h
  simp only [Bool.and_eq_true, beq_iff_eq] at h
  obtain ⟨⟨a1, a2⟩, a3⟩ := h
  split at a3
  · rename_i e f he hf
    simp only [Bool.and_eq_true, beq_iff_eq] at a3
    obtain ⟨⟨⟨b1, b2⟩, b3⟩, b4⟩ := a3
    refine ⟨s, s', h0, e, play_reachable h1', he, b1, ?_, untouchable_sound a1, by simp [b3], ⟨h1, f, by decide, hf, by simp [b4]⟩, h2'⟩
    intro h x hx
    have hm := Arena.mem_handles.mpr ⟨x, hx⟩
    have hm2 : h ∈ [h0, h1] := a2 ▸ hm
    simp only [List.mem_cons, List.not_mem_nil, or_false] at hm2
    rcases hm2 with rfl | rfl
    · rw [he] at hx; cases hx; simp [b1]
    · rw [hf] at hx; cases hx; simp [b2]
  · cases a3
end
end Fluffy.Props
