import Verif.Model.Arena
/- Lemmas about the arena: it behaves like a finite map from handles to values. -/
namespace Fluffy.Arena
variable {τ : Type}

/-- Well-formed arenas: what `Arena::new` and every operation guarantee. -/
structure WF (a : Arena τ) : Prop where
  nonempty : 0 < a.items.length
  freeNodup : a.free.Nodup
  free_iff : ∀ i, i ∈ a.free ↔ a.items[i]? = some none
  gen_le : ∀ (i g : Nat) (v : τ), a.items[i]? = some (some (g, v)) → g ≤ a.generation

theorem get_eq_some {a : Arena τ} {h : Handle} {v : τ} :
    a.get h = some v ↔ a.items[h.index]? = some (some (h.generation, v)) := by
  unfold get
  split
  · rename_i g w heq
    rw [heq]
    by_cases hg : g = h.generation
    · simp [hg]
    · simp [hg]
  · rename_i hne
    constructor
    · intro h'; cases h'
    · intro h'; exact absurd h' (by intro h2; exact hne _ _ h2)

theorem get_ext {a b : Arena τ} (h : Handle) (heq : a.items[h.index]? = b.items[h.index]?) :
    a.get h = b.get h := by
  unfold get; rw [heq]

theorem wf_new : (new : Arena τ).WF := by
  refine ⟨by simp [new], by simp [new, List.nodup_range], ?_, ?_⟩
  · intro i
    simp only [new, List.mem_range, List.getElem?_replicate]
    by_cases hi : i < 4 <;> simp [hi]
  · intro i g v h
    simp only [new, List.getElem?_replicate] at h
    split at h <;> cases h

@[simp] theorem get_new (h : Handle) : (new : Arena τ).get h = none := by
  cases hg : (new : Arena τ).get h with
  | none => rfl
  | some v =>
    rw [get_eq_some] at hg
    simp only [new, List.getElem?_replicate] at hg
    split at hg <;> cases hg

theorem wf_grow {a : Arena τ} (wf : a.WF) : a.grow.WF := by
  refine ⟨?_, ?_, ?_, ?_⟩
  · have := wf.nonempty; simp [grow]; omega
  · simp only [grow]
    rw [List.nodup_append]
    refine ⟨?_, wf.freeNodup, ?_⟩
    · exact List.Pairwise.map _ (fun x y hne h => hne (by omega)) List.nodup_range
    · intro x hx y hy hxy
      subst hxy
      rw [List.mem_map] at hx
      obtain ⟨k, _, rfl⟩ := hx
      rw [wf.free_iff] at hy
      have := (List.getElem?_eq_some_iff.mp hy).1
      omega
  · intro i
    simp only [grow, List.mem_append, List.mem_map, List.mem_range]
    by_cases hi : i < a.items.length
    · rw [List.getElem?_append_left hi, wf.free_iff]
      constructor
      · rintro (⟨k, _, h⟩ | h)
        · omega
        · exact h
      · exact Or.inr
    · rw [List.getElem?_append_right (by omega), List.getElem?_replicate]
      constructor
      · rintro (⟨k, hk, h⟩ | h)
        · rw [if_pos (by omega)]
        · rw [wf.free_iff] at h
          have := (List.getElem?_eq_some_iff.mp h).1
          omega
      · intro h
        split at h
        · exact Or.inl ⟨i - a.items.length, by omega, by omega⟩
        · cases h
  · intro i g v h
    simp only [grow] at h
    by_cases hi : i < a.items.length
    · rw [List.getElem?_append_left hi] at h
      exact wf.gen_le i g v h
    · rw [List.getElem?_append_right (by omega), List.getElem?_replicate] at h
      split at h <;> cases h

theorem get_grow {a : Arena τ} (h : Handle) : a.grow.get h = a.get h := by
  unfold get grow
  by_cases hi : h.index < a.items.length
  · simp only [List.getElem?_append_left hi]
  · rw [List.getElem?_append_right (by omega), List.getElem?_replicate,
      List.getElem?_eq_none (by omega : a.items.length ≤ h.index)]
    split <;> simp_all

/-- What one insertion does: a free slot gets the value under the current generation. -/
theorem tryInsert_spec {a : Arena τ} (wf : a.WF) {v : τ} {b : Arena τ} {h : Handle}
    (hi : a.tryInsert v = some (b, h)) :
    b.WF ∧ h.generation = a.generation ∧ b.generation = a.generation ∧ a.get h = none ∧
    a.items[h.index]? = some none ∧
    (∀ k, b.get k = if k = h then some v else a.get k) := by
  unfold tryInsert at hi
  split at hi
  · cases hi
  · rename_i i rest hf
    simp only [Option.some.injEq, Prod.mk.injEq] at hi
    obtain ⟨hb, hh⟩ := hi
    subst hh
    have hslot : a.items[i]? = some none := (wf.free_iff i).mp (by rw [hf]; simp)
    have hlt : i < a.items.length := (List.getElem?_eq_some_iff.mp hslot).1
    have hnd : (i :: rest).Nodup := hf ▸ wf.freeNodup
    subst hb
    refine ⟨⟨by simpa using wf.nonempty, ?_, ?_, ?_⟩, rfl, rfl, ?_, hslot, ?_⟩
    · exact (List.nodup_cons.mp hnd).2
    · intro j
      rw [List.getElem?_set]
      by_cases hij : i = j
      · subst hij
        simp [hlt, (List.nodup_cons.mp hnd).1]
      · rw [if_neg hij, ← wf.free_iff, hf]
        simp [Ne.symm hij]
    · intro j g w hj
      rw [List.getElem?_set] at hj
      by_cases hij : i = j
      · subst hij
        rw [if_pos rfl, if_pos hlt] at hj
        simp only [Option.some.injEq, Prod.mk.injEq] at hj
        exact Nat.le_of_eq hj.1.symm
      · rw [if_neg hij] at hj
        exact wf.gen_le j g w hj
    · unfold get; simp [hslot]
    · intro k
      by_cases hk : k = ⟨i, a.generation⟩
      · subst hk
        rw [if_pos rfl, get_eq_some]
        simp [hlt]
      · rw [if_neg hk]
        by_cases hki : k.index = i
        · have h1 : a.get k = none := by unfold get; rw [hki, hslot]
          rw [h1]
          unfold get
          simp only [hki, List.getElem?_set, hlt, if_true]
          rw [if_neg]
          intro hg
          apply hk
          cases k; simp_all
        · apply get_ext
          simp only
          rw [List.getElem?_set, if_neg (Ne.symm hki)]

theorem tryInsert_isSome_iff {a : Arena τ} {v : τ} : (a.tryInsert v).isSome ↔ a.free ≠ [] := by
  unfold tryInsert; split <;> simp_all

/-- Inserting adds one fresh handle and changes nothing else. -/
theorem insert_spec {a : Arena τ} (wf : a.WF) (v : τ) :
    (a.insert v).1.WF ∧ (a.insert v).2.generation = a.generation ∧
    (a.insert v).1.generation = a.generation ∧ a.get (a.insert v).2 = none ∧
    (∀ k, (a.insert v).1.get k = if k = (a.insert v).2 then some v else a.get k) := by
  unfold insert
  cases h1 : a.tryInsert v with
  | some r =>
    obtain ⟨b, h⟩ := r
    obtain ⟨p1, p2, p3, p4, -, p6⟩ := tryInsert_spec wf h1
    exact ⟨p1, p2, p3, p4, p6⟩
  | none =>
    cases h2 : a.grow.tryInsert v with
    | some r =>
      obtain ⟨b, h⟩ := r
      obtain ⟨p1, p2, p3, p4, -, p6⟩ := tryInsert_spec (wf_grow wf) h2
      refine ⟨p1, p2, p3, ?_, ?_⟩
      · rw [← get_grow]; exact p4
      · intro k
        have := p6 k
        rw [get_grow] at this
        exact this
    | none =>
      exfalso
      have : (a.grow.tryInsert v).isSome := by
        rw [tryInsert_isSome_iff]
        have := wf.nonempty
        simp only [grow]
        intro hc
        have hl := congrArg List.length hc
        simp only [List.length_append, List.length_map, List.length_range, List.length_nil] at hl
        omega
      rw [h2] at this
      cases this

theorem wf_insert {a : Arena τ} (wf : a.WF) (v : τ) : (a.insert v).1.WF := (insert_spec wf v).1
theorem get_insert {a : Arena τ} (wf : a.WF) (v : τ) (k : Handle) :
    (a.insert v).1.get k = if k = (a.insert v).2 then some v else a.get k := (insert_spec wf v).2.2.2.2 k
theorem get_insert_fresh {a : Arena τ} (wf : a.WF) (v : τ) : a.get (a.insert v).2 = none :=
  (insert_spec wf v).2.2.2.1

@[simp] theorem remove_snd (a : Arena τ) (h : Handle) : (a.remove h).2 = a.get h := by
  unfold remove; split <;> simp_all

theorem remove_of_none {a : Arena τ} {h : Handle} (hg : a.get h = none) : (a.remove h).1 = a := by
  unfold remove; rw [hg]

theorem remove_of_some {a : Arena τ} {h : Handle} {v : τ} (hg : a.get h = some v) :
    (a.remove h).1 = ⟨a.items.set h.index none, h.index :: a.free, a.generation + 1⟩ := by
  unfold remove; rw [hg]

theorem wf_remove {a : Arena τ} (wf : a.WF) (h : Handle) : (a.remove h).1.WF := by
  cases hg : a.get h with
  | none => rw [remove_of_none hg]; exact wf
  | some v =>
    rw [remove_of_some hg]
    have hs := get_eq_some.mp hg
    have hlt : h.index < a.items.length := (List.getElem?_eq_some_iff.mp hs).1
    refine ⟨by simpa using wf.nonempty, ?_, ?_, ?_⟩
    · refine List.nodup_cons.mpr ⟨?_, wf.freeNodup⟩
      rw [wf.free_iff, hs]; simp
    · intro j
      simp only [List.mem_cons, List.getElem?_set]
      by_cases hj : h.index = j
      · subst hj; simp [hlt]
      · rw [if_neg hj, wf.free_iff]
        simp [Ne.symm hj]
    · intro j g w hj
      simp only [List.getElem?_set] at hj
      by_cases hij : h.index = j
      · subst hij; simp [hlt] at hj
      · rw [if_neg hij] at hj
        have := wf.gen_le j g w hj
        exact Nat.le_succ_of_le this

theorem get_remove (a : Arena τ) (h k : Handle) :
    (a.remove h).1.get k = if k = h then none else a.get k := by
  cases hg : a.get h with
  | none =>
    rw [remove_of_none hg]
    split
    · rename_i hk; rw [hk, hg]
    · rfl
  | some v =>
    rw [remove_of_some hg]
    have hs := get_eq_some.mp hg
    have hlt : h.index < a.items.length := (List.getElem?_eq_some_iff.mp hs).1
    by_cases hk : k = h
    · subst hk
      rw [if_pos rfl]
      unfold get
      simp [hlt]
    · rw [if_neg hk]
      by_cases hi : k.index = h.index
      · have h1 : a.get k = none := by
          unfold get; rw [hi, hs]
          simp only
          rw [if_neg]
          intro hgen; apply hk; cases k; cases h; simp_all
        rw [h1]
        unfold get
        simp [hi, hlt]
      · apply get_ext
        simp only
        rw [List.getElem?_set, if_neg (Ne.symm hi)]

theorem remove_generation {a : Arena τ} {h : Handle} (hg : a.get h ≠ none) :
    (a.remove h).1.generation = a.generation + 1 := by
  cases h' : a.get h with
  | none => exact absurd h' hg
  | some v => rw [remove_of_some h']

theorem set_of_some {a : Arena τ} {h : Handle} {v w : τ} (hg : a.get h = some v) :
    a.set h w = { a with items := a.items.set h.index (some (h.generation, w)) } := by
  unfold set; rw [hg]
theorem set_of_none {a : Arena τ} {h : Handle} {w : τ} (hg : a.get h = none) : a.set h w = a := by
  unfold set; rw [hg]

theorem get_set (a : Arena τ) (h k : Handle) (w : τ) :
    (a.set h w).get k = if k = h then (a.get h).map (fun _ => w) else a.get k := by
  cases hg : a.get h with
  | none =>
    rw [set_of_none hg]
    split
    · rename_i hk; rw [hk, hg]; rfl
    · rfl
  | some v =>
    rw [set_of_some hg]
    have hs := get_eq_some.mp hg
    have hlt : h.index < a.items.length := (List.getElem?_eq_some_iff.mp hs).1
    by_cases hk : k = h
    · subst hk
      rw [if_pos rfl, Option.map_some, get_eq_some]
      simp [hlt]
    · rw [if_neg hk]
      by_cases hi : k.index = h.index
      · have h1 : h.generation ≠ k.generation := by
          intro hgen; apply hk; cases k; cases h; simp_all
        unfold get
        simp only [hi, hs, List.getElem?_set, hlt, if_true, if_neg h1]
      · apply get_ext
        simp only
        rw [List.getElem?_set, if_neg (Ne.symm hi)]

theorem get_set_self {a : Arena τ} {h : Handle} {v : τ} (hg : a.get h = some v) (w : τ) :
    (a.set h w).get h = some w := by
  rw [get_set, if_pos rfl, hg]; rfl

theorem get_set_ne {a : Arena τ} {h k : Handle} (hk : k ≠ h) (w : τ) : (a.set h w).get k = a.get k := by
  rw [get_set, if_neg hk]

/-- Two arenas have the same slots, generations and free list. -/
structure SameShape {σ : Type} (a : Arena τ) (b : Arena σ) : Prop where
  items : a.items.map (Option.map Prod.fst) = b.items.map (Option.map Prod.fst)
  free : a.free = b.free
  generation : a.generation = b.generation

theorem SameShape.refl (a : Arena τ) : SameShape a a := ⟨rfl, rfl, rfl⟩
theorem SameShape.symm {σ : Type} {a : Arena τ} {b : Arena σ} (h : SameShape a b) : SameShape b a :=
  ⟨h.items.symm, h.free.symm, h.generation.symm⟩
theorem SameShape.trans {σ ρ : Type} {a : Arena τ} {b : Arena σ} {c : Arena ρ} (h : SameShape a b)
    (h' : SameShape b c) : SameShape a c :=
  ⟨h.items.trans h'.items, h.free.trans h'.free, h.generation.trans h'.generation⟩

theorem sameShape_set (a : Arena τ) (h : Handle) (w : τ) : SameShape (a.set h w) a := by
  cases hg : a.get h with
  | none => rw [set_of_none hg]; exact .refl a
  | some v =>
    rw [set_of_some hg]
    have hs := get_eq_some.mp hg
    refine ⟨?_, rfl, rfl⟩
    apply List.ext_getElem?
    intro i
    simp only [List.getElem?_map, List.getElem?_set]
    by_cases hi : h.index = i
    · subst hi
      have hlt : h.index < a.items.length := (List.getElem?_eq_some_iff.mp hs).1
      rw [if_pos rfl, if_pos hlt, hs]
      rfl
    · rw [if_neg hi]

theorem SameShape.getElem {σ : Type} {a : Arena τ} {b : Arena σ} (h : SameShape a b) (i : Nat) :
    (a.items[i]?).map (Option.map Prod.fst) = (b.items[i]?).map (Option.map Prod.fst) := by
  have := congrArg (fun l => l[i]?) h.items
  simpa [List.getElem?_map] using this

theorem SameShape.isSome {σ : Type} {a : Arena τ} {b : Arena σ} (h : SameShape a b) (k : Handle) :
    (a.get k).isSome = (b.get k).isSome := by
  have hk := h.getElem k.index
  unfold get
  cases ha : a.items[k.index]? with
  | none =>
    rw [ha] at hk
    cases hb : b.items[k.index]? with
    | none => rfl
    | some y => rw [hb] at hk; cases hk
  | some x =>
    rw [ha] at hk
    cases hb : b.items[k.index]? with
    | none => rw [hb] at hk; cases hk
    | some y =>
      rw [hb] at hk
      cases x with
      | none => cases y with
        | none => rfl
        | some y => cases hk
      | some x => cases y with
        | none => cases hk
        | some y =>
          simp only [Option.map_some, Option.some.injEq] at hk
          obtain ⟨gx, vx⟩ := x
          obtain ⟨gy, vy⟩ := y
          simp only at hk
          subst hk
          simp only
          split <;> rfl

theorem SameShape.wf {σ : Type} {a : Arena τ} {b : Arena σ} (h : SameShape a b) (wf : b.WF) : a.WF := by
  have hlen : a.items.length = b.items.length := by simpa using congrArg List.length h.items
  refine ⟨by rw [hlen]; exact wf.nonempty, by rw [h.free]; exact wf.freeNodup, ?_, ?_⟩
  · intro i
    rw [h.free, wf.free_iff]
    have hi := h.getElem i
    cases ha : a.items[i]? with
    | none =>
      rw [ha] at hi
      cases hb : b.items[i]? with
      | none => simp
      | some y => rw [hb] at hi; cases hi
    | some x =>
      rw [ha] at hi
      cases hb : b.items[i]? with
      | none => rw [hb] at hi; cases hi
      | some y =>
        rw [hb] at hi
        cases x <;> cases y <;> simp at hi ⊢
  · intro i g v hv
    rw [h.generation]
    have hi := h.getElem i
    rw [hv] at hi
    cases hb : b.items[i]? with
    | none => rw [hb] at hi; cases hi
    | some y =>
      rw [hb] at hi
      cases y with
      | none => cases hi
      | some y =>
        obtain ⟨gy, w⟩ := y
        simp only [Option.map_some, Option.some.injEq] at hi
        subst hi
        exact wf.gen_le i _ w hb

theorem wf_set {a : Arena τ} (wf : a.WF) (h : Handle) (w : τ) : (a.set h w).WF := (sameShape_set a h w).wf wf

theorem handlesFrom_congr {σ : Type} : ∀ (i : Nat) (l : List (Option (Nat × τ))) (m : List (Option (Nat × σ))),
    l.map (Option.map Prod.fst) = m.map (Option.map Prod.fst) → handlesFrom i l = handlesFrom i m
  | _, [], [], _ => rfl
  | _, [], _ :: _, h => by cases h
  | _, _ :: _, [], h => by cases h
  | i, x :: l, y :: m, h => by
    simp only [List.map_cons, List.cons.injEq] at h
    have ih := handlesFrom_congr (i + 1) l m h.2
    cases x with
    | none => cases y with
      | none => simpa [handlesFrom] using ih
      | some y => simp at h
    | some x => cases y with
      | none => simp at h
      | some y =>
        obtain ⟨gx, vx⟩ := x
        obtain ⟨gy, vy⟩ := y
        simp only [Option.map_some, Option.some.injEq] at h
        simp [handlesFrom, ih, h.1]

theorem SameShape.handles {σ : Type} {a : Arena τ} {b : Arena σ} (h : SameShape a b) : a.handles = b.handles :=
  handlesFrom_congr 0 _ _ h.items

theorem mem_handlesFrom : ∀ (i : Nat) (l : List (Option (Nat × τ))) (h : Handle),
    h ∈ handlesFrom i l ↔ i ≤ h.index ∧ ∃ v, l[h.index - i]? = some (some (h.generation, v))
  | i, [], h => by simp [handlesFrom]
  | i, none :: l, h => by
    rw [handlesFrom, mem_handlesFrom (i + 1) l h]
    constructor
    · rintro ⟨h1, v, h2⟩
      refine ⟨by omega, v, ?_⟩
      rw [show h.index - i = (h.index - (i + 1)) + 1 by omega]
      simpa using h2
    · rintro ⟨h1, v, h2⟩
      rcases Nat.lt_or_ge i h.index with hlt | hge
      · refine ⟨hlt, v, ?_⟩
        rw [show h.index - i = (h.index - (i + 1)) + 1 by omega] at h2
        simpa using h2
      · rw [show h.index - i = 0 by omega] at h2
        simp at h2
  | i, some (g, w) :: l, h => by
    rw [handlesFrom, List.mem_cons, mem_handlesFrom (i + 1) l h]
    constructor
    · rintro (rfl | ⟨h1, v, h2⟩)
      · exact ⟨Nat.le_refl _, w, by simp⟩
      · refine ⟨by omega, v, ?_⟩
        rw [show h.index - i = (h.index - (i + 1)) + 1 by omega]
        simpa using h2
    · rintro ⟨h1, v, h2⟩
      rcases Nat.lt_or_ge i h.index with hlt | hge
      · refine Or.inr ⟨hlt, v, ?_⟩
        rw [show h.index - i = (h.index - (i + 1)) + 1 by omega] at h2
        simpa using h2
      · left
        rw [show h.index - i = 0 by omega] at h2
        simp at h2
        have : h.index = i := by omega
        cases h
        simp_all

/-- Iterating over an arena visits exactly the live handles. -/
theorem mem_handles {a : Arena τ} {h : Handle} : h ∈ a.handles ↔ ∃ v, a.get h = some v := by
  simp [handles, mem_handlesFrom, get_eq_some]

theorem handlesFrom_pairwise : ∀ (i : Nat) (l : List (Option (Nat × τ))),
    (handlesFrom i l).Pairwise (fun a b => a.index < b.index)
  | _, [] => .nil
  | i, none :: l => handlesFrom_pairwise (i + 1) l
  | i, some (g, w) :: l => by
    rw [handlesFrom]
    refine .cons ?_ (handlesFrom_pairwise (i + 1) l)
    intro h hh
    have := ((mem_handlesFrom _ _ _).mp hh).1
    simp only; omega

/-- ... in strictly increasing slot order, hence once each. -/
theorem handles_sorted (a : Arena τ) : a.handles.Pairwise (fun x y => x.index < y.index) :=
  handlesFrom_pairwise 0 a.items

theorem handles_nodup (a : Arena τ) : a.handles.Nodup :=
  (handles_sorted a).imp (fun h hc => by rw [hc] at h; omega)

end Fluffy.Arena

namespace Fluffy
theorem mem_hsInsert {s : List Handle} {h k : Handle} : k ∈ hsInsert s h ↔ k ∈ s ∨ k = h := by
  unfold hsInsert; split
  · constructor
    · exact Or.inl
    · rintro (h | rfl) <;> assumption
  · simp
theorem nodup_hsInsert {s : List Handle} (hs : s.Nodup) (h : Handle) : (hsInsert s h).Nodup := by
  unfold hsInsert; split
  · exact hs
  · rename_i hn
    rw [List.nodup_append]
    exact ⟨hs, by simp, by intro a ha b hb hab; simp at hb; subst hb; subst hab; exact hn ha⟩
theorem mem_hsRemove {s : List Handle} {h k : Handle} : k ∈ hsRemove s h ↔ k ∈ s ∧ k ≠ h := by
  simp [hsRemove]
theorem nodup_hsRemove {s : List Handle} (hs : s.Nodup) (h : Handle) : (hsRemove s h).Nodup :=
  hs.filter _
end Fluffy
