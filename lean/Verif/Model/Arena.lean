/-
`generational_arena::Arena<T>` 0.2.8 (a dependency; source not in the sandbox), modelled from its
published behaviour: a vector of entries, an intrusive free list and a generation counter that is
incremented by every removal.  The counter is unbounded here (`u64` in Rust).
-/
namespace Fluffy

/-- `generational_arena::Index` (src/types.rs:8-17 `EntityHandle`, `ColliderHandle`,
`UnaryForceGeneratorHandle` are all this type). -/
structure Handle where
  index : Nat
  generation : Nat
  deriving DecidableEq, Repr

/-- `Arena<T>`; an occupied entry stores its generation.  The intrusive free list is kept as a list
of slot numbers. -/
structure Arena (τ : Type) where
  items : List (Option (Nat × τ))
  free : List Nat
  generation : Nat
  deriving Repr

namespace Arena
variable {τ : Type}

/-- `Arena::new()`: capacity 4, all free, in ascending order. -/
def new : Arena τ := ⟨List.replicate 4 none, List.range 4, 0⟩

/-- `Arena::get` -/
def get (a : Arena τ) (h : Handle) : Option τ :=
  match a.items[h.index]? with
  | some (some (g, v)) => if g = h.generation then some v else none
  | _ => none

/-- `Arena::contains` -/
def contains (a : Arena τ) (h : Handle) : Bool := (a.get h).isSome

/-- `Arena::reserve(len)`, called by `insert` when the free list is empty: as many new free slots
as there are slots now (capacity is at least 4). -/
def grow (a : Arena τ) : Arena τ :=
  { a with
    items := a.items ++ List.replicate a.items.length none
    free := (List.range a.items.length).map (· + a.items.length) ++ a.free }

/-- `Arena::try_insert`: takes the head of the free list. -/
def tryInsert (a : Arena τ) (v : τ) : Option (Arena τ × Handle) :=
  match a.free with
  | [] => none
  | i :: rest =>
    some ({ a with items := a.items.set i (some (a.generation, v)), free := rest },
          ⟨i, a.generation⟩)

/-- `Arena::insert`; after growing the free list cannot be empty (the `none` branch below is
unreachable for arenas built by `new`, which have at least 4 slots). -/
def insert (a : Arena τ) (v : τ) : Arena τ × Handle :=
  match a.tryInsert v with
  | some r => r
  | none =>
    match a.grow.tryInsert v with
    | some r => r
    | none => (a, ⟨0, a.generation⟩)

/-- `Arena::remove` -/
def remove (a : Arena τ) (h : Handle) : Arena τ × Option τ :=
  match a.get h with
  | some v =>
    ({ items := a.items.set h.index none, free := h.index :: a.free, generation := a.generation + 1 },
     some v)
  | none => (a, none)

/-- Writing through `Arena::get_mut`: replaces the value of a live handle. -/
def set (a : Arena τ) (h : Handle) (v : τ) : Arena τ :=
  match a.get h with
  | some _ => { a with items := a.items.set h.index (some (h.generation, v)) }
  | none => a

/-- Handles in the order of `Arena::iter`: by slot. -/
def handlesFrom : Nat → List (Option (Nat × τ)) → List Handle
  | _, [] => []
  | i, some (g, _) :: rest => ⟨i, g⟩ :: handlesFrom (i + 1) rest
  | i, none :: rest => handlesFrom (i + 1) rest

/-- The handles yielded by `Arena::iter`. -/
def handles (a : Arena τ) : List Handle := handlesFrom 0 a.items
end Arena

/-- A `HashSet<Handle>` is a duplicate-free list; `insert` -/
def hsInsert (s : List Handle) (h : Handle) : List Handle := if h ∈ s then s else s ++ [h]
/-- `HashSet::remove` -/
def hsRemove (s : List Handle) (h : Handle) : List Handle := s.filter (· ≠ h)

/-- The iteration order of the hash sets during one API call: any permutation of the contents,
chosen separately for each set (Rust seeds every `HashSet` randomly). -/
structure IterOrder where
  /-- order of `InternalEntity::colliders` of the given entity -/
  colliders : Handle → List Handle → List Handle
  /-- order of `InternalEntity::neighbors` of the given entity -/
  neighbors : Handle → List Handle → List Handle
  /-- order of `EntityStepInfo::neighbors` of the given entity -/
  stepNeighbors : Handle → List Handle → List Handle
  colliders_perm : ∀ h l, (colliders h l).Perm l
  neighbors_perm : ∀ h l, (neighbors h l).Perm l
  stepNeighbors_perm : ∀ h l, (stepNeighbors h l).Perm l

/-- Insertion order. -/
def IterOrder.id : IterOrder :=
  ⟨fun _ l => l, fun _ l => l, fun _ l => l, fun _ l => .refl l, fun _ l => .refl l, fun _ l => .refl l⟩

end Fluffy
