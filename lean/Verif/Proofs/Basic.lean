import Verif.Model.Api
import Verif.Proofs.Arena
/- Generic tools: reasoning about panicking computations and about pointwise changes of arenas. -/
namespace Fluffy

theorem Res.bind_eq_ok {σ τ : Type} {x : Res σ} {f : σ → Res τ} {b : τ} :
    (x >>= f) = .ok b ↔ ∃ a, x = .ok a ∧ f a = .ok b := by
  cases x with
  | error e => constructor
               · intro h; cases h
               · rintro ⟨a, h, -⟩; cases h
  | ok a => constructor
            · intro h; exact ⟨a, rfl, h⟩
            · rintro ⟨a', h, h'⟩; cases h; exact h'

@[simp] theorem Res.ok_bind {σ τ : Type} (a : σ) (f : σ → Res τ) : ((.ok a : Res σ) >>= f) = f a := rfl
@[simp] theorem Res.error_bind {σ τ : Type} (e : Panic) (f : σ → Res τ) :
    ((.error e : Res σ) >>= f) = .error e := rfl

theorem unwrap_eq_ok {τ : Type} {o : Option τ} {a : τ} : unwrap o = .ok a ↔ o = some a := by
  cases o <;> simp [unwrap]
@[simp] theorem unwrap_some {τ : Type} (a : τ) : unwrap (some a) = .ok a := rfl
theorem index_eq_ok {τ : Type} {l : List τ} {i : Nat} {a : τ} : index l i = .ok a ↔ l[i]? = some a := by
  unfold index; split <;> simp_all

namespace Arena
variable {τ : Type}

/-- `b` arises from `a` by replacing stored values `x` by values `y` with `R x y`. -/
structure Evolves (R : τ → τ → Prop) (a b : Arena τ) : Prop where
  shape : SameShape b a
  rel : ∀ h x y, a.get h = some x → b.get h = some y → R x y

theorem Evolves.get {R : τ → τ → Prop} {a b : Arena τ} (e : Evolves R a b) {h : Handle} {x : τ}
    (hx : a.get h = some x) : ∃ y, b.get h = some y ∧ R x y := by
  have := e.shape.isSome h
  rw [hx] at this
  obtain ⟨y, hy⟩ := Option.isSome_iff_exists.mp this
  exact ⟨y, hy, e.rel h x y hx hy⟩

theorem Evolves.get' {R : τ → τ → Prop} {a b : Arena τ} (e : Evolves R a b) {h : Handle} {y : τ}
    (hy : b.get h = some y) : ∃ x, a.get h = some x ∧ R x y := by
  have := e.shape.isSome h
  rw [hy] at this
  obtain ⟨x, hx⟩ := Option.isSome_iff_exists.mp this.symm
  exact ⟨x, hx, e.rel h x y hx hy⟩

theorem Evolves.none_iff {R : τ → τ → Prop} {a b : Arena τ} (e : Evolves R a b) (h : Handle) :
    b.get h = none ↔ a.get h = none := by
  have := e.shape.isSome h
  cases ha : a.get h <;> cases hb : b.get h <;> simp_all

theorem Evolves.refl {R : τ → τ → Prop} (hr : ∀ x, R x x) (a : Arena τ) : Evolves R a a :=
  ⟨.refl a, fun h x y hx hy => by rw [hx] at hy; cases hy; exact hr x⟩

theorem Evolves.trans {R S T : τ → τ → Prop} (hrst : ∀ x y z, R x y → S y z → T x z) {a b c : Arena τ}
    (hab : Evolves R a b) (hbc : Evolves S b c) : Evolves T a c := by
  refine ⟨hbc.shape.trans hab.shape, fun h x z hx hz => ?_⟩
  obtain ⟨y, hy, hxy⟩ := hab.get hx
  exact hrst x y z hxy (hbc.rel h y z hy hz)

theorem Evolves.mono {R S : τ → τ → Prop} (hrs : ∀ x y, R x y → S x y) {a b : Arena τ}
    (hab : Evolves R a b) : Evolves S a b :=
  ⟨hab.shape, fun h x y hx hy => hrs x y (hab.rel h x y hx hy)⟩

theorem Evolves.set {R : τ → τ → Prop} (hr : ∀ x, R x x) {a : Arena τ} {h : Handle} {x y : τ}
    (hx : a.get h = some x) (hxy : R x y) : Evolves R a (a.set h y) := by
  refine ⟨sameShape_set a h y, fun k u v hu hv => ?_⟩
  rw [get_set] at hv
  split at hv
  · rename_i hk
    subst hk
    rw [hx] at hu hv
    cases hu; cases hv
    exact hxy
  · rw [hu] at hv; cases hv; exact hr u

theorem Evolves.wf {R : τ → τ → Prop} {a b : Arena τ} (e : Evolves R a b) (wf : a.WF) : b.WF := e.shape.wf wf
end Arena
end Fluffy
