import Verif.Proofs.Twin
import Verif.Props.Conserve
/-
C69: whether the same calls give the same results, whatever the iteration orders of the hash sets.  Rust's `HashSet` iterates in an order
that differs from run to run (its hasher is seeded at random), so every result that depends on the order differs from run to run.
-/
set_option linter.unusedSectionVars false
set_option linter.unusedSimpArgs false
namespace Fluffy.Props
open Fluffy
section
variable {α : Type} [Scalar α] {γ : Type}

/-- The calls one after another, each with the iteration orders of the hash sets during the call; `ok` unless a call panics. -/
def play [ForceGenerator α γ] : List (IterOrder × Op α γ) → System α γ → Res (System α γ × List (Out γ))
  | [], s => .ok (s, [])
  | (o, op) :: l, s => do
    let r ← s.exec o op
    let q ← play l r.1
    .ok (q.1, r.2 :: q.2)

/-- What a program can read from a system: everything public but the debug messages. -/
structure SameView (s t : System α γ) : Prop where
  entities : ∀ h, s.getEntity h = t.getEntity h
  colliders : ∀ h, s.getCollider h = t.getCollider h
  generators : ∀ h, s.generators.get h = t.generators.get h
  records : s.collisionRecords = t.collisionRecords
  settings : s.iterationMax = t.iterationMax ∧ s.energySleepThreshold = t.energySleepThreshold ∧ s.sleepTimeThreshold = t.sleepTimeThreshold

/-- No entity carries more than one collider. -/
def Lone (s : System α γ) : Prop := ∀ h e, s.getEntity h = some e → e.colliders.length ≤ 1

theorem twin_view {s t : System α γ} (h : TwinSystem s t) : SameView s t := by
  refine ⟨h.world.getEntity, ?_, ?_, ?_, ?_⟩
  · intro k
    unfold World.getCollider
    rw [h.world.rest]
  · intro k; rw [h.generators]
  · rw [h.world.rest]
  · rw [h.world.rest]; exact ⟨rfl, rfl, rfl⟩

theorem Lone.agree {s : System α γ} (h : Lone s) (o o' : IterOrder) : Agree o o' s.entities := by
  intro k e he
  have hl : e.colliders.length ≤ 1 := h k e.makePub (by unfold World.getEntity; rw [he]; rfl)
  have key : ∀ q : IterOrder, q.colliders k e.colliders = e.colliders := by
    intro q
    have hp := q.colliders_perm k e.colliders
    match hc : e.colliders with
    | [] => rw [hc] at hp; exact hp.eq_nil
    | [x] => rw [hc] at hp; exact List.perm_singleton.mp hp
    | x :: y :: l => rw [hc] at hl; simp at hl
  rw [key o, key o']

variable [ForceGenerator α γ]

theorem play_twin (hb : Blind α γ) : ∀ {l l' : List (IterOrder × Op α γ)} {s t : System α γ} {r : System α γ × List (Out γ)}, System.Inv s → TwinSystem s t →
    l.map Prod.snd = l'.map Prod.snd →
    (∀ n x y q q', l[n]? = some x → l'[n]? = some y → play (l.take n) s = .ok q → play (l.take (n + 1)) s = .ok q' →
      Agree x.1 y.1 q.1.entities ∧ Agree x.1 y.1 q'.1.entities) →
    play l s = .ok r → ∃ r', play l' t = .ok r' ∧ r'.2 = r.2 ∧ TwinSystem r.1 r'.1
  | [], [], s, t, r, _, ht, _, _, hh => by
    unfold play at hh ⊢
    cases hh
    exact ⟨_, rfl, rfl, ht⟩
  | [], _ :: _, _, _, _, _, _, he, _, _ => by cases he
  | _ :: _, [], _, _, _, _, _, he, _, _ => by cases he
  | (o, op) :: l, (o', op') :: l', s, t, r, hi, ht, he, ha, hh => by
    simp only [List.map_cons, List.cons.injEq] at he
    obtain ⟨rfl, he⟩ := he
    unfold play at hh
    obtain ⟨⟨s1, out⟩, h1, hh⟩ := Res.bind_eq_ok.mp hh
    obtain ⟨⟨s2, outs⟩, h2, hh⟩ := Res.bind_eq_ok.mp hh
    cases hh
    obtain ⟨a0, a1⟩ := ha 0 (o, op) (o', op) (s, []) (s1, [out]) rfl rfl rfl (by
      simp only [Nat.zero_add, List.take_succ_cons, List.take_zero, play, h1, Res.ok_bind])
    obtain ⟨t1, g1, k1⟩ := exec_twin hb ht hi.wfE a0 a1 h1
    obtain ⟨⟨t2, outs'⟩, g2, k2, k3⟩ := play_twin hb (System.exec_inv hi h1) k1 he (fun n x y q q' hx hy hq hq' => by
      obtain ⟨c1, c2⟩ := ha (n + 1) x y (q.1, out :: q.2) (q'.1, out :: q'.2) hx hy
        (by simp only [List.take_succ_cons, play, h1, Res.ok_bind, hq])
        (by rw [List.take_succ_cons]; simp only [play, h1, Res.ok_bind, hq'])
      exact ⟨c1, c2⟩) h2
    refine ⟨(t2, out :: outs'), ?_, by rw [show outs' = outs from k2], k3⟩
    simp only [play, g1, g2, Res.ok_bind]

/-- **C69 (partial).** The iteration orders of the neighbour sets do not matter: two runs of the same calls in which the colliders of entities are visited in
the same orders give the same results and states that read alike. (If one run panics, so does the other.) -/
theorem C69_neighbor_order_partial (hb : Blind α γ) {l l' : List (IterOrder × Op α γ)} {s : System α γ} (hs : Reachable s)
    (hl : List.Forall₂ (fun x y => x.2 = y.2 ∧ x.1.colliders = y.1.colliders) l l') {r : System α γ × List (Out γ)} (hr : play l s = .ok r) :
    ∃ r', play l' s = .ok r' ∧ r'.2 = r.2 ∧ SameView r.1 r'.1 := by
  have hm : l.map Prod.snd = l'.map Prod.snd := by
    clear hr
    induction hl with
    | nil => rfl
    | cons h _ ih => simp only [List.map_cons, h.1, ih]
  obtain ⟨r', h1, h2, h3⟩ := play_twin hb hs.inv (TwinSystem.refl s) hm (fun n x y q q' hx hy _ _ => by
    have hn := List.forall₂_iff_get.mp hl
    obtain ⟨e1, rfl⟩ := List.getElem?_eq_some_iff.mp hx
    obtain ⟨e2, rfl⟩ := List.getElem?_eq_some_iff.mp hy
    have := (hn.2 n e1 e2).2
    simp only [List.get_eq_getElem] at this
    exact ⟨fun h e _ => by rw [this], fun h e _ => by rw [this]⟩) hr
  exact ⟨r', h1, h2, twin_view h3⟩

/-- **C69 (partial).** If no entity carries more than one collider at any moment of a run, then the iteration orders of all the hash sets do not matter: every
other run of the same calls gives the same results, and a state that reads the same. -/
theorem C69_lone_partial (hb : Blind α γ) {l l' : List (IterOrder × Op α γ)} {s : System α γ} (hs : Reachable s) (hl : l.map Prod.snd = l'.map Prod.snd)
    (lone : ∀ n q, play (l.take n) s = .ok q → Lone q.1) {r : System α γ × List (Out γ)} (hr : play l s = .ok r) :
    ∃ r', play l' s = .ok r' ∧ r'.2 = r.2 ∧ SameView r.1 r'.1 := by
  obtain ⟨r', h1, h2, h3⟩ := play_twin hb hs.inv (TwinSystem.refl s) hl
    (fun n x y q q' _ _ hq hq' => ⟨(lone n q hq).agree _ _, (lone (n + 1) q' hq').agree _ _⟩) hr
  exact ⟨r', h1, h2, twin_view h3⟩
end
end Fluffy.Props

namespace Fluffy.Scene
open XReal Demo Step Props
variable {γ : Type} [ForceGenerator XReal γ]

/-- Three occupied slots. -/
def three {τ : Type} (a b c : τ) : Arena τ := ⟨[some (0, a), some (0, b), some (0, c), none], [3], 0⟩
/-- The third handle. -/
def h2 : Handle := ⟨2, 0⟩

/-- Two colliders that weigh nothing do not change an entity. -/
theorem weightless_both {m : XReal} {c d : Collider XReal} (hc : c.mass = fin 0 ∧ c.momentOfInertia = (Mat3.o).f ∧ c.localCenterOfMass = (Vec3.o).f)
    (hd : d.mass = fin 0 ∧ d.momentOfInertia = (Mat3.o).f ∧ d.localCenterOfMass = (Vec3.o).f) {cs : Arena (Collider XReal)} {x y : Handle} (hx : cs.get x = some c)
    (hy : cs.get y = some d) (p v : Vec3 ℝ) (l : List Handle) : InternalEntity.recalculateMass [x, y] cs (dot m p v l up) = .ok (dot m p v l up) := by
  have hrec : ∀ z : InternalEntity.MassSum XReal, z.totalOtherMass = fin 0 → z.foundInfinite = false → (dot m p v l up).recenter z = dot m p v l up := by
    intro z h1 h2
    have ho : ({ (pose p).f with internalOriginOffset := (pose p).f.internalOriginOffset - (pose p).f.internalOriginOffset } : Orientation XReal) =
        (pose p).f := by
      simp [pose, Orientation.f, Vec3.f_sub]
    have ho' : (⟨p.f, Quat.e.f, (Vec3.o).f⟩ : Orientation XReal) = (pose p).f := rfl
    unfold InternalEntity.recenter
    simp [h1, h2, dot, up, ho, pose, Orientation.f_directionIntoWorld, ho']
  obtain ⟨c1, c2, c3⟩ := hc
  obtain ⟨d1, d2, d3⟩ := hd
  unfold InternalEntity.recalculateMass InternalEntity.massLoop
  rw [hx]
  simp only [unwrap, Res.ok_bind, c1, InternalEntity.massLoop, hy, d1, isInfinite_fin, Bool.false_eq_true, if_false]
  rw [hrec _ (by simp) rfl]
  simp only [InternalEntity.momentLoop, hx, hy, unwrap, Res.ok_bind, c1, c2, c3, d1, d2, d3, Orientation.prepMomentOfInertia, translateMomentOfInertia, dot,
    Orientation.f_offset, Vec3.f_add, Vec3.f_dot, Mat3.f_diagonalElement, Mat3.f_outer, Mat3.f_sub, Mat3.f_scale, Mat3.f_add, Mat3.f_zeros]
  congr 3
  ext <;> simp [Mat3.o, Mat3.scale]

/-- An entity with a bouncy ball and the given collider flies towards another ball. -/
noncomputable def tiedBy (d : Collider XReal) : System XReal γ :=
  { entities := two (dot (fin 1) .o ⟨2, 0, 0⟩ [h0, h2] up) (dot (fin 1) ⟨3, 0, 0⟩ .o [h1] up)
    colliders := three ((sphere 1).setEntity (some h0)) ((sphere 1).setEntity (some h1)) (d.setEntity (some h0)), generators := Arena.new
    iterationMax := 1, collisionRecords := [], energySleepThreshold := fin 1, sleepTimeThreshold := fin 1, debug := [] }

/-- An entity with two coinciding balls, one bouncy and one not, flies towards another ball. -/
noncomputable def tied : System XReal γ := tiedBy (sphere 0)

/-- The calls that build it. -/
noncomputable def tiedCalls (d : Collider XReal) : List (Op XReal γ) :=
  [.addEntity (source (fin 1) .o ⟨2, 0, 0⟩), .addEntity (source (fin 1) ⟨3, 0, 0⟩ .o), .addCollider (sphere 1), .addCollider (sphere 1), .addCollider d,
    .linkCollider h0 (some h0), .linkCollider h1 (some h1), .linkCollider h2 (some h0), .configure 1 (fin 1) (fin 1) [] []]

theorem sphere_light (r : ℝ) (o : Option Handle) : ((sphere r).setEntity o).mass = fin 0 ∧ ((sphere r).setEntity o).momentOfInertia = (Mat3.o).f ∧
    ((sphere r).setEntity o).localCenterOfMass = (Vec3.o).f := by
  refine ⟨rfl, ?_, rfl⟩
  simp only [sphere, Collider.setEntity, Collider.momentOfInertia, lit, two_eq, fin_mul]
  have : (fin 2 / fin 5 : XReal) = fin (2 / 5) := fin_div (by norm_num)
  simp [this, Mat3.diagonal, Mat3.f, Mat3.o, Vec3.f, Vec3.o]

/-- Linking a collider that was linked to nothing. -/
theorem switchLink_free {s : System XReal γ} {c k : Handle} {d : Collider XReal} (hd : s.colliders.get c = some d) (he : d.entity = none) (o : IterOrder) :
    System.switchLink o s c (some k) = .ok ({ s with colliders := s.colliders.set c (d.setEntity (some k)) }, true) := by
  unfold System.switchLink
  rw [hd]
  simp only [he, System.unlinkPrior, Res.ok_bind]
  rfl

theorem tied_built {d : Collider XReal} (hd : d.newFrom = some d) (hl : d.mass = fin 0 ∧ d.momentOfInertia = (Mat3.o).f ∧ d.localCenterOfMass = (Vec3.o).f)
    (he : d.entity = none) : ∃ outs, play ((tiedCalls (γ := γ) d).map (fun x => (IterOrder.id, x))) System.new = .ok (tiedBy d, outs) := by
  have hm : Scalar.lt (fin 1 : XReal) zero = false := by simp
  let a (l : List Handle) := dot (fin 1) .o ⟨2, 0, 0⟩ l up
  let b (l : List Handle) := dot (fin 1) ⟨3, 0, 0⟩ .o l up
  let s2 : System XReal γ := { (System.new : System XReal γ) with entities := two (a []) (b []) }
  let s5 : System XReal γ := { s2 with colliders := three (sphere 1) (sphere 1) d }
  let s6 : System XReal γ := { s2 with entities := two (a [h0]) (b []), colliders := three ((sphere 1).setEntity (some h0)) (sphere 1) d }
  let s7 : System XReal γ := { s2 with
    entities := two (a [h0]) (b [h1]), colliders := three ((sphere 1).setEntity (some h0)) ((sphere 1).setEntity (some h1)) d }
  let s8 : System XReal γ := { s2 with
    entities := two (a [h0, h2]) (b [h1])
    colliders := three ((sphere 1).setEntity (some h0)) ((sphere 1).setEntity (some h1)) (d.setEntity (some h0)) }
  have r1 : (System.new : System XReal γ).exec .id (.addEntity (source (fin 1) .o ⟨2, 0, 0⟩)) =
      .ok ((System.new.addEntity (source (fin 1) .o ⟨2, 0, 0⟩)).1, .entity (some h0)) := by
    simp only [System.exec, System.addEntity, source_newFrom hm]; rfl
  have r2 : (System.new.addEntity (source (fin 1) .o ⟨2, 0, 0⟩)).1.exec .id (.addEntity (source (fin 1) ⟨3, 0, 0⟩ .o)) = .ok (s2, .entity (some h1)) := by
    simp only [System.exec, System.addEntity, source_newFrom hm]; rfl
  have r3 : s2.exec .id (.addCollider (sphere 1)) = .ok ((s2.addCollider (sphere 1)).1, .collider (some h0)) := by
    simp only [System.exec, System.addCollider, sphere_newFrom]; rfl
  have r4 : (s2.addCollider (sphere 1)).1.exec .id (.addCollider (sphere 1)) = .ok (((s2.addCollider (sphere 1)).1.addCollider (sphere 1)).1, .collider (some h1)) := by
    simp only [System.exec, System.addCollider, sphere_newFrom]; rfl
  have r5 : ((s2.addCollider (sphere 1)).1.addCollider (sphere 1)).1.exec .id (.addCollider d) = .ok (s5, .collider (some h2)) := by
    simp only [System.exec, System.addCollider, sphere_newFrom, hd]; rfl
  have r6 : s5.exec .id (.linkCollider h0 (some h0)) = .ok (s6, .ok true) := by
    have h := weightless (m := fin 1) (sphere_weightless (fin 1) 1) (cs := three (sphere 1) (sphere 1) d) (ch := h0) rfl .o ⟨2, 0, 0⟩
    have e : System.linkCollider .id s5 h0 (some h0) = (do
        let e ← InternalEntity.recalculateMass [h0] (three (sphere 1) (sphere 1) d) (a [h0])
        System.switchLink .id { s5 with entities := s5.entities.set h0 e } h0 (some h0)) := rfl
    simp only [System.exec, e]
    rw [h]
    rfl
  have r7 : s6.exec .id (.linkCollider h1 (some h1)) = .ok (s7, .ok true) := by
    have h := weightless (m := fin 1) (sphere_weightless (fin 1) 1) (cs := three ((sphere 1).setEntity (some h0)) (sphere 1) d) (ch := h1) rfl ⟨3, 0, 0⟩ .o
    have e : System.linkCollider .id s6 h1 (some h1) = (do
        let e ← InternalEntity.recalculateMass [h1] (three ((sphere 1).setEntity (some h0)) (sphere 1) d) (b [h1])
        System.switchLink .id { s6 with entities := s6.entities.set h1 e } h1 (some h1)) := rfl
    simp only [System.exec, e]
    rw [h]
    rfl
  have r8 : s7.exec .id (.linkCollider h2 (some h0)) = .ok (s8, .ok true) := by
    have h := weightless_both (m := fin 1) (sphere_light 1 (some h0)) hl
      (cs := three ((sphere 1).setEntity (some h0)) ((sphere 1).setEntity (some h1)) d) (x := h0) (y := h2) rfl rfl .o ⟨2, 0, 0⟩ [h0, h2]
    have hx : System.linkCollider .id s7 h2 (some h0) = (do
        let e ← InternalEntity.recalculateMass [h0, h2] (three ((sphere 1).setEntity (some h0)) ((sphere 1).setEntity (some h1)) d) (a [h0, h2])
        System.switchLink .id { s7 with entities := s7.entities.set h0 e } h2 (some h0)) := rfl
    simp only [System.exec, hx]
    rw [h]
    simp only [Res.ok_bind]
    rw [switchLink_free (d := d) rfl he]
    rfl
  refine ⟨[.entity (some h0), .entity (some h1), .collider (some h0), .collider (some h1), .collider (some h2), .ok true, .ok true, .ok true, .unit], ?_⟩
  simp only [tiedCalls, List.map_cons, List.map_nil, play, r1, r2, r3, r4, r5, r6, r7, r8, Res.ok_bind]
  rfl

/-- A step, from its phases. -/
theorem step_mk {ord : IterOrder} {s m : System XReal γ} {dt : XReal} {infos : List (StepInfo XReal)} {f : LoopState XReal} {c : Bool} {w : World XReal}
    (hdt : Scalar.lt (Scalar.abs dt) EPSILON = false)
    (h1 : integrateAll dt s.generators.handles s.entities.handles { s with collisionRecords := [], debug := [] } = .ok (m, infos))
    (h2 : iterate ord dt m.iterationMax ⟨m.toWorld, infos, dt, zero⟩ = .ok (f, c))
    (h3 : sleepLoop ord dt f.infos (if c then f.world else { f.world with debug := f.world.debug ++ [.ranOut] }) = .ok w) :
    s.step ord dt = .ok { m with toWorld := w } := by
  unfold System.step
  rw [if_neg (by rw [hdt]; exact Bool.false_ne_true)]
  simp only [h1, h2, h3, Res.ok_bind]

/-- What is not yet asleep stays as it is in the sleep loop. -/
theorem sleep_two (ord : IterOrder) (d : XReal) {w : World XReal} {i j : StepInfo XReal} {A B : InternalEntity XReal} (he : w.entities = two A B)
    (hi : i.handle = h0) (hj : j.handle = h1) (a1 : A.asleep = false) (a2 : A.fallingAsleep = false) (a3 : A.fallingAsleepTime = fin 0) (b1 : B.asleep = false)
    (b2 : B.fallingAsleep = false) (b3 : B.fallingAsleepTime = fin 0) (ht : w.sleepTimeThreshold = fin 1) :
    ∃ A' B', sleepLoop ord d [i, j] w = .ok { w with entities := two A' B' } ∧ A'.makePub = A.makePub ∧ B'.makePub = B.makePub := by
  obtain ⟨A', s1, u1⟩ := sleep_keeps ord d (info := i) (w := w) (E := A) (by rw [hi, he]; rfl) a1 a2 a3 ht
  obtain ⟨B', s2, u2⟩ := sleep_keeps ord d (info := j) (w := { w with entities := two A' B }) (E := B) (by rw [hj]; rfl) b1 b2 b3 ht
  refine ⟨A', B', ?_, u1, u2⟩
  rw [hi, he, two_set0] at s1
  rw [hj, two_set1] at s2
  simp only [sleepLoop, s1, s2, Res.ok_bind]

/-- A step of it: the ball that is looked at first decides how bouncy the collision is. -/
theorem tied_step (ord : IterOrder) {x y : Handle} (ho : ord.colliders h0 [h0, h2] = [x, y]) {r r' : ℝ} (gx : (tied (γ := γ)).colliders.get x = some ((sphere r).setEntity (some h0)))
    (gy : (tied (γ := γ)).colliders.get y = some ((sphere r').setEntity (some h0))) :
    ∃ (s' : System XReal γ) (e : Entity XReal), (tied (γ := γ)).step ord (fin 1) = .ok s' ∧ s'.getEntity h0 = some e ∧ e.velocity = (⟨1 - r, 0, 0⟩ : Vec3 ℝ).f := by
  obtain ⟨C, hC, ht, hp, hn⟩ := head_on
  have o1 : ord.colliders h1 [h1] = [h1] := List.perm_singleton.mp (ord.colliders_perm h1 [h1])
  let K : Candidate XReal := ⟨fin (1 / 2), C, fin (r * 1), fin 0, fin 0, fin (1 / 4 * (1 / 4)), h0, h1, 0, 1⟩
  have cx : considerPair (tied (γ := γ)).colliders (dot (fin 1) .o ⟨2, 0, 0⟩ [h0, h2] up) (dot (fin 1) ⟨3, 0, 0⟩ .o [h1] up) ⟨h0, (⟨2, 0, 0⟩ : Vec3 ℝ).f, (Vec3.o).f, []⟩
      ⟨h1, (Vec3.o).f, (Vec3.o).f, []⟩ 0 1 x h1 none = .ok (some K) := by
    rw [consider_spheres r 1 gx (x2 := h1) (o2 := some h1) rfl none (fin 1) (fin 1) .o ⟨2, 0, 0⟩ ⟨3, 0, 0⟩ .o up up ⟨2, 0, 0⟩ .o [] [] hC (fun C' h => by cases h; exact ⟨_, hp⟩)]
    simp only [percentOf, one_eq]
    rw [if_neg (by rw [hn, Vec3.f_sub, Vec3.f_dot, EPSILON_eq, fin_lt]; norm_num [Vec3.dot_def]), if_pos (by rw [ht, fin_lt]; norm_num), ht]
  have cy : considerPair (tied (γ := γ)).colliders (dot (fin 1) .o ⟨2, 0, 0⟩ [h0, h2] up) (dot (fin 1) ⟨3, 0, 0⟩ .o [h1] up) ⟨h0, (⟨2, 0, 0⟩ : Vec3 ℝ).f, (Vec3.o).f, []⟩
      ⟨h1, (Vec3.o).f, (Vec3.o).f, []⟩ 0 1 y h1 (some K) = .ok (some K) := by
    rw [consider_spheres r' 1 gy (x2 := h1) (o2 := some h1) rfl (some K) (fin 1) (fin 1) .o ⟨2, 0, 0⟩ ⟨3, 0, 0⟩ .o up up ⟨2, 0, 0⟩ .o [] [] hC (fun C' h => by cases h; exact ⟨_, hp⟩)]
    simp only [percentOf, K, ht]
    rw [if_neg (by rw [hn, Vec3.f_sub, Vec3.f_dot, EPSILON_eq, fin_lt]; norm_num [Vec3.dot_def]), if_neg (by simp)]
  have e1 : ∀ u : Vec3 ℝ, u.scale 1 = u := fun u => by ext <;> simp
  have hint : integrateAll (fin 1) (Arena.new : Arena γ).handles (two (dot (fin 1) .o ⟨2, 0, 0⟩ [h0, h2] up) (dot (fin 1) ⟨3, 0, 0⟩ .o [h1] up)).handles
      ({ (tied (γ := γ)) with collisionRecords := [], debug := [] } : System XReal γ) =
      .ok (tied, [⟨h0, (⟨2, 0, 0⟩ : Vec3 ℝ).f, (Vec3.o).f, []⟩, ⟨h1, (Vec3.o).f, (Vec3.o).f, []⟩]) := by
    rw [two_handles, show (Arena.new : Arena γ).handles = [] from rfl]
    simp only [integrateAll]
    have i0 := integrate (some 1) .o ⟨2, 0, 0⟩ [h0, h2] up 1 (tied (γ := γ)) (h := h0) rfl
    have i1 := integrate (some 1) ⟨3, 0, 0⟩ .o [h1] up 1 (tied (γ := γ)) (h := h1) rfl
    rw [e1] at i0 i1
    rw [show ({ (tied (γ := γ)) with collisionRecords := [], debug := [] } : System XReal γ) = tied from rfl, i0]
    simp only [Res.ok_bind]
    rw [show ({ (tied (γ := γ)) with entities := (tied (γ := γ)).entities.set h0 (dot (mx (some 1)) .o ⟨2, 0, 0⟩ [h0, h2] up) } : System XReal γ) = tied from rfl, i1]
    rfl
  have hS : searchFirst ord (tied (γ := γ)).toWorld 0 [⟨h0, (⟨2, 0, 0⟩ : Vec3 ℝ).f, (Vec3.o).f, []⟩, ⟨h1, (Vec3.o).f, (Vec3.o).f, []⟩] none = .ok (some K) := by
    have g : get2 (tied (γ := γ)).entities h0 h1 = .ok (dot (fin 1) .o ⟨2, 0, 0⟩ [h0, h2] up, dot (fin 1) ⟨3, 0, 0⟩ .o [h1] up) := rfl
    have c0 : (dot (fin 1) .o ⟨2, 0, 0⟩ [h0, h2] up).colliders = [h0, h2] := rfl
    have c1 : (dot (fin 1) ⟨3, 0, 0⟩ .o [h1] up).colliders = [h1] := rfl
    have n0 : h1 ∉ (dot (fin 1) .o ⟨2, 0, 0⟩ [h0, h2] up).neighbors := by simp [dot, up]
    have n1 : h0 ∉ (dot (fin 1) ⟨3, 0, 0⟩ .o [h1] up).neighbors := by simp [dot, up]
    simp only [searchFirst, searchSecond, searchPair, g, Res.ok_bind, n0, n1, if_false, c0, c1, ho, o1, firstColliderLoop, secondColliderLoop, cx, cy]
  have hit := iterate_hit_of ord (m := some 1) (k := some 1) (cs := [h0, h2]) (ds := [h1]) (by rintro _ ⟨⟩; norm_num) (by rintro _ ⟨⟩; norm_num) (Or.inl (by simp))
    (p := .o) (v := ⟨2, 0, 0⟩) (q := ⟨3, 0, 0⟩) (w := .o) (y := up) (z := up) ⟨rfl, rfl⟩ ⟨rfl, rfl⟩ (c := ⟨2, 0, 0⟩) (n := ⟨1, 0, 0⟩) (by norm_num [Vec3.dot_def])
    (s := 2) (by ext <;> simp) (W := (tied (γ := γ)).toWorld) rfl (tl := 1) (cp := 0) (d := 1) (t := 1 / 2) hS rfl hp hn rfl rfl rfl rfl rfl rfl rfl
    (J := -(1 + r * 1) * 2 / (inverse (some 1) + inverse (some 1))) rfl 0
  rw [iterate] at hit
  obtain ⟨A, B, g1, g2, -⟩ := sleep_two ord (fin 1)
    (w := { (tied (γ := γ)).toWorld with
      entities := two (dot (mx (some 1)) (.o + (⟨2, 0, 0⟩ : Vec3 ℝ).scale (1 / 2)) (⟨2, 0, 0⟩ + (⟨1, 0, 0⟩ : Vec3 ℝ).scale (-(1 + r * 1) * 2 / (inverse (some 1) + inverse (some 1)) * inverse (some 1))) [h0, h2] up)
        (dot (mx (some 1)) (⟨3, 0, 0⟩ + (Vec3.o : Vec3 ℝ).scale (1 / 2)) (.o - (⟨1, 0, 0⟩ : Vec3 ℝ).scale (-(1 + r * 1) * 2 / (inverse (some 1) + inverse (some 1)) * inverse (some 1))) [h1] up)
      collisionRecords := (tied (γ := γ)).collisionRecords ++ [⟨h0, h1, (⟨2, 0, 0⟩ : Vec3 ℝ).f, fin ((0 + (1 - 0) * (1 / 2)) * 1), (⟨1, 0, 0⟩ : Vec3 ℝ).f, fin (r * 1),
        fin |(-(1 + r * 1) * 2 / (inverse (some 1) + inverse (some 1)))|⟩]
      debug := (tied (γ := γ)).debug ++ [.ranOut] })
    (i := ⟨h0, (((⟨2, 0, 0⟩ : Vec3 ℝ) + (⟨1, 0, 0⟩ : Vec3 ℝ).scale (-(1 + r * 1) * 2 / (inverse (some 1) + inverse (some 1)) * inverse (some 1))).scale (1 * (1 - 1 / 2))).f,
      (Vec3.o).f, if |r * 1 * 2| < 1 / 1000000 then hsInsert [] h1 else []⟩)
    (j := ⟨h1, (((Vec3.o : Vec3 ℝ) - (⟨1, 0, 0⟩ : Vec3 ℝ).scale (-(1 + r * 1) * 2 / (inverse (some 1) + inverse (some 1)) * inverse (some 1))).scale (1 * (1 - 1 / 2))).f,
      (Vec3.o).f, if |r * 1 * 2| < 1 / 1000000 then hsInsert [] h0 else []⟩) rfl rfl rfl rfl rfl rfl rfl rfl rfl rfl
  refine ⟨_, A.makePub, step_mk (by rw [EPSILON_eq, fin_abs, fin_lt]; norm_num) hint (by rw [zero_eq]; exact hit) g1, rfl, ?_⟩
  rw [g2]
  simp only [InternalEntity.makePub, dot]
  congr 1
  ext <;> simp [inverse] <;> ring

end Fluffy.Scene

namespace Fluffy.Props
open Fluffy XReal Demo Scene Step

/-- Colliders are visited in the opposite of the order they were linked in. -/
def backwards : IterOrder :=
  ⟨fun _ l => l.reverse, fun _ l => l, fun _ l => l, fun _ l => l.reverse_perm, fun _ l => .refl l, fun _ l => .refl l⟩

theorem play_snoc {γ : Type} [ForceGenerator XReal γ] {o : IterOrder} {op : Op XReal γ} : ∀ {l : List (IterOrder × Op XReal γ)} {s m : System XReal γ} {outs : List (Out γ)}
    {r : System XReal γ × Out γ}, play l s = .ok (m, outs) → m.exec o op = .ok r → play (l ++ [(o, op)]) s = .ok (r.1, outs ++ [r.2])
  | [], s, m, outs, r, h, hr => by
    simp only [play] at h
    cases h
    simp only [List.nil_append, play, hr, Res.ok_bind]
  | (o', op') :: l, s, m, outs, r, h, hr => by
    simp only [play] at h
    obtain ⟨x, h1, h⟩ := Res.bind_eq_ok.mp h
    obtain ⟨y, h2, h⟩ := Res.bind_eq_ok.mp h
    cases h
    have ih := play_snoc (o := o) h2 hr
    simp only [List.cons_append, play, h1, ih, Res.ok_bind]

/-- **C69 fails.** Two runs of the same calls that differ only in the order in which the colliders of an entity are visited in the last step: the calls return
the same, but an entity that bumps into another is at rest in one run and goes on in the other. The entity carries two balls at the same place, one bouncy and one
not, and whichever is looked at first decides. -/
theorem C69_false {γ : Type} [ForceGenerator XReal γ] : ∃ (l : List (Op XReal γ)) (o o' : IterOrder) (r r' : System XReal γ × List (Out γ)) (h : Handle) (e e' : Entity XReal),
    play (l.map (fun x => (.id, x)) ++ [(o, .step (fin 1))]) System.new = .ok r ∧ play (l.map (fun x => (.id, x)) ++ [(o', .step (fin 1))]) System.new = .ok r' ∧
    r.1.getEntity h = some e ∧ r'.1.getEntity h = some e' ∧ e.velocity = Vec3.zeros ∧ e'.velocity = ⟨fin 1, fin 0, fin 0⟩ := by
  obtain ⟨outs, hb⟩ := tied_built (γ := γ) (sphere_newFrom 0) (sphere_light 0 none) rfl
  obtain ⟨s, e, g1, g2, g3⟩ := tied_step (γ := γ) .id (x := h0) (y := h2) rfl (r := 1) (r' := 0) rfl rfl
  obtain ⟨s', e', g1', g2', g3'⟩ := tied_step (γ := γ) backwards (x := h2) (y := h0) rfl (r := 0) (r' := 1) rfl rfl
  refine ⟨tiedCalls (sphere 0), .id, backwards, _, _, h0, e, e', play_snoc hb (r := (s, .unit)) (by simp only [System.exec]; rw [show tiedBy (sphere 0) = tied from rfl, g1]; rfl),
    play_snoc hb (r := (s', .unit)) (by simp only [System.exec]; rw [show tiedBy (sphere 0) = tied from rfl, g1']; rfl), g2, g2', ?_, ?_⟩
  · rw [g3]; simp [Vec3.f, Vec3.zeros]
  · rw [g3']; simp [Vec3.f]

/-- A run in which entities with one ball each bump into each other under `C69_lone_partial`, whose hypotheses can thus be met. -/
example (o : IterOrder) : ∃ (s : System XReal (GravityGenerator XReal)) (r : System XReal (GravityGenerator XReal) × List (Out (GravityGenerator XReal))), Reachable s ∧
    (∀ n q, play (List.take n [(IterOrder.id, Op.step (fin 1))]) s = .ok q → Lone q.1) ∧ play [(.id, .step (fin 1))] s = .ok r ∧ r.1.collisionRecords.length = 1 ∧
    ∃ r', play [(o, .step (fin 1))] s = .ok r' ∧ r'.2 = r.2 ∧ SameView r.1 r'.1 := by
  obtain ⟨C, hC, ht, hp, hn⟩ := head_on
  have hK := consider_balls 1 1 (mx (some 1)) (mx (some 1)) .o ⟨2, 0, 0⟩ ⟨3, 0, 0⟩ .o up up ⟨2, 0, 0⟩ .o [] [] hC (fun C' h => by cases h; exact ⟨_, hp⟩)
  simp only at hK
  rw [if_neg (by rw [hn, Vec3.f_sub, Vec3.f_dot, EPSILON_eq, fin_lt]; norm_num [Vec3.dot_def]), if_pos (by rw [ht, fin_lt]; norm_num), ht] at hK
  obtain ⟨s', E, rt, ta, i1, i2, g1, -, -, -, g5⟩ := one_hit (γ := GravityGenerator XReal) .id (e := fin 1) hK rfl rfl rfl rfl rfl
  let s := scene (γ := GravityGenerator XReal) (dot (mx (some 1)) .o ⟨2, 0, 0⟩ [h0] up) (dot (mx (some 1)) ⟨3, 0, 0⟩ .o [h1] up) (sphere 1) (sphere 1) 1 (fin 1) (fin 1)
  have hs : Reachable s := scene_reachable (by simp [mx]) (by simp [mx]) _ _ _ _ (sphere_newFrom 1) (sphere_newFrom 1) (sphere_weightless _ 1) (sphere_weightless _ 1) 1 _ _
  have hx : s.exec .id (.step (fin 1)) = .ok (s', .unit) := by simp only [System.exec]; rw [g1]; rfl
  have hl : Lone s := by
    intro h e he
    obtain ⟨x, hx, rfl⟩ := getEntity_iff.mp he
    rcases two_either hx with ⟨-, rfl⟩ | ⟨-, rfl⟩ <;> exact Nat.le_refl _
  have hl' : Lone s' := by
    intro h e he
    obtain ⟨y, hy, rfl⟩ := getEntity_iff.mp he
    obtain ⟨x, hx, hr⟩ := (step_frame g1).1.entities.get' hy
    show y.colliders.length ≤ 1
    rw [InternalEntity.StaticRel.colliders hr]
    exact hl h x.makePub (getEntity_iff.mpr ⟨x, hx, rfl⟩)
  have hp1 : play [(.id, .step (fin 1))] s = .ok (s', [.unit]) := by simp only [play, hx, Res.ok_bind]
  have hlone : ∀ n q, play (List.take n [(IterOrder.id, Op.step (fin 1))]) s = .ok q → Lone q.1 := by
    intro n q hq
    cases n with
    | zero => simp only [List.take_zero, play] at hq; cases hq; exact hl
    | succ n =>
      rw [List.take_succ_cons, List.take_nil, hp1] at hq
      cases hq; exact hl'
  exact ⟨s, _, hs, hlone, hp1, by simp [g5], C69_lone_partial (l := [(.id, .step (fin 1))]) (l' := [(o, .step (fin 1))]) gravity_blind hs rfl hlone hp1⟩

end Fluffy.Props
