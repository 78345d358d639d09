import Verif.Props.Scene
import Verif.Props.Sleep
import Verif.Props.Panic
/- Properties that do not hold, refuted by histories of API calls that show the failure. -/
set_option linter.unusedSectionVars false
set_option linter.unusedSimpArgs false
namespace Fluffy.Scene
open XReal Demo Step Props

variable {γ : Type} [ForceGenerator XReal γ]

theorem dot_energy (m : ℝ) (p v : Vec3 ℝ) (cs : List Handle) (z : Nap) : (dot (fin m) p v cs z).totalEnergy = fin (m * v.dot v / 2) := by
  unfold InternalEntity.totalEnergy
  rw [dot_moment]
  have h2 : (2 : ℝ) ≠ 0 := by norm_num
  simp [dot, fin_div h2, Vec3.scale_dot, mul_comm]

theorem sleep_yes (ord : IterOrder) (d : XReal) {w : World XReal} {m : ℝ} {p v : Vec3 ℝ} {cs : List Handle} {E : ℝ} {info : StepInfo XReal} {n : List Handle}
    (hg : w.entities.get info.handle = some (dot (fin m) p v cs { up with near := n })) (he : w.energySleepThreshold = fin E) (hE : m * v.dot v / 2 ≤ E)
    (ht : w.sleepTimeThreshold = fin 0) :
    sleepOne ord d info w = (do
      let entities ← linkNeighbors info.handle (ord.stepNeighbors info.handle info.neighbors)
        (w.entities.set info.handle (dot (fin m) p v cs ⟨true, fin 0, true, info.neighbors⟩))
      .ok { w with entities := entities, debug := w.debug ++ [.puttingToSleep info.handle] }) := by
  unfold sleepOne
  rw [hg]
  simp only [unwrap, Res.ok_bind, dot_energy, he, fin_lt, not_lt.mpr hE, decide_false, ht]
  simp [dot, up]

theorem sleep_no (ord : IterOrder) (d : XReal) {w : World XReal} {m : ℝ} {p v : Vec3 ℝ} {cs : List Handle} {E : ℝ} {info : StepInfo XReal} {n : List Handle}
    (hg : w.entities.get info.handle = some (dot (fin m) p v cs { up with near := n })) (he : w.energySleepThreshold = fin E) (hE : E < m * v.dot v / 2) :
    sleepOne ord d info w = .ok { w with entities := w.entities.set info.handle (dot (fin m) p v cs { up with near := n }) } := by
  unfold sleepOne
  rw [hg]
  simp only [unwrap, Res.ok_bind, dot_energy, he, fin_lt, hE, decide_true]
  simp [dot, up]

/-- A ball of mass 1 runs into one of mass `k` and stays with it; both sleep at the end of the step. -/
theorem rest (ord : IterOrder) {k : ℝ} (hk : 0 < k) {u : Vec3 ℝ} (hu : u = ⟨2 / (1 + k), 0, 0⟩) {E : ℝ} (e1 : 1 * u.dot u / 2 ≤ E) (e2 : k * u.dot u / 2 ≤ E) (i : Nat) :
    ∃ s' : System XReal γ,
    System.step ord (scene (dot (fin 1) .o ⟨2, 0, 0⟩ [h0] up) (dot (fin k) ⟨3, 0, 0⟩ .o [h1] up) (sphere 0) (sphere 1) (i + 2) (fin E) (fin 0)) (fin 1) =
      .ok s' ∧
    s'.entities = two (dot (fin 1) (⟨1, 0, 0⟩ + u.scale (1 / 2)) u [h0] ⟨true, fin 0, true, [h1]⟩)
      (dot (fin k) (⟨3, 0, 0⟩ + u.scale (1 / 2)) u [h1] ⟨true, fin 0, true, [h0]⟩) ∧
    s'.colliders = two ((sphere 0).setEntity (some h0)) ((sphere 1).setEntity (some h1)) ∧ s'.generators = Arena.new ∧
    s'.collisionRecords = [⟨h0, h1, (⟨2, 0, 0⟩ : Vec3 ℝ).f, fin (1 / 2), (⟨1, 0, 0⟩ : Vec3 ℝ).f, fin 0, fin |-(1 + 0) * 2 / (inverse (some 1) + inverse (some k))|⟩] := by
  have o1 : ∀ h, ord.stepNeighbors h [h0] = [h0] := fun h => List.perm_singleton.mp (ord.stepNeighbors_perm h [h0])
  have o2 : ∀ h, ord.stepNeighbors h [h1] = [h1] := fun h => List.perm_singleton.mp (ord.stepNeighbors_perm h [h1])
  have hk' : k ≠ 0 := hk.ne'
  have hk1 : 1 + k ≠ 0 := by positivity
  have hk2 : k + 1 ≠ 0 := by positivity
  have hb := bounce (γ := γ) ord (m := some 1) (k := some k) (by rintro x ⟨⟩; norm_num) (by rintro x ⟨⟩; exact hk) (Or.inl (by simp)) (le_refl (0 : ℝ)) i (fin E) (fin 0)
    rfl (v := u) (w := u) (by rw [hu]; simp only [inverse]; ext <;> simp; field_simp; ring) (by rw [hu]; simp only [inverse]; ext <;> simp; field_simp; ring)
  rw [show mx (some 1) = fin 1 from rfl, show mx (some k) = fin k from rfl] at hb
  rw [hb]
  rw [if_pos (by norm_num), if_pos (by norm_num)]
  simp only [sleepLoop]
  rw [sleep_yes ord _ (n := []) (by exact two_get0 _ _) (by rfl) e1 (by rfl)]
  simp only [o2, scene, two_set0, linkNeighbors, two_get1, unwrap, Res.ok_bind, two_set1]
  rw [sleep_yes ord _ (n := [h0]) (by exact two_get1 _ _) (by rfl) e2 (by rfl)]
  simp only [o1, two_set1, linkNeighbors, two_get0, unwrap, Res.ok_bind, two_set0]
  exact ⟨_, rfl, rfl, rfl, rfl, rfl⟩

/-- With a threshold between the two energies only the lighter one sleeps. -/
theorem half_rest (ord : IterOrder) {k : ℝ} (hk : 0 < k) {u : Vec3 ℝ} (hu : u = ⟨2 / (1 + k), 0, 0⟩) {E : ℝ} (e1 : 1 * u.dot u / 2 ≤ E) (e2 : E < k * u.dot u / 2) (i : Nat) :
    ∃ s' : System XReal γ,
    System.step ord (scene (dot (fin 1) .o ⟨2, 0, 0⟩ [h0] up) (dot (fin k) ⟨3, 0, 0⟩ .o [h1] up) (sphere 0) (sphere 1) (i + 2) (fin E) (fin 0)) (fin 1) =
      .ok s' ∧
    s'.entities = two (dot (fin 1) (⟨1, 0, 0⟩ + u.scale (1 / 2)) u [h0] ⟨true, fin 0, true, [h1]⟩)
      (dot (fin k) (⟨3, 0, 0⟩ + u.scale (1 / 2)) u [h1] ⟨false, fin 0, false, [h0]⟩) ∧
    s'.colliders = two ((sphere 0).setEntity (some h0)) ((sphere 1).setEntity (some h1)) ∧ s'.generators = Arena.new := by
  have o2 : ∀ h, ord.stepNeighbors h [h1] = [h1] := fun h => List.perm_singleton.mp (ord.stepNeighbors_perm h [h1])
  have hk' : k ≠ 0 := hk.ne'
  have hk1 : 1 + k ≠ 0 := by positivity
  have hk2 : k + 1 ≠ 0 := by positivity
  have hb := bounce (γ := γ) ord (m := some 1) (k := some k) (by rintro x ⟨⟩; norm_num) (by rintro x ⟨⟩; exact hk) (Or.inl (by simp)) (le_refl (0 : ℝ)) i (fin E) (fin 0)
    rfl (v := u) (w := u) (by rw [hu]; simp only [inverse]; ext <;> simp; field_simp; ring) (by rw [hu]; simp only [inverse]; ext <;> simp; field_simp; ring)
  rw [show mx (some 1) = fin 1 from rfl, show mx (some k) = fin k from rfl] at hb
  rw [hb]
  rw [if_pos (by norm_num), if_pos (by norm_num)]
  simp only [sleepLoop]
  rw [sleep_yes ord _ (n := []) (by exact two_get0 _ _) (by rfl) e1 (by rfl)]
  simp only [o2, scene, two_set0, linkNeighbors, two_get1, unwrap, Res.ok_bind, two_set1]
  rw [sleep_no ord _ (n := [h0]) (by exact two_get1 _ _) (by rfl) e2]
  simp only [two_set1, Res.ok_bind]
  exact ⟨_, rfl, rfl, rfl, rfl⟩

/-- Waking an entity with a neighbour that is gone panics. -/
theorem wake_dead (ord : IterOrder) {es : Arena (InternalEntity XReal)} {h n : Handle} {e : InternalEntity XReal} (hg : es.get h = some e)
    (hn : e.neighbors = [n]) (hd : es.get n = none) (hne : n ≠ h) (d : List DebugMsg) : InternalEntity.wakeUp ord h es d = .error .unwrapNone := by
  have on : ∀ h, ord.neighbors h [n] = [n] := fun h => List.perm_singleton.mp (ord.neighbors_perm h [n])
  unfold InternalEntity.wakeUp
  rw [Nat.add_comm]
  unfold InternalEntity.wakeLoop
  have hm : n ∉ hsInsert [] h := by simp [hsInsert, hne]
  simp only [hg, unwrap, Res.ok_bind, hn, on, InternalEntity.wakeNeighbors, hm, if_false, hd]
  rfl

theorem start_reachable {m k : ℝ} (hm : 0 ≤ m) (hk : 0 ≤ k) (p v q w : Vec3 ℝ) (a b : ℝ) (n : Nat) (e t : XReal) :
    Reachable (scene (γ := γ) (dot (fin m) p v [h0] up) (dot (fin k) q w [h1] up) (sphere a) (sphere b) n e t) :=
  scene_reachable (by simpa using hm) (by simpa using hk) p v q w (sphere_newFrom a) (sphere_newFrom b) (sphere_weightless _ a) (sphere_weightless _ b) n e t

end Fluffy.Scene

namespace Fluffy.Props
open XReal Demo Step Scene

/-- **C27 fails**: a step can leave an entity awake with a remembered neighbour. -/
theorem C27_false {γ : Type} [ForceGenerator XReal γ] : ∃ (s : System XReal γ) (h : Handle) (e : InternalEntity XReal),
    Reachable s ∧ s.entities.get h = some e ∧ e.asleep = false ∧ e.neighbors ≠ [] := by
  obtain ⟨s', hs, he, -, -⟩ := half_rest (γ := γ) .id (k := 3) (by norm_num) (u := ⟨1 / 2, 0, 0⟩) (by ext <;> norm_num) (E := 1 / 4)
    (by norm_num [Vec3.dot_def]) (by norm_num [Vec3.dot_def]) 3
  obtain ⟨tr, ht⟩ := start_reachable (γ := γ) (m := 1) (k := 3) (by norm_num) (by norm_num) .o ⟨2, 0, 0⟩ ⟨3, 0, 0⟩ .o 0 1 (3 + 2) (fin (1 / 4)) (fin 0)
  refine ⟨s', h1, _, ⟨_, .snoc .id (.step (fin 1)) .unit ht ?_⟩, by rw [he]; exact two_get1 _ _, rfl, by simp [dot]⟩
  simp only [System.exec, hs, Res.ok_bind]

/-- **C29 fails**: two balls come to rest together, one is removed, and updating the other panics. -/
theorem C29_false {γ : Type} [ForceGenerator XReal γ] (ord : IterOrder) : ∃ (s : System XReal γ) (h : Handle) (e : Entity XReal),
    Reachable s ∧ s.getEntity h ≠ none ∧ s.exec ord (.updateEntity h e) = .error .unwrapNone := by
  obtain ⟨s', hs, he, hc, hg, -⟩ := rest (γ := γ) .id (k := 1) (by norm_num) (u := ⟨1, 0, 0⟩) (by ext <;> norm_num) (E := 1)
    (by norm_num [Vec3.dot_def]) (by norm_num [Vec3.dot_def]) 3
  obtain ⟨tr, ht⟩ := start_reachable (γ := γ) (m := 1) (k := 1) (by norm_num) (by norm_num) .o ⟨2, 0, 0⟩ ⟨3, 0, 0⟩ .o 0 1 (3 + 2) (fin 1) (fin 0)
  have r1 : Steps System.new _ s' := .snoc .id (.step (fin 1)) .unit ht (by simp only [System.exec, hs, Res.ok_bind])
  let s2 : System XReal γ := { s' with entities := (s'.entities.remove h1).1, colliders := (s'.colliders.remove h1).1 }
  have r2 : s'.exec .id (.removeEntity h1) = .ok (s2, .ok true) := by
    simp only [System.exec, System.removeEntity, he, hc, s2]; rfl
  have g0 : s2.entities.get h0 = some (dot (fin 1) (⟨1, 0, 0⟩ + (⟨1, 0, 0⟩ : Vec3 ℝ).scale (1 / 2)) ⟨1, 0, 0⟩ [h0] ⟨true, fin 0, true, [h1]⟩) := by
    simp only [s2, he]; rfl
  have g1 : s2.entities.get h1 = none := by simp only [s2, he]; rfl
  have gc : s2.colliders.get h0 = some ((sphere 0).setEntity (some h0)) := by simp only [s2, hc]; rfl
  refine ⟨s2, h0, source (fin 2) .o .o, ⟨_, .snoc .id _ _ r1 r2⟩, by simp [World.getEntity, g0], ?_⟩
  simp only [System.exec, System.updateEntity, g0]
  have hup : ∃ e', InternalEntity.updateFrom (dot (fin 1) (⟨1, 0, 0⟩ + (⟨1, 0, 0⟩ : Vec3 ℝ).scale (1 / 2)) ⟨1, 0, 0⟩ [h0] ⟨true, fin 0, true, [h1]⟩)
      (source (fin 2) .o .o) = some (e', true) ∧ e'.neighbors = [h1] ∧ e'.colliders = [h0] := by
    unfold InternalEntity.updateFrom
    rw [if_neg (by simp [source])]
    refine ⟨_, congrArg some (Prod.ext rfl ?_), rfl, rfl⟩
    simp [InternalEntity.changed, dot, source]
  obtain ⟨e', hup, hn, hcs⟩ := hup
  rw [hup]
  obtain ⟨e'', hre⟩ := InternalEntity.recalculateMass_ok (order := ord.colliders h0 e'.colliders) (cs := s2.colliders) e' (by
    intro h hh
    rw [hcs] at hh
    have := (ord.colliders_perm h0 [h0]).mem_iff.mp hh
    simp at this; subst this; exact ⟨_, gc⟩)
  have hn' : e''.neighbors = [h1] := by
    have := InternalEntity.recalculateMass_massRel hre
    unfold InternalEntity.MassRel at this
    rw [this]; exact hn
  simp only [hre, Res.ok_bind, if_true]
  rw [wake_dead ord (n := h1) (e := e'') (Arena.get_set_self g0 _) hn' (by rw [Arena.get_set_ne (by decide), g1]) (by decide)]
  rfl

end Fluffy.Props
