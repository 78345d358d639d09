import Verif.Proofs.StepTotal
import Verif.Proofs.Integrate
import Verif.Props.Inertia
import Verif.Props.Sleep
/-
C21-C23 and C36 (forces): forces, free flight and gravity; C38: momentum over a whole step.
-/
set_option linter.unusedSectionVars false
set_option linter.unusedSimpArgs false
namespace Fluffy.Props
open Fluffy InternalEntity Step

/-! ### Specification -/
section Generic
variable {α : Type} [Scalar α] {γ : Type} [ForceGenerator α γ]

/-- The generators `gens` are asked in turn for their force on entity `h` in the world `w`; each may change its own state.
`fs` are the forces they answer with. -/
inductive Asked (dt : α) (w : World α) (h : Handle) : List Handle → Arena γ → List (Force α) → Arena γ → Prop
  | nil (g : Arena γ) : Asked dt w h [] g [] g
  | cons {gh : Handle} {gens : List Handle} {g g' : Arena γ} {x x' : γ} {f : Force α} {fs : List (Force α)} :
      g.get gh = some x → ForceGenerator.makeForce x dt w h = .ok (f, x') → Asked dt w h gens (g.set gh x') fs g' →
      Asked dt w h (gh :: gens) g (f :: fs) g'

/-- Forces act on an entity whose total mass is finite and above EPSILON. -/
def Pushable (e : Entity α) : Bool := Scalar.isFinite e.lastTotalMass && Scalar.lt EPSILON e.lastTotalMass

/-- The sum of `F / m` over the forces. -/
def accelerationOf (e : Entity α) (fs : List (Force α)) : Vec3 α :=
  fs.foldl (fun acc f => acc + f.force.scale (one / e.lastTotalMass)) Vec3.zeros
/-- What the code adds up as torque: the sum of `I ((p - x) × F)`. -/
def torqueOf (e : Entity α) (fs : List (Force α)) : Vec3 α :=
  fs.foldl (fun acc f => acc + e.lastMomentOfInertia.mulVec ((f.position - e.position).cross f.force)) Vec3.zeros
/-- The inverse of the moment of inertia in the entity's pose; the zero matrix if there is none. -/
def inverseInertia (e : Entity α) : Mat3 α :=
  match (e.lastOrientation.finalizeMomentOfInertia e.lastPreppedMoment).tryInverse with
  | some m => m
  | none => Mat3.zeros

/-- Two worlds that differ at most in velocities. -/
def SameButVelocities (w w' : World α) : Prop :=
  w'.colliders = w.colliders ∧ w'.entities.handles = w.entities.handles ∧
  ∀ h e, w.getEntity h = some e → ∃ v a, w'.getEntity h = some { e with velocity := v, angularVelocity := a }

theorem generatorLoop_asked {dt : α} {w : World α} {h : Handle} {copy : Entity α} :
    ∀ {l : List Handle} {g g' : Arena γ} {a t a' t' : Vec3 α},
    generatorLoop dt w h copy l g a t = .ok (g', a', t') → ∃ fs, Asked dt w h l g fs g' ∧
      a' = fs.foldl (fun acc f => acc + f.force.scale (one / copy.lastTotalMass)) a ∧
      t' = fs.foldl (fun acc f => acc + copy.lastMomentOfInertia.mulVec ((f.position - copy.position).cross f.force)) t
  | [], g, g', a, t, a', t', hh => by
    unfold generatorLoop at hh; cases hh; exact ⟨[], .nil _, rfl, rfl⟩
  | x :: l, g, g', a, t, a', t', hh => by
    unfold generatorLoop at hh
    obtain ⟨v, hv, hh⟩ := Res.bind_eq_ok.mp hh
    obtain ⟨⟨f, v'⟩, hf, hh⟩ := Res.bind_eq_ok.mp hh
    rw [unwrap_eq_ok] at hv
    obtain ⟨fs, h1, h2, h3⟩ := generatorLoop_asked hh
    exact ⟨f :: fs, .cons hv hf h1, h2, h3⟩

/-- The integration phase, from outside: what it does to one entity. -/
theorem integrated {dt : α} {s mid : System α γ} {infos : List (StepInfo α)}
    (hh : integrateAll dt s.generators.handles s.entities.handles s = .ok (mid, infos)) {k : Handle} {p : Entity α}
    (hp : s.getEntity k = some p) :
    ∃ (w : World α) (g g' : Arena γ) (fs : List (Force α)), SameButVelocities s.toWorld w ∧ w.getEntity k = some p ∧
      g.handles = s.generators.handles ∧
      (∀ P : Arena γ → Prop, KeptByForces (α := α) P → P s.generators → P g) ∧
      Asked dt w k (if Pushable p then s.generators.handles else []) g fs g' ∧
      mid.getEntity k = some { p with
        velocity := p.velocity + (accelerationOf p fs).scale dt
        angularVelocity := p.angularVelocity + (inverseInertia p).mulVec ((torqueOf p fs).scale dt) } := by
  obtain ⟨E, hE, rfl⟩ := getEntity_eq_some.mp hp
  obtain ⟨m, e, g, a, t, q1, q2, q0, q3, q4, q5, q6, q7⟩ := integrateAll_each (Arena.handles_nodup _) hh k
    (Arena.mem_handles.mpr ⟨E, hE⟩)
  rw [hE] at q4; cases q4
  have hw : SameButVelocities s.toWorld m.toWorld := by
    refine ⟨by rw [q1], q3.shape.handles, ?_⟩
    intro h x hx
    obtain ⟨X, hX, rfl⟩ := getEntity_eq_some.mp hx
    obtain ⟨Y, hY, hv⟩ := q3.get hX
    refine ⟨Y.velocity, Y.angularVelocity, getEntity_eq_some.mpr ⟨Y, hY, ?_⟩⟩
    rw [hv]; rfl
  have hmk : m.getEntity k = some E.makePub := getEntity_eq_some.mpr ⟨E, q5, rfl⟩
  have hmid : ∀ fs : List (Force α), a = accelerationOf E.makePub fs → t = torqueOf E.makePub fs →
      mid.getEntity k = some { E.makePub with
        velocity := E.makePub.velocity + (accelerationOf E.makePub fs).scale dt
        angularVelocity := E.makePub.angularVelocity +
          (inverseInertia E.makePub).mulVec ((torqueOf E.makePub fs).scale dt) } := by
    intro fs ha ht
    refine getEntity_eq_some.mpr ⟨_, q7, ?_⟩
    subst ha ht
    rfl
  unfold Accelerates at q6
  by_cases hc : (Scalar.isFinite E.totalMass && Scalar.lt EPSILON E.totalMass) = true
  · rw [if_pos hc] at q6
    obtain ⟨fs, f1, f2, f3⟩ := generatorLoop_asked q6
    refine ⟨m.toWorld, m.generators, g, fs, hw, hmk, q2.handles, q0, ?_, hmid fs f2 f3⟩
    rw [if_pos (by exact hc)]
    exact f1
  · rw [if_neg hc] at q6
    simp only [Except.ok.injEq, Prod.mk.injEq] at q6
    obtain ⟨rfl, rfl, rfl⟩ := q6
    refine ⟨m.toWorld, m.generators, m.generators, [], hw, hmk, q2.handles, q0, ?_, hmid [] rfl rfl⟩
    rw [if_neg (by exact hc)]
    exact .nil _

/-! ### C21 -/

/-- **C21.** In a step that finds no collision, every awake entity ends with the semi-implicit Euler update: its velocity
is that before plus acceleration times `dt`, the acceleration being the sum of the generated forces over the mass; its
pose is the one before moved by the *new* velocity and turned by the *new* angular velocity over `dt`.
`w` is the world the generators saw: it differs from the one before the step in velocities only. -/
theorem C21_free_flight {s s' : System α γ} {ord : IterOrder} {dt : α} (hdt : Proper dt) (h : s.step ord dt = .ok s')
    (hr : s'.collisionRecords = []) (hn : s.iterationMax ≠ 0) {k : Handle} {p : Entity α} (hp : s.getEntity k = some p)
    (ha : p.asleep = false) :
    ∃ (w : World α) (g g' : Arena γ) (fs : List (Force α)) (p' : Entity α),
      SameButVelocities s.toWorld w ∧ w.getEntity k = some p ∧ g.handles = s.generators.handles ∧
      (∀ P : Arena γ → Prop, KeptByForces (α := α) P → P s.generators → P g) ∧
      Asked dt w k (if Pushable p then s.generators.handles else []) g fs g' ∧ s'.getEntity k = some p' ∧
      p'.velocity = p.velocity + (accelerationOf p fs).scale dt ∧
      p'.angularVelocity = p.angularVelocity + (inverseInertia p).mulVec ((torqueOf p fs).scale dt) ∧
      p'.position = p.position + (p'.velocity.scale dt).scale one ∧
      p'.lastOrientation.rotation =
        (Quat.fromScaledAxis ((p'.angularVelocity.scale dt).scale one)).mul p.lastOrientation.rotation := by
  obtain ⟨ph⟩ := step_phases hdt h
  obtain ⟨w, g, g', fs, h1, h2, h3, h0, h4, h5⟩ := integrated (s := { s with collisionRecords := [], debug := [] }) ph.integrate
    (k := k) (p := p) hp
  obtain ⟨E, hE, rfl⟩ := getEntity_eq_some.mp hp
  obtain ⟨x, hx, hxe⟩ := getEntity_eq_some.mp h5
  obtain ⟨y, hy, y1, y2, y3⟩ := ph.free hr hn hE ha hx
  have v1 : x.velocity = E.makePub.velocity + (accelerationOf E.makePub fs).scale dt := by
    have := congrArg Entity.velocity hxe; exact this
  have v2 : x.angularVelocity = E.makePub.angularVelocity +
      (inverseInertia E.makePub).mulVec ((torqueOf E.makePub fs).scale dt) := by
    have := congrArg Entity.angularVelocity hxe; exact this
  refine ⟨w, g, g', fs, y.makePub, h1, h2, h3, h0, h4, getEntity_eq_some.mpr ⟨y, hy, rfl⟩, y1.trans v1, y2.trans v2, ?_, ?_⟩
  · show y.orientation.position = E.orientation.position + (y.velocity.scale dt).scale one
    rw [y3, y1]; rfl
  · show y.orientation.rotation = (Quat.fromScaledAxis ((y.angularVelocity.scale dt).scale one)).mul E.orientation.rotation
    rw [y3, y2]; rfl

end Generic

/-! ### Exact numbers -/
section Exact
open XReal
variable {γ : Type} [ForceGenerator XReal γ]

theorem mul_oneX (a : XReal) : a * fin 1 = a := by
  cases a
  · simp
  · show infSign (-1) = negInf; simp [infSign]
  · simp
  · show infSign 1 = posInf; simp [infSign]
theorem scale_oneX (v : Vec3 XReal) : v.scale one = v := by
  show (⟨v.x * one, v.y * one, v.z * one⟩ : Vec3 XReal) = v
  simp only [one_eq, mul_oneX]
theorem posInf_mul_pos {c : ℝ} (hc : 0 < c) : posInf * fin c = posInf := by
  show infSign c = posInf; simp [infSign, hc, hc.ne']
theorem negInf_mul_pos {c : ℝ} (hc : 0 < c) : negInf * fin c = negInf := by
  show infSign (-c) = negInf
  have : ¬ (0 < -c) := by linarith
  simp only [infSign, neg_eq_zero, hc.ne', if_false, this]
theorem add_mul_posX (a b : XReal) {c : ℝ} (hc : 0 < c) : (a + b) * fin c = a * fin c + b * fin c := by
  cases a <;> cases b <;> simp [posInf_mul_pos hc, negInf_mul_pos hc, add_mul]
theorem mul_mul_invX (a : XReal) {m : ℝ} (hm : 0 < m) : a * fin m * fin (1 / m) = a := by
  have : 0 < 1 / m := by positivity
  cases a <;> simp [posInf_mul_pos, negInf_mul_pos, hm]
  field_simp
theorem zero_mul_finX (c : ℝ) : (fin 0 : XReal) * fin c = fin 0 := by simp
theorem add_scale_posX (a b : Vec3 XReal) {c : ℝ} (hc : 0 < c) : (a + b).scale (fin c) = a.scale (fin c) + b.scale (fin c) := by
  show (⟨(a.x + b.x) * fin c, (a.y + b.y) * fin c, (a.z + b.z) * fin c⟩ : Vec3 XReal) =
    ⟨a.x * fin c + b.x * fin c, a.y * fin c + b.y * fin c, a.z * fin c + b.z * fin c⟩
  simp only [add_mul_posX _ _ hc]

/-- The sum of the forces. -/
noncomputable def totalForce (fs : List (Force XReal)) : Vec3 XReal := fs.foldl (fun acc f => acc + f.force) Vec3.zeros

theorem pushable_mass {p : Entity XReal} (h : Pushable p = true) : ∃ m : ℝ, p.lastTotalMass = fin m ∧ 1 / 1000000 < m := by
  unfold Pushable at h
  rw [Bool.and_eq_true] at h
  obtain ⟨m, hm⟩ := isFinite_iff.mp h.1
  refine ⟨m, hm, ?_⟩
  have := h.2
  rw [hm] at this
  simpa using this

theorem accelerationOf_eq {p : Entity XReal} (h : Pushable p = true) (fs : List (Force XReal)) :
    accelerationOf p fs = (totalForce fs).scale (one / p.lastTotalMass) := by
  obtain ⟨m, hm, hm'⟩ := pushable_mass h
  have hm0 : 0 < m := by linarith [show (0:ℝ) < 1 / 1000000 by norm_num]
  have hinv : one / p.lastTotalMass = fin (1 / m) := by rw [hm, one_eq, fin_div hm0.ne']
  unfold accelerationOf totalForce
  rw [hinv]
  have hc : 0 < 1 / m := by positivity
  suffices ∀ (fs : List (Force XReal)) (a : Vec3 XReal),
      fs.foldl (fun acc f => acc + f.force.scale (fin (1 / m))) (a.scale (fin (1 / m))) =
        (fs.foldl (fun acc f => acc + f.force) a).scale (fin (1 / m)) by
    have h0 : (Vec3.zeros : Vec3 XReal).scale (fin (1 / m)) = Vec3.zeros := by simp
    have := this fs Vec3.zeros
    rw [h0] at this; exact this
  intro fs
  induction fs with
  | nil => intro a; rfl
  | cons f fs ih =>
    intro a
    simp only [List.foldl_cons]
    rw [← ih, add_scale_posX _ _ hc]

/-- **C21 (exact arithmetic).** In a step that finds no collision every awake entity on which forces act ends with
`v' = v + (sum of the forces / m) dt`, `x' = x + v' dt`, and its rotation is composed with the one by `w' dt`. -/
theorem C21_exact {s s' : System XReal γ} {ord : IterOrder} {dt : XReal} (hdt : Proper dt) (h : s.step ord dt = .ok s')
    (hr : s'.collisionRecords = []) (hn : s.iterationMax ≠ 0) {k : Handle} {p : Entity XReal}
    (hp : s.getEntity k = some p) (ha : p.asleep = false) (hm : Pushable p = true) :
    ∃ (w : World XReal) (g g' : Arena γ) (fs : List (Force XReal)) (p' : Entity XReal),
      SameButVelocities s.toWorld w ∧ w.getEntity k = some p ∧ g.handles = s.generators.handles ∧
      (∀ P : Arena γ → Prop, KeptByForces (α := XReal) P → P s.generators → P g) ∧
      Asked dt w k s.generators.handles g fs g' ∧ s'.getEntity k = some p' ∧
      p'.velocity = p.velocity + ((totalForce fs).scale (one / p.lastTotalMass)).scale dt ∧
      p'.position = p.position + p'.velocity.scale dt ∧
      p'.lastOrientation.rotation =
        (Quat.fromScaledAxis (p'.angularVelocity.scale dt)).mul p.lastOrientation.rotation := by
  obtain ⟨w, g, g', fs, p', h1, h2, h3, h0, h4, h5, h6, -, h7, h8⟩ := C21_free_flight hdt h hr hn hp ha
  rw [if_pos hm] at h4
  rw [accelerationOf_eq hm] at h6
  rw [scale_oneX] at h7 h8
  exact ⟨w, g, g', fs, p', h1, h2, h3, h0, h4, h5, h6, h7, h8⟩

/-! ### C22, C36 (forces) -/

/-- The pose and the inertia tensor of an entity consist of finite numbers. -/
structure FiniteInertia (p : Entity XReal) : Prop where
  pose : FinitePose p.lastOrientation
  r1 : Finite3 p.lastPreppedMoment.r1
  r2 : Finite3 p.lastPreppedMoment.r2
  r3 : Finite3 p.lastPreppedMoment.r3

theorem FiniteInertia.real {p : Entity XReal} (h : FiniteInertia p) {s : World XReal} {k : Handle}
    (hs : s.getEntity k = some p) : ∃ (x : Vec3 ℝ) (I J : Mat3 ℝ),
    p.position = x.f ∧ p.lastMomentOfInertia = I.f ∧
    p.lastOrientation.finalizeMomentOfInertia p.lastPreppedMoment = J.f ∧ inverseInertia p = J.inv.f := by
  obtain ⟨o, ho⟩ := h.pose.real
  obtain ⟨M, hM⟩ := Mat3.exists_f h.r1.f h.r2.f h.r3.f
  have hrest : p.position = p.lastOrientation.position ∧ p.rotation = p.lastOrientation.rotationVec := by
    obtain ⟨E, -, rfl⟩ := getEntity_eq_some.mp hs; exact ⟨rfl, rfl⟩
  have hp : p.position = o.position.f := by rw [hrest.1, ho]; rfl
  have hr : p.rotation = (Quat.log o.rotation).f := by rw [hrest.2, ho]; exact Orientation.f_rotationVec _
  refine ⟨o.position, ((Quat.exp (Quat.log o.rotation)).matrix.mul M).mul (Quat.exp (Quat.log o.rotation)).matrix.transpose,
    (o.rotation.matrix.mul M).mul o.rotation.matrix.transpose, hp, ?_, ?_, ?_⟩
  · unfold Entity.lastMomentOfInertia Entity.makeOrientation Orientation.finalizeMomentOfInertia Orientation.new
      rotateMomentOfInertia
    simp only [hr, hM, Quat.f_fromScaledAxis, Quat.f_matrix, Mat3.f_mul, Mat3.f_transpose]
  · unfold Orientation.finalizeMomentOfInertia rotateMomentOfInertia
    simp only [ho, hM, Orientation.f_rotation, Quat.f_matrix, Mat3.f_mul, Mat3.f_transpose]
  · unfold inverseInertia Orientation.finalizeMomentOfInertia rotateMomentOfInertia
    simp only [ho, hM, Orientation.f_rotation, Quat.f_matrix, Mat3.f_mul, Mat3.f_transpose]
    have := Mat3.f_tryInverse ((o.rotation.matrix.mul M).mul o.rotation.matrix.transpose)
    revert this
    cases ((o.rotation.matrix.mul M).mul o.rotation.matrix.transpose).f.tryInverse <;> exact fun h => h

theorem vec_add_o (v : Vec3 XReal) : v + Vec3.o.f = v := by
  show (⟨v.x + fin 0, v.y + fin 0, v.z + fin 0⟩ : Vec3 XReal) = v
  simp

/-- Without forces the integration changes nothing. -/
theorem integrated_unforced {s mid : System XReal γ} {infos : List (StepInfo XReal)} {t : ℝ}
    (hh : integrateAll (fin t) s.generators.handles s.entities.handles s = .ok (mid, infos)) {k : Handle}
    {p : Entity XReal} (hp : s.getEntity k = some p) (hf : FiniteInertia p)
    (hm : Pushable p = false ∨ s.generators.handles = []) : mid.getEntity k = some p := by
  obtain ⟨w, g, g', fs, -, -, -, -, h4, h5⟩ := integrated hh hp
  have hl : (if Pushable p = true then s.generators.handles else []) = [] := by
    rcases hm with hm | hm
    · rw [hm]; rfl
    · rw [hm]; split <;> rfl
  rw [hl] at h4
  cases h4
  obtain ⟨x, I, J, -, -, -, hW⟩ := hf.real hp
  rw [h5, hW]
  have h1 : (accelerationOf p []).scale (fin t) = Vec3.o.f := by
    show (Vec3.zeros : Vec3 XReal).scale (fin t) = _; simp
  have h2 : J.inv.f.mulVec ((torqueOf p []).scale (fin t)) = Vec3.o.f := by
    show J.inv.f.mulVec ((Vec3.zeros : Vec3 XReal).scale (fin t)) = _; simp
  rw [h1, h2, vec_add_o, vec_add_o]

/-- **C36 (forces).** No force generator changes the velocity or the angular velocity of an entity of infinite mass, in
the integration phase of a step.  The same holds for masses that are not above EPSILON. -/
theorem C36_forces {s mid : System XReal γ} {infos : List (StepInfo XReal)} {t : ℝ}
    (hh : integrateAll (fin t) s.generators.handles s.entities.handles s = .ok (mid, infos)) {k : Handle}
    {p : Entity XReal} (hp : s.getEntity k = some p) (hf : FiniteInertia p)
    (hm : p.lastTotalMass = posInf ∨ ∃ m : ℝ, p.lastTotalMass = fin m ∧ m ≤ 1 / 1000000) :
    ∃ p', mid.getEntity k = some p' ∧ p'.velocity = p.velocity ∧ p'.angularVelocity = p.angularVelocity := by
  refine ⟨p, integrated_unforced hh hp hf (Or.inl ?_), rfl, rfl⟩
  unfold Pushable
  rcases hm with hm | ⟨m, hm, hle⟩
  · rw [hm]; rfl
  · rw [hm]; simp; linarith

/-! ### C22 -/

/-- The accelerations of the gravity generators, added up. -/
noncomputable def gravity (g : Arena (GravityGenerator XReal)) : Vec3 XReal :=
  ((g.handles.filterMap g.get).map GravityGenerator.acceleration).foldl (· + ·) Vec3.zeros

theorem asked_gravity {dt : XReal} {w : World XReal} {k : Handle} {p : Entity XReal} (hp : w.getEntity k = some p)
    {l : List Handle} {g g' : Arena (GravityGenerator XReal)} {fs : List (Force XReal)} (h : Asked dt w k l g fs g') :
    fs = (l.filterMap g.get).map (fun x => ⟨x.acceleration.scale p.lastTotalMass, p.position⟩) := by
  induction h with
  | nil => rfl
  | @cons gh gens g g' x x' f fs h1 h2 _ ih =>
    have h2 : (do let e ← unwrap (w.getEntity k)
                  .ok (⟨x.acceleration.scale e.lastTotalMass, e.position⟩, x)) = Except.ok (f, x') := h2
    rw [hp] at h2
    simp only [unwrap_some, Res.ok_bind, Except.ok.injEq, Prod.mk.injEq] at h2
    obtain ⟨rfl, rfl⟩ := h2
    have hget : ∀ h, (g.set gh x).get h = g.get h := by
      intro h
      rw [Arena.get_set]; split
      · rename_i hh; subst hh; rw [h1]; rfl
      · rfl
    rw [List.filterMap_cons, h1, List.map_cons, ih]
    simp only [funext hget]

theorem kept_gravity (g0 : Arena (GravityGenerator XReal)) :
    KeptByForces (α := XReal) (fun g => ∀ h, g.get h = g0.get h) := by
  intro g gh x x' dt w h f hg hx hf
  have hx' : x' = x := by
    have hf : (do let e ← unwrap (w.getEntity h)
                  .ok (⟨x.acceleration.scale e.lastTotalMass, e.position⟩, x)) = Except.ok (f, x') := hf
    obtain ⟨e, -, hf⟩ := Res.bind_eq_ok.mp hf
    simp only [Except.ok.injEq, Prod.mk.injEq] at hf
    exact hf.2.symm
  intro k
  rw [Arena.get_set]; split
  · rename_i hh; subst hh; rw [hx, ← hg, hx, hx']; rfl
  · exact hg k

/-- **C22.** The integration phase of a step changes the velocity of every entity with finite mass above EPSILON by
exactly `g dt`, `g` being the (sum of the) acceleration of the gravity generators, whatever the mass; and if the entity's
numbers and the accelerations are finite, it leaves the angular velocity alone. -/
theorem C22_gravity {s mid : System XReal (GravityGenerator XReal)} {infos : List (StepInfo XReal)} {dt : XReal}
    (hh : integrateAll dt s.generators.handles s.entities.handles s = .ok (mid, infos)) {k : Handle}
    {p : Entity XReal} (hp : s.getEntity k = some p) (hm : Pushable p = true) :
    ∃ p', mid.getEntity k = some p' ∧ p'.velocity = p.velocity + (gravity s.generators).scale dt ∧
      (FiniteInertia p → Scalar.isFinite dt = true → (∀ h g, s.generators.get h = some g → Finite3 g.acceleration) →
        p'.angularVelocity = p.angularVelocity) := by
  obtain ⟨w, g, g', fs, -, h2, h3, h0, h4, h5⟩ := integrated hh hp
  rw [if_pos hm] at h4
  have hg : ∀ h, g.get h = s.generators.get h := h0 _ (kept_gravity s.generators) (fun _ => rfl)
  have hfs := asked_gravity h2 h4
  rw [funext hg] at hfs
  obtain ⟨m, hm1, hm2⟩ := pushable_mass hm
  have hm0 : 0 < m := by linarith [show (0:ℝ) < 1 / 1000000 by norm_num]
  have hinv : one / p.lastTotalMass = fin (1 / m) := by rw [hm1, one_eq, fin_div hm0.ne']
  refine ⟨_, h5, ?_, ?_⟩
  · show p.velocity + (accelerationOf p fs).scale dt = _
    congr 2
    unfold accelerationOf gravity
    rw [hfs, hinv, hm1, List.foldl_map, List.foldl_map]
    congr 1
    funext acc x
    congr 1
    show (⟨x.acceleration.x * fin m * fin (1 / m), x.acceleration.y * fin m * fin (1 / m),
      x.acceleration.z * fin m * fin (1 / m)⟩ : Vec3 XReal) = x.acceleration
    rw [mul_mul_invX _ hm0, mul_mul_invX _ hm0, mul_mul_invX _ hm0]
  · intro hf hdt hacc
    obtain ⟨t, rfl⟩ := isFinite_iff.mp hdt
    obtain ⟨x, I, J, hx, hI, -, hW⟩ := hf.real hp
    show p.angularVelocity + (inverseInertia p).mulVec ((torqueOf p fs).scale (fin t)) = _
    have ht : torqueOf p fs = Vec3.o.f := by
      unfold torqueOf
      rw [hI, hx]
      suffices ∀ l : List (Force XReal), (∀ f ∈ l, f.position = x.f ∧ Finite3 f.force) →
          l.foldl (fun acc f => acc + I.f.mulVec ((f.position - x.f).cross f.force)) Vec3.o.f = Vec3.o.f by
        rw [Vec3.f_zeros]
        apply this
        intro f hf
        rw [hfs] at hf
        obtain ⟨y, hy, rfl⟩ := List.mem_map.mp hf
        obtain ⟨gh, -, hgy⟩ := List.mem_filterMap.mp hy
        obtain ⟨a, ha⟩ := (hacc gh y hgy).f
        refine ⟨hx, ?_⟩
        show Finite3 (y.acceleration.scale p.lastTotalMass)
        rw [ha, hm1, Vec3.f_scale]; exact finite3_f _
      intro l hl
      induction l with
      | nil => rfl
      | cons f l ih =>
        obtain ⟨h1, h2⟩ := hl f (by simp)
        obtain ⟨F, hF⟩ := h2.f
        rw [List.foldl_cons, h1, hF]
        have : Vec3.o.f + I.f.mulVec ((x.f - x.f).cross F.f) = Vec3.o.f := by
          simp [Vec3.sub_self']
        rw [this]
        exact ih (fun y hy => hl y (by simp [hy]))
    rw [ht, hW]
    have : J.inv.f.mulVec (Vec3.o.f.scale (fin t)) = Vec3.o.f := by simp
    rw [this, vec_add_o]

/-- **C22**, one generator: the velocity changes by `g dt`. -/
theorem C22_single {s mid : System XReal (GravityGenerator XReal)} {infos : List (StepInfo XReal)} {dt : XReal}
    (hh : integrateAll dt s.generators.handles s.entities.handles s = .ok (mid, infos)) {gh : Handle}
    {g : GravityGenerator XReal} (hg : s.generators.get gh = some g)
    (hone : ∀ h x, s.generators.get h = some x → h = gh) {k : Handle}
    {p : Entity XReal} (hp : s.getEntity k = some p) (hm : Pushable p = true) :
    ∃ p', mid.getEntity k = some p' ∧ p'.velocity = p.velocity + g.acceleration.scale dt := by
  obtain ⟨p', h1, h2, -⟩ := C22_gravity hh hp hm
  refine ⟨p', h1, ?_⟩
  rw [h2]
  have hl : s.generators.handles = [gh] := by
    have hnd := Arena.handles_nodup s.generators
    have hmem : ∀ h, h ∈ s.generators.handles ↔ h = gh := by
      intro h; rw [Arena.mem_handles]
      exact ⟨fun ⟨x, hx⟩ => hone h x hx, fun hh => ⟨g, hh ▸ hg⟩⟩
    revert hnd hmem
    generalize s.generators.handles = l
    intro hnd hmem
    match l, hnd, hmem with
    | [], _, hmem => exact absurd ((hmem gh).mpr rfl) (by simp)
    | [a], _, hmem => rw [(hmem a).mp (by simp)]
    | a :: b :: l, hnd, hmem =>
      have h1 := (hmem a).mp (by simp)
      have h2 := (hmem b).mp (by simp)
      subst h1; subst h2
      simp at hnd
  have : gravity s.generators = g.acceleration := by
    unfold gravity
    rw [hl]
    simp only [List.filterMap_cons, hg, List.filterMap_nil, List.map_cons, List.map_nil, List.foldl_cons, List.foldl_nil]
    rw [Vec3.f_zeros]
    show (⟨fin 0 + g.acceleration.x, fin 0 + g.acceleration.y, fin 0 + g.acceleration.z⟩ : Vec3 XReal) = _
    simp
  rw [this]

/-- **C22**, the rest: entities of infinite mass, or of mass not above EPSILON, are not accelerated. -/
theorem C22_others {s mid : System XReal (GravityGenerator XReal)} {infos : List (StepInfo XReal)} {t : ℝ}
    (hh : integrateAll (fin t) s.generators.handles s.entities.handles s = .ok (mid, infos)) {k : Handle}
    {p : Entity XReal} (hp : s.getEntity k = some p) (hf : FiniteInertia p)
    (hm : p.lastTotalMass = posInf ∨ ∃ m : ℝ, p.lastTotalMass = fin m ∧ m ≤ 1 / 1000000) :
    ∃ p', mid.getEntity k = some p' ∧ p'.velocity = p.velocity ∧ p'.angularVelocity = p.angularVelocity :=
  C36_forces hh hp hf hm

/-- **C22**, seen from outside: in a step that finds no collision, every awake entity with finite mass above EPSILON gains
`g dt`. -/
theorem C22_step {s s' : System XReal (GravityGenerator XReal)} {ord : IterOrder} {dt : XReal} (hdt : Proper dt)
    (h : s.step ord dt = .ok s') (hr : s'.collisionRecords = []) (hn : s.iterationMax ≠ 0) {k : Handle}
    {p : Entity XReal} (hp : s.getEntity k = some p) (ha : p.asleep = false) (hm : Pushable p = true) :
    ∃ p', s'.getEntity k = some p' ∧ p'.velocity = p.velocity + (gravity s.generators).scale dt ∧
      p'.position = p.position + (p.velocity + (gravity s.generators).scale dt).scale dt := by
  obtain ⟨ph⟩ := step_phases hdt h
  obtain ⟨q, hq, hv, -⟩ := C22_gravity (s := { s with collisionRecords := [], debug := [] }) ph.integrate
    (k := k) (p := p) hp hm
  obtain ⟨E, hE, rfl⟩ := getEntity_eq_some.mp hp
  obtain ⟨x, hx, rfl⟩ := getEntity_eq_some.mp hq
  obtain ⟨y, hy, y1, y2, y3⟩ := ph.free hr hn hE ha hx
  refine ⟨y.makePub, getEntity_eq_some.mpr ⟨y, hy, rfl⟩, y1.trans hv, ?_⟩
  show y.orientation.position = _
  rw [y3, scale_oneX]
  show E.orientation.position + x.velocity.scale dt = _
  have hv : x.velocity = _ := hv
  rw [hv]; rfl

/-! ### C23 -/

/-- **C23**, what the code computes.  The angular velocity changes by `J⁻¹ (I (sum of (p - x) × F)) dt`, where `J` is the
moment of inertia and `I` the one reported to users, which is the same unless the rotation is tiny; so by
`(sum of (p - x) × F) dt` if `J = I` is invertible, and not at all if `J` is singular.
Missing from the full statement: that the change is `J⁻¹ (sum of (p - x) × F) dt`, which is false (`C23_false`). -/
theorem C23_torque_partial {s mid : System XReal γ} {infos : List (StepInfo XReal)} {t : ℝ}
    (hh : integrateAll (fin t) s.generators.handles s.entities.handles s = .ok (mid, infos)) {k : Handle}
    {p : Entity XReal} (hp : s.getEntity k = some p) (hf : FiniteInertia p) (hm : Pushable p = true) :
    ∃ (w : World XReal) (g g' : Arena γ) (fs : List (Force XReal)) (p' : Entity XReal) (x : Vec3 ℝ) (I J : Mat3 ℝ),
      SameButVelocities s.toWorld w ∧ w.getEntity k = some p ∧ Asked (fin t) w k s.generators.handles g fs g' ∧
      mid.getEntity k = some p' ∧ p.position = x.f ∧ p.lastMomentOfInertia = I.f ∧
      p.lastOrientation.finalizeMomentOfInertia p.lastPreppedMoment = J.f ∧
      ∀ rs : List (Vec3 ℝ × Vec3 ℝ), fs = rs.map (fun r => ⟨r.2.f, r.1.f⟩) →
        let T := Vec3.sum (rs.map fun r => (r.1 - x).cross r.2)
        p'.angularVelocity = p.angularVelocity + (J.inv.mulVec (I.mulVec (T.scale t))).f ∧
        (I = J → J.det ≠ 0 → p'.angularVelocity = p.angularVelocity + (T.scale t).f) ∧
        (J.det = 0 → p'.angularVelocity = p.angularVelocity) := by
  obtain ⟨w, g, g', fs, h1, h2, h3, h0, h4, h5⟩ := integrated hh hp
  rw [if_pos hm] at h4
  obtain ⟨x, I, J, hx, hI, hJ, hW⟩ := hf.real hp
  refine ⟨w, g, g', fs, _, x, I, J, h1, h2, h4, h5, hx, hI, hJ, ?_⟩
  intro rs hrs
  have ht : torqueOf p fs = (I.mulVec (Vec3.sum (rs.map fun r => (r.1 - x).cross r.2))).f := by
    unfold torqueOf
    rw [hI, hx, hrs, List.foldl_map]
    suffices ∀ (rs : List (Vec3 ℝ × Vec3 ℝ)) (a : Vec3 ℝ),
        rs.foldl (fun acc r => acc + I.f.mulVec ((r.1.f - x.f).cross r.2.f)) a.f =
          (a + I.mulVec (Vec3.sum (rs.map fun r => (r.1 - x).cross r.2))).f by
      have := this rs Vec3.o
      rw [Vec3.o_add] at this
      rw [Vec3.f_zeros]; exact this
    intro rs
    induction rs with
    | nil => intro a; simp
    | cons r rs ih =>
      intro a
      rw [List.foldl_cons]
      have : a.f + I.f.mulVec ((r.1.f - x.f).cross r.2.f) = (a + I.mulVec ((r.1 - x).cross r.2)).f := by simp
      rw [this, ih]
      simp only [List.map_cons, Vec3.sum_cons, Mat3.mulVec_add, Vec3.add_assoc']
  intro T
  have hv : p.angularVelocity + (inverseInertia p).mulVec ((torqueOf p fs).scale (fin t)) =
      p.angularVelocity + (J.inv.mulVec (I.mulVec (T.scale t))).f := by
    rw [ht, hW, Vec3.f_scale, Mat3.f_mulVec, Mat3.mulVec_scale I]
  refine ⟨hv, ?_, ?_⟩
  · intro hIJ hd
    show p.angularVelocity + (inverseInertia p).mulVec ((torqueOf p fs).scale (fin t)) = _
    rw [hv, hIJ, Mat3.inv_mul_vec hd]
  · intro hd
    show p.angularVelocity + (inverseInertia p).mulVec ((torqueOf p fs).scale (fin t)) = _
    rw [hv, Mat3.inv_of_det hd]
    have : Mat3.o.mulVec (I.mulVec (T.scale t)) = Vec3.o := by ext <;> simp [Mat3.mulVec, Mat3.o]
    rw [this, vec_add_o]

/-! ### Concrete cases -/

open Demo in
/-- A reachable system with one entity: a ball of mass 1 at the origin with a bar of mass 2 at (3, 0, 0), at rest, and one
force generator.  A step of length `dt` finds no collision. -/
theorem demo_bar [Step.SafeGenerator XReal γ] (gen : γ) {dt : XReal} (hdt : Proper dt) :
    ∃ (s s' : System XReal γ) (p : Entity XReal) (gh : Handle),
    Reachable s ∧ s.step .id dt = .ok s' ∧ s'.collisionRecords = [] ∧ s.iterationMax ≠ 0 ∧
    s.generators.handles = [gh] ∧ s.generators.get gh = some gen ∧ s.getEntity h0 = some p ∧ p.asleep = false ∧
    p.velocity = Vec3.o.f ∧ p.angularVelocity = Vec3.o.f ∧ p.position = (⟨3, 0, 0⟩ : Vec3 ℝ).f ∧
    p.lastTotalMass = fin 3 ∧ Pushable p = true ∧ FiniteInertia p ∧
    p.lastOrientation.finalizeMomentOfInertia p.lastPreppedMoment = (Mat3.diag ⟨1, 2, 3⟩).f ∧
    p.lastMomentOfInertia = (Mat3.diag ⟨1, 2, 3⟩).f := by
  have hb : bar.newFrom = some bar := by simp [bar, Collider.newFrom, NullCollider.isValid]
  obtain ⟨s0, t, E', hs0, hex, ht, hE, hE', hC, hcol, hrec, hhs, hgen, hit⟩ := demo_link (γ := γ) hb
  have hor : Demo.ballE.orientation = (⟨Vec3.o, Quat.e, Vec3.o⟩ : Orientation ℝ).f := by
    have := Orientation.f_new Vec3.o Vec3.o Vec3.o
    rw [Quat.exp_o] at this
    rw [← this]
    simp [Demo.ballE, Demo.ball, Entity.makeOrientation, Entity.new, Orientation.new]
  have hlump : List.Forall₂ Lump.Of [⟨2, ⟨3, 0, 0⟩, Mat3.diag ⟨1, 2, 3⟩⟩] (found t.colliders [Demo.h0]) := by
    have : found t.colliders [Demo.h0] = [bar.setEntity (some Demo.h0)] := by simp [found, hC]
    rw [this]
    exact .cons ⟨rfl, rfl, rfl⟩ .nil
  have hmr := recalculateMass_massRel hrec
  rw [recalculateMass_loose _ (by intro h hh; simp at hh; subst hh; exact ⟨_, hC⟩) (forall₂_infinite hlump)] at hrec
  injection hrec with hrec
  obtain ⟨r1, r2, r3⟩ := loose_real (e := { Demo.ballE with colliders := [Demo.h0] }) hor (by simp [Orientation.Unit]) hlump
  rw [hrec] at r1 r2 r3
  have hmean : Lump.mean [⟨2, ⟨3, 0, 0⟩, Mat3.diag ⟨1, 2, 3⟩⟩] = ⟨3, 0, 0⟩ := by
    norm_num [Lump.mean, Lump.total]
    ext <;> norm_num
  rw [hmean] at r1 r3
  have r2 : E'.totalMass = fin 3 := by rw [r2]; norm_num [Lump.total, Demo.ballE]
  have r1 : E'.orientation = (⟨⟨3, 0, 0⟩, Quat.e, ⟨-3, 0, 0⟩⟩ : Orientation ℝ).f := by
    rw [r1]
    congr 1
    simp only [Orientation.recentered, Orientation.toWorld]
    congr 1 <;> ext <;> simp
  have r3 : E'.preppedMoment = (Mat3.diag ⟨1, 2, 3⟩).f := by
    rw [r3]
    congr 1
    simp [Lump.about, Mat3.sum, Mat3.diag, Mat3.outer, Mat3.scale, Vec3.dot_def]
    ext <;> simp
  let s : System XReal γ := (t.addGenerator gen).1
  have hreach : Reachable s := live_after ht (ord := .id) (op := .addGenerator gen) rfl
  have hlive : ∀ k E, s.entities.get k = some E → k = h0 ∧ E = E' := by
    intro k E hk
    have : k ∈ t.entities.handles := Arena.mem_handles.mpr ⟨E, hk⟩
    rw [hhs] at this
    simp at this
    subst this
    have hk : t.entities.get h0 = some E := hk
    rw [hE'] at hk; cases hk
    exact ⟨rfl, rfl⟩
  obtain ⟨s', hstep, -⟩ := Step.step_total (ord := .id) (s := s) dt (by
      intro k E n hk hn
      obtain ⟨-, rfl⟩ := hlive k E hk
      rw [hmr.neighbors] at hn
      simp [Demo.ballE] at hn)
    ⟨fun k E c hk hc => hreach.inv.live hk c hc, by
      intro k1 k2 E1 E2 c1 c2 C1 C2 hne h1 h2
      exact absurd ((hlive _ _ h1).1.trans (hlive _ _ h2).1.symm) hne⟩
  have hp : s.getEntity h0 = some E'.makePub := getEntity_eq_some.mpr ⟨E', hE', rfl⟩
  have hnor : s'.collisionRecords = [] := by
    obtain ⟨-, hb⟩ := C30_records_bounded hdt hstep
    by_contra hne
    obtain ⟨r, hr⟩ := List.exists_mem_of_ne_nil _ hne
    obtain ⟨q1, q2, q3⟩ := hb r hr
    have hl : ∀ k, s'.getEntity k ≠ none → k = h0 := by
      intro k hk
      obtain ⟨P, hP⟩ := Option.ne_none_iff_exists'.mp hk
      obtain ⟨X, hX, -⟩ := getEntity_eq_some.mp hP
      have f := step_frame hstep
      have : k ∈ s'.entities.handles := Arena.mem_handles.mpr ⟨X, hX⟩
      rw [f.1.entities.shape.handles] at this
      obtain ⟨Y, hY⟩ := Arena.mem_handles.mp this
      exact (hlive _ _ hY).1
    exact q1 ((hl _ q2).trans (hl _ q3).symm)
  refine ⟨s, s', E'.makePub, (t.addGenerator gen).2, hreach, hstep, hnor, ?_, ?_, ?_, hp, hmr.asleep, ?_, ?_, ?_, r2, ?_, ?_,
    ?_, ?_⟩
  · show t.iterationMax ≠ 0; rw [hit]; simp
  · simp only [s, System.addGenerator, hgen]; rfl
  · simp only [s, System.addGenerator, hgen]; rfl
  · rw [← Vec3.f_zeros]; exact hmr.velocity
  · rw [← Vec3.f_zeros]; exact hmr.angularVelocity
  · show E'.orientation.position = _; rw [r1]; rfl
  · show (Scalar.isFinite E'.totalMass && Scalar.lt EPSILON E'.totalMass) = true
    rw [r2]; simp; norm_num
  · refine ⟨?_, ?_, ?_, ?_⟩
    · show FinitePose E'.orientation; rw [r1]; exact finitePose_f _
    · show Finite3 E'.preppedMoment.r1; rw [r3]; exact finite3_f _
    · show Finite3 E'.preppedMoment.r2; rw [r3]; exact finite3_f _
    · show Finite3 E'.preppedMoment.r3; rw [r3]; exact finite3_f _
  · show E'.orientation.finalizeMomentOfInertia E'.preppedMoment = _
    rw [r1, r3]
    unfold Orientation.finalizeMomentOfInertia rotateMomentOfInertia
    simp only [Orientation.f_rotation, Quat.f_matrix, Mat3.f_mul, Mat3.f_transpose]
    congr 1
    ext <;> simp [Quat.matrix, Quat.e, Mat3.mul, Mat3.transpose, Mat3.diag, Vec3.dot_def]
  · unfold Entity.lastMomentOfInertia Entity.makeOrientation Orientation.finalizeMomentOfInertia Orientation.new
      rotateMomentOfInertia
    have hr : E'.makePub.rotation = Vec3.o.f := by
      show E'.orientation.rotationVec = _
      rw [r1, Orientation.f_rotationVec, Quat.log_e]
    have hM : E'.makePub.lastPreppedMoment = (Mat3.diag ⟨1, 2, 3⟩).f := r3
    simp only [hr, hM, Quat.f_fromScaledAxis, Quat.f_matrix, Mat3.f_mul, Mat3.f_transpose, Quat.exp_o]
    congr 1
    ext <;> simp [Quat.matrix, Quat.e, Mat3.mul, Mat3.transpose, Mat3.diag, Vec3.dot_def]

/-- A user's force generator: a fixed force at a fixed point, on every entity. -/
structure Push where
  force : Vec3 XReal
  position : Vec3 XReal
instance : ForceGenerator XReal Push where
  makeForce p _ _ _ := .ok (⟨p.force, p.position⟩, p)
instance : Step.SafeGenerator XReal Push where
  ok p _ _ _ _ := ⟨(⟨p.force, p.position⟩, p), rfl⟩

/-- **C23** is false: in a reachable state, in a step that finds no collision, a single generator applies the force `F` at
the point `q` to the only entity, whose moment of inertia is `I` and whose centre is `x`; the angular velocity should go
from 0 to `I⁻¹ ((q - x) × F) dt = (0, 1/2, 0)` and goes to (0, 1, 0). -/
theorem C23_false : ∃ (s s' : System XReal Push) (k gh : Handle) (p p' : Entity XReal) (x F q : Vec3 ℝ) (I : Mat3 ℝ),
    Reachable s ∧ s.step .id (fin 1) = .ok s' ∧ s'.collisionRecords = [] ∧
    s.generators.handles = [gh] ∧ s.generators.get gh = some ⟨F.f, q.f⟩ ∧
    s.getEntity k = some p ∧ s'.getEntity k = some p' ∧ p.asleep = false ∧ p.lastTotalMass = fin 3 ∧
    p.position = x.f ∧ p.lastMomentOfInertia = I.f ∧ I.det ≠ 0 ∧ p.angularVelocity = Vec3.o.f ∧
    I.inv.mulVec (((q - x).cross F).scale 1) = ⟨0, 1/2, 0⟩ ∧ p'.angularVelocity = (⟨0, 1, 0⟩ : Vec3 ℝ).f := by
  have hdt : Proper (fin 1) := by simp [Proper]; norm_num
  obtain ⟨s, s', p, gh, h1, h2, h3, h4, h5, h6, h7, h8, h9, h10, h11, h12, h13, h14, h15, h16⟩ :=
    demo_bar (⟨(⟨1, 0, 0⟩ : Vec3 ℝ).f, (⟨3, 0, 1⟩ : Vec3 ℝ).f⟩ : Push) hdt
  obtain ⟨w, g, g', fs, p', f1, f2, f3, f0, f4, f5, f6, f7, -⟩ := C21_free_flight hdt h2 h3 h4 h7 h8
  have hkept : KeptByForces (α := XReal) (γ := Push) (fun g => g.get gh = s.generators.get gh) := by
    intro g gh' x x' dt w h f hg hx hf
    have hf : Except.ok (⟨x.force, x.position⟩, x) = (Except.ok (f, x') : Res (Force XReal × Push)) := hf
    simp only [Except.ok.injEq, Prod.mk.injEq] at hf
    obtain ⟨-, rfl⟩ := hf
    show (g.set gh' x).get gh = _
    rw [Arena.get_set]; split
    · rename_i hh; subst hh; rw [← hg, hx]; rfl
    · exact hg
  have hgg : g.get gh = s.generators.get gh := f0 _ hkept rfl
  rw [if_pos h13, h5] at f4
  have hfs : fs = [⟨(⟨1, 0, 0⟩ : Vec3 ℝ).f, (⟨3, 0, 1⟩ : Vec3 ℝ).f⟩] := by
    cases f4 with
    | cons g1 g2 g3 =>
      cases g3
      rw [hgg, h6] at g1
      cases g1
      injection g2 with g2
      simp only [Prod.mk.injEq] at g2
      rw [g2.1]
  refine ⟨s, s', Demo.h0, gh, p, p', ⟨3, 0, 0⟩, ⟨1, 0, 0⟩, ⟨3, 0, 1⟩, Mat3.diag ⟨1, 2, 3⟩, h1, h2, h3, h5, h6, h7, f5, h8, h12,
    h11, h16, ?_, h10, ?_, ?_⟩
  · simp [Mat3.det, Mat3.diag]
  · ext <;> simp [Mat3.inv, Mat3.diag, Mat3.mulVec, Mat3.det, Vec3.dot_def, Mat3.scale]
  · have ht : torqueOf p fs = ((Mat3.diag ⟨1, 2, 3⟩).mulVec ⟨0, 1, 0⟩).f := by
      unfold torqueOf
      rw [hfs, h16, h11]
      simp only [List.foldl_cons, List.foldl_nil, Vec3.f_zeros, Vec3.f_sub, Vec3.f_cross, Mat3.f_mulVec, Vec3.f_add]
      congr 1
      ext <;> simp [Mat3.diag, Mat3.mulVec, Vec3.dot_def]
    have hW : inverseInertia p = (Mat3.diag ⟨1, 2, 3⟩).inv.f := by
      unfold inverseInertia
      rw [h15]
      have := Mat3.f_tryInverse (Mat3.diag ⟨1, 2, 3⟩)
      revert this
      cases (Mat3.diag ⟨1, 2, 3⟩).f.tryInverse <;> exact fun h => h
    rw [f7, h10, ht, hW, Vec3.f_scale, Mat3.f_mulVec, Vec3.f_add]
    congr 1
    ext <;> simp [Mat3.inv, Mat3.diag, Mat3.mulVec, Mat3.det, Vec3.dot_def, Mat3.scale]

/-- The hypotheses of C21, C22 and C23 are met by a reachable state, with gravity (0, -10, 0). -/
example : ∃ (s s' : System XReal (GravityGenerator XReal)) (k : Handle) (p : Entity XReal) (gh : Handle), Reachable s ∧
    Proper (fin 1) ∧ s.step .id (fin 1) = .ok s' ∧ s'.collisionRecords = [] ∧ s.iterationMax ≠ 0 ∧
    s.getEntity k = some p ∧ p.asleep = false ∧ Pushable p = true ∧ FiniteInertia p ∧
    s.generators.handles = [gh] ∧ s.generators.get gh = some ⟨⟨fin 0, fin (-10), fin 0⟩⟩ ∧
    ∃ mid infos, integrateAll (fin 1) s.generators.handles s.entities.handles
      { s with collisionRecords := [], debug := [] } = .ok (mid, infos) := by
  have hdt : Proper (fin 1) := by simp [Proper]; norm_num
  obtain ⟨s, s', p, gh, h1, h2, h3, h4, h5, h6, h7, h8, -, -, -, -, h13, h14, -⟩ :=
    demo_bar (⟨⟨fin 0, fin (-10), fin 0⟩⟩ : GravityGenerator XReal) hdt
  obtain ⟨ph⟩ := step_phases hdt h2
  exact ⟨s, s', Demo.h0, p, gh, h1, hdt, h2, h3, h4, h7, h8, h13, h14, h5, h6, ph.mid, ph.infos, ph.integrate⟩

/-- The hypotheses of `C36_forces` are met by an entity of infinite mass. -/
example : ∃ (s mid : System XReal (GravityGenerator XReal)) (infos : List (StepInfo XReal)) (k : Handle) (p : Entity XReal),
    Reachable s ∧ integrateAll (fin 1) s.generators.handles s.entities.handles s = .ok (mid, infos) ∧
    s.getEntity k = some p ∧ FiniteInertia p ∧ p.lastTotalMass = posInf := by
  let e : Entity XReal := { Entity.new with ownMass := posInf }
  let E : InternalEntity XReal := { Demo.ballE with ownMass := posInf, totalMass := posInf }
  have hE : InternalEntity.newFrom e = some E := by
    simp [InternalEntity.newFrom, e, E, Demo.ballE, Demo.ball, Entity.new, Entity.makeOrientation]
  have hreach : Reachable ((System.new : Demo.Sys).addEntity e).1 := by
    refine ⟨_, .snoc .id (.addEntity e) (.entity (some Demo.h0)) .nil ?_⟩
    simp only [System.exec, System.addEntity, hE]; rfl
  have hget : ((System.new : Demo.Sys).addEntity e).1.entities.get Demo.h0 = some E := by
    simp only [System.addEntity, hE]; rfl
  obtain ⟨⟨mid, infos⟩, h⟩ := Step.integrateAll_total (dt := fin 1) (s := ((System.new : Demo.Sys).addEntity e).1)
    (gens := ((System.new : Demo.Sys).addEntity e).1.generators.handles) (fun h hh => Arena.mem_handles.mp hh)
    (fun h hh => Arena.mem_handles.mp hh)
  have hor : E.orientation = (⟨Vec3.o, Quat.e, Vec3.o⟩ : Orientation ℝ).f := by
    have := Orientation.f_new Vec3.o Vec3.o Vec3.o
    rw [Quat.exp_o] at this
    rw [← this]
    simp [E, Demo.ballE, Demo.ball, Entity.makeOrientation, Entity.new, Orientation.new]
  refine ⟨_, mid, infos, Demo.h0, E.makePub, hreach, h, getEntity_eq_some.mpr ⟨E, hget, rfl⟩, ⟨?_, ?_, ?_, ?_⟩, rfl⟩
  · show FinitePose E.orientation; rw [hor]; exact finitePose_f _
  all_goals
    show Finite3 (Vec3.mk (fin 0) (fin 0) (fin 0))
    exact finite3_f Vec3.o

end Exact
end Fluffy.Props
