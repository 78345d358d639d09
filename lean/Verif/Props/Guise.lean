import Verif.Props.GuiseApi
import Verif.Props.Finite
import Verif.Num.Kernel
/-
C85: no axis is preferred.  C86: only ratios of masses matter, for bodies without friction.
-/
set_option linter.unusedSectionVars false
set_option linter.unusedSimpArgs false
namespace Fluffy.Props
open Fluffy XReal Step InternalEntity

/-- Other axes, the same unit of mass. -/
def axesOnly (t : Turn) : Guise := ⟨t, 1, one_pos⟩
/-- The same axes, another unit of mass. -/
def unitOnly (k : ℝ) (hk : 0 < k) : Guise := ⟨.stay, k, hk⟩

section
variable {γ : Type} [ForceGenerator XReal γ]

theorem new_recast (t : Turn) (act : γ → γ) : (System.new : System XReal γ).recast (axesOnly t) act = System.new := by
  have h : (lit 1 1000 : XReal) * fin 1 = lit 1 1000 := times_one _
  unfold System.recast World.recast System.new
  simp only [axesOnly, h]
  rfl
theorem suits_new (g : Guise) : Suits g (System.new : System XReal γ).colliders := by
  intro h c hh
  simp [System.new, Arena.get_new] at hh

/-- If all states the program goes through have only fit entities, then it steps only from such states. -/
theorem fitAlong_of {g : Guise} : ∀ {l : List (IterOrder × Op XReal γ)} {s : System XReal γ},
    (∀ l1 l2 r, l = l1 ++ l2 → play l1 s = .ok r → AllFit g r.1.entities) → FitAlong g l s
  | [], _, _ => trivial
  | (o, op) :: l, s, h => by
    refine ⟨fun dt _ => h [] _ (s, []) rfl rfl, fun r hr => fitAlong_of fun l1 l2 q hl hq => ?_⟩
    refine h ((o, op) :: l1) l2 (q.1, r.2 :: q.2) (by rw [hl]; rfl) ?_
    unfold play
    rw [hr]
    simp only [Res.ok_bind, hq]

theorem Fine.fit {e : InternalEntity XReal} (h : Fine e) (t : Turn) : Fit (axesOnly t) e := by
  refine ⟨Or.inr ⟨Or.inl ?_, ?_⟩, by rw [show (axesOnly t).unit = 1 from rfl, times_one]⟩
  · obtain ⟨o, ho, hu⟩ := h.pose
    exact ⟨o.rotation, by rw [ho]; rfl, hu⟩
  · intro q hq
    obtain ⟨I, hI, -⟩ := h.moment ⟨.o, q, .o⟩ hq
    exact ⟨I, hI⟩

/-! ### C85 -/

/-- What the program reads from a system in another guise is what it reads from the system, in that guise. -/
theorem C85_view (g : Guise) (act : γ → γ) (s : System XReal γ) (h : Handle) :
    (s.recast g act).getEntity h = (s.getEntity h).map (Entity.recast g) ∧ (s.recast g act).getCollider h = (s.getCollider h).map (Collider.recast g) ∧
    (s.recast g act).collisionRecords = s.collisionRecords.map (CollisionRecord.recast g) := by
  refine ⟨getEntity_recast g s.toWorld h, ?_, rfl⟩
  unfold World.getCollider
  rw [show (s.recast g act).colliders = s.colliders.map (Collider.recast g) from rfl, get_map]
  cases s.colliders.get h with
  | none => rfl
  | some c => exact congrArg some (makePub_collider_recast g c)

/-- **C85.** Whatever calls a program makes on a new system, without boxes: if it only steps while every rotation is one and every moment of inertia is finite, then making the calls with
everything turned panics in the same place or gives the same answers, and ends in the same state turned.  `t` is a third of a turn about the diagonal or a quarter of a turn about the
z axis; all the turns that take the axes into each other are made of these.  Missing: boxes, for which it is false (`C85_box_false`), and bodies with infinite moments of inertia. -/
theorem C85_axes_partial (t : Turn) {act : γ → γ} (hg : Fair γ (axesOnly t) act) (l : List (IterOrder × Op XReal γ)) (hl : ∀ x ∈ l, SuitsCall (axesOnly t) x.2)
    (hf : FitAlong (axesOnly t) l System.new) :
    play (l.map (Prod.map id (Op.recast (axesOnly t) act))) (System.new : System XReal γ) =
      (play l System.new).map (Prod.map (System.recast (axesOnly t) act) (List.map (Out.recast act))) := by
  have := play_recast hg System.inv_new (suits_new _) hl hf
  rwa [new_recast] at this

/-- **C85 for finite numbers.** The same for every program that hands over finite numbers only and records only sound contacts. -/
theorem C85_finite_partial (t : Turn) {act : γ → γ} (hg : Fair γ (axesOnly t) act) {G : γ → Prop} (tame : Tame G) (l : List (IterOrder × Op XReal γ))
    (hl : ∀ x ∈ l, SuitsCall (axesOnly t) x.2) (hf : ∀ l1 l2 r, l = l1 ++ l2 → play l1 (System.new : System XReal γ) = .ok r → FiniteHistory G r.1) :
    play (l.map (Prod.map id (Op.recast (axesOnly t) act))) (System.new : System XReal γ) =
      (play l System.new).map (Prod.map (System.recast (axesOnly t) act) (List.map (Out.recast act))) := by
  refine C85_axes_partial t hg l hl (fitAlong_of fun l1 l2 r h1 h2 h e he => ?_)
  exact (((hf l1 l2 r h1 h2).fine tame).1 h e he).fit t

/-! ### C86 -/

/-- **C86.** Whatever calls a program makes on a system, without friction and with forces at centres of mass only: if no body that exists when it steps is below the mass under which forces
are ignored in one unit but not in the other, then making the calls with all masses (and tensors, and the energy below which bodies sleep) multiplied by `k` panics in the same place
or gives the same answers, and ends in the same state with masses and impulses multiplied by `k`: all positions, velocities, rotations and times of contact are the same. -/
theorem C86_masses_partial (k : ℝ) (hk : 0 < k) {act : γ → γ} (hg : Fair γ (unitOnly k hk) act) {s : System XReal γ} (hs : Reachable s) (hc : Suits (unitOnly k hk) s.colliders)
    (l : List (IterOrder × Op XReal γ)) (hl : ∀ x ∈ l, SuitsCall (unitOnly k hk) x.2) (hf : FitAlong (unitOnly k hk) l s) :
    play (l.map (Prod.map id (Op.recast (unitOnly k hk) act))) (s.recast (unitOnly k hk) act) =
      (play l s).map (Prod.map (System.recast (unitOnly k hk) act) (List.map (Out.recast act))) :=
  play_recast hg hs.inv hc hl hf

/-- From a new system: the first call sets the energy below which bodies sleep (and everything else that `configure` sets). -/
theorem C86_new_partial (k : ℝ) (hk : 0 < k) {act : γ → γ} (hg : Fair γ (unitOnly k hk) act) (o : IterOrder) (n : Nat) (e t : XReal)
    (l : List (IterOrder × Op XReal γ)) (hl : ∀ x ∈ l, SuitsCall (unitOnly k hk) x.2) (hf : FitAlong (unitOnly k hk) ((o, .configure n e t [] []) :: l) System.new) :
    play ((o, .configure n (e * fin k) t [] []) :: l.map (Prod.map id (Op.recast (unitOnly k hk) act))) (System.new : System XReal γ) =
      (play ((o, .configure n e t [] []) :: l) System.new).map (Prod.map (System.recast (unitOnly k hk) act) (List.map (Out.recast act))) := by
  have := play_recast hg System.inv_new (suits_new _) (l := (o, .configure n e t [] []) :: l) (by
    intro x hx
    rcases List.mem_cons.mp hx with rfl | hx
    · trivial
    · exact hl x hx) hf
  rw [← this, List.map_cons]
  unfold play
  rfl

/-- What stays the same when only the unit of mass changes. -/
theorem C86_same (k : ℝ) (hk : 0 < k) (e : Entity XReal) (r : CollisionRecord XReal) :
    (e.recast (unitOnly k hk)).position = e.position ∧ (e.recast (unitOnly k hk)).rotation = e.rotation ∧ (e.recast (unitOnly k hk)).velocity = e.velocity ∧
    (e.recast (unitOnly k hk)).angularVelocity = e.angularVelocity ∧ (e.recast (unitOnly k hk)).lastTotalMass = e.lastTotalMass * fin k ∧
    (r.recast (unitOnly k hk)).position = r.position ∧ (r.recast (unitOnly k hk)).normal = r.normal ∧ (r.recast (unitOnly k hk)).time = r.time ∧
    (r.recast (unitOnly k hk)).impulseMagnitude = r.impulseMagnitude * fin k := ⟨rfl, rfl, rfl, rfl, rfl, rfl, rfl, rfl, rfl⟩
end

/-- Gravity in other axes. -/
noncomputable def turnGravity (t : Turn) (x : GravityGenerator XReal) : GravityGenerator XReal := ⟨x.acceleration.turn t⟩
/-- Gravity is fair in every guise: its acceleration is turned, its forces are proportional to mass and act at the centre of mass. -/
theorem C85_gravity (g : Guise) : Fair (GravityGenerator XReal) g (turnGravity g.axes) where
  recast := by
    intro x dt w h
    show (unwrap ((w.recast g).getEntity h) >>= _) = Except.map _ (unwrap (w.getEntity h) >>= _)
    rw [getEntity_recast]
    cases w.getEntity h with
    | none => rfl
    | some e =>
      simp only [Option.map_some, unwrap_some, Res.ok_bind]
      refine congrArg Except.ok (Prod.ext ?_ rfl)
      show Force.mk ((x.acceleration.turn g.axes).scale (e.lastTotalMass * fin g.unit)) _ = Force.mk ((x.acceleration.scale e.lastTotalMass).turn g.axes |>.scale (fin g.unit)) _
      rw [Vec3.scale_times g.pos, Vec3.turn_scale]
      rfl
  central := by
    right
    intro x x' dt w h f e hf he
    simp only [ForceGenerator.makeForce, he, unwrap, Res.ok_bind, Except.ok.injEq, Prod.mk.injEq] at hf
    rw [← hf.1]

/-! ### The hypotheses can be met -/

section
variable {γ : Type} [ForceGenerator XReal γ]
/-- Calls that hand over finite numbers, and then a step. -/
theorem fitAlong_finite {G : γ → Prop} (tame : Tame G) (t : Turn) (o : IterOrder) (dt : XReal) : ∀ {l : List (IterOrder × Op XReal γ)} {s : System XReal γ}, FiniteHistory G s →
    (∀ x ∈ l, FiniteCall G x.2 ∧ ∀ d, x.2 ≠ .step d) → FitAlong (axesOnly t) (l ++ [(o, .step dt)]) s
  | [], s, hs, _ => ⟨fun _ _ h e he => ((hs.fine tame).1 h e he).fit t, fun _ _ => trivial⟩
  | (p, op) :: l, s, hs, hl => by
    have h0 := hl (p, op) (by simp)
    refine ⟨fun d hd => absurd hd (h0.2 d), fun r hr => fitAlong_finite tame t o dt (.call p op r.2 hs h0.1 hr fun d hd => absurd hd (h0.2 d)) fun x hx => hl x (List.mem_cons_of_mem _ hx)⟩
end

/-- A program: a ball of mass 2 that moves and spins, a null collider with a tensor that is not that of a ball, a floor, gravity that is not along an axis, and a step. -/
noncomputable def tumble : List (IterOrder × Op XReal (GravityGenerator XReal)) :=
  [.addEntity { (Entity.new : Entity XReal) with ownMass := fin 1, position := ⟨fin 0, fin 3, fin 0⟩, velocity := ⟨fin 1, fin (-2), fin 3⟩, angularVelocity := ⟨fin 1, fin 2, fin 3⟩ },
   .addEntity { (Entity.new : Entity XReal) with ownMass := posInf },
   .addCollider (.sphere ⟨none, ⟨fin 0, fin 0, fin 0⟩, fin 1, fin 1, ⟨fin 1, fin 1, fin 1, fin 1⟩⟩),
   .addCollider (.null ⟨none, ⟨fin 1, fin 0, fin 0⟩, fin 1, (⟨⟨1, 0, 0⟩, ⟨0, 2, 0⟩, ⟨0, 0, 3⟩⟩ : Mat3 ℝ).f⟩),
   .addCollider (.plane ⟨none, ⟨fin 0, fin 0, fin 0⟩, ⟨fin 0, fin 2, fin 0⟩, fin 0, ⟨fin 1, fin 1, fin 1, fin 1⟩⟩),
   .linkCollider ⟨0, 0⟩ (some ⟨0, 0⟩), .linkCollider ⟨1, 0⟩ (some ⟨0, 0⟩), .linkCollider ⟨2, 0⟩ (some ⟨1, 0⟩),
   .addGenerator ⟨⟨fin 1, fin (-10), fin 2⟩⟩].map (fun op => (IterOrder.id, op))

/-- The hypotheses of `C85_axes_partial` and `C85_gravity` hold for that program. -/
theorem C85_applies (t : Turn) : Fair (GravityGenerator XReal) (axesOnly t) (turnGravity t) ∧ (∀ x ∈ tumble ++ [(.id, .step (fin 1))], SuitsCall (axesOnly t) x.2) ∧
    FitAlong (axesOnly t) (tumble ++ [(.id, .step (fin 1))]) System.new := by
  refine ⟨C85_gravity _, ?_, fitAlong_finite tame_gravity t _ _ .new ?_⟩
  · intro x hx
    simp only [tumble, List.map_cons, List.map_nil, List.cons_append, List.nil_append, List.mem_cons, List.not_mem_nil, or_false] at hx
    rcases hx with rfl | rfl | rfl | rfl | rfl | rfl | rfl | rfl | rfl | rfl <;> first | trivial | exact ⟨trivial, Or.inl rfl⟩
  · intro x hx
    simp only [tumble, List.map_cons, List.map_nil, List.mem_cons, List.not_mem_nil, or_false] at hx
    rcases hx with rfl | rfl | rfl | rfl | rfl | rfl | rfl | rfl | rfl <;> refine ⟨?_, fun d h => by cases h⟩
    · refine ⟨⟨rfl, rfl, rfl⟩, ?_, ⟨rfl, rfl, rfl⟩, ⟨rfl, rfl, rfl⟩, ?_, by simp⟩ <;> exact finite3_f .o
    · refine ⟨?_, ?_, ?_, ?_, ?_, by simp⟩ <;> exact finite3_f .o
    · exact ⟨⟨rfl, rfl, rfl⟩, rfl, rfl, rfl, rfl⟩
    · refine ⟨⟨rfl, rfl, rfl⟩, ⟨rfl, rfl, rfl⟩, ⟨rfl, rfl, rfl⟩, ⟨rfl, rfl, rfl⟩, ?_⟩
      refine (symPsd_f _).mpr ⟨?_, ?_⟩
      · intro u v
        simp only [Mat3.mulVec, Vec3.dot_def]
        ring
      · intro u
        simp only [Mat3.mulVec, Vec3.dot_def]
        nlinarith [mul_self_nonneg u.x, mul_self_nonneg u.y, mul_self_nonneg u.z]
    · exact ⟨⟨rfl, rfl, rfl⟩, ⟨rfl, rfl, rfl⟩, rfl, rfl, rfl⟩
    · trivial
    · trivial
    · trivial
    · exact ⟨rfl, rfl, rfl⟩

/-- Turning is not doing nothing. -/
theorem C85_turns : (⟨fin 1, fin 2, fin 3⟩ : Vec3 XReal).turn .quarter = ⟨fin (-2), fin 1, fin 3⟩ ∧ (⟨fin 1, fin 2, fin 3⟩ : Vec3 XReal).turn .cycle = ⟨fin 3, fin 1, fin 2⟩ := by
  simp [Vec3.turn]

open Demo Scene in
/-- The hypotheses of `C86_masses_partial` hold for two balls of mass 1 that run into each other, with masses in grams instead of kilograms. -/
theorem C86_applies : ∃ s s' : System XReal (GravityGenerator XReal), Reachable s ∧ Suits (unitOnly 1000 (by norm_num)) s.colliders ∧
    FitAlong (unitOnly 1000 (by norm_num)) [(.id, .step (fin 1))] s ∧ s.step .id (fin 1) = .ok s' ∧ s'.collisionRecords ≠ [] := by
  obtain ⟨s', hs, he, hc, hg, hrec⟩ := rest (γ := GravityGenerator XReal) .id (k := 1) (by norm_num) (u := ⟨1, 0, 0⟩) (by ext <;> norm_num) (E := 1)
    (by norm_num [Vec3.dot_def]) (by norm_num [Vec3.dot_def]) 3
  have h2 : ∀ {τ : Type} {a b x : τ} {h : Handle}, (Scene.two a b).get h = some x → x = a ∨ x = b := by
    intro τ a b x h hx
    obtain ⟨i, j⟩ := h
    rcases i with _ | _ | _ | _ | i <;> simp [Scene.two, Arena.get] at hx
    · exact Or.inl hx.2.symm
    · exact Or.inr hx.2.symm
  refine ⟨_, s', start_reachable (by norm_num) (by norm_num) _ _ _ _ _ _ _ _ _, ?_, ⟨fun _ _ h e hh => ?_, fun _ _ => trivial⟩, hs, by rw [hrec]; simp⟩
  · intro h c hh
    rcases h2 hh with rfl | rfl <;> exact ⟨trivial, Or.inr ⟨rfl, rfl⟩⟩
  · rcases h2 hh with rfl | rfl <;> refine ⟨Or.inl rfl, ?_⟩ <;> simp [dot, unitOnly, EPSILON_eq] <;> norm_num

/-! ### Not more -/

section
open F32 Demo
variable [Libm]

/-- Two balls of mass `m` with coefficients of friction 1/2; the first runs into the second off its centre. -/
def slideCalls (m : Int) : List (Op F32 (GravityGenerator F32)) :=
  [.configure 10 (num m) (num 1) [] [], .addEntity (thing (num m) (vec 0 0 0) (vec 2 1 0)),
   .addCollider (.sphere ⟨none, vec 0 0 0, num 1, num 0, ⟨num 0, num 0, num 1 2, num 1 2⟩⟩), .linkCollider h0 (some h0),
   .addEntity (thing (num m) (vec 3 0 0) (vec 0 0 0)), .addCollider (.sphere ⟨none, vec 0 0 0, num 1, num 0, ⟨num 0, num 0, num 1 2, num 1 2⟩⟩), .linkCollider h1 (some h1),
   .step (num 1)]

/-- A body of mass `n / d` under gravity. -/
def dropCalls (n : Int) (d : Nat) : List (Op F32 (GravityGenerator F32)) :=
  [.configure 10 (num 0) (num 1) [] [], .addEntity (thing (num n d) (vec 0 0 0) (vec 0 0 0)), .addGenerator ⟨vec 0 (-10) 0⟩, .step (num 1)]

/-- A ball at the rim of a cube at rest, on its way into it. -/
def cornerCalls (x y u v : Int) : List (Op F32 (GravityGenerator F32)) :=
  [.addEntity (thing (num 1) (vec x y 0) (vec u v 0)), .addCollider (ball (vec 0 0 0) (num 1) (num 0) (num 1)), .linkCollider h0 (some h0),
   .addEntity (thing (num 1) (vec 0 0 0) (vec 0 0 0)),
   .addCollider (.box ⟨none, vec 0 0 0, vec (-1) (-1) (-1), vec 1 1 1, num 0, ⟨num 1, num 0, num 0, num 0⟩⟩), .linkCollider h1 (some h1), .step (num 1 2)]

/-- **C85 fails for boxes.** The cube is the same in axes turned by a quarter about z, and the ball at (1, 1, 0) with velocity (-1, -1, 0) is then at (-1, 1, 0) with velocity (1, -1, 0).
But in both cases it is stopped along x, since x wins a tie between the sides: it ends with velocity (0, -1, 0) in both, while that, turned, would be (1, 0, 0). -/
theorem C85_box_false : ∃ (s t : System F32 (GravityGenerator F32)) (a b : Entity F32),
    (play (plain (cornerCalls 1 1 (-1) (-1))) System.new).map Prod.fst = .ok s ∧ (play (plain (cornerCalls (-1) 1 1 (-1))) System.new).map Prod.fst = .ok t ∧
    s.getEntity h0 = some a ∧ t.getEntity h0 = some b ∧ Val a.velocity.x 0 ∧ Val a.velocity.y (-1) ∧ Val b.velocity.x 0 ∧ Val b.velocity.y (-1) := by
  have h : (Res.test (Except.map Prod.fst (play (plain (cornerCalls 1 1 (-1) (-1))) (System.new : System F32 (GravityGenerator F32)))) fun s =>
      Res.test (Except.map Prod.fst (play (plain (cornerCalls (-1) 1 1 (-1))) (System.new : System F32 (GravityGenerator F32)))) fun t => match s.getEntity h0, t.getEntity h0 with
      | some a, some b => valued a.velocity.x 0 && valued a.velocity.y (-1) && valued b.velocity.x 0 && valued b.velocity.y (-1)
      | _, _ => false) = true := by kernel_refl
  obtain ⟨s, hs, h⟩ := Res.of_test h
  obtain ⟨t, ht, h⟩ := Res.of_test h
  split at h
  case h_2 => cases h
  case h_1 a b ha hb =>
  simp only [Bool.and_eq_true, valued_iff] at h
  obtain ⟨⟨⟨q1, q2⟩, q3⟩, q4⟩ := h
  exact ⟨s, t, a, b, hs, ht, ha, hb, q1, q2, q3, q4⟩

/-- **C86 fails with friction.** Two balls of mass 1, and two of mass 4 (an exact multiple in binary32): after the same oblique collision the first ball moves up with 0.38 m/s if the
masses are 1, and with 0.73 m/s if they are 4. -/
theorem C86_friction_false : ∃ (s t : System F32 (GravityGenerator F32)) (a b : Entity F32),
    (play (plain (slideCalls 1)) System.new).map Prod.fst = .ok s ∧ (play (plain (slideCalls 4)) System.new).map Prod.fst = .ok t ∧
    s.getEntity h0 = some a ∧ t.getEntity h0 = some b ∧ Val a.velocity.y (6477811 / 16777216) ∧ Val b.velocity.y (12264191 / 16777216) := by
  have h : (Res.test (Except.map Prod.fst (play (plain (slideCalls 1)) (System.new : System F32 (GravityGenerator F32)))) fun s =>
      Res.test (Except.map Prod.fst (play (plain (slideCalls 4)) (System.new : System F32 (GravityGenerator F32)))) fun t => match s.getEntity h0, t.getEntity h0 with
      | some a, some b => valued a.velocity.y (6477811 / 16777216) && valued b.velocity.y (12264191 / 16777216)
      | _, _ => false) = true := by kernel_refl
  obtain ⟨s, hs, h⟩ := Res.of_test h
  obtain ⟨t, ht, h⟩ := Res.of_test h
  split at h
  case h_2 => cases h
  case h_1 a b ha hb =>
  simp only [Bool.and_eq_true, valued_iff] at h
  exact ⟨s, t, a, b, hs, ht, ha, hb, h.1, h.2⟩

/-- **C86 fails for very light bodies.** A body of mass 1 falls; a body of mass 2^-20 does not. -/
theorem C86_light_false : ∃ (s t : System F32 (GravityGenerator F32)) (a b : Entity F32),
    (play (plain (dropCalls 1 1)) System.new).map Prod.fst = .ok s ∧ (play (plain (dropCalls 1 1048576)) System.new).map Prod.fst = .ok t ∧
    s.getEntity h0 = some a ∧ t.getEntity h0 = some b ∧ Val a.velocity.y (-10) ∧ Val b.velocity.y 0 := by
  have h : (Res.test (Except.map Prod.fst (play (plain (dropCalls 1 1)) (System.new : System F32 (GravityGenerator F32)))) fun s =>
      Res.test (Except.map Prod.fst (play (plain (dropCalls 1 1048576)) (System.new : System F32 (GravityGenerator F32)))) fun t => match s.getEntity h0, t.getEntity h0 with
      | some a, some b => valued a.velocity.y (-10) && valued b.velocity.y (0)
      | _, _ => false) = true := by kernel_refl
  obtain ⟨s, hs, h⟩ := Res.of_test h
  obtain ⟨t, ht, h⟩ := Res.of_test h
  split at h
  case h_2 => cases h
  case h_1 a b ha hb =>
  simp only [Bool.and_eq_true, valued_iff] at h
  exact ⟨s, t, a, b, hs, ht, ha, hb, h.1, h.2⟩

end

end Fluffy.Props
