# Design: a Lean 4 model of fluffy-tribble

## 1. What is modelled, and over which numbers

The whole crate (`/repo/src`, all files; the `#[cfg(test)]` modules only as test
vectors) is transcribed function by function into `lean/Verif/Model/*.lean`.
The model is *polymorphic in the number type*: every function takes
`[Scalar α]`, a class of operations **without laws** (add, sub, mul, div, neg,
abs, sqrt, sin, cos, acos, `<`, `<=`, `==`, `is_nan`, `is_finite`,
`is_infinite`, signum, literals, infinity, NaN).  Four uses of one model:

* **any `α`** - bookkeeping theorems (handles, links, panics, frame conditions,
  sleeping, wake-up, record counts) are proved for every `Scalar α`
  without any law about the operations.  They therefore hold for IEEE-754
  binary32 with rounding, signed zeros and NaN, as the code uses.
* **`α = XReal`** - numeric theorems (restitution, momentum, geometry, ...) are
  proved for exact extended reals: `fin r` (`r : ℝ`), `+inf`, `-inf`, `nan` with the
  IEEE rules for the special values (`inf - inf = nan`, `0 * inf = nan`,
  comparisons with `nan` are false, `1/inf = 0`, ...).  NOT modelled there:
  rounding, overflow to infinity, and the sign of zero (`x / 0` is taken as if
  the zero were `+0`).
* **`α = F32`** (`Verif/Num/F32.lean`) - IEEE-754 binary32 as a type of exact rationals: every operation gives
  the exact result rounded to nearest, ties to even, with subnormal numbers,
  overflow, signed zeros, infinities and one NaN; `sqrt` is rounded correctly;
  `sin`, `cos`, `acos` are left open (`class Libm`: any functions).  `LawfulOrder F32`
  is proved, so the theorems marked "order" hold for binary32.  Theorems over
  `F32` (C30_times_binary32, C74, C75, ...) contain every rounding of the code.
  Witnesses over `F32` are whole API runs computed by Lean's kernel
  (`kernel_refl`, which builds `Eq.refl` and leaves all checking to the
  kernel).  `Verif/Test/Binary32.lean` compares the operations with the host's
  binary32 on pseudo-random bit patterns (a test, not used by proofs).
* **`α = Float32`** - the same model is executed on Lean's binary32 to replay the
  repository's own unit tests (`Verif/Test/Replay.lean`).  This is a test of the
  transcription, not a proof, and nothing in the property theorems rests on it.

### Other modelling decisions

* `&mut self` functions return the new value.  A panic (`unwrap` of `None`, failing
  `assert!`, `RefCell` double borrow, index out of range) is an explicit
  `Except.error` value of type `Panic`.
* `generational_arena::Arena` (dependency, source not in the sandbox) is modelled from its
  published behaviour: slots, a free list, a generation counter bumped by every
  removal, doubling growth.  Counter overflow at 2^64 is not modelled.
* `HashSet<Handle>` is a duplicate-free list.  Its iteration order is random in
  Rust; every function that iterates over one takes a parameter `ord` giving an
  arbitrary permutation, and the theorems quantify over it (one arbitrary `ord` per API call).
* nalgebra's small vectors, matrices, quaternions, isometries are written out by
  component, in nalgebra 0.24's order of operations as far as known.
* `dyn InternalCollider` becomes a sum type; `downcast_ref` becomes a match.
* `dyn UnaryForceGenerator` is user code: the model is parametric in a type `γ` of
  generators and a function giving force and next generator state;
  `GravityGenerator` is the instance the crate ships.
* `println!` is dropped; `debug : Vec<String>` is a list of message tags.
* `iteration_max : u8` is a natural number.

## 2. Trusted base

Lean 4.33.0's kernel; the axioms `propext`, `Classical.choice`, `Quot.sound` (checked
with `#print axioms` for every theorem in MANIFEST.json); the reading of the
Rust code, of nalgebra 0.24 and of generational-arena 0.2.8 recorded in the
comments of `Verif/Model`; for numeric theorems the idealisation `XReal` above, for binary32 theorems the definition of `F32`.

## 3. Which code is modelled where

| file in /repo/src | model | not modelled |
|---|---|---|
| types.rs, consts.rs | Model/Scalar, Vec, Orientation (nalgebra types), Entity | nalgebra beyond the operations used |
| range.rs | Model/Range | nothing |
| orientation.rs | Model/Orientation | nothing |
| entity.rs | Model/Entity | nothing |
| collider.rs, collider_wrapper.rs, null/sphere/plane/aligned_box_collider.rs | Model/Collider | `dyn` dispatch (a sum type instead) |
| mesh_collider.rs | Model/Mesh | nothing |
| collision.rs | Model/Collision | nothing |
| collision_record.rs, force.rs, gravity_generator.rs, unary_force_generator.rs | Model/System, Step | user-written generators are a parameter |
| physics_system.rs | Model/System, Step, Api | `println!` |
| lib.rs | - | re-exports only |
| `#[cfg(test)]` modules | Test/Replay (as tests) | not used by proofs |

Every definition in `Verif/Model` carries the file and lines it transcribes.
Not modelled anywhere: memory use, running time, threads, stdout, the hashing
order beyond "some permutation", overflow of machine integers, and in the XReal
theorems f32 rounding, overflow to infinity and the sign of zero (these are in the F32 theorems).

Layout of the proofs: `Verif/Num` (the extended reals and closed forms over ℝ),
`Verif/Proofs` (lemmas about the model), `Verif/Props` (specifications and the
property theorems `Cnn_...`).  The specifications (`BallMeetsBox`, `InFace`,
`Pointing`, `First`, `Made`, ...) are written with plain real geometry or plain list
facts in `Verif/Props`, not with the model's helpers.

## 4. How properties are stated and proved

"generic" = proved for every `Scalar α`; "order" = for every number type whose
comparison is a linear order away from NaN (`LawfulOrder`; this includes f32);
"XReal" = exact extended reals.

| id | kind and method |
|----|-----------------|
| C01, C02 | generic; arena invariant (every stored generation <= counter, free list = empty slots), induction over API histories |
| C03, C04 | generic read-back; rotation equality XReal (quaternion = ± quaternion) |
| C05 | generic, by cases; is_valid unfolded to comparisons |
| C06, C07, C10, C11 | generic; arena frame lemmas + link invariant |
| C08 | negation: a history whose stored plane normal is not a unit vector; partial: add_collider and unit-normal updates |
| C09 | generic invariant over all histories of all API calls |
| C12 | negation: linked collider => panic, for every state; partial for unlinked |
| C13 | generic cache-coherence (total mass = value of the recomputation) + XReal closed form |
| C14-C17 | XReal; recalculate_mass closed form, permutation invariance by `List.Perm` |
| C18 | negation for spheres (formula is m r), proof for boxes |
| C19 | XReal; PSD quadratic form |
| C20, C24, C25, C53, C54 | generic; induction over the iteration loop / over histories |
| C21, C22 | generic shape + XReal closed form |
| C23 | negation: the change is (p-x) x F dt whenever I is invertible; equality only in special cases |
| C26 | generic; termination measure = queue length + total neighbour count; reachability invariant |
| C27, C28, C37 | negations with reachable witnesses, plus partial theorems under the excluded condition |
| C29 | negations with reachable witnesses; exact characterisation of the calls that panic (generic), by an `Unless r P` calculus (`r` ends unless `P`, panics if `P`) carried through every loop of `step` |
| C30 | generic count/handles; XReal order and bounds |
| C31-C36 | XReal; algebra on the impulse formulas |
| C38 | XReal; invariant over the iteration loop |
| C39 | order; exact set characterisations |
| C40-C44 | XReal; exact set characterisations; negations where EPSILON cut-offs or the normal formula break them |
| C45, C46, C52 | case analysis on `collide` (generic or order) |
| C47, C55 | order; fold invariants of the accumulators |
| C48, C49 | XReal; negations (flat mesh -> NaN; box position ignored), partial theorems |
| C50 | generic/XReal invariant over add_face sequences |
| C51, C57 | XReal; quaternion algebra, logarithm and exponential |
| C56 | XReal; whole-step analysis of the two-body world |
| C58 | generic |
| C59 | generic, over histories |
| C60-C64 | XReal; convexity and first-time arguments on quadratics and polygons; negations at the cut-offs |
| C65-C67 | XReal; bodies over the reals that drift and bounce, induction over the iterations; negation with a freely spinning rod, and with a plane whose normal is too long |
| C68 | XReal; every detector by cases, then the records of a step and whole histories; negation with two balls in the same place and with a long plane normal |
| C69 | generic; two runs related by a simulation that forgets the order of neighbour sets; for real arithmetic also the orders of collider sets, up to ties (uniqueness of the earliest contact) and removals; negations with two coinciding balls of different restitution, and with the slots that a removal frees |
| C70 | XReal; the walk around a convex face, one point against one face both ways, lifted to a moving mesh against one at rest; negations with a face that moves onto a corner, with crossing edges, and with two meshes that fall together |
| C71 | XReal; every function commutes with moving the scene, from the detectors through the step to histories of calls; rotations stay unit or NaN as the invariant; gravity shown to be a generator that does not know the origin |
| C72 | XReal; response, closing speed and the detections with planes and boxes commute with a boost; false for two balls, whose normal is taken from where the first was at the start of the step: they pass through each other (witness through the API) |
| C73 | XReal; induction over any sequence of steps: pose kept exactly, at rest, asleep in time, as long as the floor does not fall asleep before the ball; false without that: the floor then remembers the ball as a neighbour, the pair is skipped and the ball sinks without limit (witness through the API with default settings) |
| C74 | binary32; addition commutes but is not associative: order does not matter up to two colliders per entity, false from three on (masses 2^24, 1, 1, witness through the API) |
| C75 | binary32; proved for whole numbers up to 45 (all intermediate results but the root are exact and rounding is monotone), false in general: a fast ball passes through another because the discriminant cancels (witness through the API) |
| C76 | exact arithmetic: proved (clock = number of steps times dt); binary32: proved with twice the bound when the threshold is below 2^23 - 1 steps (each rounded addition advances by at least half a step), false in general: the clock stalls at 32 with steps of 1e-6 (for all n, by induction over the symbolic state) |
| C77 | generic: two-run simulation, index shift of the step list |
| C78 | exact arithmetic, steps that do not run out of iterations: proved for position, velocity and angular velocity, and for the rotation up to 2^-23 for each iteration (the code drops very small turns); false in general: the iteration limit is shared, so a ball rattling between two planes far away makes an entity without colliders move 3.6 instead of 8 (default limit of 5, kernel-computed in binary32) |
| C79 | proved for exact arithmetic and for binary32 alike when the inverse moments of inertia and the numbers in collision records are finite; false otherwise: in binary32 a lone resting ball of 10²⁰ kg has angular velocity NaN after one step (the inverse of its moment of inertia overflows to inf / inf) |
| C80 | proved for exact arithmetic and for binary32 alike, with no condition on the other bodies or on forces, for a body with infinite mass and zero inverse moment of inertia (what a collider of infinite mass makes, `C80_from_collider`) while the velocities reported for it are finite; false for a body whose own mass is infinite but whose collider has a finite mass: it starts to spin |
| C81 | proved for binary32 by induction over the steps; `C81_stuck` shows a body at 1 m/s, 1048576 m from the origin, that no number of steps of 1/60 s moves at all |
| C82 | proved for binary32 by induction over the steps, for one generator; `C82_unequal` (1 kg and 7 kg differ after one step) and `C82_terminal` (no acceleration at 4194304 m/s) show that the bound is needed |
| C83 | binary32; proved for planes added with components up to 2^62 (for single calls with direction, and for histories), for two balls when the way to the contact point is moderate, and for box surfaces without NaN; negation: a plane added with the normal (0, 2^70, 0) is accepted, stored with the zero vector for its normal, and a ball goes through it |
| C84 | binary32; each body's change of momentum and the sum, along each axis, with the constant; the impulses are the code's own (how big they are is C31, C35); a reachable bounce that the heavy ball does not feel shows that it is not exact |
| C85 | false for boxes: at the rim of a cube the x axis wins a tie (two runs in binary32); proved for whole histories of calls without boxes that step only from states with finite moments of inertia and rotations that are unit quaternions or NaN; for programs with finite numbers that follows from C37's conditions |
| C86 | false with friction: two runs in binary32 with masses 1 and 4 end with different velocities; false for bodies lighter than the cut-off for forces, with a run each; true and proved for whole histories without friction, with forces at centres of mass, and no body that crosses the cut-off |
| C87 | the exact condition is proved in any arithmetic and over exact numbers; convex polygons are accepted, and for at most four points in a plane only these; false from five corners on: a five-pointed star is accepted |
| C88 | false whenever there is gravity, after any number of steps: the velocity is right, but the body is ahead of its parabola by exactly g/2 times the sum of the squares of the step lengths, so by at most g D T/2 with steps up to D; the energy falls by g^2/2 times that sum, and a step back leaves it g d^2 off; all proved |
| C89 | false: a body of 1 g hangs after seven steps of 1/60 s, for ever (binary32, shown for any number of further steps of any length); for exact arithmetic the exact condition and the whole course are proved: it hangs after ceil(tau/d) + 1 steps if the energy gained by then is not above the threshold, and otherwise falls for ever |
| C90 | false: a ball asleep on a floor hangs for ever once the floor is removed (binary32, for any number of steps of any length); proved for any arithmetic: no call but step and update_entity changes whether a body sleeps, and a sleeper stays where it is through all calls on other bodies and all steps without collisions |
| C91 | false: waking leaves the clock run down; a ball lifted from the floor sleeps again after one step of 1/256 s and hangs there for ever (binary32); proved exactly: at the end of the first step after being woken, or of the step that wakes it, a body is asleep iff its energy is not above the threshold |
| C92 | false: it is the other way round; a ball that skids slowly gets the dynamic coefficient and at 8 m/s the static one (binary32 runs); proved: exactly which coefficient is used, that contacts without restitution always get the static one, and that the constants are the products of both materials |
| C93 | partial (`C93_slip_first`, `C93_slip_second`: the exact law for one contact; `C93_rolls_partial`: true, with geometric rate, for balls with 1/m + l²/i < 2, never reversed if at most 1); `C93_runs`: the same for whole runs of `step` on level ground, with the final velocity; negation `C93_grows`, `C93_false`: a 1 kg ball of radius 1 slips back and forth at 7/4 m/s forever |
| C94 | false: the friction impulse does not grow with the mass, so a body heavier than 1 always slides, however gentle the slope (`C94_slides`, `C94_false`); the exact run of a ball that slides, spins and rolls on a plane (`C94_run`), its closed form on a slope (`C94_slope`, `C94_creeps`), exactly which masses stay (`C94_stays_iff`), and a body of mass 1 does (`C94_partial`) |
| C95 | Two runs side by side (the simulation of C77) with the invariant that what the body's movement ends at is not a number, for every kind of collider; partial: false for two bodies with meshes, where the step panics (`C95_mesh_panics`, `C95_false`) |
| C96 | partial: exact turn `w S`, `S` being the length of the steps with a turn above 2^-22; false for slow turns (`C96_false`: an hour hand in steps of a millisecond never moves) |
| C97 | partial: right for turns about the axis about which the box is turned already, short of half a turn; past it the box is taken to turn backward (`C97_backward`), so contacts appear on its far side (`C97_false`) |
| C98 | partial: `C98_room_partial` (a body without moment of inertia in any company, or a ball without friction among planes; sound contacts, nobody put to sleep while touching), `C98_ball_partial` (one ball and any walls, any run, no hypothesis on contacts); false for spinning balls (`C98_false`) |
| C99 | partial: `C99_partial` (step without records: no two awake balls, apart at first, went through one another, unless slow, grazing or the first chased by the second); false when a fast first ball is overtaken (`C99_false`; found in the other order, `C99_order`) and for small slow balls, whose centres come to coincide (`C99_marbles`) |
| C100 | partial: within half of the cross product of w T and R, times the distance from the centre, and exact for parallel axes (`C100_partial`); false otherwise (`C100_false`) |
| C101 | partial: up to 3/5 of the square of the angle, times the distance from the centre of mass (`C101_partial`); not exact (`C101_false`) |
| C102 | partial: false with restitution 1, where the height grows beyond all bounds (`C102_false`); below 1 the height stays under the larger of what the energy allows and 2ργD²/(1−ρ)², with `D` the longest step |
| C103 | partial: false (`C103_false`, settings of a new system, ordinary numbers); for restitutions below 1/2: asleep in the end exactly if m(ργd/(1+ρ))²/2 is below the threshold; exact course `C103_course`; for every restitution below 1, height and vertical speed: asleep in the end if m(2ρ(γd/(1−ρ))² + γ/10⁶ + 1/(2·10¹²)) is not above the threshold (`C103_settles_partial`), never if m(ργd/(1+ρ))²/2 is above it (`C103_restless`) |
| C104 | partial: proved for balls of any radii of which the first rests or moves along the line of the centres; false for others (`C104_false`) |
| C105 | partial: proved for update_entity, panics included (in exact arithmetic without conditions, in any arithmetic unless an edit that does not count as a change makes a total mass infinite or finite); false if one of the edits is of a collider, because update_collider wakes nobody (binary32 witness) |
| C106 | partial: proved for entities, null colliders, planes, boxes, and balls (accepted exactly if the radius is more than 1/20); false for meshes, which are refused, and two such balls that meet get NaN velocities since nothing has mass |
| C107 | partial: holds in exact arithmetic when the body is where its colliders put it; false for a body added as a copy of another (it keeps the origin offset but not the colliders), and in binary32 by rounding |
| C108 | proved, for every arithmetic |
| C109 | partial: true in exact arithmetic for bodies that are where their colliders have put them (`C109_link_partial`, `C109_write_partial`) and for colliders of no entity (`C109_free`); false in binary32, where a body can jump to and fro without end (`C109_false`) |
| C110 | partial: proved in exact arithmetic for every body whose centre of mass is where its colliders put it; false for a copy of a body (add_entity keeps the origin offset: the copy jumps 1 m when written back as read, and back when written again) and in binary32 because of rounding |
| C111 | partial: exact positions, velocities, contact point and impulse for all masses, radii and times of contact if the first ball rests or moves along the line of the centres (the second ball may come from any direction); false otherwise: after an oblique hit and back the first ball is more than 1 m away from its start and the ball that rested moves with more than 2 m/s (binary32 run) |
| C112 | partial: proved in any arithmetic if the calls concern different bodies; false for one body in binary32 |
| C113 | partial: proved from 1 kg on (course and distance) and from 1/2 kg on (speed, also a bound on slopes: `C113_slope_partial`); false for light balls (`C113_false`: a ball of 1/4 kg leaves the floor backwards, three times as fast) |
| C114 | partial: proved up to two terms that vanish with the length of the step (`C114_partial`); false without them (`C114_false`, settings of a new system) |

No property is considered inexpressible.

<!-- generated below -->

## 5. Outcome per property

* **C01 Handles are never reused** - proved. All three kinds of handle, over arbitrary call histories. The arena generation counter is a Nat (u64 in the crate).
* **C02 A removed handle stays dead** - proved. A handle dead after being removed stays dead through every later history, and every call with it fails.
* **C03 add_entity then get_entity reads back what was stored** - proved. All fields and frame conditions for every scalar type; the rotation part over exact reals: the stored quaternion and the rotation vector read back both denote the rotation given by Rodrigues' formula, except that vectors of length at most 2^-22 are stored as no rotation.
* **C04 add_collider then get_collider reads back what was stored** - proved. Generic in the number type (so also for binary32); that sorting a valid box's corners changes nothing is proved over the extended reals.
* **C05 Additions are rejected exactly when invalid, and rejection has no effect** - proved. Generic in the number type.
* **C06 update_entity stores what it is given and touches nothing else** - proved. Generic in the number type; for calls that return (update_entity can panic, see C29).
* **C07 update_collider stores what it is given and touches nothing else** - proved. Generic in the number type; includes absence of panics.
* **C08 A stored plane normal is always a unit vector** - partial. False: update_collider stores the normal as given (C08_false, reachable). Proved: every stored plane normal has length one unless update_collider gave it or a non-finite one was added.
* **C09 Entity-to-collider and collider-to-entity links always agree** - proved. Every reachable state.
* **C10 link_collider does exactly the requested re-link** - proved. Includes absence of panics.
* **C11 remove_entity removes the entity and exactly its colliders** - proved. Includes absence of panics.
* **C12 remove_collider removes one collider and updates its entity** - partial. False for linked colliders: remove_collider panics (RefCell borrowed twice); proved as C12_linked_collider_panics and C12_false. The partial theorem covers colliders that are not linked.
* **C13 The reported total mass is always own mass plus linked collider masses** - proved. In every reachable state over extended reals the total mass is own mass plus linked masses (infinite if one is). C13_any_arithmetic states the same for any arithmetic with a lawful order, f32 included, for some summation order.
* **C14 Changing the colliders never moves an entity's local space** - proved. Rotation, velocity, angular velocity: bit for bit in any arithmetic (C14_motion). World positions of local points: over extended reals with finite pose and finite collider data, from any reachable state.
* **C15 An entity's position is its centre of mass** - proved. C15_centre_of_mass holds in every reachable state with finite numbers; C15_otherwise after a successful call touching the entity.
* **C16 Mass properties do not depend on the order colliders are visited or linked** - proved. Over extended reals, no finiteness needed: collider calls give identical systems for any iteration orders; update_entity the same mass data; C16_link_order: histories do not matter either.
* **C17 The moment of inertia is the parallel-axis sum and is symmetric positive semidefinite** - proved. Over extended reals with finite pose and collider data, in every reachable state. C17_reported covers the public getter.
* **C18 Sphere and box colliders have the physical centre of mass and inertia tensor** - partial. Boxes are right, centre and tensor, against integration of a uniform density over the box (C18_box, C18_box_integral). Spheres: the centre is right (C18_sphere_centre), but the tensor uses the radius instead of its square: right only for radius 1 or mass 0 (C18_sphere_partial, C18_sphere_integral_partial), so the claim is false (C18_false).
* **C19 Kinetic energy is never negative** - proved. Public and internal energy, reachable states, finite numbers. For infinite mass the public getter yields NaN (C19_infinite_mass).
* **C20 A negligible time step does nothing** - proved. 
* **C21 Free flight is semi-implicit Euler** - proved. Generic form (every number type) and exact-arithmetic form. The generators' view of the world and their state are explicit.
* **C22 Gravity accelerates everything equally and exerts no torque** - proved. Any number of gravity generators; one generator; from outside for a step without collisions.
* **C23 A force away from the centre of mass yields angular acceleration I^-1 (r x F)** - partial. False: the moment of inertia cancels (C23_false, reachable witness). What the code computes instead is C23_torque_partial.
* **C24 A sleeping entity does not move** - proved. Woken means that the step wrote the debug message wakingUp for the entity (shown to be written whenever a sleeper moves, wakes or is put to sleep again).
* **C25 Entities fall asleep only after enough low-energy time** - proved. Falling asleep is decided exactly by the end energy and the summed time of the unbroken low-energy run, over every history; the last clause over extended reals with a non-negative threshold.
* **C26 Waking one entity wakes exactly its resting cluster, and terminates** - proved. Termination, exact set woken, and success when the listed neighbours are live.
* **C27 Awake entities remember no resting neighbours** - partial. False: a step can leave an entity awake with a remembered neighbour (C27_false). Proved instead in every reachable state: such a neighbour is asleep and lists the entity in turn (or was removed), so detection never skips a pair of awake entities.
* **C28 Writing back an unchanged entity does not wake it** - partial. False for rotation quaternions with negative scalar part (C28_false, reachable). Proved: exactly when update_entity wakes (C28_update_wakes_iff, exact arithmetic), and that writing back does not wake when the scalar part is non-negative.
* **C29 No API call panics** - partial. The full statement is false: remove_collider on a linked collider, waking a cluster with a removed neighbour (C29_false: two balls come to rest together, one is removed, updating the other panics), and a step with two small meshes however far apart (C29_mesh_false, a binary32 run). What is proved instead is exact: C29_exact says that a program whose meshes are well formed (as add_face makes them, C50) panics iff it removes a linked collider, changes an entity from which a removed one can be reached along the neighbour lists, or steps into a contact of such an entity or into a moment at which two meshes of different, not mutually resting entities have a face that collapses half way through the movement ahead; C29_step_exact and C29_call_exact say it call by call. Sufficient conditions: no meshes and no removals (C29_plain_partial), one entity with meshes (C29_no_panic_partial, C29_made_partial), a bound on the turn (C29_mesh_wide); half a turn always panics (C29_half_turn). Force generators that panic by themselves are excluded throughout.
* **C30 Collision records are bounded, ordered, in range and name live entities** - proved. Number of records and live, different entities for every number type; order and range of the times in exact arithmetic for dt at least EPSILON, and in binary32 with all its roundings (C30_times_binary32).
* **C31 Restitution law** - proved. Over exact reals, for any two entities of positive or infinite mass (not both infinite).
* **C32 Collisions conserve linear momentum** - proved. Over exact reals; both masses finite.
* **C33 Collisions conserve angular momentum** - proved. Over exact reals; both masses finite and both inertia tensors invertible.
* **C34 A frictionless collision never creates energy** - proved. Over exact reals, for regular bodies (invertible inertia; or point masses without spin; or immovable and at rest).
* **C35 Friction opposes sliding, within the friction cone, and never reverses it** - partial. False as stated (C35_false: the friction impulse is not divided by the impulse denominator, so light bodies are pushed back too hard). Proved: friction is tangential, opposes sliding, is bounded, and obeys the cone, the no-reversal and the energy law under explicit conditions.
* **C36 Infinite-mass entities are immovable** - partial. False for entities whose own mass is infinite but whose colliders are finite (C36_false). Proved for infinite-mass entities without moment of inertia, and for forces on any of them.
* **C37 Finite in, finite out** - partial. False as stated: C37_false (two balls of mass 1 at rest in the same place), C37_immovable_false (two infinite masses collide), C37_massless_false (two massless bodies collide) give histories of calls with finite numbers after which a velocity is NaN. C37_finite_partial: for every history of calls with finite numbers (masses may be infinite, generators tame, gravity is) in which every recorded contact has a finite point and normal, neither body is massless and not both are immovable, all positions, rotations, velocities and poses stay finite. Over extended reals, so overflow of f32 is outside.
* **C38 A closed system conserves total momentum over a step** - proved. Any number of entities and collisions; exact arithmetic. A case with a collision is the example after C104_equal_partial in Props/Billiards.lean.
* **C39 Range operations are set operations** - proved. Any scalars with IEEE comparisons (LawfulOrder), so also f32; size over exact numbers.
* **C40 quadratic_zeros solves the inequality it is used for** - partial. Exact for a >= EPSILON and discriminant outside the cut-off; grazing case bounded; false in the linear case (only the zero is returned), also for 0 < a < EPSILON.
* **C41 linear_overlap gives exactly the times of overlap** - partial. Exact if one of the ranges is bounded (all uses in the crate); false for two ranges unbounded on the same side.
* **C42 Sphere-plane detection is sound, complete and earliest** - partial. Exact unless the relative normal speed is below EPSILON; slow case characterised; false as stated for slow approach.
* **C43 Sphere-sphere detection is sound, complete and earliest** - partial. Exact for relative movement and discriminant outside the cut-offs; grazing and resting cases characterised; false as stated both ways: slowly separating overlapping spheres are missed (C43_false), and slow spheres passing at a distance of more than a tenth are reported (C43_phantom). Universal bound: C43_reported.
* **C44 The reported normal is the contact normal** - partial. True for sphere-plane, and for two spheres if the first has not moved before contact; false for a moving first sphere.
* **C45 Collision does not depend on argument order** - partial. Proved for all pairs of different kinds, every number (C45_kinds_partial), and for two spheres as far as times and position go (C45_spheres_partial). The normals of two spheres are opposite if neither has moved by the contact time (C45_normals_partial); for moving spheres the claim is false (C45_false).
* **C46 Exactly the supported pairs collide** - proved. Unsupported pairs for every number type; witnesses for each supported pair with valid colliders and unit rotations.
* **C47 Mesh collisions report the earliest feature hit** - proved. Generic over any lawful order; the same for boxes (sphereBox_earliest) and for two meshes, whose normal is turned towards most of the points of the mesh that was hit with (C47_meshMesh).
* **C48 Mesh-plane detection follows the deepest vertex** - partial. False: if all vertices have the same distance the contact point is NaN (C48_false). Time and normal are exact unless the approach is slower than the cut-off; the point is finite and nearly deepest otherwise.
* **C49 Sphere-box collision happens where the box is** - partial. False as stated: a box collider's position is ignored by collision detection (C49_false). Proved: in the box's own coordinates a reported contact is within sqrt(r^2+1/4)+2 EPSILON of the box for every motion (C49_reported), within sqrt(r^2+EPSILON)+EPSILON clear of the cut-offs (C49_sharp_partial), for collide in both argument orders (C49_collide_partial) and in the world for entities that do not turn (C49_world_partial).
* **C50 Mesh building keeps the mesh well formed** - proved. Generic over every number type (C50_wellFormed, C50_valid); over exact reals for faces with three corners apart (C50_nondegenerate). A tiny accepted face can leave the mesh invalid (C50_tiny).
* **C51 Local and world coordinates are inverse rigid transforms** - proved. Over exact reals; C51_poses shows which poses the code makes are unit poses. C51_reachable: in every reachable state finite poses are unit poses.
* **C52 Reported collision times lie in the step** - proved. Any scalars with IEEE comparisons, all collider kinds.
* **C53 Running out of iterations is reported and only loses time** - proved. Reporting and iteration_max 0 for every number type; how far entities get and turn in exact arithmetic (the code drops turns by less than 2^-22, hence the bound on the rotation).
* **C54 step changes only motion and sleep state** - proved. 
* **C55 Each iteration handles an earliest approaching contact** - proved. For every number type with a lawful order.
* **C56 A ball does not sink through an immovable floor** - partial. False for a ball that spins at the start of the step (C56_false, C56_false_bound): the closing speed is computed with the position at the start of the iteration, so a real contact can be rejected and the ball falls through to any depth. Proved for a ball without spin: alone with the floor (C56_alone_partial), with others as long as it meets only the floor (C56_gravity_partial), without moment of inertia in any company (C56_point_partial), or with a moment of inertia but without friction among any number of planes (C56_slippery_partial); the bound is max(depth before, EPSILON) + EPSILON * dt.
* **C57 lerp interpolates between its endpoints** - proved. Over exact reals; turns by at most 2^-22 are lost (C57_tiny).
* **C58 Unary force generators are independent and removable** - proved. Adding, finding and removing generators.
* **C59 During a step every entity stays on course** - proved. Exact arithmetic.
* **C60 Sphere-edge detection is sound, complete and earliest** - partial. Exact outside the EPSILON cut-offs (grazing, slow); universal soundness up to a quarter in squared distance and EPSILON/2 beyond the ends. As stated the claim is false: a ball that overlaps an edge and leaves it slowly is not reported (C60_false).
* **C61 Sphere-box detection misses nothing** - partial. Proved clear of the numerical cut-offs (SafeBox). As stated the claim is false: a ball that overlaps a corner of a box and leaves it slowly is not reported (C61_false).
* **C62 Sphere-face detection is sound, complete and earliest** - partial. Complete and sound for a convex face when the approach speed is not below the code's cut-off; soundness is up to the slack of the point-in-polygon walk (the point is within the cut-off of the face, in proportion to the face's room). As stated the claim is false: C62_false_outside reports a contact 2/5 away from a tiny face, and C62_false_centre misses a contact because the normal is not a number when the centre is in the plane.
* **C63 Sphere-mesh detection misses nothing** - partial. Complete (not later) and sound up to the cut-offs for meshes of convex faces that do not turn during the step, clear of the cut-offs and with the centre not starting on a face; C63_world_partial lifts it to collide in both argument orders, and C63_made shows that meshes built by add_face from convex faces with corners apart meet the hypothesis. As stated the claim is false: C63_false_centre (centre starts on a face) and C63_false_turning (the mesh turns onto the ball).
* **C64 Contacts of spheres with edges and boxes carry the contact normal** - partial. Edges: proved for a sphere that has not moved before the contact (C64_edge_partial); false for a moving sphere, whose normal is taken from its centre at the start of the step (C64_false_edge). Box surfaces: the normal is along an axis, not away from the box's middle, and right whenever the centre is beyond one face only (C64_surface_partial), also in the world for a box turned any way that does not turn during the step (C64_world_partial); false at the rim of a box (C64_false_box).
* **C65 A free body keeps its energy and its angular momentum** - partial. Velocity, angular velocity, kinetic energy and the amount of the angular momentum: proved (C65_energy). Angular momentum as a vector: proved for rotation about a principal axis (C65_principal_partial), false otherwise, since the angular velocity is held while the moment of inertia turns (C65_false).
* **C66 A closed system conserves total angular momentum over a step** - partial. Proved for round bodies with any collisions and friction, contacts with finite numbers (C66_round_partial); false for other bodies, even without a collision (C66_false).
* **C67 Collisions never add energy to a frictionless system** - partial. False as stated: update_collider takes a plane's normal as it is given, and a floor whose normal has length two throws a ball back with nine times the energy although the restitution is zero (C67_false). Proved if contacts have unit normals, or if all planes have; contacts must have finite numbers and not be between two immovable or with a massless body; every entity must have an invertible moment of inertia, or none and no spin, or be immovable and at rest.
* **C68 Every reported collision normal is a unit vector** - partial. False as stated: two balls in the same place make a contact whose normal is NaN (C68_false), and update_collider stores plane normals of any length (C68_long_false). Proved for all pairs of shapes: if the planes have unit normals, every reported normal is a unit vector or not finite; and for all histories in which planes are updated with unit normals only.
* **C69 The same calls give the same results on every run** - partial. False in full, in two ways: when two colliders of one entity are hit at the same time the one visited first decides, so a run's result depends on the seed of the hasher (C69_false: two balls in the same place with different restitution); and removing an entity with several colliders frees their slots in the order visited, so the handle of the next collider differs (C69_slots_false, in binary32). Proved: the order of neighbour sets never matters (C69_neighbor_order_partial), and no order matters in runs in which no entity carries more than one collider (C69_lone_partial); both for any scalar type, so also for f32. In real arithmetic these two ways are the only ones: no order matters in runs without ties and without removals of entities with several colliders (C69_untied_partial), for which it is enough that every entity carries at most one collider other than null colliders (C69_shape_partial).
* **C70 Mesh-mesh detection is sound, complete and earliest** - partial. False as stated in three ways: a face that moves onto a corner of a mesh at rest goes through it unreported (C70_false), crossing edges are never looked at (C70_false_edges), and when both meshes move the faces are taken half way through the step, so meshes that never touch are reported (C70_false_chase). Proved: one corner against one convex face is detected exactly unless it stays within the cut-off of the face's plane (C70_point_complete, C70_point_reported), and if it does stay there it is reported when it reaches an edge or before (C70_slide_complete); for a mesh that moves without turning and a mesh at rest, corners of the moving mesh that reach a face are reported not later, and every report is such a corner near a face with that face's normal.
* **C71 Nothing depends on where the origin is** - proved. Exact arithmetic with infinities and NaN (f32 rounding, which does depend on the distance from the origin, is excluded). Hypotheses: no plane is updated to an infinite normal (update_collider stores the normal as given), and force generators make the same force at the moved point in a moved world, which is proved of gravity.
* **C72 Nothing depends on the velocity of the observer** - partial. False as stated: C72_false gives two reachable scenes that differ by one velocity added to both balls; in one they bounce, in the other no contact is found and they end inside each other, because the contact normal is computed from the first ball's centre at the start of the step. Proved: response and closing speed for all bodies and contacts; detection for planes against anything and balls against boxes; times and place for two balls. Not covered: sphere-mesh and mesh-mesh (which have the same defect or freeze faces at mid-step), sleeping (absolute kinetic energy).
* **C73 A ball that lies on an immovable floor stays there** - partial. C73_partial is the full claim, by induction over any sequence of steps, under one condition on the sleep clocks (the floor sleeps already or has not been quiet for longer than the ball); C73_false shows that without it the ball sinks below any depth, from a state reached through the public interface with default settings.
* **C74 In binary32 mass properties do not depend on the order colliders are visited** - partial. Binary32 with all roundings: no dependence while no entity carries more than two colliders (C74_two_partial, for all values including NaN, infinities and signed zeros); false from three on: the same calls give total mass 2^24 or 2^24+2 and different positions depending on the hash order (C74_false).
* **C75 In binary32 balls that meet during a step are found** - partial. Binary32 with all roundings: complete for integer data with relative movement, distance and sum of radii up to 45 (C75_integers_partial); false in general: a head-on collision at high speed goes unreported and the ball flies through (C75_false, a step of a reachable system).
* **C76 What is quiet falls asleep** - partial. Exact arithmetic: full bound (C76_falls_asleep). Binary32: twice the bound if threshold + dt <= 2^23 dt (C76_binary32_partial); false otherwise: with steps of 1e-6 and a threshold of 64 a body at rest never falls asleep, since the clock stops at or below 32 (C76_false).
* **C77 What can touch nothing has no influence on the rest** - proved. Both for removing an existing entity and for adding one; the simulation (Proofs/Apart.lean) is for a whole set of entities that can touch nothing, generic over the number type. Debug messages are not compared.
* **C78 What is touched by nothing moves as if it were alone** - partial. False as stated: when the iterations run out everything loses the rest of its movement (C78_false, default limit). Proved in exact arithmetic for steps that do not run out: velocity, angular velocity and position are the same (C78_partial, C78_turned_partial), and the rotation up to 2^-23 for each iteration, since the code drops very small turns (C78_turned_partial).
* **C79 A world at rest stays at rest** - partial. Proved for any number type with the laws of zero (instances: exact reals with infinities and NaN, and IEEE binary32), for any number of steps, provided that inverse moments of inertia are finite and collision records hold finite numbers (coincident balls give a NaN normal, see C37). The full statement is false in binary32: a single resting ball of 1e20 kg gets a NaN angular velocity.
* **C80 An immovable body at rest never moves** - partial. Proved for exact arithmetic and binary32 alike, with no condition on other bodies or forces: a body of infinite mass without inverse moment of inertia, at rest, stays exactly in place for any number of steps as long as the velocities reported for it are finite (a contact with NaN or overflowing numbers can make them NaN, see C37_false). Which bodies these are: C80_from_collider. False in full: a body whose own mass is infinite and whose collider has a finite mass spins when grazed (C80_false).
* **C81 A free body covers velocity times time up to rounding** - proved. binary32, any number of steps; concrete witness of a body whose movement is lost entirely
* **C82 In binary32 all bodies fall alike up to rounding** - proved. binary32, any number of steps, one generator; concrete witnesses that bodies of different mass do not fall exactly alike and that gravity stops accelerating
* **C83 In binary32 normals have length one up to rounding** - partial. Proved for planes whose normals have components up to 2^62 when added (C83_added with direction, C83_history_partial for every stored plane not changed by update_collider), for two balls with a moderate distance (C83_spheres_partial), and exactly for box surfaces (C83_box_partial). False for longer normals: (0, 2^70, 0) passes validation, the squared length overflows to infinity and the zero vector is stored; a ball falls through that floor (C83_false).
* **C84 In binary32 a contact conserves momentum up to rounding** - proved. Binary32 with all roundings. C84_exchange: along each axis each body gets the impulse plus friction impulse, respectively its opposite, up to 17/2^25 of the momentum involved. C84_unfelt: not exact, a reachable bounce where the heavy ball's velocity does not change.
* **C85 No axis is preferred** - partial. False for boxes (C85_box_false: x wins a tie at the rim of a cube). Proved: whole histories of API calls without boxes, in turned axes. Missing: steps from states with infinite or NaN moments of inertia.
* **C86 Only ratios of masses matter** - partial. False with friction and for bodies below the mass under which forces are ignored (two binary32 runs each). Proved for whole histories without friction, with central forces and no body crossing the cut-off.
* **C87 Faces that are accepted are flat convex polygons** - partial. Exact condition proved; convex accepted; up to four coplanar points only convex ones; a five-pointed star is accepted (C87_false).
* **C88 A thrown body follows its parabola** - partial. C88_parabola_partial: exact velocity and position for any steps. C88_never_on, C88_false: never on the parabola under gravity. C88_converges/C88_distance: distance bound. C88_energy: exact loss of energy. C88_back: a step back. C88_applies, C88_back_applies: hypotheses met for any number of steps.
* **C89 A body let go in mid-air falls** - partial. C89_exact_partial: the whole course of a body let go, for all masses, thresholds and steps. C89_masses: all masses with earth-like numbers, hypotheses met for any number of steps. C89_sleeper_hangs: a sleeper stays in the air in any arithmetic. C89_false: a body of 1 g hangs for ever, binary32.
* **C90 A body falls when its support is taken away** - partial. C90_wakes_nobody: only step and update_entity change who sleeps. C90_hangs_partial: a sleeper stays through all calls on others and steps without collisions. C90_false: a ball hangs for ever where its floor was, binary32; also shows the hypotheses of C90_hangs_partial met.
* **C91 A woken body stays awake for the sleep time** - partial. C91_first_step_partial: exactly when a woken body sleeps again at the end of the first step. C91_applies: hypotheses met. C91_false: a lifted ball sleeps again after 1/256 s and hangs for ever, binary32.
* **C92 Fast sliding meets dynamic friction, slow sliding static friction** - partial. C92_coefficient_partial: exactly which coefficient is used and the impulse that results. C92_inelastic: without restitution always the static one. C92_products: constants are products of both materials. C92_false: two runs that show the choice reversed, binary32.
* **C93 Sliding turns into rolling** - partial. Exact law for the slip at one contact in both orders; convergence to rolling, with a geometric rate, whenever the yielding 1/m + l^2/i is below 2, without reversal if it is at most 1. C93_runs: the same for whole runs of the step function on level ground, with the velocity v - S/(mK) the ball ends up with. False beyond 2: small slips grow (C93_grows), and a 1 kg ball of radius 1 with the code's moment of inertia slips at 7/4 m/s for ever (C93_false).
* **C94 Things stick in place** - partial. C94_run: the exact velocity, spin and place of a ball on an immovable plane after any number of steps, as long as neither falls asleep. On a slope, from rest, without moment of inertia: C94_slope, closed form C94_creeps; C94_stays_iff: it stays exactly if its mass is min(1, mu/steepness); C94_partial: mass 1 stays. False for all heavier bodies (C94_slides, C94_false with the settings of a new system).
* **C95 A body gone bad does not spoil the rest** - partial. True as long as no step panics (C95_partial), so always where there are no meshes (C95_no_mesh_partial). False for meshes: against a body with a mesh whose position is not a number every other mesh makes the search panic (C95_mesh_panics), so that the whole step is lost (C95_false, a binary32 run). Missing from the full statement: entities that are neighbours of the lost one, and generators that look at other entities. An infinite but not NaN value is not covered. A sleeping body with a NaN velocity is healed by the next step and is therefore not covered.
* **C96 A spinning body turns at its rate** - partial. Over exact reals. The body turns by w times the total length of those steps in which it turns by more than 2^-22; slower turns are lost, however many steps are made (C96_hand_stands, C96_false). Missing: the turn w T in general, which is false.
* **C97 Contacts on a turning box are reported where the box is** - partial. Over exact reals. Right if the box turns about the axis about which it is turned already and stays on one side of half a turn (C97_axis_partial). Past half a turn the box is taken to turn backward, the long way round (C97_backward); a concrete contact of a ball with a cube is reported on the far side of the cube with the normal the wrong way (C97_false). Not covered: turns about other axes, where the interpolated pose is an approximation.
* **C98 A ball in a room of planes stays in it** - partial. False in general: a spinning ball leaves the room in one step (C98_false), and one that sleeps on a wall sinks (C73_false). Proved for runs of any length in a room with any number of walls for balls without spin that cannot be made to spin (their mass is their own, or their sphere is without friction and everything else is a plane): in any company if the contacts are sound and nobody is put to sleep while they touch, and for one ball and walls without any hypothesis on the contacts if bodies are not put to sleep.
* **C99 Balls do not pass through one another** - partial. False in two ways: a ball that is overtaken by a faster one, and comes first in the order of handles, is passed through if it moves more than its radius before the contact, because the normal is computed from where it was at the start of the step (C99_false; the contact is found if the handles are swapped, C99_order); and small balls (radius 5 cm) at 31 cm/s move into one another until their centres coincide, because the discriminant is below EPSILON, whereupon the normal is NaN (C99_marbles). Proved: in a step without contacts no two awake balls that were apart went through one another, unless they are slow, graze, or the first is chased.
* **C100 Rotation vectors are added to turn in series** - partial. Over exact reals, bodies that nothing touches, any number of steps. Within half the length of the cross product of w S and R, times the distance from the centre of mass, of what the sum gives; exact if the axes are parallel (C100_partial). C100_applies: hypotheses met for all rotations and rates that are not tiny. C100_false: a quarter turn about x, then one about y.
* **C101 The velocity at a point is how the point moves** - partial. Over exact reals. The way of a point is the velocity at it times dt, up to 3/5 (|w| dt)^2 times its distance from the centre of mass, or 2^-22 times that if the turn is so slow that it is lost (C101_partial). Not exact: a point of a body that makes half a turn (C101_false, reachable, meets the hypotheses).
* **C102 A dropped ball does not rise above where it was dropped** - partial. False as stated: with a restitution of 1 (the default) a ball put at rest on the floor gets higher than any bound (C102_false). For every restitution below 1 the height stays below the larger of what the initial energy allows and 2*rho*gamma*D^2/(1-rho)^2 where D is the longest step (C102_partial), so a ball dropped from rest from at least that height never rises above it (C102_dropped_partial). C102_step gives the exact outcome of one step. Exact real arithmetic; the ball does not spin and has no moment of inertia or there is no friction; neither body falls asleep on the way.
* **C103 A ball put down on a floor comes to rest** - partial. False as stated: with the settings of a new system, gravity 10, steps of 1/60 and restitution 1/4 a ball of mass 3 put at rest on a sleeping floor never falls asleep (C103_false). For restitutions in (0, 1/2) and a positive sleep time it falls asleep if and only if m(rho gamma d/(1+rho))^2/2 is below the threshold (C103_exact_partial); for [0, 1/2) it does if m(rho gamma d)^2/2 is not above the threshold (C103_partial) and never if m(rho(1-rho) gamma d)^2/2 is above it, with a bound on its velocity (C103_never). Velocity and height after k awake steps are known exactly (C103_course). For every height and every vertical speed at the beginning, and steps of at least 1e-6: for every restitution below 1 the ball falls asleep if m(2 rho (gamma d/(1-rho))^2 + gamma/1e6 + 1/(2e12)) is not above the threshold (C103_settles_partial), and for every restitution up to 1, every velocity at the beginning and also on slopes (gamma is then the part of gravity towards the floor) it never falls asleep after the first step if m(rho gamma d/(1+rho))^2/2 is above it (C103_restless, positive sleep time). Exact real arithmetic, floor asleep from the beginning, ball without moment of inertia or without friction; vertical movement except in C103_restless. Missing: what happens between the two bounds for restitutions from 1/2 on.
* **C104 Colliding balls leave with the textbook velocities** - partial. Exact velocities, positions and record for one whole step of a scene made by calls, for all masses, radii, velocities (also oblique ones), restitutions, times of contact and steps, if the first ball rests or moves along the line of the centres. False otherwise: the normal is taken from where the first ball was at the start of the step, so an oblique hit by a moving first ball sends the other in a wrong direction (C104_false, binary32).
* **C105 Edits of different bodies can be made in any order** - partial. Two edits with update_entity commute up to debug messages. C105_order_partial (exact arithmetic, no further conditions): if they go well in one order, they go well in the other and give the same. C105_goes_any_partial and C105_any_partial: the same in any arithmetic, provided an edit that keeps the own mass does not make the total mass infinite or finite. C105_step_partial for the step after it. C105_false: with update_collider as one of the edits the order decides whether the other body sleeps, since update_collider wakes nobody and wake_up skips bodies of infinite mass.
* **C106 What new() makes can be used as it is** - partial. Exact arithmetic: entities, null colliders, planes and boxes are taken as they are and read back with the defaults; balls exactly if the radius is more than 1/20. C106_mesh_false: a mesh as made by new() is refused by every system. C106_massless_false (binary32): two balls made of new() parts have no mass, and when they meet both velocities become NaN. This property was added because a mutation of the default restitution survived.
* **C107 Linking a collider and taking it off again leaves no trace** - partial. Exact arithmetic, for a finite pose, colliders with finite data or infinite mass, and a body that is at the mass centre of its colliders or at its local origin: the whole system is equal to the one before. False without the last condition (C107_false: a copy of a body keeps the origin offset of the original but not its colliders, and jumps by 1 m) and false in binary32 (C107_rounding_false: a far away centre absorbs the position).
* **C108 What is added and taken away again leaves no trace** - proved. For every arithmetic. Later additions are left out of the later programs because they return handles with another generation number. Generators have to look only at the body they act on (Solitary), as the gravity generator does.
* **C109 Writing a collider back as it was read, or linking it where it is linked already, changes nothing** - partial. Proved in exact arithmetic for bodies with finite numbers or infinite masses that are where their colliders have put them. False in binary32: recalculate_mass is not idempotent after rounding, and a body with two balls jumps to and fro each time a ball or the body is written back unchanged.
* **C110 update_entity puts a body where it says, and saying it twice is saying it once** - partial. Exact arithmetic: a seated body is put exactly at the position and orientation asked for (C110_place_partial), and repeating the call is a no-op of the whole system (C110_twice_partial). Missing: arithmetic with rounding and bodies added as copies of bodies with an origin offset; both are counterexamples (C110_rounding_false, C110_false).
* **C111 An elastic collision runs backward** - partial. Exact arithmetic, smooth balls with restitution 1, first ball at rest or moving along the line of the centres before and after: a table set up with the final places and the opposite velocities leads exactly back (C111_partial; the second run is a new system, so that sleep clocks start anew). False otherwise (C111_false, one system, velocities turned round with update_entity, binary32).
* **C112 Work on different colliders can be done in any order** - partial. Any arithmetic, whole systems equal and no panics, if the calls concern different bodies: two calls (C112_partial), and any number of calls in any order (C112_all_partial). False in binary32 for two balls put on one body (C112_false); for one body in exact arithmetic see C16_link_order. Not covered: pairs with update_entity, see C105.
* **C113 A bouncing ball keeps its course along a level floor** - partial. Proved for balls of at least 1 kg (C113_partial: velocity along the floor is a multiple between 0 and 1 of what it was, and so is the way gone, up to the time) and, for the speed only, from 1/2 kg on (C113_speed_partial); on a slope the speed along the floor grows by no more than the part of gravity along it times the time (C113_slope_partial). False for lighter balls: the share of the sliding that friction takes off is divided by the mass (C113_false: 1/4 kg, settings of a new system). Exact real arithmetic; the ball does not spin, and it has no moment of inertia or there is no friction; neither body falls asleep on the way.
* **C114 After a bounce a ball rises to the restitution squared times the height it fell from, at most** - partial. Proved: after its first bounce the ball is not higher than r^2 h + r(1+r)d(sqrt(2 gamma (h + 1e-6)) + gamma d), or 2 r gamma d^2/(1-r)^2, for steps of length d (C114_partial; level and sloping floors, any velocity along the floor; gamma d at least 1e-6). False without the two terms: a ball that is put on the floor, h = 0, is over it after a step (C114_false, settings of a new system). Missing: that the ball does get as high as r^2 h. Exact real arithmetic; floor asleep, ball awake, does not spin, and has no moment of inertia or there is no friction.

## 6. Axioms

From `#print axioms` for every theorem named in MANIFEST.json. No axiom is declared in this project; no theorem uses `sorryAx` or compiler trust.

* `Classical.choice`, `Quot.sound`, `propext`: the other 380 theorems.
* `propext`: `C20_negligible_step`, `C39_contain_least`, `C39_contain_upper`, `C39_empty`, `C39_everything`, `C39_intersect`, `C39_isEmpty`, `C39_nan`, `C39_range`, `C39_single`, `C46_unsupported`, `C58_removed_generator_is_forgotten`.
* `Quot.sound`, `propext`: `C12_remove_collider_partial`, `C47_meshMesh`, `C47_sphereMesh`, `C52_times`, `C55_search`, `C92_products`, `sphereBox_earliest`.
