{
 "claims": [
  {
   "property": "C01",
   "status": "proved",
   "theorems": [
    "Fluffy.Props.C01_handles_never_reused"
   ],
   "note": "All three kinds of handle, over arbitrary call histories. The arena generation counter is a Nat (u64 in the crate)."
  },
  {
   "property": "C02",
   "status": "proved",
   "theorems": [
    "Fluffy.Props.C02_removed_stays_dead",
    "Fluffy.Props.C02_after_removal"
   ],
   "note": "A handle dead after being removed stays dead through every later history, and every call with it fails."
  },
  {
   "property": "C03",
   "status": "proved",
   "theorems": [
    "Fluffy.Props.C03_add_then_get_entity",
    "Fluffy.Props.C03_rotation_read_back"
   ],
   "note": "All fields and frame conditions for every scalar type; the rotation part over exact reals: the stored quaternion and the rotation vector read back both denote the rotation given by Rodrigues' formula, except that vectors of length at most 2^-22 are stored as no rotation."
  },
  {
   "property": "C04",
   "status": "proved",
   "theorems": [
    "Fluffy.Props.C04_add_then_get_collider",
    "Fluffy.Props.C04_box_corners_kept"
   ],
   "note": "Generic in the number type (so also for binary32); that sorting a valid box's corners changes nothing is proved over the extended reals."
  },
  {
   "property": "C05",
   "status": "proved",
   "theorems": [
    "Fluffy.Props.C05_additions_rejected_iff_invalid"
   ],
   "note": "Generic in the number type."
  },
  {
   "property": "C06",
   "status": "proved",
   "theorems": [
    "Fluffy.Props.C06_update_entity"
   ],
   "note": "Generic in the number type; for calls that return (update_entity can panic, see C29)."
  },
  {
   "property": "C07",
   "status": "proved",
   "theorems": [
    "Fluffy.Props.C07_update_collider"
   ],
   "note": "Generic in the number type; includes absence of panics."
  },
  {
   "property": "C08",
   "status": "partial",
   "theorems": [
    "Fluffy.Props.C08_normal_partial",
    "Fluffy.Props.C08_false"
   ],
   "note": "False: update_collider stores the normal as given (C08_false, reachable). Proved: every stored plane normal has length one unless update_collider gave it or a non-finite one was added."
  },
  {
   "property": "C09",
   "status": "proved",
   "theorems": [
    "Fluffy.Props.C09_links_agree"
   ],
   "note": "Every reachable state."
  },
  {
   "property": "C10",
   "status": "proved",
   "theorems": [
    "Fluffy.Props.C10_link_collider"
   ],
   "note": "Includes absence of panics."
  },
  {
   "property": "C100",
   "status": "partial",
   "theorems": [
    "Fluffy.Props.C100_partial",
    "Fluffy.Props.C100_applies",
    "Fluffy.Props.C100_false"
   ],
   "note": "Over exact reals, bodies that nothing touches, any number of steps. Within half the length of the cross product of w S and R, times the distance from the centre of mass, of what the sum gives; exact if the axes are parallel (C100_partial). C100_applies: hypotheses met for all rotations and rates that are not tiny. C100_false: a quarter turn about x, then one about y."
  },
  {
   "property": "C101",
   "status": "partial",
   "theorems": [
    "Fluffy.Props.C101_partial",
    "Fluffy.Props.C101_false"
   ],
   "note": "Over exact reals. The way of a point is the velocity at it times dt, up to 3/5 (|w| dt)^2 times its distance from the centre of mass, or 2^-22 times that if the turn is so slow that it is lost (C101_partial). Not exact: a point of a body that makes half a turn (C101_false, reachable, meets the hypotheses)."
  },
  {
   "property": "C102",
   "status": "partial",
   "theorems": [
    "Fluffy.Props.C102_step",
    "Fluffy.Props.C102_partial",
    "Fluffy.Props.C102_dropped_partial",
    "Fluffy.Props.C102_false"
   ],
   "note": "False as stated: with a restitution of 1 (the default) a ball put at rest on the floor gets higher than any bound (C102_false). For every restitution below 1 the height stays below the larger of what the initial energy allows and 2*rho*gamma*D^2/(1-rho)^2 where D is the longest step (C102_partial), so a ball dropped from rest from at least that height never rises above it (C102_dropped_partial). C102_step gives the exact outcome of one step. Exact real arithmetic; the ball does not spin and has no moment of inertia or there is no friction; neither body falls asleep on the way."
  },
  {
   "property": "C103",
   "status": "partial",
   "theorems": [
    "Fluffy.Props.C103_partial",
    "Fluffy.Props.C103_exact_partial",
    "Fluffy.Props.C103_settles_partial",
    "Fluffy.Props.C103_restless",
    "Fluffy.Props.C103_never",
    "Fluffy.Props.C103_course",
    "Fluffy.Props.C103_false"
   ],
   "note": "False as stated: with the settings of a new system, gravity 10, steps of 1/60 and restitution 1/4 a ball of mass 3 put at rest on a sleeping floor never falls asleep (C103_false). For restitutions in (0, 1/2) and a positive sleep time it falls asleep if and only if m(rho gamma d/(1+rho))^2/2 is below the threshold (C103_exact_partial); for [0, 1/2) it does if m(rho gamma d)^2/2 is not above the threshold (C103_partial) and never if m(rho(1-rho) gamma d)^2/2 is above it, with a bound on its velocity (C103_never). Velocity and height after k awake steps are known exactly (C103_course). For every height and every vertical speed at the beginning, and steps of at least 1e-6: for every restitution below 1 the ball falls asleep if m(2 rho (gamma d/(1-rho))^2 + gamma/1e6 + 1/(2e12)) is not above the threshold (C103_settles_partial), and for every restitution up to 1, every velocity at the beginning and also on slopes (gamma is then the part of gravity towards the floor) it never falls asleep after the first step if m(rho gamma d/(1+rho))^2/2 is above it (C103_restless, positive sleep time). Exact real arithmetic, floor asleep from the beginning, ball without moment of inertia or without friction; vertical movement except in C103_restless. Missing: what happens between the two bounds for restitutions from 1/2 on."
  },
  {
   "property": "C104",
   "status": "partial",
   "theorems": [
    "Fluffy.Props.C104_partial",
    "Fluffy.Props.C104_fixed",
    "Fluffy.Props.C104_equal_partial",
    "Fluffy.Props.C104_false"
   ],
   "note": "Exact velocities, positions and record for one whole step of a scene made by calls, for all masses, radii, velocities (also oblique ones), restitutions, times of contact and steps, if the first ball rests or moves along the line of the centres. False otherwise: the normal is taken from where the first ball was at the start of the step, so an oblique hit by a moving first ball sends the other in a wrong direction (C104_false, binary32)."
  },
  {
   "property": "C105",
   "status": "partial",
   "theorems": [
    "Fluffy.Props.C105_order_partial",
    "Fluffy.Props.C105_partial",
    "Fluffy.Props.C105_goes_any_partial",
    "Fluffy.Props.C105_any_partial",
    "Fluffy.Props.C105_step_partial",
    "Fluffy.Props.C105_false"
   ],
   "note": "Two edits with update_entity commute up to debug messages. C105_order_partial (exact arithmetic, no further conditions): if they go well in one order, they go well in the other and give the same. C105_goes_any_partial and C105_any_partial: the same in any arithmetic, provided an edit that keeps the own mass does not make the total mass infinite or finite. C105_step_partial for the step after it. C105_false: with update_collider as one of the edits the order decides whether the other body sleeps, since update_collider wakes nobody and wake_up skips bodies of infinite mass."
  },
  {
   "property": "C106",
   "status": "partial",
   "theorems": [
    "Fluffy.Props.C106_entity_partial",
    "Fluffy.Props.C106_null_partial",
    "Fluffy.Props.C106_sphere_partial",
    "Fluffy.Props.C106_plane_partial",
    "Fluffy.Props.C106_box_partial",
    "Fluffy.Props.C106_mesh_false",
    "Fluffy.Props.C106_massless_false"
   ],
   "note": "Exact arithmetic: entities, null colliders, planes and boxes are taken as they are and read back with the defaults; balls exactly if the radius is more than 1/20. C106_mesh_false: a mesh as made by new() is refused by every system. C106_massless_false (binary32): two balls made of new() parts have no mass, and when they meet both velocities become NaN. This property was added because a mutation of the default restitution survived."
  },
  {
   "property": "C107",
   "status": "partial",
   "theorems": [
    "Fluffy.Props.C107_partial",
    "Fluffy.Props.C107_false",
    "Fluffy.Props.C107_rounding_false"
   ],
   "note": "Exact arithmetic, for a finite pose, colliders with finite data or infinite mass, and a body that is at the mass centre of its colliders or at its local origin: the whole system is equal to the one before. False without the last condition (C107_false: a copy of a body keeps the origin offset of the original but not its colliders, and jumps by 1 m) and false in binary32 (C107_rounding_false: a far away centre absorbs the position)."
  },
  {
   "property": "C108",
   "status": "proved",
   "theorems": [
    "Fluffy.Props.C108_entity",
    "Fluffy.Props.C108_collider",
    "Fluffy.Props.C108_body"
   ],
   "note": "For every arithmetic. Later additions are left out of the later programs because they return handles with another generation number. Generators have to look only at the body they act on (Solitary), as the gravity generator does."
  },
  {
   "property": "C109",
   "status": "partial",
   "theorems": [
    "Fluffy.Props.C109_link_partial",
    "Fluffy.Props.C109_write_partial",
    "Fluffy.Props.C109_free",
    "Fluffy.Props.C109_false"
   ],
   "note": "Proved in exact arithmetic for bodies with finite numbers or infinite masses that are where their colliders have put them. False in binary32: recalculate_mass is not idempotent after rounding, and a body with two balls jumps to and fro each time a ball or the body is written back unchanged."
  },
  {
   "property": "C11",
   "status": "proved",
   "theorems": [
    "Fluffy.Props.C11_remove_entity"
   ],
   "note": "Includes absence of panics."
  },
  {
   "property": "C110",
   "status": "partial",
   "theorems": [
    "Fluffy.Props.C110_place_partial",
    "Fluffy.Props.C110_twice_partial",
    "Fluffy.Props.C110_false",
    "Fluffy.Props.C110_rounding_false"
   ],
   "note": "Exact arithmetic: a seated body is put exactly at the position and orientation asked for (C110_place_partial), and repeating the call is a no-op of the whole system (C110_twice_partial). Missing: arithmetic with rounding and bodies added as copies of bodies with an origin offset; both are counterexamples (C110_rounding_false, C110_false)."
  },
  {
   "property": "C111",
   "status": "partial",
   "theorems": [
    "Fluffy.Props.C111_partial",
    "Fluffy.Props.C111_false"
   ],
   "note": "Exact arithmetic, smooth balls with restitution 1, first ball at rest or moving along the line of the centres before and after: a table set up with the final places and the opposite velocities leads exactly back (C111_partial; the second run is a new system, so that sleep clocks start anew). False otherwise (C111_false, one system, velocities turned round with update_entity, binary32)."
  },
  {
   "property": "C112",
   "status": "partial",
   "theorems": [
    "Fluffy.Props.C112_partial",
    "Fluffy.Props.C112_all_partial",
    "Fluffy.Props.C112_false"
   ],
   "note": "Any arithmetic, whole systems equal and no panics, if the calls concern different bodies: two calls (C112_partial), and any number of calls in any order (C112_all_partial). False in binary32 for two balls put on one body (C112_false); for one body in exact arithmetic see C16_link_order. Not covered: pairs with update_entity, see C105."
  },
  {
   "property": "C113",
   "status": "partial",
   "theorems": [
    "Fluffy.Props.C113_partial",
    "Fluffy.Props.C113_speed_partial",
    "Fluffy.Props.C113_slope_partial",
    "Fluffy.Props.C113_false"
   ],
   "note": "Proved for balls of at least 1 kg (C113_partial: velocity along the floor is a multiple between 0 and 1 of what it was, and so is the way gone, up to the time) and, for the speed only, from 1/2 kg on (C113_speed_partial); on a slope the speed along the floor grows by no more than the part of gravity along it times the time (C113_slope_partial). False for lighter balls: the share of the sliding that friction takes off is divided by the mass (C113_false: 1/4 kg, settings of a new system). Exact real arithmetic; the ball does not spin, and it has no moment of inertia or there is no friction; neither body falls asleep on the way."
  },
  {
   "property": "C114",
   "status": "partial",
   "theorems": [
    "Fluffy.Props.C114_partial",
    "Fluffy.Props.C114_false"
   ],
   "note": "Proved: after its first bounce the ball is not higher than r^2 h + r(1+r)d(sqrt(2 gamma (h + 1e-6)) + gamma d), or 2 r gamma d^2/(1-r)^2, for steps of length d (C114_partial; level and sloping floors, any velocity along the floor; gamma d at least 1e-6). False without the two terms: a ball that is put on the floor, h = 0, is over it after a step (C114_false, settings of a new system). Missing: that the ball does get as high as r^2 h. Exact real arithmetic; floor asleep, ball awake, does not spin, and has no moment of inertia or there is no friction."
  },
  {
   "property": "C12",
   "status": "partial",
   "theorems": [
    "Fluffy.Props.C12_remove_collider_partial",
    "Fluffy.Props.C12_linked_collider_panics",
    "Fluffy.Props.C12_false"
   ],
   "note": "False for linked colliders: remove_collider panics (RefCell borrowed twice); proved as C12_linked_collider_panics and C12_false. The partial theorem covers colliders that are not linked."
  },
  {
   "property": "C13",
   "status": "proved",
   "theorems": [
    "Fluffy.Props.C13_total_mass",
    "Fluffy.Props.C13_masses",
    "Fluffy.Props.C13_any_arithmetic"
   ],
   "note": "In every reachable state over extended reals the total mass is own mass plus linked masses (infinite if one is). C13_any_arithmetic states the same for any arithmetic with a lawful order, f32 included, for some summation order."
  },
  {
   "property": "C14",
   "status": "proved",
   "theorems": [
    "Fluffy.Props.C14_motion",
    "Fluffy.Props.C14_local_space"
   ],
   "note": "Rotation, velocity, angular velocity: bit for bit in any arithmetic (C14_motion). World positions of local points: over extended reals with finite pose and finite collider data, from any reachable state."
  },
  {
   "property": "C15",
   "status": "proved",
   "theorems": [
    "Fluffy.Props.C15_centre_of_mass",
    "Fluffy.Props.C15_otherwise"
   ],
   "note": "C15_centre_of_mass holds in every reachable state with finite numbers; C15_otherwise after a successful call touching the entity."
  },
  {
   "property": "C16",
   "status": "proved",
   "theorems": [
    "Fluffy.Props.C16_order_independent",
    "Fluffy.Props.C16_update_entity",
    "Fluffy.Props.C16_link_order"
   ],
   "note": "Over extended reals, no finiteness needed: collider calls give identical systems for any iteration orders; update_entity the same mass data; C16_link_order: histories do not matter either."
  },
  {
   "property": "C17",
   "status": "proved",
   "theorems": [
    "Fluffy.Props.C17_parallel_axis",
    "Fluffy.Props.C17_symmetric_psd",
    "Fluffy.Props.C17_reported"
   ],
   "note": "Over extended reals with finite pose and collider data, in every reachable state. C17_reported covers the public getter."
  },
  {
   "property": "C18",
   "status": "partial",
   "theorems": [
    "Fluffy.Props.C18_box",
    "Fluffy.Props.C18_box_integral",
    "Fluffy.Props.C18_sphere_centre",
    "Fluffy.Props.C18_sphere_partial",
    "Fluffy.Props.C18_sphere_integral_partial",
    "Fluffy.Props.C18_false"
   ],
   "note": "Boxes are right, centre and tensor, against integration of a uniform density over the box (C18_box, C18_box_integral). Spheres: the centre is right (C18_sphere_centre), but the tensor uses the radius instead of its square: right only for radius 1 or mass 0 (C18_sphere_partial, C18_sphere_integral_partial), so the claim is false (C18_false)."
  },
  {
   "property": "C19",
   "status": "proved",
   "theorems": [
    "Fluffy.Props.C19_energy_nonneg",
    "Fluffy.Props.C19_infinite_mass"
   ],
   "note": "Public and internal energy, reachable states, finite numbers. For infinite mass the public getter yields NaN (C19_infinite_mass)."
  },
  {
   "property": "C20",
   "status": "proved",
   "theorems": [
    "Fluffy.Props.C20_negligible_step"
   ],
   "note": ""
  },
  {
   "property": "C21",
   "status": "proved",
   "theorems": [
    "Fluffy.Props.C21_free_flight",
    "Fluffy.Props.C21_exact"
   ],
   "note": "Generic form (every number type) and exact-arithmetic form. The generators' view of the world and their state are explicit."
  },
  {
   "property": "C22",
   "status": "proved",
   "theorems": [
    "Fluffy.Props.C22_gravity",
    "Fluffy.Props.C22_single",
    "Fluffy.Props.C22_others",
    "Fluffy.Props.C22_step"
   ],
   "note": "Any number of gravity generators; one generator; from outside for a step without collisions."
  },
  {
   "property": "C23",
   "status": "partial",
   "theorems": [
    "Fluffy.Props.C23_false",
    "Fluffy.Props.C23_torque_partial"
   ],
   "note": "False: the moment of inertia cancels (C23_false, reachable witness). What the code computes instead is C23_torque_partial."
  },
  {
   "property": "C24",
   "status": "proved",
   "theorems": [
    "Fluffy.Props.C24_sleeper_does_not_move",
    "Fluffy.Props.C24_woken_is_reported",
    "Fluffy.Props.C24_no_collision"
   ],
   "note": "Woken means that the step wrote the debug message wakingUp for the entity (shown to be written whenever a sleeper moves, wakes or is put to sleep again)."
  },
  {
   "property": "C25",
   "status": "proved",
   "theorems": [
    "Fluffy.Props.C25_falls_asleep_iff",
    "Fluffy.Props.C25_run_ends_here",
    "Fluffy.Props.past_dozes",
    "Fluffy.Props.C25_energetic_is_awake"
   ],
   "note": "Falling asleep is decided exactly by the end energy and the summed time of the unbroken low-energy run, over every history; the last clause over extended reals with a non-negative threshold."
  },
  {
   "property": "C26",
   "status": "proved",
   "theorems": [
    "Fluffy.Props.C26_wake_up_wakes_cluster",
    "Fluffy.Props.C26_wake_up_succeeds"
   ],
   "note": "Termination, exact set woken, and success when the listed neighbours are live."
  },
  {
   "property": "C27",
   "status": "partial",
   "theorems": [
    "Fluffy.Props.C27_false",
    "Fluffy.Props.C27_partial",
    "Fluffy.Props.C27_partial_awake_pairs"
   ],
   "note": "False: a step can leave an entity awake with a remembered neighbour (C27_false). Proved instead in every reachable state: such a neighbour is asleep and lists the entity in turn (or was removed), so detection never skips a pair of awake entities."
  },
  {
   "property": "C28",
   "status": "partial",
   "theorems": [
    "Fluffy.Props.C28_update_wakes_iff",
    "Fluffy.Props.C28_write_back_partial",
    "Fluffy.Props.C28_false"
   ],
   "note": "False for rotation quaternions with negative scalar part (C28_false, reachable). Proved: exactly when update_entity wakes (C28_update_wakes_iff, exact arithmetic), and that writing back does not wake when the scalar part is non-negative."
  },
  {
   "property": "C29",
   "status": "partial",
   "theorems": [
    "Fluffy.Props.C29_no_panic_partial",
    "Fluffy.Props.C29_plain_partial",
    "Fluffy.Props.C29_false",
    "Fluffy.Props.C29_made_partial",
    "Fluffy.Props.C29_mesh_exact",
    "Fluffy.Props.C29_mesh_wide",
    "Fluffy.Props.C29_half_turn",
    "Fluffy.Props.C29_mesh_false",
    "Fluffy.Props.C29_mesh_applies",
    "Fluffy.Props.C29_step_exact",
    "Fluffy.Props.C29_call_exact",
    "Fluffy.Props.C29_exact",
    "Fluffy.Props.C29_exact_applies"
   ],
   "note": "The full statement is false: remove_collider on a linked collider, waking a cluster with a removed neighbour (C29_false: two balls come to rest together, one is removed, updating the other panics), and a step with two small meshes however far apart (C29_mesh_false, a binary32 run). What is proved instead is exact: C29_exact says that a program whose meshes are well formed (as add_face makes them, C50) panics iff it removes a linked collider, changes an entity from which a removed one can be reached along the neighbour lists, or steps into a contact of such an entity or into a moment at which two meshes of different, not mutually resting entities have a face that collapses half way through the movement ahead; C29_step_exact and C29_call_exact say it call by call. Sufficient conditions: no meshes and no removals (C29_plain_partial), one entity with meshes (C29_no_panic_partial, C29_made_partial), a bound on the turn (C29_mesh_wide); half a turn always panics (C29_half_turn). Force generators that panic by themselves are excluded throughout."
  },
  {
   "property": "C30",
   "status": "proved",
   "theorems": [
    "Fluffy.Props.C30_records_bounded",
    "Fluffy.Props.C30_times",
    "Fluffy.Props.C30_times_binary32"
   ],
   "note": "Number of records and live, different entities for every number type; order and range of the times in exact arithmetic for dt at least EPSILON, and in binary32 with all its roundings (C30_times_binary32)."
  },
  {
   "property": "C31",
   "status": "proved",
   "theorems": [
    "Fluffy.Props.C31_restitution",
    "Fluffy.Props.C31_frictionless"
   ],
   "note": "Over exact reals, for any two entities of positive or infinite mass (not both infinite)."
  },
  {
   "property": "C32",
   "status": "proved",
   "theorems": [
    "Fluffy.Props.C32_momentum"
   ],
   "note": "Over exact reals; both masses finite."
  },
  {
   "property": "C33",
   "status": "proved",
   "theorems": [
    "Fluffy.Props.C33_angular_momentum"
   ],
   "note": "Over exact reals; both masses finite and both inertia tensors invertible."
  },
  {
   "property": "C34",
   "status": "proved",
   "theorems": [
    "Fluffy.Props.C34_energy",
    "Fluffy.Props.C34_frictionless"
   ],
   "note": "Over exact reals, for regular bodies (invertible inertia; or point masses without spin; or immovable and at rest)."
  },
  {
   "property": "C35",
   "status": "partial",
   "theorems": [
    "Fluffy.Props.C35_friction_partial",
    "Fluffy.Props.C35_false"
   ],
   "note": "False as stated (C35_false: the friction impulse is not divided by the impulse denominator, so light bodies are pushed back too hard). Proved: friction is tangential, opposes sliding, is bounded, and obeys the cone, the no-reversal and the energy law under explicit conditions."
  },
  {
   "property": "C36",
   "status": "partial",
   "theorems": [
    "Fluffy.Props.C36_false",
    "Fluffy.Props.C36_from_collider",
    "Fluffy.Props.C36_immovable_partial",
    "Fluffy.Props.C36_forces"
   ],
   "note": "False for entities whose own mass is infinite but whose colliders are finite (C36_false). Proved for infinite-mass entities without moment of inertia, and for forces on any of them."
  },
  {
   "property": "C37",
   "status": "partial",
   "theorems": [
    "Fluffy.Props.C37_finite_partial",
    "Fluffy.Props.tame_gravity",
    "Fluffy.Props.C37_false",
    "Fluffy.Props.C37_immovable_false",
    "Fluffy.Props.C37_massless_false"
   ],
   "note": "False as stated: C37_false (two balls of mass 1 at rest in the same place), C37_immovable_false (two infinite masses collide), C37_massless_false (two massless bodies collide) give histories of calls with finite numbers after which a velocity is NaN. C37_finite_partial: for every history of calls with finite numbers (masses may be infinite, generators tame, gravity is) in which every recorded contact has a finite point and normal, neither body is massless and not both are immovable, all positions, rotations, velocities and poses stay finite. Over extended reals, so overflow of f32 is outside."
  },
  {
   "property": "C38",
   "status": "proved",
   "theorems": [
    "Fluffy.Props.C38_momentum"
   ],
   "note": "Any number of entities and collisions; exact arithmetic. A case with a collision is the example after C104_equal_partial in Props/Billiards.lean."
  },
  {
   "property": "C39",
   "status": "proved",
   "theorems": [
    "Fluffy.Props.C39_range",
    "Fluffy.Props.C39_single",
    "Fluffy.Props.C39_everything",
    "Fluffy.Props.C39_empty",
    "Fluffy.Props.C39_isEmpty",
    "Fluffy.Props.C39_nan",
    "Fluffy.Props.C39_intersect",
    "Fluffy.Props.C39_contain_upper",
    "Fluffy.Props.C39_contain_least",
    "Fluffy.Props.C39_size"
   ],
   "note": "Any scalars with IEEE comparisons (LawfulOrder), so also f32; size over exact numbers."
  },
  {
   "property": "C40",
   "status": "partial",
   "theorems": [
    "Fluffy.Props.C40_quadratic_partial",
    "Fluffy.Props.C40_degenerate",
    "Fluffy.Props.C40_false",
    "Fluffy.Props.C40_false_positive"
   ],
   "note": "Exact for a >= EPSILON and discriminant outside the cut-off; grazing case bounded; false in the linear case (only the zero is returned), also for 0 < a < EPSILON."
  },
  {
   "property": "C41",
   "status": "partial",
   "theorems": [
    "Fluffy.Props.C41_overlap_partial",
    "Fluffy.Props.C41_false"
   ],
   "note": "Exact if one of the ranges is bounded (all uses in the crate); false for two ranges unbounded on the same side."
  },
  {
   "property": "C42",
   "status": "partial",
   "theorems": [
    "Fluffy.Props.C42_spherePlane_partial",
    "Fluffy.Props.C42_spherePlane_slow",
    "Fluffy.Props.C42_collide_partial",
    "Fluffy.Props.C42_false"
   ],
   "note": "Exact unless the relative normal speed is below EPSILON; slow case characterised; false as stated for slow approach."
  },
  {
   "property": "C43",
   "status": "partial",
   "theorems": [
    "Fluffy.Props.C43_sphereSphere_partial",
    "Fluffy.Props.C43_grazing",
    "Fluffy.Props.C43_resting",
    "Fluffy.Props.C43_collide_partial",
    "Fluffy.Props.C43_reported",
    "Fluffy.Props.C43_phantom",
    "Fluffy.Props.C43_false"
   ],
   "note": "Exact for relative movement and discriminant outside the cut-offs; grazing and resting cases characterised; false as stated both ways: slowly separating overlapping spheres are missed (C43_false), and slow spheres passing at a distance of more than a tenth are reported (C43_phantom). Universal bound: C43_reported."
  },
  {
   "property": "C44",
   "status": "partial",
   "theorems": [
    "Fluffy.Props.C44_spherePlane",
    "Fluffy.Props.C44_sphereSphere_partial",
    "Fluffy.Props.C44_false"
   ],
   "note": "True for sphere-plane, and for two spheres if the first has not moved before contact; false for a moving first sphere."
  },
  {
   "property": "C45",
   "status": "partial",
   "theorems": [
    "Fluffy.Props.C45_kinds_partial",
    "Fluffy.Props.C45_spheres_partial",
    "Fluffy.Props.C45_normals_partial",
    "Fluffy.Props.C45_false"
   ],
   "note": "Proved for all pairs of different kinds, every number (C45_kinds_partial), and for two spheres as far as times and position go (C45_spheres_partial). The normals of two spheres are opposite if neither has moved by the contact time (C45_normals_partial); for moving spheres the claim is false (C45_false)."
  },
  {
   "property": "C46",
   "status": "proved",
   "theorems": [
    "Fluffy.Props.C46_exactly",
    "Fluffy.Props.C46_unsupported"
   ],
   "note": "Unsupported pairs for every number type; witnesses for each supported pair with valid colliders and unit rotations."
  },
  {
   "property": "C47",
   "status": "proved",
   "theorems": [
    "Fluffy.Props.C47_sphereMesh",
    "Fluffy.Props.sphereBox_earliest",
    "Fluffy.Props.C47_meshMesh"
   ],
   "note": "Generic over any lawful order; the same for boxes (sphereBox_earliest) and for two meshes, whose normal is turned towards most of the points of the mesh that was hit with (C47_meshMesh)."
  },
  {
   "property": "C48",
   "status": "partial",
   "theorems": [
    "Fluffy.Props.C48_meshPlane_partial",
    "Fluffy.Props.C48_meshPlane_slow",
    "Fluffy.Props.C48_false",
    "Fluffy.Props.tipped_hits"
   ],
   "note": "False: if all vertices have the same distance the contact point is NaN (C48_false). Time and normal are exact unless the approach is slower than the cut-off; the point is finite and nearly deepest otherwise."
  },
  {
   "property": "C49",
   "status": "partial",
   "theorems": [
    "Fluffy.Props.C49_false",
    "Fluffy.Props.C49_reported",
    "Fluffy.Props.C49_sharp_partial",
    "Fluffy.Props.C49_collide_partial",
    "Fluffy.Props.C49_world_partial"
   ],
   "note": "False as stated: a box collider's position is ignored by collision detection (C49_false). Proved: in the box's own coordinates a reported contact is within sqrt(r^2+1/4)+2 EPSILON of the box for every motion (C49_reported), within sqrt(r^2+EPSILON)+EPSILON clear of the cut-offs (C49_sharp_partial), for collide in both argument orders (C49_collide_partial) and in the world for entities that do not turn (C49_world_partial)."
  },
  {
   "property": "C50",
   "status": "proved",
   "theorems": [
    "Fluffy.Props.C50_wellFormed",
    "Fluffy.Props.C50_valid",
    "Fluffy.Props.C50_nondegenerate",
    "Fluffy.Props.C50_tiny"
   ],
   "note": "Generic over every number type (C50_wellFormed, C50_valid); over exact reals for faces with three corners apart (C50_nondegenerate). A tiny accepted face can leave the mesh invalid (C50_tiny)."
  },
  {
   "property": "C51",
   "status": "proved",
   "theorems": [
    "Fluffy.Props.C51_rigid_transforms",
    "Fluffy.Props.C51_poses",
    "Fluffy.Props.C51_reachable"
   ],
   "note": "Over exact reals; C51_poses shows which poses the code makes are unit poses. C51_reachable: in every reachable state finite poses are unit poses."
  },
  {
   "property": "C52",
   "status": "proved",
   "theorems": [
    "Fluffy.Props.C52_times"
   ],
   "note": "Any scalars with IEEE comparisons, all collider kinds."
  },
  {
   "property": "C53",
   "status": "proved",
   "theorems": [
    "Fluffy.Props.C53_ran_out_iff",
    "Fluffy.Props.C53_no_iterations",
    "Fluffy.Props.C53_advanced",
    "Fluffy.Props.C53_turned"
   ],
   "note": "Reporting and iteration_max 0 for every number type; how far entities get and turn in exact arithmetic (the code drops turns by less than 2^-22, hence the bound on the rotation)."
  },
  {
   "property": "C54",
   "status": "proved",
   "theorems": [
    "Fluffy.Props.C54_step_changes_only_motion"
   ],
   "note": ""
  },
  {
   "property": "C55",
   "status": "proved",
   "theorems": [
    "Fluffy.Props.C55_search",
    "Fluffy.Props.C55_records"
   ],
   "note": "For every number type with a lawful order."
  },
  {
   "property": "C56",
   "status": "partial",
   "theorems": [
    "Fluffy.Props.C56_alone_partial",
    "Fluffy.Props.C56_gravity_partial",
    "Fluffy.Props.C56_point_partial",
    "Fluffy.Props.C56_slippery_partial",
    "Fluffy.Props.C56_false",
    "Fluffy.Props.C56_false_bound"
   ],
   "note": "False for a ball that spins at the start of the step (C56_false, C56_false_bound): the closing speed is computed with the position at the start of the iteration, so a real contact can be rejected and the ball falls through to any depth. Proved for a ball without spin: alone with the floor (C56_alone_partial), with others as long as it meets only the floor (C56_gravity_partial), without moment of inertia in any company (C56_point_partial), or with a moment of inertia but without friction among any number of planes (C56_slippery_partial); the bound is max(depth before, EPSILON) + EPSILON * dt."
  },
  {
   "property": "C57",
   "status": "proved",
   "theorems": [
    "Fluffy.Props.C57_lerp",
    "Fluffy.Props.C57_tiny"
   ],
   "note": "Over exact reals; turns by at most 2^-22 are lost (C57_tiny)."
  },
  {
   "property": "C58",
   "status": "proved",
   "theorems": [
    "Fluffy.Props.C58_generators",
    "Fluffy.Props.C58_removed_generator_is_forgotten"
   ],
   "note": "Adding, finding and removing generators."
  },
  {
   "property": "C59",
   "status": "proved",
   "theorems": [
    "Fluffy.Props.C59_on_course"
   ],
   "note": "Exact arithmetic."
  },
  {
   "property": "C60",
   "status": "partial",
   "theorems": [
    "Fluffy.Props.C60_reported",
    "Fluffy.Props.C60_edge_partial",
    "Fluffy.Props.C60_complete_partial",
    "Fluffy.Props.C60_false"
   ],
   "note": "Exact outside the EPSILON cut-offs (grazing, slow); universal soundness up to a quarter in squared distance and EPSILON/2 beyond the ends. As stated the claim is false: a ball that overlaps an edge and leaves it slowly is not reported (C60_false)."
  },
  {
   "property": "C61",
   "status": "partial",
   "theorems": [
    "Fluffy.Props.C61_complete_partial",
    "Fluffy.Props.C61_false"
   ],
   "note": "Proved clear of the numerical cut-offs (SafeBox). As stated the claim is false: a ball that overlaps a corner of a box and leaves it slowly is not reported (C61_false)."
  },
  {
   "property": "C62",
   "status": "partial",
   "theorems": [
    "Fluffy.Props.C62_complete_partial",
    "Fluffy.Props.C62_reported_partial",
    "Fluffy.Props.C62_false_outside",
    "Fluffy.Props.C62_false_centre"
   ],
   "note": "Complete and sound for a convex face when the approach speed is not below the code's cut-off; soundness is up to the slack of the point-in-polygon walk (the point is within the cut-off of the face, in proportion to the face's room). As stated the claim is false: C62_false_outside reports a contact 2/5 away from a tiny face, and C62_false_centre misses a contact because the normal is not a number when the centre is in the plane."
  },
  {
   "property": "C63",
   "status": "partial",
   "theorems": [
    "Fluffy.Props.C63_complete_partial",
    "Fluffy.Props.C63_reported_partial",
    "Fluffy.Props.C63_world_partial",
    "Fluffy.Props.C63_made",
    "Fluffy.Props.C63_false_centre",
    "Fluffy.Props.C63_false_turning"
   ],
   "note": "Complete (not later) and sound up to the cut-offs for meshes of convex faces that do not turn during the step, clear of the cut-offs and with the centre not starting on a face; C63_world_partial lifts it to collide in both argument orders, and C63_made shows that meshes built by add_face from convex faces with corners apart meet the hypothesis. As stated the claim is false: C63_false_centre (centre starts on a face) and C63_false_turning (the mesh turns onto the ball)."
  },
  {
   "property": "C64",
   "status": "partial",
   "theorems": [
    "Fluffy.Props.C64_edge_partial",
    "Fluffy.Props.C64_surface_partial",
    "Fluffy.Props.C64_world_partial",
    "Fluffy.Props.C64_false_edge",
    "Fluffy.Props.C64_false_box"
   ],
   "note": "Edges: proved for a sphere that has not moved before the contact (C64_edge_partial); false for a moving sphere, whose normal is taken from its centre at the start of the step (C64_false_edge). Box surfaces: the normal is along an axis, not away from the box's middle, and right whenever the centre is beyond one face only (C64_surface_partial), also in the world for a box turned any way that does not turn during the step (C64_world_partial); false at the rim of a box (C64_false_box)."
  },
  {
   "property": "C65",
   "status": "partial",
   "theorems": [
    "Fluffy.Props.C65_energy",
    "Fluffy.Props.C65_principal_partial",
    "Fluffy.Props.C65_false"
   ],
   "note": "Velocity, angular velocity, kinetic energy and the amount of the angular momentum: proved (C65_energy). Angular momentum as a vector: proved for rotation about a principal axis (C65_principal_partial), false otherwise, since the angular velocity is held while the moment of inertia turns (C65_false)."
  },
  {
   "property": "C66",
   "status": "partial",
   "theorems": [
    "Fluffy.Props.C66_round_partial",
    "Fluffy.Props.C66_false"
   ],
   "note": "Proved for round bodies with any collisions and friction, contacts with finite numbers (C66_round_partial); false for other bodies, even without a collision (C66_false)."
  },
  {
   "property": "C67",
   "status": "partial",
   "theorems": [
    "Fluffy.Props.C67_energy_partial",
    "Fluffy.Props.C67_planes_partial",
    "Fluffy.Props.C67_false"
   ],
   "note": "False as stated: update_collider takes a plane's normal as it is given, and a floor whose normal has length two throws a ball back with nine times the energy although the restitution is zero (C67_false). Proved if contacts have unit normals, or if all planes have; contacts must have finite numbers and not be between two immovable or with a massless body; every entity must have an invertible moment of inertia, or none and no spin, or be immovable and at rest."
  },
  {
   "property": "C68",
   "status": "partial",
   "theorems": [
    "Fluffy.Props.C68_records_partial",
    "Fluffy.Props.C68_history_partial",
    "Fluffy.Props.C68_false",
    "Fluffy.Props.C68_long_false"
   ],
   "note": "False as stated: two balls in the same place make a contact whose normal is NaN (C68_false), and update_collider stores plane normals of any length (C68_long_false). Proved for all pairs of shapes: if the planes have unit normals, every reported normal is a unit vector or not finite; and for all histories in which planes are updated with unit normals only."
  },
  {
   "property": "C69",
   "status": "partial",
   "theorems": [
    "Fluffy.Props.C69_neighbor_order_partial",
    "Fluffy.Props.C69_lone_partial",
    "Fluffy.Props.C69_untied_partial",
    "Fluffy.Props.C69_shape_partial",
    "Fluffy.Props.C69_false",
    "Fluffy.Props.C69_slots_false"
   ],
   "note": "False in full, in two ways: when two colliders of one entity are hit at the same time the one visited first decides, so a run's result depends on the seed of the hasher (C69_false: two balls in the same place with different restitution); and removing an entity with several colliders frees their slots in the order visited, so the handle of the next collider differs (C69_slots_false, in binary32). Proved: the order of neighbour sets never matters (C69_neighbor_order_partial), and no order matters in runs in which no entity carries more than one collider (C69_lone_partial); both for any scalar type, so also for f32. In real arithmetic these two ways are the only ones: no order matters in runs without ties and without removals of entities with several colliders (C69_untied_partial), for which it is enough that every entity carries at most one collider other than null colliders (C69_shape_partial)."
  },
  {
   "property": "C70",
   "status": "partial",
   "theorems": [
    "Fluffy.Props.C70_point_complete",
    "Fluffy.Props.C70_slide_complete",
    "Fluffy.Props.C70_point_reported",
    "Fluffy.Props.C70_corner_partial",
    "Fluffy.Props.C70_reported_partial",
    "Fluffy.Props.C70_false",
    "Fluffy.Props.C70_false_edges",
    "Fluffy.Props.C70_false_chase"
   ],
   "note": "False as stated in three ways: a face that moves onto a corner of a mesh at rest goes through it unreported (C70_false), crossing edges are never looked at (C70_false_edges), and when both meshes move the faces are taken half way through the step, so meshes that never touch are reported (C70_false_chase). Proved: one corner against one convex face is detected exactly unless it stays within the cut-off of the face's plane (C70_point_complete, C70_point_reported), and if it does stay there it is reported when it reaches an edge or before (C70_slide_complete); for a mesh that moves without turning and a mesh at rest, corners of the moving mesh that reach a face are reported not later, and every report is such a corner near a face with that face's normal."
  },
  {
   "property": "C71",
   "status": "proved",
   "theorems": [
    "Fluffy.Props.C71_history",
    "Fluffy.Props.C71_exec",
    "Fluffy.Props.C71_step",
    "Fluffy.Props.C71_view",
    "Fluffy.Props.C71_gravity",
    "Fluffy.Props.C71_history_applies",
    "Fluffy.Props.C71_moves"
   ],
   "note": "Exact arithmetic with infinities and NaN (f32 rounding, which does depend on the distance from the origin, is excluded). Hypotheses: no plane is updated to an infinite normal (update_collider stores the normal as given), and force generators make the same force at the moved point in a moved world, which is proved of gravity."
  },
  {
   "property": "C72",
   "status": "partial",
   "theorems": [
    "Fluffy.Props.C72_false",
    "Fluffy.Props.C72_response_partial",
    "Fluffy.Props.C72_closing_partial",
    "Fluffy.Props.C72_detection_partial",
    "Fluffy.Props.C72_spheres_partial"
   ],
   "note": "False as stated: C72_false gives two reachable scenes that differ by one velocity added to both balls; in one they bounce, in the other no contact is found and they end inside each other, because the contact normal is computed from the first ball's centre at the start of the step. Proved: response and closing speed for all bodies and contacts; detection for planes against anything and balls against boxes; times and place for two balls. Not covered: sphere-mesh and mesh-mesh (which have the same defect or freeze faces at mid-step), sleeping (absolute kinetic energy)."
  },
  {
   "property": "C73",
   "status": "partial",
   "theorems": [
    "Fluffy.Props.C73_partial",
    "Fluffy.Props.C73_false"
   ],
   "note": "C73_partial is the full claim, by induction over any sequence of steps, under one condition on the sleep clocks (the floor sleeps already or has not been quiet for longer than the ball); C73_false shows that without it the ball sinks below any depth, from a state reached through the public interface with default settings."
  },
  {
   "property": "C74",
   "status": "partial",
   "theorems": [
    "Fluffy.Props.C74_two_partial",
    "Fluffy.Props.C74_false"
   ],
   "note": "Binary32 with all roundings: no dependence while no entity carries more than two colliders (C74_two_partial, for all values including NaN, infinities and signed zeros); false from three on: the same calls give total mass 2^24 or 2^24+2 and different positions depending on the hash order (C74_false)."
  },
  {
   "property": "C75",
   "status": "partial",
   "theorems": [
    "Fluffy.Props.C75_integers_partial",
    "Fluffy.Props.C75_false"
   ],
   "note": "Binary32 with all roundings: complete for integer data with relative movement, distance and sum of radii up to 45 (C75_integers_partial); false in general: a head-on collision at high speed goes unreported and the ball flies through (C75_false, a step of a reachable system)."
  },
  {
   "property": "C76",
   "status": "partial",
   "theorems": [
    "Fluffy.Props.C76_falls_asleep",
    "Fluffy.Props.C76_binary32_partial",
    "Fluffy.Props.C76_false"
   ],
   "note": "Exact arithmetic: full bound (C76_falls_asleep). Binary32: twice the bound if threshold + dt <= 2^23 dt (C76_binary32_partial); false otherwise: with steps of 1e-6 and a threshold of 64 a body at rest never falls asleep, since the clock stops at or below 32 (C76_false)."
  },
  {
   "property": "C77",
   "status": "proved",
   "theorems": [
    "Fluffy.Props.C77_removed",
    "Fluffy.Props.C77_added"
   ],
   "note": "Both for removing an existing entity and for adding one; the simulation (Proofs/Apart.lean) is for a whole set of entities that can touch nothing, generic over the number type. Debug messages are not compared."
  },
  {
   "property": "C78",
   "status": "partial",
   "theorems": [
    "Fluffy.Props.C78_false",
    "Fluffy.Props.C78_partial",
    "Fluffy.Props.C78_turned_partial"
   ],
   "note": "False as stated: when the iterations run out everything loses the rest of its movement (C78_false, default limit). Proved in exact arithmetic for steps that do not run out: velocity, angular velocity and position are the same (C78_partial, C78_turned_partial), and the rotation up to 2^-23 for each iteration, since the code drops very small turns (C78_turned_partial)."
  },
  {
   "property": "C79",
   "status": "partial",
   "theorems": [
    "Fluffy.Props.C79_step_partial",
    "Fluffy.Props.C79_partial",
    "Fluffy.Props.C79_false"
   ],
   "note": "Proved for any number type with the laws of zero (instances: exact reals with infinities and NaN, and IEEE binary32), for any number of steps, provided that inverse moments of inertia are finite and collision records hold finite numbers (coincident balls give a NaN normal, see C37). The full statement is false in binary32: a single resting ball of 1e20 kg gets a NaN angular velocity."
  },
  {
   "property": "C80",
   "status": "partial",
   "theorems": [
    "Fluffy.Props.C80_partial",
    "Fluffy.Props.C80_step_partial",
    "Fluffy.Props.C80_from_collider",
    "Fluffy.Props.C80_false"
   ],
   "note": "Proved for exact arithmetic and binary32 alike, with no condition on other bodies or forces: a body of infinite mass without inverse moment of inertia, at rest, stays exactly in place for any number of steps as long as the velocities reported for it are finite (a contact with NaN or overflowing numbers can make them NaN, see C37_false). Which bodies these are: C80_from_collider. False in full: a body whose own mass is infinite and whose collider has a finite mass spins when grazed (C80_false)."
  },
  {
   "property": "C81",
   "status": "proved",
   "theorems": [
    "Fluffy.Props.C81_drift",
    "Fluffy.Props.C81_stuck"
   ],
   "note": "binary32, any number of steps; concrete witness of a body whose movement is lost entirely"
  },
  {
   "property": "C82",
   "status": "proved",
   "theorems": [
    "Fluffy.Props.C82_fall",
    "Fluffy.Props.C82_alike",
    "Fluffy.Props.C82_unequal",
    "Fluffy.Props.C82_terminal"
   ],
   "note": "binary32, any number of steps, one generator; concrete witnesses that bodies of different mass do not fall exactly alike and that gravity stops accelerating"
  },
  {
   "property": "C83",
   "status": "partial",
   "theorems": [
    "Fluffy.Props.C83_added",
    "Fluffy.Props.C83_history_partial",
    "Fluffy.Props.C83_spheres_partial",
    "Fluffy.Props.C83_box_partial",
    "Fluffy.Props.C83_false"
   ],
   "note": "Proved for planes whose normals have components up to 2^62 when added (C83_added with direction, C83_history_partial for every stored plane not changed by update_collider), for two balls with a moderate distance (C83_spheres_partial), and exactly for box surfaces (C83_box_partial). False for longer normals: (0, 2^70, 0) passes validation, the squared length overflows to infinity and the zero vector is stored; a ball falls through that floor (C83_false)."
  },
  {
   "property": "C84",
   "status": "proved",
   "theorems": [
    "Fluffy.Props.C84_exchange",
    "Fluffy.Props.C84_unfelt"
   ],
   "note": "Binary32 with all roundings. C84_exchange: along each axis each body gets the impulse plus friction impulse, respectively its opposite, up to 17/2^25 of the momentum involved. C84_unfelt: not exact, a reachable bounce where the heavy ball's velocity does not change."
  },
  {
   "property": "C85",
   "status": "partial",
   "theorems": [
    "Fluffy.Props.C85_axes_partial",
    "Fluffy.Props.C85_finite_partial",
    "Fluffy.Props.C85_view",
    "Fluffy.Props.C85_gravity",
    "Fluffy.Props.C85_applies",
    "Fluffy.Props.C85_turns",
    "Fluffy.Props.C85_box_false"
   ],
   "note": "False for boxes (C85_box_false: x wins a tie at the rim of a cube). Proved: whole histories of API calls without boxes, in turned axes. Missing: steps from states with infinite or NaN moments of inertia."
  },
  {
   "property": "C86",
   "status": "partial",
   "theorems": [
    "Fluffy.Props.C86_masses_partial",
    "Fluffy.Props.C86_new_partial",
    "Fluffy.Props.C86_same",
    "Fluffy.Props.C86_applies",
    "Fluffy.Props.C86_friction_false",
    "Fluffy.Props.C86_light_false"
   ],
   "note": "False with friction and for bodies below the mass under which forces are ignored (two binary32 runs each). Proved for whole histories without friction, with central forces and no body crossing the cut-off."
  },
  {
   "property": "C87",
   "status": "partial",
   "theorems": [
    "Fluffy.Props.C87_accepts",
    "Fluffy.Props.C87_exact",
    "Fluffy.Props.C87_flat",
    "Fluffy.Props.C87_convex_accepted",
    "Fluffy.Props.C87_convex_partial",
    "Fluffy.Props.C87_false",
    "Fluffy.Props.C87_applies"
   ],
   "note": "Exact condition proved; convex accepted; up to four coplanar points only convex ones; a five-pointed star is accepted (C87_false)."
  },
  {
   "property": "C88",
   "status": "partial",
   "theorems": [
    "Fluffy.Props.C88_parabola_partial",
    "Fluffy.Props.C88_never_on",
    "Fluffy.Props.C88_distance",
    "Fluffy.Props.C88_converges",
    "Fluffy.Props.C88_energy",
    "Fluffy.Props.C88_back",
    "Fluffy.Props.C88_applies",
    "Fluffy.Props.C88_false",
    "Fluffy.Props.C88_back_applies"
   ],
   "note": "C88_parabola_partial: exact velocity and position for any steps. C88_never_on, C88_false: never on the parabola under gravity. C88_converges/C88_distance: distance bound. C88_energy: exact loss of energy. C88_back: a step back. C88_applies, C88_back_applies: hypotheses met for any number of steps."
  },
  {
   "property": "C89",
   "status": "partial",
   "theorems": [
    "Fluffy.Props.C89_exact_partial",
    "Fluffy.Props.C89_masses",
    "Fluffy.Props.C89_sleeper_hangs",
    "Fluffy.Props.C89_false"
   ],
   "note": "C89_exact_partial: the whole course of a body let go, for all masses, thresholds and steps. C89_masses: all masses with earth-like numbers, hypotheses met for any number of steps. C89_sleeper_hangs: a sleeper stays in the air in any arithmetic. C89_false: a body of 1 g hangs for ever, binary32."
  },
  {
   "property": "C90",
   "status": "partial",
   "theorems": [
    "Fluffy.Props.C90_wakes_nobody",
    "Fluffy.Props.C90_hangs_partial",
    "Fluffy.Props.C90_false"
   ],
   "note": "C90_wakes_nobody: only step and update_entity change who sleeps. C90_hangs_partial: a sleeper stays through all calls on others and steps without collisions. C90_false: a ball hangs for ever where its floor was, binary32; also shows the hypotheses of C90_hangs_partial met."
  },
  {
   "property": "C91",
   "status": "partial",
   "theorems": [
    "Fluffy.Props.C91_first_step_partial",
    "Fluffy.Props.C91_applies",
    "Fluffy.Props.C91_false"
   ],
   "note": "C91_first_step_partial: exactly when a woken body sleeps again at the end of the first step. C91_applies: hypotheses met. C91_false: a lifted ball sleeps again after 1/256 s and hangs for ever, binary32."
  },
  {
   "property": "C92",
   "status": "partial",
   "theorems": [
    "Fluffy.Props.C92_coefficient_partial",
    "Fluffy.Props.C92_inelastic",
    "Fluffy.Props.C92_products",
    "Fluffy.Props.C92_false"
   ],
   "note": "C92_coefficient_partial: exactly which coefficient is used and the impulse that results. C92_inelastic: without restitution always the static one. C92_products: constants are products of both materials. C92_false: two runs that show the choice reversed, binary32."
  },
  {
   "property": "C93",
   "status": "partial",
   "theorems": [
    "Fluffy.Props.C93_slip_first",
    "Fluffy.Props.C93_slip_second",
    "Fluffy.Props.C93_rolls_partial",
    "Fluffy.Props.C93_runs",
    "Fluffy.Props.C93_grows",
    "Fluffy.Props.C93_yielding",
    "Fluffy.Props.C93_applies",
    "Fluffy.Props.C93_false"
   ],
   "note": "Exact law for the slip at one contact in both orders; convergence to rolling, with a geometric rate, whenever the yielding 1/m + l^2/i is below 2, without reversal if it is at most 1. C93_runs: the same for whole runs of the step function on level ground, with the velocity v - S/(mK) the ball ends up with. False beyond 2: small slips grow (C93_grows), and a 1 kg ball of radius 1 with the code's moment of inertia slips at 7/4 m/s for ever (C93_false)."
  },
  {
   "property": "C94",
   "status": "partial",
   "theorems": [
    "Fluffy.Props.C94_run",
    "Fluffy.Props.C94_slope",
    "Fluffy.Props.C94_partial",
    "Fluffy.Props.C94_stays_iff",
    "Fluffy.Props.C94_slides",
    "Fluffy.Props.C94_creeps",
    "Fluffy.Props.C94_false"
   ],
   "note": "C94_run: the exact velocity, spin and place of a ball on an immovable plane after any number of steps, as long as neither falls asleep. On a slope, from rest, without moment of inertia: C94_slope, closed form C94_creeps; C94_stays_iff: it stays exactly if its mass is min(1, mu/steepness); C94_partial: mass 1 stays. False for all heavier bodies (C94_slides, C94_false with the settings of a new system)."
  },
  {
   "property": "C95",
   "status": "partial",
   "theorems": [
    "Fluffy.Props.C95_partial",
    "Fluffy.Props.C95_no_mesh_partial",
    "Fluffy.Props.C95_mesh_panics",
    "Fluffy.Props.C95_false"
   ],
   "note": "True as long as no step panics (C95_partial), so always where there are no meshes (C95_no_mesh_partial). False for meshes: against a body with a mesh whose position is not a number every other mesh makes the search panic (C95_mesh_panics), so that the whole step is lost (C95_false, a binary32 run). Missing from the full statement: entities that are neighbours of the lost one, and generators that look at other entities. An infinite but not NaN value is not covered. A sleeping body with a NaN velocity is healed by the next step and is therefore not covered."
  },
  {
   "property": "C96",
   "status": "partial",
   "theorems": [
    "Fluffy.Props.C96_turns_partial",
    "Fluffy.Props.C96_points",
    "Fluffy.Props.C96_applies",
    "Fluffy.Props.C96_hand_stands",
    "Fluffy.Props.C96_false"
   ],
   "note": "Over exact reals. The body turns by w times the total length of those steps in which it turns by more than 2^-22; slower turns are lost, however many steps are made (C96_hand_stands, C96_false). Missing: the turn w T in general, which is false."
  },
  {
   "property": "C97",
   "status": "partial",
   "theorems": [
    "Fluffy.Props.C97_axis_partial",
    "Fluffy.Props.C97_backward",
    "Fluffy.Props.C97_false"
   ],
   "note": "Over exact reals. Right if the box turns about the axis about which it is turned already and stays on one side of half a turn (C97_axis_partial). Past half a turn the box is taken to turn backward, the long way round (C97_backward); a concrete contact of a ball with a cube is reported on the far side of the cube with the normal the wrong way (C97_false). Not covered: turns about other axes, where the interpolated pose is an approximation."
  },
  {
   "property": "C98",
   "status": "partial",
   "theorems": [
    "Fluffy.Props.C98_room_partial",
    "Fluffy.Props.C98_ball_partial",
    "Fluffy.Props.C98_false"
   ],
   "note": "False in general: a spinning ball leaves the room in one step (C98_false), and one that sleeps on a wall sinks (C73_false). Proved for runs of any length in a room with any number of walls for balls without spin that cannot be made to spin (their mass is their own, or their sphere is without friction and everything else is a plane): in any company if the contacts are sound and nobody is put to sleep while they touch, and for one ball and walls without any hypothesis on the contacts if bodies are not put to sleep."
  },
  {
   "property": "C99",
   "status": "partial",
   "theorems": [
    "Fluffy.Props.C99_partial",
    "Fluffy.Props.C99_false",
    "Fluffy.Props.C99_order",
    "Fluffy.Props.C99_marbles"
   ],
   "note": "False in two ways: a ball that is overtaken by a faster one, and comes first in the order of handles, is passed through if it moves more than its radius before the contact, because the normal is computed from where it was at the start of the step (C99_false; the contact is found if the handles are swapped, C99_order); and small balls (radius 5 cm) at 31 cm/s move into one another until their centres coincide, because the discriminant is below EPSILON, whereupon the normal is NaN (C99_marbles). Proved: in a step without contacts no two awake balls that were apart went through one another, unless they are slow, graze, or the first is chased."
  }
 ]
}