{"id": "C01", "title": "Handles are never reused", "statement": "Every handle returned by add_entity, add_collider or add_unary_force_generator differs from every handle of that kind returned earlier in the life of the PhysicsSystem, including handles whose object has been removed since.", "quantifier": "every finite history of API calls, every pair of additions in it", "why_tests_cant": "The arena recycles slots; aliasing could only show after a specific interleaving of insertions and removals, and there are infinitely many.", "anchors": ["src/physics_system.rs: PhysicsSystem::add_entity, add_collider, add_unary_force_generator, remove_entity, remove_collider", "src/types.rs: EntityHandle, ColliderHandle (generational_arena::Index)"]}
{"id": "C02", "title": "A removed handle stays dead", "statement": "Once remove_entity / remove_collider / remove_unary_force_generator has removed an object, its handle never resolves again: get_* gives None, update_* and link_collider give Err, remove_entity gives false, whatever happens afterwards.", "quantifier": "every history after the removal", "why_tests_cant": "Needs an invariant over all later histories, not over a chosen few.", "anchors": ["src/physics_system.rs: get_entity, get_collider, update_entity, update_collider, link_collider, remove_entity"]}
{"id": "C03", "title": "add_entity then get_entity reads back what was stored", "statement": "After add_entity(e) succeeds, get_entity on the returned handle shows e's position, velocity, angular_velocity and own_mass, a total mass equal to own_mass, no colliders, not asleep, and a rotation vector that denotes the same rotation as e.rotation (rotations by at most 2^-22 radians are stored as none); every other entity and every collider is unchanged.", "quantifier": "every system state and every Entity value", "why_tests_cant": "The rotation goes through a quaternion and back; a handful of angles does not cover the wrap-around at pi.", "anchors": ["src/physics_system.rs: add_entity, get_entity", "src/entity.rs: InternalEntity::new_from, make_pub", "src/orientation.rs: Orientation::new, rotation_vec"]}
{"id": "C04", "title": "add_collider then get_collider reads back what was stored", "statement": "After add_collider(c) succeeds, get_collider on the returned handle yields a collider of the same kind with the same public fields (a plane's normal replaced by its unit vector) attached to no entity; every other collider and every entity is unchanged.", "quantifier": "every system state and every collider value of each of the five kinds", "why_tests_cant": "Five kinds times arbitrary field values and arbitrary prior state.", "anchors": ["src/physics_system.rs: add_collider, get_collider", "src/null_collider.rs, src/sphere_collider.rs, src/plane_collider.rs, src/mesh_collider.rs, src/aligned_box_collider.rs: new_from, make_pub"]}
{"id": "C05", "title": "Additions are rejected exactly when invalid, and rejection has no effect", "statement": "add_entity fails exactly when own_mass is negative; add_collider fails exactly when the collider's is_valid() is false (negative or NaN mass, radius not above 0.05, near-zero plane normal, mesh without a face, box with a side not above EPSILON). A failed addition leaves the system unchanged.", "quantifier": "every system state and argument", "why_tests_cant": "NaN and boundary values make the exact acceptance set easy to get wrong.", "anchors": ["src/physics_system.rs: add_entity, add_collider", "is_valid of each collider"]}
{"id": "C06", "title": "update_entity stores what it is given and touches nothing else", "statement": "update_entity(h, e) succeeds exactly when h is live and e.own_mass is not negative. On success the entity's velocity, angular velocity and own mass are e's, its set of colliders is unchanged, and no collider and no other entity's pose, velocity or mass changes. On failure nothing changes.", "quantifier": "every reachable system state, handle and Entity value", "why_tests_cant": "Frame conditions range over every other object in the system.", "anchors": ["src/physics_system.rs: update_entity", "src/entity.rs: InternalEntity::update_from"]}
{"id": "C07", "title": "update_collider stores what it is given and touches nothing else", "statement": "update_collider(h, c) succeeds exactly when h is live, c has the same kind as the stored collider and c is valid. On success get_collider(h) shows c's fields with the link unchanged; no other collider changes and only the linked entity's mass properties may change. On failure no collider changes.", "quantifier": "every reachable system state, handle and collider value", "why_tests_cant": "Frame conditions over all objects, and the kind check has 25 combinations.", "anchors": ["src/physics_system.rs: update_collider", "update_from of each collider"]}
{"id": "C08", "title": "A stored plane normal is always a unit vector", "statement": "The documentation says a plane's normal 'will be normalized when stored into the PhysicsSystem'. So in every reachable state every stored plane collider has a unit normal.", "quantifier": "every reachable state", "why_tests_cant": "An invariant over all histories of add_collider and update_collider.", "anchors": ["src/plane_collider.rs: InternalPlaneCollider::new_from, update_from, PlaneCollider::normal"]}
{"id": "C09", "title": "Entity-to-collider and collider-to-entity links always agree", "statement": "In every reachable state, a collider handle c is in get_entity(e).get_colliders() if and only if get_collider(c) exists and its get_entity() is Some(e). Hence a collider belongs to at most one entity, and no live object refers to a removed one through a link.", "quantifier": "every reachable state, every pair of handles", "why_tests_cant": "Two redundant copies of the relation are maintained by six API calls; only an invariant covers every order of calls.", "anchors": ["src/physics_system.rs: link_collider, remove_entity, remove_collider, update_entity, update_collider, step"]}
{"id": "C10", "title": "link_collider does exactly the requested re-link", "statement": "link_collider(c, t) succeeds exactly when c is live and t is None or a live entity. On success c's entity is t, c is in t's set and in no other entity's set, all other links and all collider data are unchanged. On failure nothing at all changes.", "quantifier": "every reachable state and every argument pair, including re-linking to the current entity", "why_tests_cant": "Depends on the prior link of c; must hold for all states.", "anchors": ["src/physics_system.rs: link_collider"]}
{"id": "C11", "title": "remove_entity removes the entity and exactly its colliders", "statement": "remove_entity(h) returns true exactly when h was live; then h and every collider that was linked to it are gone, every other entity and every other collider is still there unchanged. It never panics.", "quantifier": "every reachable state and handle", "why_tests_cant": "The number of linked colliders is unbounded and removal recurses through remove_collider.", "anchors": ["src/physics_system.rs: remove_entity, remove_collider"]}
{"id": "C12", "title": "remove_collider removes one collider and updates its entity", "statement": "remove_collider(c) removes c, and only c; if c was linked, its entity no longer lists c and its mass properties are recomputed without c. It never panics.", "quantifier": "every reachable state and handle", "why_tests_cant": "The unit tests only remove unlinked colliders; the statement ranges over linked ones too.", "anchors": ["src/physics_system.rs: remove_collider", "src/entity.rs: recalculate_mass"]}
{"id": "C13", "title": "The reported total mass is always own mass plus linked collider masses", "statement": "In every reachable state get_entity(e).get_last_total_mass() equals e's own mass plus the masses of its linked colliders, and is infinite if one of those is infinite.", "quantifier": "every reachable state and entity", "why_tests_cant": "The total is a cache, recomputed at five places; staleness shows only for particular call orders.", "anchors": ["src/entity.rs: recalculate_mass, get_total_mass", "src/physics_system.rs: update_entity, update_collider, link_collider"]}
{"id": "C14", "title": "Changing the colliders never moves an entity's local space", "statement": "Linking, unlinking or updating colliders leaves the world position of the local origin (get_last_orientation().local_origin_in_world()), the rotation, the velocity and the angular velocity of every entity unchanged, so every local point keeps its world position.", "quantifier": "every reachable state with finite numbers and every collider operation", "why_tests_cant": "Position and origin offset are both rewritten; the cancellation must hold for all rotations and mass distributions.", "anchors": ["src/entity.rs: recalculate_mass", "src/orientation.rs: position_into_world, direction_into_local"]}
{"id": "C15", "title": "An entity's position is its centre of mass", "statement": "After any link, unlink or update, an entity whose linked colliders have positive finite total mass has position equal to the mass-weighted mean of the colliders' centres of mass in world space; otherwise its position is its local origin.", "quantifier": "every entity state and every finite family of colliders", "why_tests_cant": "Unbounded number of colliders, arbitrary rotations and masses.", "anchors": ["src/entity.rs: recalculate_mass"]}
{"id": "C16", "title": "Mass properties do not depend on the order colliders are visited or linked", "statement": "The total mass, position, origin offset and moment of inertia computed for an entity are the same for every iteration order of its (randomly seeded) hash set of colliders, in exact arithmetic (C74 is about binary32).", "quantifier": "every permutation of every finite set of colliders", "why_tests_cant": "HashSet iteration order is random per process; tests see one order.", "anchors": ["src/entity.rs: recalculate_mass (HashSet iteration, early break on infinite mass)"]}
{"id": "C17", "title": "The moment of inertia is the parallel-axis sum and is symmetric positive semidefinite", "statement": "The world moment of inertia reported for an entity equals the sum over its colliders of the rotated collider tensor plus mass times (|d|^2 1 - d d^T), d being the collider's centre relative to the entity's position; it is symmetric and positive semidefinite.", "quantifier": "every reachable entity with finite masses (null colliders supplying symmetric positive semidefinite tensors)", "why_tests_cant": "Matrix identity over all rotations, offsets and finite collider families.", "anchors": ["src/orientation.rs: translate_moment_of_inertia, rotate_moment_of_inertia, prep_moment_of_inertia, finalize_moment_of_inertia", "src/entity.rs: recalculate_mass"]}
{"id": "C18", "title": "Sphere and box colliders have the physical centre of mass and inertia tensor", "statement": "A solid sphere of mass m and radius r has tensor (2/5) m r^2 times identity; a box of mass m and sides a,b,c has diagonal m/12 (b^2+c^2, a^2+c^2, a^2+b^2). Both tensors and both centres of mass are those of a body of uniform density, obtained by integration over its points.", "quantifier": "every mass, radius and side lengths", "why_tests_cant": "A wrong exponent agrees with the right one at the radius 1 that every unit test uses.", "anchors": ["src/sphere_collider.rs: get_moment_of_inertia_tensor", "src/aligned_box_collider.rs: get_moment_of_inertia_tensor"]}
{"id": "C19", "title": "Kinetic energy is never negative", "statement": "get_total_energy() is at least zero for every reachable entity with finite numbers, and zero when the entity is at rest.", "quantifier": "every reachable entity", "why_tests_cant": "Quadratic form over all velocities and inertia tensors.", "anchors": ["src/entity.rs: InternalEntity::get_total_energy, Entity::get_total_energy"]}
{"id": "C20", "title": "A negligible time step does nothing", "statement": "step(dt) with |dt| below EPSILON leaves the whole system, including the collision records, unchanged.", "quantifier": "every system state and every such dt", "why_tests_cant": "Quantifies over all states.", "anchors": ["src/physics_system.rs: step"]}
{"id": "C21", "title": "Free flight is semi-implicit Euler", "statement": "If no collision is found during step(dt) and iteration_max is not 0, every awake entity ends with velocity v' = v + a dt, position x' = x + v' dt, and rotation composed with the rotation vector w' dt, where a is the sum of the generated forces over the total mass; no record is written.", "quantifier": "every state and dt in which no pair of colliders is found colliding", "why_tests_cant": "All numbers of entities, generators and velocities.", "anchors": ["src/physics_system.rs: step", "src/orientation.rs: affect_with", "src/unary_force_generator.rs"]}
{"id": "C22", "title": "Gravity accelerates everything equally and exerts no torque", "statement": "With a GravityGenerator of acceleration g, one step changes the pre-collision velocity of every entity with finite total mass above EPSILON by exactly g dt, whatever its mass, leaves angular velocity alone, and does not accelerate entities of zero or infinite mass.", "quantifier": "every entity, mass, g and dt", "why_tests_cant": "Cancellation of mass must hold for all masses.", "anchors": ["src/gravity_generator.rs: make_force", "src/physics_system.rs: step"]}
{"id": "C23", "title": "A force away from the centre of mass yields angular acceleration I^-1 (r x F)", "statement": "doc/physics.md: angular_acceleration = inverse_moment_of_inertia_tensor * (offset X force_vector). So a unary force F at position p changes the angular velocity by I^-1 ((p - x) x F) dt in one step before collisions.", "quantifier": "every force generator, entity and dt", "why_tests_cant": "Only gravity (no offset) is exercised by the tests; agreement must hold for all inertia tensors.", "anchors": ["src/physics_system.rs: step (torque integration)", "doc/physics.md section 3"]}
{"id": "C24", "title": "A sleeping entity does not move", "statement": "During step(dt) an entity that is asleep and is not woken keeps its position, rotation and sleep state exactly, and has zero velocity and angular velocity afterwards, whatever forces act.", "quantifier": "every state, every dt and every set of force generators", "why_tests_cant": "All other objects and forces are arbitrary.", "anchors": ["src/physics_system.rs: step"]}
{"id": "C25", "title": "Entities fall asleep only after enough low-energy time", "statement": "An entity that is awake before step(dt) is asleep after it exactly if its energy at the end of that step is not above energy_sleep_threshold and its accumulated low-energy time is not below sleep_time_threshold. That time is the sum of the dt of the unbroken run of steps whose end energies were not above the threshold (the threshold in force at each step), without the earliest step of the run; steps slept through, steps too short to do anything and being woken neither add to the run nor break it. If the energy threshold is not negative, an entity whose energy is above it at the end of a step is awake.", "quantifier": "every history of steps and other calls", "why_tests_cant": "A statement about whole histories.", "anchors": ["src/physics_system.rs: step (sleep phase)", "src/entity.rs: falling_asleep, falling_asleep_time"]}
{"id": "C26", "title": "Waking one entity wakes exactly its resting cluster, and terminates", "statement": "Waking an entity terminates, leaves awake exactly the previously awake entities plus those reachable from it through neighbour links of finite-mass entities, empties their neighbour sets, removes them from the neighbour sets of the infinite-mass entities they rested on, and never wakes an infinite-mass entity reached that way.", "quantifier": "every neighbour graph, including cycles and duplicates", "why_tests_cant": "Graph traversal with a work queue; needs a termination measure and reachability for all graphs.", "anchors": ["src/entity.rs: InternalEntity::wake_up"]}
{"id": "C27", "title": "Awake entities remember no resting neighbours", "statement": "The documentation of neighbors says it 'should always be empty if the entity isn't asleep', since a remembered neighbour is skipped by collision detection. So in every reachable state an awake entity's neighbour set is empty.", "quantifier": "every reachable state", "why_tests_cant": "Invariant over all histories.", "anchors": ["src/entity.rs: InternalEntity::neighbors", "src/physics_system.rs: step (end of sleep phase)"]}
{"id": "C28", "title": "Writing back an unchanged entity does not wake it", "statement": "update_entity(h, get_entity(h)) leaves a sleeping entity asleep.", "quantifier": "every reachable sleeping entity, every rotation", "why_tests_cant": "Depends on the rotation's quaternion representative; tests use tiny rotations.", "anchors": ["src/physics_system.rs: update_entity", "src/entity.rs: update_from (rotation_delta)"]}
{"id": "C29", "title": "No API call panics", "statement": "No sequence of public calls with valid arguments panics.", "quantifier": "every history", "why_tests_cant": "Absence of panics quantifies over all reachable states.", "anchors": ["src/physics_system.rs: every unwrap/borrow", "src/entity.rs: recalculate_mass, wake_up", "src/collision.rs: get_polygon_normal, collide_sphere_with_polygon_surface"]}
{"id": "C30", "title": "Collision records are bounded, ordered, in range and name live entities", "statement": "After step(dt) with dt > 0 there are at most iteration_max records; their times are non-decreasing and lie between 0 and dt; each names two different live entities.", "quantifier": "every state and dt", "why_tests_cant": "The records accumulate over a loop with floating percentages; ordering must hold for all runs.", "anchors": ["src/physics_system.rs: step, collision_records", "src/collision_record.rs"]}
{"id": "C31", "title": "Restitution law", "statement": "The collision impulse makes the relative velocity along the contact normal exactly minus the product of the restitution coefficients times its value before, for every mass, inertia, contact point and spin, including one infinite mass.", "quantifier": "every pair of entities (positive or one infinite mass), contact point, unit normal and restitution", "why_tests_cant": "Algebraic identity over all parameters; tests check two configurations.", "anchors": ["src/physics_system.rs: calc_collision_impulse, calc_collision_impulse_denominator, apply_collision_impulse"]}
{"id": "C32", "title": "Collisions conserve linear momentum", "statement": "The normal impulse and the friction impulse applied in a collision leave m1 v1 + m2 v2 unchanged.", "quantifier": "every pair of finite positive masses and every contact", "why_tests_cant": "Identity over all parameters.", "anchors": ["src/physics_system.rs: step (collision response)", "src/entity.rs: apply_impulse"]}
{"id": "C33", "title": "Collisions conserve angular momentum", "statement": "The normal impulse and the friction impulse leave the total angular momentum of the pair about any point unchanged when both inertia tensors are invertible.", "quantifier": "every pair, contact and reference point", "why_tests_cant": "Identity over all parameters.", "anchors": ["src/entity.rs: apply_impulse, get_inverse_moment_of_inertia"]}
{"id": "C34", "title": "A frictionless collision never creates energy", "statement": "Under the normal impulse the kinetic energy of the pair changes by (e^2-1)/2 times (normal approach speed)^2 over the impulse denominator: unchanged for restitution 1, never increased for 0 <= e <= 1.", "quantifier": "every pair with invertible inertia (or one immovable partner) and every contact", "why_tests_cant": "Inequality over all parameters.", "anchors": ["src/physics_system.rs: calc_collision_impulse"]}
{"id": "C35", "title": "Friction opposes sliding, within the friction cone, and never reverses it", "statement": "The friction impulse is tangential, directed against the sliding velocity, at most the friction coefficient times the normal impulse, and never makes the contact slide backwards or gain energy.", "quantifier": "every pair, contact and coefficients in [0,1]", "why_tests_cant": "Inequality over all masses; tests use masses near 1.", "anchors": ["src/physics_system.rs: step (friction block)"]}
{"id": "C36", "title": "Infinite-mass entities are immovable", "statement": "A collision of an infinite-mass entity with a finite positive-mass one, and any force generator, leaves the velocity and angular velocity of the infinite-mass entity unchanged.", "quantifier": "every such pair and every step", "why_tests_cant": "Uses IEEE infinity arithmetic on all parameters.", "anchors": ["src/entity.rs: apply_impulse, recalculate_mass", "src/physics_system.rs: step"]}
{"id": "C37", "title": "Finite in, finite out", "statement": "If all numbers given to the system are finite (masses possibly infinite), no position, velocity or rotation ever becomes NaN or infinite.", "quantifier": "every history", "why_tests_cant": "NaN arises only in corner combinations such as two infinite masses or a zero mass.", "anchors": ["src/physics_system.rs: step", "src/entity.rs: apply_impulse", "src/collision.rs: collide_mesh_with_plane"]}
{"id": "C38", "title": "A closed system conserves total momentum over a step", "statement": "Without force generators, over a step in which no entity is asleep, all masses are finite and positive and the velocities after it are finite numbers, the total linear momentum of all entities is unchanged, however many collisions occur.", "quantifier": "every number of entities, colliders, collisions and dt", "why_tests_cant": "Unbounded number of bodies and collisions.", "anchors": ["src/physics_system.rs: step"]}
{"id": "C39", "title": "Range operations are set operations", "statement": "intersect gives exactly the common values, contain gives exactly the smallest range containing both, range(a,b) gives the values between a and b in either order, and a range is empty exactly when it contains no value; NaN bounds mean empty.", "quantifier": "all ranges including empty, single, unbounded", "why_tests_cant": "All bounds, including NaN and infinities.", "anchors": ["src/range.rs: Range::empty, single, range, everything, is_empty, intersect, contain, size"]}
{"id": "C40", "title": "quadratic_zeros solves the inequality it is used for", "statement": "For a > 0 the returned range is exactly the set of t with a t^2 + b t + c <= 0 (up to the documented EPSILON cut-offs), and the degenerate linear and constant cases are handled likewise.", "quantifier": "all coefficients", "why_tests_cant": "Continuum of coefficients with several cut-offs.", "anchors": ["src/range.rs: quadratic_zeros"]}
{"id": "C41", "title": "linear_overlap gives exactly the times of overlap", "statement": "linear_overlap(self, other, v) is exactly the set of t at which other shifted by v t meets self.", "quantifier": "all non-empty ranges, bounded or half-unbounded, and all |v| >= EPSILON", "why_tests_cant": "Continuum of inputs including infinite ends.", "anchors": ["src/range.rs: linear_overlap"]}
{"id": "C42", "title": "Sphere-plane detection is sound, complete and earliest", "statement": "A collision is reported exactly when the moving sphere touches the half-space at some time of the step; the reported time is the earliest such time, the position is the sphere's deepest point at that time and the normal is minus the plane normal.", "quantifier": "all radii, centres, movements, unit normals", "why_tests_cant": "Continuum of geometric configurations.", "anchors": ["src/collision.rs: collide_sphere_with_plane, sphere_plane_overlap_time"]}
{"id": "C43", "title": "Sphere-sphere detection is sound, complete and earliest", "statement": "A collision is reported exactly when the two linearly moving spheres touch or overlap at some time of the step; the reported time is the earliest such time and the position divides the centres in the ratio of the radii.", "quantifier": "all radii, centres and movements", "why_tests_cant": "Continuum of geometric configurations and three EPSILON cut-offs.", "anchors": ["src/collision.rs: collide_sphere_with_sphere", "src/range.rs: quadratic_zeros"]}
{"id": "C44", "title": "The reported normal is the contact normal", "statement": "The normal of every reported collision is a unit vector pointing from the first collider into the second at the contact point at the time of contact.", "quantifier": "all sphere-sphere, sphere-line and sphere-plane configurations", "why_tests_cant": "Tests use head-on hits where wrong and right formulas agree.", "anchors": ["src/collision.rs: collide_sphere_with_sphere, collide_sphere_with_line, collide_sphere_with_plane"]}
{"id": "C45", "title": "Collision does not depend on argument order", "statement": "Swapping the two colliders gives the same times and position and the opposite normal.", "quantifier": "all collider pairs of different kinds, and two spheres", "why_tests_cant": "All configurations.", "anchors": ["src/collision.rs: collide"]}
{"id": "C46", "title": "Exactly the supported pairs collide", "statement": "Two colliders can collide exactly if their kinds are sphere with sphere, plane, mesh or box, or mesh with mesh or plane, in either order: for every other pair (anything with a null collider, plane-plane, box-box, box-plane, box-mesh) nothing is ever reported, and for each of the listed pairs there are valid colliders that are reported.", "quantifier": "all collider pairs and motions", "why_tests_cant": "All shapes and motions.", "anchors": ["src/collision.rs: collide", "README.md table"]}
{"id": "C47", "title": "Mesh collisions report the earliest feature hit", "statement": "The reported sphere-mesh collision is one of the vertex, edge or face hits and none of those is earlier; nothing is reported exactly when no feature is hit. For two meshes the features are the corner points of either mesh against the faces of the other.", "quantifier": "all meshes with any number of vertices, edges, faces", "why_tests_cant": "Unbounded feature lists.", "anchors": ["src/collision.rs: collide_sphere_with_mesh, collide_mesh_with_mesh, collide_mesh_points_with_mesh_faces, EarliestCollisionAccumulator"]}
{"id": "C48", "title": "Mesh-plane detection follows the deepest vertex", "statement": "A mesh-plane collision is reported exactly when the linearly interpolated signed distance of the deepest vertex is not positive at some time of the step; the time is the earliest, the reported position is finite.", "quantifier": "all meshes and motions", "why_tests_cant": "Unbounded vertex lists; flat meshes are a corner case.", "anchors": ["src/collision.rs: collide_mesh_with_plane"]}
{"id": "C49", "title": "Sphere-box collision happens where the box is", "statement": "A reported sphere-box contact means the sphere really touches the box, placed at its position in the entity's local space, at the reported time.", "quantifier": "all boxes, positions and sphere motions", "why_tests_cant": "Continuum; tests use no box position.", "anchors": ["src/collision.rs: collide_sphere_with_aligned_box, collide", "src/aligned_box_collider.rs: position"]}
{"id": "C50", "title": "Mesh building keeps the mesh well formed", "statement": "After any sequence of accepted add_face calls every face has at least three indices and they name, corner by corner, vertices equal to or within EPSILON of the points given; every face and edge index refers to a stored vertex; the edges are exactly the sides of the faces, with the lower index first and never twice; stored vertices are given points, pairwise at least EPSILON apart and each used by a face; face_count is the number of calls; is_valid holds exactly if three vertices are stored, in particular once a face with three corners at least 2 EPSILON apart was added.", "quantifier": "every sequence of faces of any size", "why_tests_cant": "Unbounded sequences with deduplication.", "anchors": ["src/mesh_collider.rs: MeshCollider::add_face, add_edge, add_points, is_valid"]}
{"id": "C51", "title": "Local and world coordinates are inverse rigid transforms", "statement": "position_into_local and position_into_world are inverse to each other and preserve distances; directions likewise, preserving lengths and angles; local_origin_in_world is the image of the origin.", "quantifier": "all orientations and points", "why_tests_cant": "All rotations.", "anchors": ["src/orientation.rs: into_local, into_world, position_into_local, position_into_world, direction_into_local, direction_into_world"]}
{"id": "C52", "title": "Reported collision times lie in the step", "statement": "Every collision reported by collision detection has a non-empty time range within [0,1].", "quantifier": "all collider pairs and motions", "why_tests_cant": "All shapes and motions, with NaN and infinities possible.", "anchors": ["src/collision.rs: collide and helpers"]}
{"id": "C53", "title": "Running out of iterations is reported and only loses time", "statement": "step reports 'Ran out of iterations!' exactly when every allowed iteration handled a collision; then entities have been advanced only up to the last collision. With iteration_max 0 nothing moves.", "quantifier": "every state, dt and iteration_max", "why_tests_cant": "All runs of the loop.", "anchors": ["src/physics_system.rs: step, iteration_max"]}
{"id": "C54", "title": "step changes only motion and sleep state", "statement": "step(dt) never adds or removes entities or colliders, and never changes colliders, links, own masses, total masses, local inertia or origin offsets.", "quantifier": "every state and dt", "why_tests_cant": "Frame condition over all objects and runs.", "anchors": ["src/physics_system.rs: step"]}
{"id": "C55", "title": "Each iteration handles an earliest approaching contact", "statement": "The collision handled in an iteration is a contact of two colliders of different, non-neighbouring entities that are approaching (normal closing speed at least EPSILON), strictly before the end of the remaining time, and no other such contact is earlier.", "quantifier": "every state", "why_tests_cant": "Minimum over all pairs, unbounded numbers of entities and colliders.", "anchors": ["src/physics_system.rs: step (search loop)"]}
{"id": "C56", "title": "A ball does not sink through an immovable floor", "statement": "For a sphere entity above a static infinite-mass plane, one step of any length with any gravity ends with the sphere not below the plane by more than it was before plus EPSILON * dt.", "quantifier": "every radius, mass, position, velocity, gravity, restitution and dt", "why_tests_cant": "Continuum of parameters; the documentation promises things 'should never be able to glitch past' planes.", "anchors": ["src/physics_system.rs: step", "src/collision.rs: collide_sphere_with_plane", "src/plane_collider.rs: PlaneCollider docs"]}
{"id": "C57", "title": "lerp interpolates between its endpoints", "statement": "Orientation::lerp(0,a,b) is the pose a and lerp(1,a,b) is the pose b (as rigid transforms with a's origin offset; turns by at most 2^-22 radians are dropped), and positions are interpolated linearly.", "quantifier": "all orientations", "why_tests_cant": "All rotations.", "anchors": ["src/orientation.rs: lerp"]}
{"id": "C58", "title": "Unary force generators are independent and removable", "statement": "add_unary_force_generator always succeeds; remove returns exactly the stored generator once and None afterwards; a removed generator no longer affects any entity; other generators are unaffected.", "quantifier": "every history", "why_tests_cant": "All interleavings.", "anchors": ["src/physics_system.rs: add_unary_force_generator, remove_unary_force_generator, step"]}
{"id": "C59", "title": "During a step every entity stays on course", "statement": "Throughout the iterations of a step the movement that collision detection looks at is, for every entity, its velocity (and angular velocity) at that moment times the time that is left, and the elapsed and remaining time add up to dt.", "quantifier": "every state, every dt > 0 and every iteration", "why_tests_cant": "An invariant of a loop with arbitrarily many collisions.", "anchors": ["src/physics_system.rs: step (entity_info, linear_movement, time_left)"]}
{"id": "C60", "title": "Sphere-edge detection is sound, complete and earliest", "statement": "A reported contact of a moving sphere with a moving edge is the point of the edge nearest to the centre, at distance at most the radius; and whenever the sphere touches the closed edge during the step, the detectors for the edge and its two end points report a contact exactly at the first time it does.", "quantifier": "all radii, centres, movements and non-degenerate edges", "why_tests_cant": "Continuous geometry: the first root may belong to the line but not to the segment, and the end points must take over exactly where the interior stops.", "anchors": ["src/collision.rs: collide_sphere_with_line, collide_sphere_with_mid_line_segment, collide_sphere_with_sphere"]}
{"id": "C61", "title": "Sphere-box detection misses nothing", "statement": "A moving sphere that at some time of the step has a point in common with a box between its corners, in the box entity's local space, is reported as colliding with it, with a time that is not later.", "quantifier": "all box corners, radii, sphere motions and times", "why_tests_cant": "Continuum of motions; the surfaces, twelve edges and eight corners are handled by separate code paths and the gaps between them are measure-zero to sampling.", "anchors": ["src/collision.rs: collide_sphere_with_aligned_box"]}
{"id": "C62", "title": "Sphere-face detection is sound, complete and earliest", "statement": "For a convex face, the detector reports a contact of a moving sphere with the surface of a moving face exactly when, at the first time the sphere reaches the face's plane, the foot of the perpendicular from the centre lies in the face; it reports that time, that foot and the unit direction from the centre to it.", "quantifier": "all convex polygons with any number of corners, all radii, centres and movements", "why_tests_cant": "Continuum of polygons and motions; the point-in-polygon walk is a loop over any number of edges whose correctness is an invariant over the corners.", "anchors": ["src/collision.rs: collide_sphere_with_polygon_surface, collide_sphere_with_plane"]}
{"id": "C63", "title": "Sphere-mesh detection misses nothing", "statement": "A moving sphere that at some time of the step has a point in common with a moving mesh of convex faces is reported as colliding with it, in both argument orders, with a time that is not later; and at the reported time of any contact the sphere is within the rounding cut-offs of the mesh.", "quantifier": "all meshes of convex faces, all radii and motions, all times of the step", "why_tests_cant": "Continuum of motions and unbounded meshes; the face interiors, edges and vertices are handled by separate code paths, and a miss happens only where they fail to meet.", "anchors": ["src/collision.rs: collide_sphere_with_mesh, collide", "src/mesh_collider.rs: add_face"]}
{"id": "C64", "title": "Contacts of spheres with edges and boxes carry the contact normal", "statement": "The normal reported for a contact of a moving sphere with a mesh edge or an aligned box is the unit vector from the sphere's centre at the reported time to the nearest point of the edge or box, and the reported position is on the box or edge.", "quantifier": "all edges and boxes, radii, centres and movements", "why_tests_cant": "The impulse direction is computed from this normal; the error depends continuously on how far the sphere has moved and on which side of an edge it is, so symmetric test scenes do not show it.", "anchors": ["src/collision.rs: collide_sphere_with_line, collide_sphere_with_mid_line_segment, collide_sphere_with_aligned_box"]}
{"id": "C65", "title": "A free body keeps its energy and its angular momentum", "statement": "Over a step without force generators, an awake entity that no reported contact names keeps its velocity, its angular velocity, its kinetic energy and its angular momentum.", "quantifier": "all reachable systems, poses, moments of inertia, spins, time steps", "why_tests_cant": "The engine turns the moment of inertia with the body but holds the angular velocity; whether angular momentum changes depends on the axis of rotation relative to the principal axes, and round or non-spinning test bodies do not show it.", "anchors": ["src/physics_system.rs: step", "src/entity.rs: get_moment_of_inertia"]}
{"id": "C66", "title": "A closed system conserves total angular momentum over a step", "statement": "Without force generators and with no entity asleep and all masses finite, the sum over all entities of orbital and spin angular momentum about any point is the same after a step as before, whatever collisions happen.", "quantifier": "all systems, numbers of entities and collisions, contact positions, friction and restitution, reference points", "why_tests_cant": "Invariant over unboundedly many simultaneous and successive contacts in one step, with both linear and angular parts compensating each other.", "anchors": ["src/physics_system.rs: step, apply_collision_impulse"]}
{"id": "C67", "title": "Collisions never add energy to a frictionless system", "statement": "Without force generators and without friction, the total kinetic energy after a step is at most that before; it is the same if all restitutions are 1 and no entity is asleep.", "quantifier": "all reachable systems, numbers of entities and collisions, shapes, moments of inertia, time steps", "why_tests_cant": "Energy gain shows only for particular contact geometries and chains of contacts within one step; tests sample a few scenes.", "anchors": ["src/physics_system.rs: step, apply_collision_impulse"]}
{"id": "C68", "title": "Every reported collision normal is a unit vector", "statement": "The normal of every collision a step reports is a vector of length one, whatever the two shapes are and however they are placed, turned and moved.", "quantifier": "all reachable systems, all pairs of shapes, poses, movements, time steps", "why_tests_cant": "Each pair of shapes builds its normal in several ways depending on whether a face, edge or corner is hit first, and normals are turned by interpolated poses; tests visit few of these cases.", "anchors": ["src/collision.rs: collide and all collide_* functions", "src/plane_collider.rs: update_from, new_from", "src/physics_system.rs: step"]}
{"id": "C69", "title": "The same calls give the same results on every run", "statement": "A program that makes the same calls with the same arguments twice gets the same return values and ends in worlds that read the same, although the hash sets that hold an entity's colliders and its neighbours are iterated in an order that differs from run to run.", "quantifier": "all reachable systems, all sequences of calls, all pairs of iteration orders of the hash sets, all force generators that do not look at those orders", "why_tests_cant": "The hasher is seeded at random per process, so a test sees one order per run, and the order only shows when two collisions tie.", "anchors": ["src/physics_system.rs: step, link_collider, unlink_collider, remove_entity", "src/entity.rs: InternalEntity (colliders, neighbors), recalculate_mass", "src/physics_system.rs: wake_up and the sleep pass"]}
{"id": "C70", "title": "Mesh-mesh detection is sound, complete and earliest", "statement": "If the surfaces of two mesh colliders share a point at some time of the step, a contact is reported, at the first such time; and a contact is reported only if they do.", "quantifier": "all pairs of meshes of convex faces, all poses and movements", "why_tests_cant": "Two surfaces can meet corner to face in either direction or edge to edge, at any time and angle; the tests cover one point against one polygon.", "anchors": ["src/collision.rs: collide_mesh_with_mesh, collide_mesh_points_with_mesh_faces, collide_point_with_polygon, get_polygon_normal"]}
{"id": "C71", "title": "Nothing depends on where the origin is", "statement": "A program that makes the same calls with every position it passes moved by one fixed vector gets the same return values, panics at the same calls, and ends in the same world with every position moved by that vector, as long as it gives no plane an infinite normal and its force generators do not look at absolute positions.", "quantifier": "all finite vectors, all sequences of calls, all iteration orders of the hash sets, all shapes, poses, velocities and time steps, in exact arithmetic with infinities and NaN", "why_tests_cant": "Every function that touches a position has to use it only in differences; a single absolute position hides in any test placed near the origin.", "anchors": ["src/collision.rs: all collide_* functions", "src/entity.rs: recalculate_mass, get_velocity_at_world_position, apply_impulse", "src/orientation.rs", "src/physics_system.rs: step, calc_collision_impulse_denominator, every public method"]}
{"id": "C72", "title": "Nothing depends on the velocity of the observer", "statement": "Adding one velocity to every entity changes nothing but that velocity: the same contacts are found at the same times with the same normals, the same impulses are exchanged, and afterwards every velocity is the one found without the addition plus the added velocity.", "quantifier": "all finite velocities, all poses, contacts, masses and shapes, in exact arithmetic with infinities and NaN", "why_tests_cant": "Test scenes have one body at rest; the dependence shows only when both move fast compared with their size, and then as a contact that is silently not there.", "anchors": ["src/collision.rs:298-319 collide_sphere_with_sphere (normal from the centre at the start of the step)", "src/collision.rs:322-344 collide_sphere_with_line", "src/physics_system.rs:443-456, 538-623, 684-719"]}
{"id": "C73", "title": "A ball that lies on an immovable floor stays there", "statement": "A ball at rest that touches an immovable floor, with gravity towards the floor and materials that do not bounce, stays exactly where it is, at rest, through any number of steps, and falls asleep once the steps add up to the sleep time threshold.", "quantifier": "all poses, radii, masses, frictions, plane orientations, gravities, numbers and lengths of steps (with g*dt at least EPSILON), all iteration orders", "why_tests_cant": "It is an invariant of the loop over steps: every step has to end in a state from which the next one holds again, including the ones in which one or both bodies fall asleep and stop being checked against each other.", "anchors": ["src/physics_system.rs:394-633 (the iteration loop)", "src/physics_system.rs:417-430 (neighbours are skipped)", "src/physics_system.rs:639-681 (falling asleep)"]}
{"id": "C74", "title": "In binary32 mass properties do not depend on the order colliders are visited", "statement": "With IEEE binary32 arithmetic, a call that links or updates colliders leaves the same total mass, position and inertia in every iteration order of the hash sets.", "quantifier": "all reachable systems, all collider calls, all pairs of iteration orders, all binary32 values", "why_tests_cant": "HashSet order is random per process and rounding differences only show for particular masses.", "anchors": ["src/entity.rs: recalculate_mass"]}
{"id": "C75", "title": "In binary32 balls that meet during a step are found", "statement": "With IEEE binary32 arithmetic, two linearly moving spheres whose paths (taken exactly) bring them into contact during the step are reported as colliding.", "quantifier": "all binary32 radii, centres and movements", "why_tests_cant": "The discriminant of the quadratic cancels for particular bit patterns only.", "anchors": ["src/collision.rs: collide_sphere_with_sphere", "src/range.rs: quadratic_zeros"]}
{"id": "C76", "title": "What is quiet falls asleep", "statement": "An entity whose energy is not above the sleep threshold at the end of every step falls asleep: with steps of a fixed length dt it is awake after at most sleep_time_threshold/dt + 1 such steps in a row.", "quantifier": "all systems, entities, step lengths, thresholds, numbers of steps; exact arithmetic and binary32", "why_tests_cant": "It is a statement about every run length; in binary32 the clock stops advancing only after millions of steps.", "anchors": ["src/physics_system.rs: step (sleep loop)"]}
{"id": "C77", "title": "What can touch nothing has no influence on the rest", "statement": "If no collider of an entity can collide with a collider of another one, and it is not among anyone's resting neighbours, then with the entity taken away (remove_entity) or before it was added (add_entity, no colliders yet), every sequence of steps leaves all the other entities in exactly the same state and makes the same collision records, bit for bit, provided the force generators have no state and look only at the entity they are asked about (GravityGenerator is one).", "quantifier": "for all number types (binary32 included), all reachable systems, all such entities, all sequences of steps with any time steps and hash orders", "why_tests_cant": "It compares two runs of any length from any state, and the extra entity shifts all the indices of the step's internal lists; a test sees a few scenes.", "anchors": ["src/physics_system.rs:331-682", "src/physics_system.rs:86-103", "src/entity.rs:229-263", "src/collision.rs"]}
{"id": "C78", "title": "What is touched by nothing moves as if it were alone", "statement": "How an entity moves that is in no collision does not depend on what else is in the system: a step moves it exactly as far as it would without the others.", "quantifier": "all systems, entities, step lengths, hash orders", "why_tests_cant": "It compares two systems that differ arbitrarily in everything but one entity.", "anchors": ["src/physics_system.rs:394-633", "src/physics_system.rs:76"]}
{"id": "C79", "title": "A world at rest stays at rest", "statement": "In a system without force generators in which no entity moves, any number of steps of any finite lengths leave every entity at rest, in the same place with the same rotation, and report no collision, also when bodies touch or overlap.", "quantifier": "all systems, any number of entities and colliders, all step lengths, hash orders, exact arithmetic and binary32 with any sin, cos and acos", "why_tests_cant": "It is about every arrangement of resting bodies and any number of steps, and depends on what multiplying zeros by overflowing numbers does.", "anchors": ["src/physics_system.rs:331-682", "src/entity.rs:172-205", "src/orientation.rs:141-151"]}
{"id": "C80", "title": "An immovable body at rest never moves", "statement": "An entity of infinite mass that does not move stays at rest and exactly in its place during any number of steps of any finite lengths, whatever bodies hit it, rest on it or slide along it and whatever forces act.", "quantifier": "all systems, any other entities, colliders and force generators, any number of steps of any finite lengths, hash orders, exact arithmetic and binary32 with any sin, cos and acos", "why_tests_cant": "It is about every possible surrounding of the body and any number of steps, and depends on products of zeros with numbers of any size.", "anchors": ["src/physics_system.rs:331-682", "src/entity.rs:129-226"]}
{"id": "C81", "title": "A free body covers velocity times time up to rounding", "statement": "In binary32 an awake entity that no force acts on and that collides with nothing keeps its velocity exactly, and after n steps that took the time t each of its coordinates is x + v t up to R ((1 + 2^-22)^n - 1), where R is any bound of |x| + |v| t that is at least the smallest normal number and stays below 2^126 when multiplied by (1 + 2^-22)^n.  Far from the origin this error can be the whole movement.", "quantifier": "all systems without force generators, entities, numbers of steps, positive step lengths, hash orders, binary32 with any sin, cos and acos", "why_tests_cant": "Errors of rounding add up over any number of steps; a test sees a few lengths of time near the origin.", "anchors": ["src/physics_system.rs:331-480", "src/entity.rs:140-226"]}
{"id": "C82", "title": "In binary32 all bodies fall alike up to rounding", "statement": "In binary32, with one gravity generator, an awake entity of a mass above EPSILON and up to 2^60 that collides with nothing has after n steps that took the time t a velocity that is v + g t in each component up to R ((1 + 2^-21)^n - 1), where R is any bound of |v| + G t and G any bound of |g| between 2^-60 and 2^60, whatever its mass.  So two bodies let go together differ by at most twice that.  They do differ: not even the first step is independent of the mass.  And the error can be everything: in steps of 1/60 s, gravity of 10 m/s^2 does not accelerate a body beyond 4194304 m/s.", "quantifier": "all systems with one gravity generator, entities, masses, numbers of steps, positive step lengths, hash orders, binary32 with any sin, cos and acos", "why_tests_cant": "A test compares a few masses over a short time with a tolerance; the bound is for all of them and any number of steps, and the failures of exact equality depend on single bits.", "anchors": ["src/gravity_generator.rs:20-28", "src/physics_system.rs:331-420", "src/entity.rs:140-226"]}
{"id": "C83", "title": "In binary32 normals have length one up to rounding", "statement": "In binary32, add_collider stores for a plane the given normal divided by its length, so that the square of the length of the stored normal is one up to 2^-19, for every normal that it accepts; the normal of a contact of two balls has that property too, and the normal of a contact with the surface of a box is exactly one of the six axis directions.", "quantifier": "all histories of calls and all planes added, all balls and boxes, binary32 with any sin, cos and acos", "why_tests_cant": "Overflow and underflow of the squared length happen only at sizes no test uses, and the error bound is over all directions and lengths.", "anchors": ["src/plane_collider.rs:37-52", "src/plane_collider.rs:187-189", "src/collision.rs:298-319", "src/collision.rs:1145-1163"]}
{"id": "C84", "title": "In binary32 a contact conserves momentum up to rounding", "statement": "In binary32, the response to a contact gives the two bodies opposite changes of momentum up to rounding: along each axis the first body's momentum changes by the sum of the impulse and the friction impulse, the second body's by minus that, and the sum of the two changes by at most 17/2^24 of the momentum involved (the larger momentum of the two before, plus the impulses). It is not exact: a light ball that bounces off a heavy one need not change the heavy one's velocity at all.", "quantifier": "all pairs of bodies of masses from 2^-60 to 2^60, all velocities, contacts, restitutions and frictions whose impulses are finite, with up to 2^59 of momentum, binary32 with rounding to nearest", "why_tests_cant": "The bound holds for every combination of masses, velocities and contact data; tests compare a few collisions with a tolerance chosen by eye, and do not find how the error grows with the ratio of the masses.", "anchors": ["src/physics_system.rs:538-623", "src/physics_system.rs:698-719", "src/entity.rs:223-226"]}
{"id": "C85", "title": "No axis is preferred", "statement": "If everything a program hands over (positions, rotations, velocities, normals, vertices, tensors, accelerations) is given in axes turned by a quarter turn about the z axis, or by a third of a turn about the diagonal (so that x, y, z change places), every call gives the same answer and everything that is read back is the same, turned: entities, colliders and collision records. All 24 turns that take the axes into each other are made of these two. Boxes take part with their corners turned. In the code boxes break it: when two sides are equally good the first axis wins.", "quantifier": "all programs (sequences of API calls of any length), all iteration orders of the hash sets, all force generators that turn with the axes (gravity does), exact arithmetic with infinities and NaN", "why_tests_cant": "A slip in one component of one cross product, tensor or rotation formula breaks the symmetry only for motions along certain axes; tests use a few hand-picked directions, usually along one axis.", "anchors": ["src/physics_system.rs:331-680", "src/orientation.rs:38-155", "src/entity.rs:129-227", "src/collision.rs:35-740"]}
{"id": "C86", "title": "Only ratios of masses matter", "statement": "Multiplying all masses (and moments of inertia, and the energy threshold for sleep) by the same positive number changes no position, rotation, velocity, time or point of contact and no answer of any call; only masses and impulses read back are multiplied by the number. In the code this holds only without friction, with forces at the centre of mass, and as long as no body crosses the mass below which forces are ignored.", "quantifier": "all programs (sequences of API calls of any length) from all reachable states, all factors, all iteration orders of the hash sets, exact arithmetic with infinities and NaN", "why_tests_cant": "It relates two executions for every factor and every program; tests use masses near one, where a missing or superfluous factor of mass does not show.", "anchors": ["src/physics_system.rs:331-680", "src/physics_system.rs:684-725", "src/entity.rs:129-227"]}
{"id": "C87", "title": "Faces that are accepted are flat convex polygons", "statement": "MeshCollider::add_face accepts a list of points exactly if it has at least three and the normals of all triples of consecutive points, all the way around, agree to a cosine above 1 - 1e-6; it panics on every other list. So every flat strictly convex polygon is accepted, and of the triangles and quadrilaterals in a plane nothing else is. With five or more corners the check lets stars through.", "quantifier": "all lists of points, any arithmetic (exact form: all finite points), any mesh to add to", "why_tests_cant": "A loop that skips one corner, or a test without the absolute value, still accepts every valid face; only bad faces whose single bad corner is the skipped one show the difference.", "anchors": ["src/mesh_collider.rs:200-228"]}
{"id": "C88", "title": "A thrown body follows its parabola", "statement": "A body of finite mass above EPSILON that starts at x with velocity v under the constant gravity g, and meets nothing and stays awake, is after steps of the lengths d1..dn with the sum T at x + v T + g T^2/2 with velocity v + g T, and its energy v^2/2 - g.x is what it was. A step back undoes a step.", "quantifier": "all systems with gravity generators, entities, numbers and lengths of steps (forward or backward), hash orders; exact arithmetic", "why_tests_cant": "A test compares a few runs with a tolerance that hides the first-order error; the exact overshoot holds for any sequence of step lengths.", "anchors": ["src/physics_system.rs:331-420", "src/gravity_generator.rs:20-28", "src/entity.rs:140-226"]}
{"id": "C89", "title": "A body let go in mid-air falls", "statement": "A body of finite mass above EPSILON that is let go at rest under gravity and meets nothing is not put to sleep, and falls for as long as the program runs, whatever its mass.", "quantifier": "all systems with gravity generators, masses, accelerations, thresholds, step lengths, numbers of steps, hash orders; exact arithmetic and binary32", "why_tests_cant": "Tests drop bodies of 1 kg; whether a body hangs depends on mass, gravity, both thresholds and the step length together, and that it hangs for ever needs induction.", "anchors": ["src/physics_system.rs: step (sleep loop)", "src/physics_system.rs:331-420", "src/entity.rs:208-220"]}
{"id": "C90", "title": "A body falls when its support is taken away", "statement": "If the body that a sleeping body rests on is removed, unlinked from its colliders, or otherwise taken away, the sleeping body is woken and falls.", "quantifier": "all reachable systems, sleeping bodies, sequences of calls on other bodies with any number of steps in between, step lengths, hash orders; any arithmetic", "why_tests_cant": "That a body hangs for ever after its floor is gone needs induction over steps, and that no call on another body can wake it needs all calls.", "anchors": ["src/physics_system.rs:94-106 (remove_entity)", "src/entity.rs:229-264 (wake_up)", "src/physics_system.rs:640-675 (sleep loop)"]}
{"id": "C91", "title": "A woken body stays awake for the sleep time", "statement": "A body that is woken, by update_entity or by a collision, is not put to sleep again before it has been at rest for the time threshold.", "quantifier": "all histories without setting the thresholds, sleeping bodies, ways of being woken, step lengths from EPSILON, thresholds, hash orders; exact arithmetic, negation in binary32", "why_tests_cant": "The clock of a sleeper is not visible, and its value when woken depends on the whole history; tests wake bodies only by hits far above the energy threshold.", "anchors": ["src/entity.rs:229-264 (wake_up)", "src/physics_system.rs:640-675 (sleep loop)", "src/physics_system.rs:115-130 (update_entity)"]}
{"id": "C92", "title": "Fast sliding meets dynamic friction, slow sliding static friction", "statement": "The friction of a contact is computed with the product of the two colliders' dynamic coefficients if the sliding is fast compared with the speed along the normal (beyond the ratio threshold, the product of both), and with the product of their static coefficients otherwise, as README.md and doc/physics.md (section 4) say.", "quantifier": "all contacts of bodies with finite numbers, masses (one may be infinite), moments of inertia, spins, materials; exact arithmetic; where the constants come from: any arithmetic; negation in binary32 through the public interface", "why_tests_cant": "No test of the repository uses different static and dynamic coefficients; the switch depends on the ratio of two speeds after the normal impulse.", "anchors": ["src/physics_system.rs:587-606", "src/physics_system.rs:467-474", "doc/physics.md:320-326", "README.md:16"]}
{"id": "C93", "title": "Sliding turns into rolling", "statement": "A ball that touches immovable ground again and again, with friction at every contact, ends up rolling: the velocity of its lowest point along the ground goes to zero, as README.md says (\"sliding will cause rolling\"); and friction never reverses that velocity.", "quantifier": "all balls (any mass, isotropic moment of inertia, radius, velocity, spin), all materials, both orders of the pair, all infinite sequences of contacts with any motion along the normal in between; exact arithmetic", "why_tests_cant": "A limit over infinitely many contacts, for all masses and radii.", "anchors": ["README.md:15", "src/physics_system.rs:562-624", "src/sphere_collider.rs (moment of inertia)"]}
{"id": "C94", "title": "Things stick in place", "statement": "A body that is let go at rest on an incline that is not steeper than the friction coefficient stays in place, step after step, whatever its mass (README.md: \"Basic friction was just implemented, so now things can stick in place\").", "quantifier": "all balls that contacts do not turn (any mass and radius) and all immovable planes with materials that do not bounce, all directions and strengths of gravity, all friction coefficients, all numbers and lengths of steps, all iteration orders, as long as neither body falls asleep; exact arithmetic", "why_tests_cant": "An exact law for runs of any number of steps, for all masses, slopes and coefficients; the body creeps so slowly that a short test with one mass sees nothing.", "anchors": ["README.md:15", "src/physics_system.rs:420-636", "src/physics_system.rs:562-624"]}
{"id": "C95", "title": "A body gone bad does not spoil the rest", "statement": "When the position, rotation, velocity or angular velocity of one entity has become NaN, all other entities go on, step after step, exactly as if that entity did not exist: same positions, velocities and records, no panic (TODO.txt: \"Isolate entities so that one can't bug out and cause all of them to lose all collision\").", "quantifier": "all reachable states, all entities that remember no neighbours and are remembered by none, all collider kinds, all numbers and lengths of steps, all iteration orders, force generators that look only at the entity they push; any arithmetic in which NaN spreads, among them binary32", "why_tests_cant": "It compares two runs of any length from any state with any mixture of shapes, and the bad values arise anywhere in a computation; a test sees one scene.", "anchors": ["TODO.txt:7", "src/collision.rs:35-259", "src/range.rs:88-128", "src/collision.rs:547-559", "src/physics_system.rs:331-682"]}
{"id": "C96", "title": "A spinning body turns at its rate", "statement": "A body that nothing touches keeps its angular velocity w, and after steps of total length T every point fixed to it is where a turn about the axis w by the angle |w| T takes it.", "quantifier": "all systems with gravity generators, bodies, angular velocities, poses, numbers and lengths of steps", "why_tests_cant": "It quantifies over all runs. The code drops turns by at most 2^-22 per step, which is far below what a test that watches a few quick turns can notice, but adds up to any angle.", "anchors": ["src/orientation.rs: affect_with", "src/physics_system.rs: step"]}
{"id": "C97", "title": "Contacts on a turning box are reported where the box is", "statement": "The pose by which a contact found in a box's own space is carried into the world is the pose that the box has at the time of the contact: that at the start of the step, moved and turned by the part of the step's movement and rotation that has passed.", "quantifier": "all poses, movements, rotations during the step, times and points", "why_tests_cant": "The pose is interpolated between two rotation vectors, and the vector of the end pose jumps when the box turns past half a turn. Tests with boxes that turn little from their initial position never meet the jump.", "anchors": ["src/collision.rs: transform_out_of", "src/orientation.rs: lerp, rotation_vec"]}
{"id": "C98", "title": "A ball in a room of planes stays in it", "statement": "A ball that starts on the inner side of any number of immovable planes is still on the inner side of all of them (up to EPSILON plus EPSILON times the time that has passed) after any number of steps of any lengths, at whatever speed it moves and however many walls it hits in one step.", "quantifier": "all numbers and positions of walls, all balls, all step sequences, all force generators", "why_tests_cant": "A test follows one ball through a few bounces. Whether the wall that is missed is the one behind the ball after the iteration limit, in a corner, or after a neighbour has gone to sleep depends on an unbounded history.", "anchors": ["src/physics_system.rs: step, response, check_for_collision", "src/collision.rs: collide_sphere_with_plane", "README.md:33"]}
{"id": "C99", "title": "Balls do not pass through one another", "statement": "Two balls that do not overlap before a step and whose paths in the step meet do not pass through one another: a step that reports no contact leaves no two balls having overlapped on the way.", "quantifier": "all pairs of balls in any company, all positions, movements and radii, all step lengths and force generators", "why_tests_cant": "Whether a contact is found depends on the order of the handles, the speed of the first ball, and cut-offs on the movement per step. Tests with one ball at rest, or listed second, and with large radii never meet the cases that fail.", "anchors": ["src/collision.rs:298 collide_sphere_with_sphere", "src/physics_system.rs: check_for_collision", "src/range.rs: quadratic_zeros", "README.md: It can prevent objects from penetrating"]}
{"id": "C100", "title": "Rotation vectors are added to turn in series", "statement": "The documentation says that adding two rotation vectors exactly maps to applying both rotations in series: a body with the rotation R that nothing touches and that turns with the angular velocity w for the time T has the rotation R + w T afterwards.", "quantifier": "all rotations, angular velocities, numbers and lengths of steps", "why_tests_cant": "Rotations are multiplied as quaternions, which equals the addition of vectors only if the axes are parallel. Tests that turn about one coordinate axis cannot see the difference, and no set of examples shows how large it can become.", "anchors": ["doc/physics.md:161", "src/orientation.rs:141 affect_with", "src/physics_system.rs: step"]}
{"id": "C101", "title": "The velocity at a point is how the point moves", "statement": "In a step in which nothing touches it, every point fixed to an awake body moves by the velocity at that point, as get_velocity_at_world_position gives it for the velocity of the step, times dt.", "quantifier": "all poses, velocities, angular velocities, points of the body and lengths of the step, any other bodies and constant gravities", "why_tests_cant": "Contacts are judged by the velocity at a point, but bodies are moved by turning them. The two agree only to first order in the angle of the step; examples with slow bodies do not show it and give no bound.", "anchors": ["src/entity.rs:203 get_velocity_at_world_position", "src/orientation.rs:141 affect_with", "doc/physics.md: angular_velocity X (p - center_of_mass) = linear_velocity_at_p"]}
{"id": "C102", "title": "A dropped ball does not rise above where it was dropped", "statement": "A ball that is dropped at rest onto an immovable floor, under constant gravity and with a restitution of at most 1, never gets higher over the floor than it was at the beginning.", "quantifier": "all restitutions, radii, masses, friction coefficients, heights, gravities, floors, numbers and lengths of steps, iteration orders", "why_tests_cant": "A step adds the whole change of velocity before it looks for contacts, so a bounce gives back more speed than the height explains. How this adds up depends on the restitution and the length of the step; with the default restitution of 1 the height grows from bounce to bounce, slowly enough for a short test not to notice.", "anchors": ["src/physics_system.rs:371 step: velocity += acceleration * dt before the search for collisions", "src/physics_system.rs:698 calc_collision_impulse", "src/physics_system.rs:545 step: the restitution of a pair is the product"]}
{"id": "C103", "title": "A ball put down on a floor comes to rest", "statement": "A ball that is put at rest on an immovable floor that it touches, with a restitution less than 1 and under gravity towards the floor, falls asleep after finitely many steps (README: entities are put to sleep so that they can come fully to rest).", "quantifier": "all restitutions below 1, masses, radii, gravities, thresholds, lengths of the step, iteration orders", "why_tests_cant": "In every step gravity gives the ball a speed that the contact turns round, so it is never at rest after a step. Whether it falls asleep depends on mass, restitution, gravity, step and threshold together; tests use restitution 0 or a single choice, and cannot show that it goes on for ever.", "anchors": ["README.md:17 entities are put to sleep", "src/physics_system.rs:371 step: velocity += acceleration * dt", "src/physics_system.rs: step, falling asleep at the end of the step"]}
{"id": "C104", "title": "Colliding balls leave with the textbook velocities", "statement": "When two smooth balls collide in a step, only the parts of their velocities along the line of their centres at the contact change: the momentum stays and the velocity of approach is reversed times the restitution. Each ball ends the step where its old velocity takes it until the contact and its new one from there on. So of two equal elastic balls of which one rests, the two leave at a right angle, and head-on they exchange their velocities.", "quantifier": "all masses (also an infinite one), radii, restitutions, positions, velocities, times of contact, lengths of the step, iteration orders", "why_tests_cant": "The repository tests single head-on hits with round numbers. There the line of the centres at the contact and the line from where the first ball was at the start of the step are the same; only an oblique hit by a moving first ball shows which of them the code uses.", "anchors": ["src/collision.rs:298 collide_sphere_with_sphere", "src/collision.rs:312 normal = (position - center1).normalize()", "src/physics_system.rs:698 calc_collision_impulse", "src/physics_system.rs:331 step"]}
{"id": "C105", "title": "Edits of different bodies can be made in any order", "statement": "When a program edits two different bodies between two steps, the order of the two edits does not matter: the same calls succeed, and the bodies (which of them sleep, and which neighbours they remember, included), colliders and settings end up the same; only the debug messages may differ, and the next step clears those.", "quantifier": "every reachable state, every two handles of different bodies, all new values for them, and every iteration order of the hash sets", "why_tests_cant": "Each edit may wake a whole cluster of sleeping bodies, and the first wake-up removes links that the second would follow; that the two clusters together come out the same holds by induction over paths in an arbitrary graph of neighbours.", "anchors": ["src/physics_system.rs: update_entity, update_collider", "src/entity.rs: update_from, recalculate_mass, wake_up"]}
{"id": "C106", "title": "What new() makes can be used as it is", "statement": "An entity or collider made with new() and left as it is can be added to every system, reads back with the defaults (at the origin, at rest, awake, linked to nothing, full restitution, friction threshold 1/4, static and dynamic friction 1 and 3/10, a plane facing up, a unit box), and bodies made like this keep finite numbers when they meet.", "quantifier": "every reachable state, every kind of collider, every radius of a ball", "why_tests_cant": "The defaults have to pass the checks of add_collider in every state and for every radius, which a sample of states does not show.", "anchors": ["src/entity.rs: Entity::new", "src/null_collider.rs, src/sphere_collider.rs, src/plane_collider.rs, src/mesh_collider.rs, src/aligned_box_collider.rs: new, is_valid, new_from", "src/physics_system.rs: add_entity, add_collider"]}
{"id": "C107", "title": "Linking a collider and taking it off again leaves no trace", "statement": "When a collider that belongs to nobody is linked to a body and unlinked again, the system is in every respect as it was before: position, origin, mass and moment of inertia of the body included.", "quantifier": "every reachable state, every body, every unlinked collider (of infinite mass as well), every iteration order of the hash sets", "why_tests_cant": "The centre of mass and the moment of inertia move with the link and have to come back exactly, for every set of colliders and every pose; tests compare with a tolerance, on a few bodies.", "anchors": ["src/physics_system.rs: link_collider", "src/entity.rs: new_from, recalculate_mass"]}
{"id": "C108", "title": "What is added and taken away again leaves no trace", "statement": "When a body, a collider, or a body with a collider linked to it is added and removed again, no later program that adds no further bodies or colliders can tell: every later call returns the same, everything that can be read is the same (debug messages aside), after any number of edits, removals and steps, and a later call panics exactly if it would have panicked otherwise.", "quantifier": "every reachable state, every body and collider that is accepted, all later programs without add_entity and add_collider, all iteration orders of the hash sets, every force generator that looks only at the body it acts on (gravity does)", "why_tests_cant": "It relates two runs of every possible later program; tests look at one run at a time, of a few programs.", "anchors": ["src/physics_system.rs: add_entity, remove_entity, add_collider, remove_collider, link_collider, step", "src/entity.rs: wake_up"]}
{"id": "C109", "title": "Writing a collider back as it was read, or linking it where it is linked already, changes nothing", "statement": "If a collider is linked to an entity, then link_collider with the same entity and update_collider with what get_collider returned leave the system exactly as it was: the pose, the mass and the moment of inertia of the entity, and everything else. The same for a collider that belongs to no entity, when it is unlinked once more or written back.", "quantifier": "all reachable systems, all entities and colliders, all orders of iteration", "why_tests_cant": "recalculate_mass moves the entity by the difference between the centre of mass and the position, so it has to be shown that this difference is zero whatever has happened before, for any set of colliders and any pose. And whether it is zero after rounding depends on the numbers: most bodies settle, some go on moving.", "anchors": ["src/physics_system.rs:115-129", "src/physics_system.rs:219-272", "src/physics_system.rs:277-314", "src/entity.rs:129-177"]}
{"id": "C110", "title": "update_entity puts a body where it says, and saying it twice is saying it once", "statement": "After a successful update_entity the body is at the position, in the orientation, with the velocities and the own mass that were passed, although the call recalculates the centre of mass from the linked colliders and may move the body to it; and the same call made once more changes nothing in the whole system (no value, nobody's sleep, no debug message).", "quantifier": "for every reachable system, every body with any colliders linked to it (finite numbers or infinite masses) whose centre of mass is where it belongs, all finite values passed to update_entity, and all iteration orders of the hash sets in both calls", "why_tests_cant": "recalculate_mass moves the body to the centre of mass computed in world space from the new position; that this cancels exactly for all colliders, poses and visiting orders is an identity over all reals that needs the invariant that the stored offset is minus the mean of the colliders. Tests use one collider at the origin and never a copied body.", "anchors": ["src/physics_system.rs:115-129", "src/entity.rs:56-75", "src/entity.rs:100-126", "src/entity.rs:129-176"]}
{"id": "C111", "title": "An elastic collision runs backward", "statement": "When two smooth balls collide without loss during a step and the velocities are turned round at the end of it, a step of the same length takes both back to where they started, with the opposites of the velocities they started with; the contact is at the same place and has the same impulse.", "quantifier": "for all masses, radii, positions, velocities, step lengths, times of contact within the step and iteration orders", "why_tests_cant": "reversibility relates two runs over a continuum of masses, radii, velocities and contact times; it holds only because contact time, impulse and movement after the contact fit together exactly, and an error in any of them shows only where the two balls differ in mass or radius or the hit is oblique. A test compares a few head-on hits with a tolerance.", "anchors": ["src/collision.rs:298 collide_sphere_with_sphere", "src/collision.rs:312 normal = (position - center1).normalize()", "src/physics_system.rs:698 calc_collision_impulse", "src/physics_system.rs:331 step"]}
{"id": "C112", "title": "Work on different colliders can be done in any order", "statement": "Two calls of update_collider or link_collider about different colliders can be made in either order: neither panics, each says the same as in the other order, and the systems that result are equal in every respect.", "quantifier": "all reachable states, all pairs of calls of update_collider and link_collider about different colliders, all iteration orders of the hash sets, any arithmetic", "why_tests_cant": "Tests try a few scenes and a few values; that the calls commute is a claim about all states, all arguments and all hash orders, including refused calls.", "anchors": ["src/physics_system.rs:219 update_collider", "src/physics_system.rs:277 link_collider", "src/entity.rs:129 recalculate_mass"]}
{"id": "C113", "title": "A bouncing ball keeps its course along a level floor", "statement": "A ball that bounces or slides on a level immovable floor, with any restitution and friction, never gets faster along the floor, never turns aside or back, and never gets farther along the floor than it would without the floor.", "quantifier": "all masses, radii, restitutions, friction coefficients, gravities at right angles to the floor, velocities, numbers and lengths of steps, iteration orders", "why_tests_cant": "Friction is a share of the sliding that is taken off and divided by the mass; for balls of 1 kg and more, which tests use, it slows the ball down, and for lighter ones it turns the ball back and makes it faster. That it holds after any number of bounces needs an induction over steps.", "anchors": ["src/physics_system.rs:582 figure out friction and resting", "src/physics_system.rs:591 friction_coefficient", "src/physics_system.rs: step"]}
{"id": "C114", "title": "After a bounce a ball rises to the restitution squared times the height it fell from, at most", "statement": "A ball that is let go at rest at a height h over an immovable floor is never higher than r^2 h after its first bounce, where r is the restitution of the two materials.", "quantifier": "all heights, restitutions below 1, masses, radii, gravities towards the floor (also sloping floors), velocities along the floor, lengths of the step, iteration orders", "why_tests_cant": "The height after a bounce depends on where in the step the contact falls, so that single runs show heights above and below r^2 h. A bound for all heights and step lengths needs the energy of the ball as an invariant.", "anchors": ["src/physics_system.rs:371 step: velocity += acceleration * dt before the search for collisions", "src/physics_system.rs:698 calc_collision_impulse", "src/physics_system.rs:545 step: the restitution of a pair is the product"]}
