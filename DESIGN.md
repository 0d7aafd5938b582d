# Formal model of SimToolbox: design

The deliverable is a Lean 4 model of the logic of `/repo` (wenyan4work/SimToolbox) together with theorems
about it. `properties.jsonl` lists the properties in English, `MANIFEST.json` maps them to theorem names.

## Layout

Lean modules live in `lean/Verif/`:

* `Model/*.lean`: the model, function by function. Every definition cites the file and lines it models and
  says where it simplifies.
* `Spec/*.lean`: small specifications, written without reference to the model's helpers.
* `Lemmas/*.lean`: helper lemmas.
* `Props/*.lean`: the property theorems (one group per file) with, beside each, an `example` showing that a
  concrete non-trivial case meets its hypotheses.

## Trusted base

* Lean's kernel and the axioms `propext`, `Classical.choice`, `Quot.sound` (listed per theorem by
  `Verif/Axioms.lean`, which prints `#print axioms` for all property theorems). No own axioms, no `sorry`,
  no `native_decide`, no `bv_decide`.
* The reading of the C++ source. The code was read as text and never run.
* `double` is modelled by exact real numbers (ℝ). Rounding, overflow, NaN propagation are outside the model,
  except where a definition says otherwise. Division by zero, `sqrt`/`log` of a negative number and
  similar are not allowed to disappear: where the code can divide by zero the model returns a distinct
  outcome or the theorem carries the guard and a separate theorem covers the excluded point.
* `int` is modelled by unbounded `Int`/`Nat` except where the property is about overflow.
* External libraries enter through their documented contract and are parameters or small reference
  definitions: MPI collectives (Alltoall, Alltoallv, Gatherv, Scatterv, Bcast, Allreduce, exclusive scan), `std::stable_sort`,
  Tpetra (matrix apply, vector update, dot, norm2, RowMatrixTransposer, maps), Eigen (`normalized`,
  `FromTwoVectors`, fixed size algebra), Zoltan2 directory, TRNG `split`, yaml-cpp
  lookup, msgpack pack/unpack, VTK readers.
* OpenMP loops whose iterations touch disjoint memory are modelled as maps; where schedules matter the
  model quantifies over the schedule (order of additions, distribution of items over thread queues).

Not modelled: logging (except spdlog's thread pool, circular queue and registry), timing, the parts of FDPS that
SimToolbox does not use (long-range forces, gather and scatter search, reuse of lists, multi walk), preconditioners and GMRES,
the test drivers.

## Plan per property

| id | model | proof |
|----|-------|-------|
| C01 | byte-level encoder, decoder on buffers with explicit out-of-bounds outcome | induction on triplets; per-triplet facts by bit-vector case analysis |
| C02 | same encoder, RFC spec written with 24-bit arithmetic | induction |
| C03 | decoder, `max_input_length` branch | false: negation by witness; partial theorem for what holds |
| C04 | header + payload; `uint32_t` truncation | round trip below 2^32 bytes (partial), negation above |
| C05, C06 | the loops as well-founded recursion over ℝ | invariants; nearest image by comparing with all integer shifts |
| C07 | stable sort of indices + gather | permutation, sortedness, stability for every stable sort result |
| C08 | per-rank sort/count/displacement, Alltoall(v) contract | lists per rank; global multiset conservation |
| C09 | index arithmetic with floor, Gatherv contract | telescoping of floor bounds |
| C10 | `split` as leapfrog index maps | arithmetic on residues |
| C11 | argument loop, three parse passes, and reading a value (not the check of its type) | induction over arguments |
| C12 | `readConfig` and the constructor as a function of a partial map | case analysis; unknown boundary type: negation |
| C13-C15 | quaternion formulas over ℝ | algebra, trigonometric addition |
| C16 | three assignments | negation, and what it does instead |
| C17 | byte list + read position, codec contract as parameter | invariant over op lists |
| C18, C19 | componentwise projection and residual | order reasoning; convexity |
| C20 | BBPGD as a loop over abstract operator | loop invariant; exhaustion: negation with witness |
| C21 | APGD with abstract inner loop | loop invariant; zero iterations/stagnation: negation |
| C22 | LCP residual, LCP_BBPGD, LCP_APGD, LCP_mmNewton | equivalences, invariants, negations |
| C23, C24 | operator application on columns | linear algebra; negation for CPMatOp |
| C25 | call histories of the solver object | negation (setup resets), partial for calls after setup |
| C26 | forces via last operator application | partial (converged), negation otherwise |
| C27-C30 | constraint blocks, queue pool, CRS arrays | sums over lists; permutations |
| C31, C32 | the full DCPQuery decision tree with `eps` kept | KKT conditions of a convex quadratic on the unit square |
| C33-C36 | projections and checks over ℝ³ | Cauchy-Schwarz, algebra; singular points as separate theorems |
| C37, C38 | contact kernels and stress formulas | algebra over ℝ³ |
| C39, C40 | target/source loops; search radius | counting; triangle inequality; negation for the typo in `getRSearch` |
| C41 | boundary collection | negation + partial |
| C42 | drag and mobility formulas | `log` estimates, quadratic forms |
| C43 | velocity bookkeeping of a step | partial (no monolayer or no Brownian), negation |
| C44-C47 | output bookkeeping, restart, crash points | arithmetic, refinement, interleavings of file operations |
| C48, C49 | multi-rank id and link bookkeeping | invariants over histories; negations |
| C50 | token-level writer and reader | round trip |
| C51 | min/max reductions | negation + partial |
| C52, C53 | exclusive scans, map concatenation | permutation of `range` |
| C54 | tree bookkeeping | invariant over histories |
| C55, C61 | reductions | algebra, permutation invariance |
| C56 | decision table | case analysis |
| C57 | index layout | list lemmas |
| C58 | directory as map with update-only semantics | refinement; staleness negation |
| C59 | generators as functions of draws | order reasoning |
| C60 | link constraint construction; `Props/LinkBodies.lean` with the directory that all ranks have built | algebra + C06; C58 for the directory |
| C62 | array layouts | lengths |

| C63 | `setup` of the solver, as linear algebra | componentwise identity, C19 |
| C64 | Brownian velocity of one body, Eigen's LLT as the textbook algorithm | Cholesky identity, oddness of the drift |
| C65 | the monolayer part of `prepareStep` | algebra of `FromTwoVectors` |
| C66 | FDPS `adjustPositionIntoRootDomain` with rounding | loop invariants; negation by a rounding witness |
| C67 | FDPS radix sort with an explicit OpenMP schedule | invariant over passes: stable sort of the low digits |
| C68 | Morton keys on `BitVec 64` | bit lemmas, floor of a division by a power of 2 |
| C69 | `Orthotope3` | order reasoning |
| C70 | `LinkCell` on an arbitrary memory, any order of the parents | invariant over the levels, tree as an inductive predicate |
| C71 | `CalcMoment` and `MomentSearchInAndOut` | bottom-up induction over the levels; a hull of a list of particles |
| C72 | the recursive tree walks | induction over the tree; characterisation of the list by leaves, then by particles |
| C73 | `MakeIPGroupShort` | induction over the tree |
| C74, C75 | the loops over shells of images with fuel, `none` if the fuel runs out | the shells are disjoint and cover all displacements; the loop ends because the reach is finite, and no shell before the last is empty |
| C76 | the two steps of the exchange over all ranks, double walk, split into runs of images | invariants of both steps; every close pair is found in the first step or in the second |
| C77 | `setRootCell` with the threads and ranks | bounds per axis |
| C78 | `calcForceAll` over all ranks: keys, radix sort, local trees, exchange, global tree, groups, interaction lists, functor calls, copy back | composition of C67, C68, C70-C73, C76, C77; loop invariants for the force loops |
| C79 | the search for a divisor with a real power as first guess, the sort, the loop for the position of the rank | induction over the axes; the guess is at least 1 |
| C80 | the three sorts and loops of `decomposeDomain` over an array of samples and an array of boxes, `none` for a read outside the array; histories of calls | invariants of the loops over blocks of samples: each block is sorted, cut monotonically, blocks keep their samples |
| C81 | the shuffle, the copy and its undoing | the swaps are undone in reverse order; sums of floors |
| C82 | `exchangeParticle` over all ranks: the search along the axes, in-place partition, send buffer with displacements, both ways of communication with an order of arrival given from outside, uninitialised slots as `none` | invariants of the loops; a permutation argument by counting every particle |
| C83 | `Run`, an inductive set of states: `initialize`, then `prepareStep` after an arbitrary movement of the bodies; wrapping, sampling, decomposition and exchange are those of C66, C80-C82 | induction over the run; composition of C66, C80, C81, C82. Monolayer: a run that moves all bodies into the lowest and one that moves them into the highest domain of a column cannot both be right |
| C84 | `collectPairCollision` as `calcForceAll` (C78) with the functor of C39; particles made by `copyFromFP`, images moved by `setPos` | composition of C78, C40, C37 and C83; the pairs offered are a list without repetition that has all close pairs |
| C85 | `computeForce` of `MixPairInteraction` with the modelled tree (C78): a mixed particle is seen through its two copies | the lists of the calls are given by places without repetition, so that filters of them are permutations; then C57 |
| C86 | `MT.hpp` with 64-bit words, in-place refill and wrapped indices | the specification is the recurrence of MT19937 on an infinite sequence of 32-bit words; induction over calls with the invariant "the array holds 624 consecutive words of the sequence" |
| C87 | `memory_pool.hpp` and `reallocatable_array.hpp` (alloc_mode 1): blocks, segments, emergency buffers, members of the array objects; a fault is a separate outcome | the specification sees only the elements read through `data_`; one invariant (segments tile the pool, each used segment or buffer belongs to exactly one array whose number and pointer agree), shown for each function of the pool with one array "open"; a second invariant (last segment used, or a buffer in use) for the empty pool; concrete programs for what fails |
| C88 | `runStep` and `resolveConstraints` over a list of ranks: distributed vectors are concatenations, the mobility acts on each rank alone, the matrix on all; the parts are the models of C23, C26, C27, C28, C42, C43 and C63 | linearity of the mobility of all ranks, place of a body in the concatenation from its global index, then the parts; specification with rates of separation and sums of forces per body; a witness for monolayers |
| C89 | no new model: the pools that `collectPairCollision` (C84) fills are those of `runStepAll` (C88), and the bodies and images after the step are read off its result | the contact gives two parallel planes between the shapes (first variation along the axes); both axes move by at most the velocity plus the angular velocity times the arm; the rate of the gap is that of the planes; specification with `Separation` of the shapes after the step |
| C90 | no new model: the pools that `collectBoundaryCollision` (C41) fills are those of `runStepAll` (C88) | signed distance to first order with the curvature as bound of the rest, from the recorded normal and nearest point; ends of a body move by the velocity and at most angular velocity times half the length |
| C91 | `Model/Sim.lean`: `Step` puts together the models of `prepareStep`, the numbering, the data directory, the three collections and `runStep`; `Run` is the run from `initialize` or `reinitialize` (C98) on, with bodies and links added between the steps; monolayers in `Model/Layer.lean`. Not in it: output | invariant by induction over `Run`; the theorems C83, C84, C41, C60, C88, C89, C90 for each step; `collectPairCollision` is monotone in its fuel (`Lemmas/Fuel.lean`); a run in which no body is upright is a run of a program that differs only in the projection of upright bodies (`Props/Level.lean`) |
| C92 | `solveBBPGD` of C20 and, for the time step, `runStepAll` of C88 with walls collected as in C90 | convergence: the step sizes are between the inverse curvatures, gradient steps with those contract towards the minimiser (which exists by compactness), and the residual is at most a multiple of the last step; without binding bounds: in an orthonormal basis of eigenvectors (Mathlib's spectral theorem) the components of the gradient are shown to vanish by induction on the number of smaller eigenvalues (`Lemmas/Raydan.lean`, an argument of Raydan and Dai), with bounds that are uniform over all matrices, so that the iterates stay off the bounds; for a diagonal matrix the same argument with bounds, since clipping only shrinks each component of the error and a clipped component has a vanishing step (`Lemmas/Separate.lean`); counterexample: the iterates are followed exactly with rational numbers (`Lemmas/Cycle.lean`) up to the first repetition, checked by evaluation in the kernel, and from there by induction |
| C93 | nothing new: runs of C91, links of C60, steps of C88; `Spec/Springs.lean` says what the ends of bodies are | the multiplier solves the linearised law up to the residual (C88); the ends after the step differ from the linearised ones by the second order of the Rodrigues formula, `2 - 2 cos t - 2 t sin t + t² ≤ t⁴/4`, and the distance by the second order of the norm |
| C94 | `Model/Sim.lean`: runs with `addNewSylinder` and `addNewLink` (model of C48) between the steps; `Spec/Grow.lean` says which bodies fit | induction over the run with the invariant of C91; C48 for one addition |
| C95 | no new code: `Model/Sim.lean` (C91); `Spec/Momentum.lean` says what is summed | forces of a step are `D` times some multipliers (C26); the columns of `D` of a contact or link sum to zero since the arms end on the line of the normal (C84, C85); double sum over bodies and constraints |
| C96 | no new code: `Model/Sim.lean` (C91); `Spec/Motion.lean` is the drag balance, the Brownian velocity and the power | solver velocities are the mobility of solver forces for every outcome (`solved_vel`); mobility splits over ranks and bodies (`mobAll_at`, `mob_at`) and is linear; velocities before the constraints from C43; turn from C13; the drag is positive definite |
| C97 | no new code: `Model/Sim.lean` (C91); `Spec/Work.lean` is the power of forces, the energy of springs and the slack | sum over bodies of unit forces times velocities is the rate of the separation (`unit_power`, `virtual_work`); forces per body from C95; each constraint solved (C88) gives an inequality for its work (`work_le`); drag from C96 |
| C98 | `Model/Sim.lean`: `Resumes` is `reinitialize` over all ranks, a second way for `Run` to begin; `Spec/Resume.lean`: chains of programs (`Life`) | C46 for what the snapshot holds; the invariant of C91 for the resumed state (`resume_inv`); the place of a body in the box is a function of its position (`home`), so both runs start the next step with the same bodies; error of a turn in the angular velocity by comparing quaternions (`chord`, `turn_close`); induction over `Life` with C94 |
| C99 | `Model/CheckErr.lean`: the loop of `checkError` with quotients that can be infinite or NaN, and `std::max` as it treats them | Induction over the values from the end: the largest relative error only remembers what comes after the last 0/0; the sums are those of the specification |
| C100 | `Spec/Layout.lean`: two configurations that simulate the same (`SamePhysics`), a constraint without the numbers of bodies (`forget`) | The keys (id, id, image) of the contacts over all ranks are a list without repetitions that is complete by C84 (`contacts_all`), and a key determines the contact; likewise for links (id, id) and for boundaries; so both lists of constraints are permutations of each other.  For the motion (`Lemmas/Alike.lean`, `Props/Alike.lean`) the equation of motion (C96) and the virtual work (C97) of both steps are tested with the difference of the velocities: the drag on the difference is the work of the differences of the multipliers, which complementarity bounds constraint by constraint |
| C101 | `Model/RandomProblem.lean`: both constructors, the filling of the arrays with writes that can be out of range, column map, product by contract of Tpetra (column indices looked up in the column map), random bounds, report of `test_LCP` | The arrays are the concatenation of the rows (invariant of the two loops); a strictly sorted list without gaps is a range; dropping changes the quadratic form by at most n 1e-7; two concrete matrices for what is false |
| C102 | `Model/FloatStep.lean`: `rotateEquatn`, `normalize` and the move of `stepEuler` with a rounding after every operation | Calculus of relative errors (factors between (1-u)^k and (1-u)^-k) for norms and quotients and of absolute errors for the cancelling sums; left multiplication by a unit quaternion is an isometry, so errors of steps add up; the normalisation of each step bounds the length |
| C103 | `Model/GaussTable1-4.lean` (all literals of the table, as numerators over 10^129), `Model/GaussLegendre.lean` (the assertions and the switch) | A checker on natural numbers that rounds down, with a bound of its rounding, run by the kernel on each case (`decide +kernel`); odd moments vanish by symmetry; linearity for polynomials, positivity of the weights for functions, the squared node polynomial for the order |
| C104 | `Model/CircularQ.lean` (all of `circular_q`, `foreach_pop` of the backtracer) | Representation invariant between the ring and a list, kept by each operation; induction over the operations |
| C105 | `Model/LogPool.lean` (`mpmc_blocking_queue` and `thread_pool` as a transition system over C104's queue, with spurious wakeups) | Simulation by lists, then invariants as sums over the threads: nobody sleeps while there is work that nobody has been told of, terminate messages come last and one per worker, where every message is; a weight that falls with each step |
| C106 | `Model/VolFrac.lean` (`calcVolFrac`) | Volume of a rod from Mathlib's Lebesgue measure: rotation to a coordinate axis, then a cylinder and two half balls (`Lemmas/Volume.lean`); disjoint unions over the bodies; Mathlib's bounds on pi |
| C107 | `Model/Registry.lean` (`Logger`, spdlog's `registry` and the level tests of `logger`) | Invariant of the registry (every logger under its name, the default logger among them) kept by every call; induction over the program |
| C108 | `Model/Dump.lean` (`dumpPoints` on all ranks over one file, with the data of C09's `collectPts`) | Two invariants, before and after the last barrier: before it nobody has written, after it nobody opens and only rank 0 has something to write; a measure for termination |
| C109 | `Model/RunStep.lean`, `Model/Sim.lean` with `Spec/Dilute.lean` (which bodies a constraint touches, how fast it opens under a unit multiplier) | The operator of a dilute step is a diagonal matrix of the responses (`Lemmas/Dilute.lean`); then C92_separate_partial. That a response is positive is dissipation by drag; composed with C91 for runs |
| C110 | `Model/Folders.lean`: a file system below the working directory, path resolution with `.`, `..` and repeated slashes, `mkdir` with `errno`, `makeSubFolder`, opening files; the actions of each rank in phases between collective operations, interleaved in any order | invariant over the reachable states: everything done stays done (entries are never removed), and each action finds the folders it needs because they were made earlier by the same rank or in an earlier phase; the names of files are built as in the code and located by lemmas about path resolution |
| C111 | no new code: `Model/Layer.lean`, `Model/Sim.lean` (C91) | invariant over the run: points of horizontal axes at the height of the plane have horizontal normals and arms (contacts, links, boundaries), so forces are horizontal and torques vertical, the mobility of a lying body keeps that, and a turn about z keeps directors horizontal |
| C112 | `Model/Points.lean`: the generators with a rounding function and the random numbers as parameters | direct; loop invariant for `shiftAndScalePoints` |
| C113 | the step and run of C91; the specification `Spec/Rest.lean` says when no constraint is violated | C84, C90, C93 exactly which constraints are collected; the solver stops at zero (C26); induction over the steps |
| C114 | the step and run of C91; `Spec/Displace.lean` says what a displaced configuration is | C84, C90, C93 exactly which constraints are collected, renaming the images of each body by its periods; then uniqueness of the motion as for C100 |
| C115 | the step and run of C91; `Spec/Rigid.lean` says what a turned or mirrored and displaced configuration is | C84, C90, C93 exactly which constraints are collected; covariance of the distance functions, of the stress formula and of the mobility; then uniqueness of the motion as for C100 |
| C116 | the step and run of C91; `Spec/Rename.lean` says what a renamed configuration is | symmetry of the three contact functions and of the distance query (where its answer is unique or the middle of the parallel part); C84, C90, C93; then uniqueness of the motion as for C100 |
| C117 | the step and run of C91, calcVelocityBrown and stepEuler; `Spec/Units.lean` says what other units are | drag, mobility, force and spring constants scale (Cholesky factors in closed form for the Brownian part); then uniqueness of the motion as for C100, with the solver's condition in the two units |
| C118 | the step and run of C91, DCPQuery, calcVelocityBrown and stepEuler; `Spec/Headless.lean` says what turning over is | DCPQuery with one of its segments reversed case by case (the parameters become 1 - s or 1 - t, the points stay), also for almost parallel segments; then uniqueness of the motion as for C100 |
| C119 | rotating_file_sink and file_helper of spdlog over a map from paths to contents; renaming and opening may fail (`Model/RotatingLog.lean`) | invariant of a run for any failures; without failures the files are the newest chunks of a history that only grows; concrete runs for the two false clauses |
| C120 | dup_filter_sink and dist_sink of spdlog (`Model/DupFilter.lean`); `Spec/DupFilter.lean` has the relation between messages and log | induction on the messages with those left out so far; the relation is shown to be a function; concrete runs for the two false claims |
| C121 | the report of CPSolver::test_LCP about given vectors (`Model/LCPTest.lean`), with NaN as a value of its own | induction on the entries of a rank and on the ranks; a problem of one variable for the false claims |
| C122 | spdlog's load_levels from text to registry (`Model/LoadLevels.lean`), on top of `Model/Registry.lean` | the words of the text by a relation of their own; induction on the items, on the entries of the map in any order, and on the registered loggers |
| C123 | spdlog's create_dir, dir_name and file_helper::open (`Model/CreateDir.lean`), on the file system of `Model/Folders.lean` | induction on the names that are left, the folders made so far being the invariant |
| C124 | spdlog's daily_file_sink (`Model/DailyLog.lean`) | invariant over the messages, given relationally by the earliest time of a span; simulation between the log with and without a limit |
| C125 | the text of the VTK files, character by character (`Model/VtkText.lean`) | a small XML reader as specification (`Spec/Xml.lean`); composition of what it reads, induction over fields, pieces, arrays and characters |
| C126 | spdlog's hourly_file_sink (`Model/HourlyLog.lean`) | simulation by the daily sink of C124 with all times multiplied by 24; induction over the messages for the late ones |
| C127 | spdlog's logger with sinks and backtrace (`Model/LogSinks.lean`) | refinement: the calls of every sink are those of a specification for that sink alone, the queue being a list (C104); induction over the calls |

All of them were expressible; none is `not_applicable`.

## Assumptions about code outside of `/repo`

Each is a parameter, a hypothesis or a small definition; the comment of the definition says so.

* MPI: `MPI_Alltoall(v)`, `Gatherv`, `Scatterv`, `Bcast`, `Allreduce` do what the standard says (`Model/Comm.lean`,
  `Model/PointDist.lean`, `Model/Ids.lean`, `Model/Stats.lean`).  Every order of the partial sums is covered by theorems
  about permutations, in exact arithmetic.
* TRNG: `split(s, n)` is leapfrogging (`Model/Rng.lean`); `U01` numbers lie in [0,1] (hypotheses of C14, C59).
* Tpetra: `apply` of a `CrsMatrix`, the transposer, vector `update`, `norm2`, `dot` (`Model/ConOp.lean`,
  `Model/Collector.lean`, `Model/Mobility.lean`); contiguous maps from local sizes (`Model/TpetraUtil.lean`).
* Belos: GMRES is an arbitrary function of its arguments (`Model/LCP.lean`).
* Eigen: `normalized()` leaves zero alone; `llt()` is the unblocked factorisation (`Model/Mobility.lean`);
  `FromTwoVectors` follows `Quaternion.h` with the singular vector as an arbitrary function, whose being a unit vector
  orthogonal to both arguments is a hypothesis where needed (`Model/Orient.lean`).
* FDPS: the neighbour tree offers every pair within the search radius (hypotheses of C39, `CalcForceAll` in
  `Model/Mix.lean`).  C84 and C85 have no such assumption: there the tree is the modelled one (C78).  `DomainInfo` and `adjustPositionIntoRootDomain`, which are in `/repo`, are modelled (C56, C66).
* Zoltan's directory: update-only map (`Model/Links.lean`).
* yaml-cpp: lookup by key, first occurrence (`Model/Config.lean`); msgpack: a codec that decodes what it encoded and
  says how many bytes it took (hypothesis of C17).
* `printf`/stream extraction of floating point numbers: a printer and a scanner whose composition rounds
  (`Spec/Snapshot.lean`); of integers: modelled (`Model/Text.lean`).
* The VTK reader returns the arrays of all pieces in order (`Model/Snapshot.lean`).
* `std::shuffle` returns a permutation (hypothesis of C48); `std::stable_sort` is Lean's stable merge sort (C07).
* Files: `fopen` truncates, the content between `fopen` and `fclose` is undefined (`Model/Crash.lean`).
* `float` conversion is a function `r32` (C46, C62); values out of range of `float` are not modelled.

## Axioms

`Verif/Axioms.lean` prints them for every theorem named in `MANIFEST.json` during the build.  No theorem depends on more than `propext`,
`Classical.choice` and `Quot.sound`.

## Findings

What the theorems with `_false` in their names, or their companions, show about the code.

* C03: the end mark of the base64 text decodes to a byte of its own, and an exactly fitting buffer overflows by up to two bytes.
* C04: vectors of 2^32 bytes or more get a truncated header.
* C05, C66: wrapping into a periodic box can return the upper bound, or a value below the lower bound, under rounding; it does not end when
  the period is absorbed.
* C09: `rank * nPts` overflows an `int` for large arrays.
* C11: a positional word behind a boolean flag is taken as the value of the flag.
* C12: boundaries of unknown type are dropped without a message.
* C16: `copySwap` copies instead of swapping.
* C17: `Buffer::write` keeps the size in an `int`.
* C19: the residual is not zero at solutions with equal bounds, and is zero at points that are not solutions within 100 epsilons of a bound.
* C20, C22, C26: at the iteration limit `solveBBPGD` and `LCP_BBPGD` return the vector before the last; forces reported belong to
  another vector than the multipliers.
* C21: `solveAPGD` returns the vector of ones if no iteration completes, and divides by zero if it starts there.
* C22: `LCP_mmNewton` tests the residual of the previous iterate.
* C24: `CPMatOp`, `mmNewtonOperator` and `KinvOperator` ignore alpha and beta.
* C25: `setup` resets the control parameters.
* C30: writing the multipliers back twice multiplies the stress twice.
* C32: the mid-point shortcut of `DCPQuery` is wrong for segments (also of unit length) where only a sliver of one, of relative size `2^-52`, has
  perpendiculars that meet the other (`C32_false`). `C32_error_partial` bounds the error by the inverse of that part; `C32_exact_partial` and
  `C32_rods_partial` give a geometric condition under which the code is exact, which `C89_rods_partial` uses in place of the assumption of C89.
* C33, C35, C41: at the centre of a sphere or on the axis of a tube there is no valid projection; no constraint or a wrong one results.
* C36: `check` rejects correct projections of points on the boundary.
* C37, C60: touching axes (ends) give zero normals.
* C40: `getRSearch` adds twice the collision length instead of twice the collision radius: pairs of spheres can be missed.
* C41: short bodies are tested with the wrong radius; rods across an obstacle are missed; an end exactly on a boundary gives NaN.
* C43: in a monolayer the Brownian velocity that moves the bodies is not restricted to the plane.
* C45: `timeSnap < dt` is a remainder by zero; decimal 0.3/0.1 gives a snapshot every two steps.
* C46: restarting with another number of ranks looks into another folder; velocities go through `float`; the seed is reused after a run that
  wrote no snapshot.
* C47: rank 0 writes the restart file without waiting for the other ranks; while it is rewritten it is cut short.
* C49: duplicate links are stored twice; reading links again does not clear the reverse map.
* C50: short bodies lose their direction; eight digits.
* C51: the upper corner of the bounding box starts from the smallest positive number.
* C54, C62: products with the number of bodies overflow an `int` beyond 2^30 (3.6e8) bodies.
* C55, C61: division by zero without bodies (with `KBT = 0`).
* C56: a box with high below low aborts even on axes that are not periodic; a periodic axis of zero extent keeps the huge default extent.
* C58: the directory is never emptied; ids no longer published are still found.
* C59: a fixed length is not compared with the box; a zero direction gives a quaternion of norm sqrt(1/2); the loop over lengths may not end.
* C60: bodies outside of the box get an image that is not the nearest; the status of `find` is ignored.
* C65: a body standing upright gets a quaternion of norm sqrt(1/2).
* C67: the radix sort is only right if the two worksharing loops get the same static schedule and the team has all the threads asked for; the code asks
  for neither.
* C68: a position on the upper face of the root cell gets the key of the opposite face.
* C69: the squared distance to an empty (negative) box is 0.
* C70: a leaf limit of 0 fails; the search for an octant in a range of one particle always says "none".
* C71: coordinates beyond `LARGE_FLOAT` (FLT_MAX/16) give boxes that are too large.
* C74: the loop over shells of images stops at the first shell without an image, so images of boxes outside of the root domain
  are missed; a periodic axis without extent makes it run for ever. The exchange relies on the first image being the
  undisplaced domain when it skips the own rank.
* C75: the search never ends for a position outside of the root domain along a non-periodic axis.
* C76: the start value 9999 of the search for runs of images is a possible image; a radius of 9998 box lengths would be needed.
* C80: with fewer samples than ranks (fewer bodies than ranks) `decomposeDomain` always reads `pos_sample_[-1]`.
* C81: without any body the number of samples is `0/0` converted to `S32`.
* C82: a particle exactly on an upper face of the root domain passes the check of `exchangeParticle`, but `searchWhichDomainParticleGoTo` then
  runs out of the array of domains.  (`applyBoxBC` before it excludes this in exact arithmetic; see C66 for rounding.)
* C83: `prepareStep` projects bodies onto the monolayer after it has distributed them, so with two or more layers of domains bodies end up
  on ranks whose domain they are not in. With one layer of domains everything stays right (`C83_layer`, `C84_layer_partial`).
* C84: a body is never checked against its own periodic images (equal ids), however small the box is.
* `setBoundaryCondition` sets `periodic_axis_[k]` to true but never back to false; `setPosRootDomain` ignores axes without extent.
* C77: if all particles are in one point without search radius and the boundaries are open, the root cell has no extent and
  the factor of the keys is a division by zero.
* `mortonSortGlobalTreeOnly` (FDPS/tree_for_force_impl.hpp:461-466) has `omp parallel` without `for`: all threads write the same
  values to the same places. Formally a data race; the model takes it as one write.
* C87: `MemoryPool::freeMem` reads `cap_per_seg_` out of bounds for arrays without memory (their destructor, and `reserveAtLeast` on them) and for emergency
  buffers. An array that has grown in a parallel region into an emergency buffer and grows again outside of it gives back a buffer that is no more, and its old
  segment stays in use. `reserve` on an array without memory copies from a null pointer. `unifyMem` does not check the number of segments. With emergency buffers freed
  in a parallel region the pool need not be empty at the end, and the assertion of `freeObjectFromMemoryPool` fails.
* C88: the velocity in a monolayer with Brownian motion (C43) has the consequence that a body can pass a contact of its pool in one step although the solver
  reports a residual of zero: the solver is given the projected velocity, and the body is moved with the one that is not projected.
* C89: a body gets no contact with its own periodic images (`gid` equal), so that a body longer than the box can overlap its image without any constraint.
  For rods a converged step still leaves an overlap of up to dt times angular speed times length, since the problem is of first order in dt.
* C92: `solveBBPGD` has no line search and does not converge in general. For the matrix with 1 on and 0.9996 off the diagonal and the vector (-8, -9) its iterates repeat
  with period 4. Such problems arise from a sphere that touches two walls (or bodies) with almost the same normal. The program does not look at the residual after the
  solve and moves the bodies with the velocity of the last iterate, which in the cycle includes the velocity without any constraint force.
* C99: `checkError` compares relative errors with `std::max(error / |true|, max)`. For a value that is zero and has to be zero the quotient is NaN, which then replaces the
  maximum and is itself replaced by the next quotient: all relative errors before are forgotten, and exact values are rejected if the last one is zero. The "average" absolute
  error that is printed and compared is the sum.
* C101: the random problems use column indices that are only right if every column keeps an entry; entries of at most 1e-7 are dropped, which can make the matrix indefinite if no diagonal is added; the quality report of `test_LCP` is perfect for every feasible vector.
* C102: angular velocities below 2^-23 are ignored, so a body that turns slowly never turns at all, however long the run (`C102_slow_false`).
* C103: all 128 cases of the table are right to 1e-75 in every moment.
* C105: a pool with a queue of zero items is accepted and its destructor never returns (`C105_zero_false`). With more than one worker the order of messages may change (`C105_order_false`; spdlog's documentation says so).
* C106: bodies that are short enough to be treated as spheres are counted with the volume of a rod of the same radius, which may be less than a third of the sphere that moves and collides (`C106_sphere_false`).
* C107: whoever holds the default logger of before `setup_mpi_spdlog` goes on printing at its old level (`C107_old_default_false`); `set_default_logger` does not apply the level that was asked for (`C107_new_default_false`); a `logLevel` outside 0 to 7 is undefined behaviour on rank 0 only (`C107_printed`).
* C108: `dumpPoints` compares only the total numbers of points and values, so values can be written beside other points (`C108_shifted_false`). It is the barriers in `collectPts` that keep the ranks from emptying the file late.
* C109: with C92 the picture of the solver is: it converges if the constraints do not share movable bodies (any active set, any conditioning), if no bound binds, or if the problem is well conditioned; two constraints on one body are enough for an endless cycle (`C92_wedge_false`).
* C110: `initialize` has no barrier after rank 0 has created `./result`; a caller that uses the public `writeResult` before the first step has a race (`C110_direct_false`). `makeSubFolder` looks at `errno` before the return value; this is harmless because a failing `mkdir` always sets it, but it accepts a file with the name of the folder (`C110_file_false`).
* C39, C84, C89, C91: two rods of radius 2/5, one starting half a length above the end of the other and leaning away from it, overlap by 3/10. `DCPQuery` makes the distance of their axes 1.1 or more instead of 1/2, because the end that it should look at is missed by one rounding unit. `collide` then records nothing, and in a run of any length the rods stay where they are while the solver reports residual zero (`C39_false`, `C91_rods_false`).
* C112: `randomPoints` and `randomUniformFill` can return the upper end of their half-open intervals (`C112_rounding_false`). `fixedPoints` appends to the vector for 1, 2 and 4 points but empties it otherwise. `randomPoints(n)` makes `(n+1)^3` points, and the same ones in every call and on every rank (the seed is fixed).
* C90, C91: a rod whose ends are outside of a spherical obstacle but whose middle is inside of it makes no constraint and stays there for ever (`C90_obstacle_false`).
* C93: a spring whose ends coincide has a multiplier but no direction; it pushes nothing and never extends (`C93_touching`, `C93_limp_false`: a run of any length).  Rigid links with such ends cannot be solved.
- C116 false: of two almost parallel rods (turned by about 2^-40) the one with the smaller id decides where they touch: DCPQuery compares the slope with `eps` times the squared length of its second segment, so that exchanging the rods moves the contact from the centre of the short rod to its end (`C116_false`).
- C117 false: two numbers with a unit of time are hidden in the code. The random finite difference of calcVelocityBrown turns a rod by a random vector times `delta = dt * 0.1` (SylinderSystem.cpp:1024), a time used as an angle, so that the Brownian velocity of a rod depends on the unit of time (`C117_thermal_false`). And rotateEquatn drops every turn with an angular velocity below `2^-23` per unit of time, however long the step is: a rod that makes half a turn in one step does not turn at all if the unit of time is four times as short (`C117_turn_false`).
- C119: `rotating_file_sink` does not reset `current_size_` after it has rotated in the constructor (spdlog/sinks/rotating_file_sink-inl.h:35-38), so that the first messages may rotate an empty log and push an old file out. When the log cannot be opened again, each message shifts all numbered files although nothing is written.
- C120: `dup_filter_sink` compares texts only (spdlog/sinks/dup_filter_sink.h:79-83): an error with the text of a preceding message of a lower level is left out, also for sinks that did not get the first. The example in its comment (lines 17-33) shows a count of 3 where the code gives 2.
- C121: `test_LCP` finds no errors for feasible vectors that do not solve the problem (the check of complementarity is commented out, Collision/CPSolver.cpp:890-892), nor for vectors of NaN.
- C122: `SPDLOG_LEVEL="*=off,logger1=debug"`, the example of spdlog/cfg/env.h:19-20, turns nothing off. `"debug, "` does nothing because of the blank after the comma. An unrecognised level undoes the level that the same name was given before it. Of several arguments `SPDLOG_LEVEL=` only the last one counts for loggers that are made later.
- C123: `create_dir` also reports success if there is a file of that name. `open` does not look at its result, so that the error is found when the file is opened, five times.
- C124: if the time of the change is not midnight, the change after a start in the hours before it is to a file of the same name. With `truncate` the messages of these hours are lost; with `max_files` 1 the new file itself is removed, and all messages until the next change go to a file without a name.
- C125: names of fields and pieces are not escaped; `"` or `&` in a name gives a header that is not XML. The names that SimToolbox itself uses have none.
- C126: the time of the next change is computed from the clock and not from the message. A message made just before the hour and handled just after it delays the next change by an hour; in the daily sink (C124) by a day.
- C127: a message that was printed when it was logged is printed again in the backtrace, and the backtrace is printed whatever the level of the logger is.

## Tests against wrong programs

`seeded/LOG.jsonl` lists edits of the model that realistic bugs would make, each tried in a scratch copy, with the theorems that no longer
prove.  `theorems_failed` names the declarations whose proofs fail first; `property_theorems_depending_on_them` the property theorems that rest on them.
