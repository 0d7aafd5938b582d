{"id": "C01", "title": "Base64 encode/decode round trip", "statement": "Decoding, with the original byte count as the requested length, the text that kwsysBase64_Encode appends for any byte buffer writes back exactly that buffer and returns its length, reads only inside the encoded text and writes only inside an output buffer of exactly that length, with or without the end mark.", "quantifier": "every byte buffer of every length, every prior content of the output string, both mark_end values", "why_tests_cant": "Byte buffers are unbounded; tests sample a few lengths and contents, and out-of-bounds reads/writes may stay silent.", "anchors": ["Util/Base64.hpp: kwsysBase64_Encode, kwsysBase64_Decode, kwsysBase64_Encode1/2/3, kwsysBase64_Decode3", "Util/Base64.cpp: encode/decode tables"]}
{"id": "C02", "title": "Base64 output shape", "statement": "kwsysBase64_Encode only appends to its output string, returns the number of characters appended, which is 4*ceil(n/3) (plus 4 for an end mark when n is a multiple of 3), and the appended text is the RFC 4648 encoding: standard alphabet, '=' only as final padding.", "quantifier": "every byte buffer, every prior output string, both mark_end values", "why_tests_cant": "Needs every length and every byte value in every position.", "anchors": ["Util/Base64.hpp: kwsysBase64_Encode", "Util/Base64.cpp: kwsysBase64EncodeTable"]}
{"id": "C03", "title": "Base64 decoding of a stream of unknown length", "statement": "Decoding with max_input_length set to the size of the encoded text, as documented for callers that do not know the decoded size, returns the original bytes and writes nothing outside an output buffer that just fits them, for text encoded with the end mark, whose extra characters are documented to stop the decoder.", "quantifier": "every byte buffer of every length", "why_tests_cant": "The failing lengths (multiples of 3 with the mark, one or two byte tails) only corrupt memory or add a byte silently.", "anchors": ["Util/Base64.hpp: kwsysBase64_Decode (max_input_length branch), comment lines 111-120 and 187-195"]}
{"id": "C04", "title": "VTK base64 payload header", "statement": "getBase64FromVector appends text that a reader can split without any outside information: the first 8 characters decode to a 4-byte little-endian count n, and the characters after them decode to exactly n bytes, the bytes of the vector.", "quantifier": "every vector of every element size and length", "why_tests_cant": "The failing case needs a vector of 4 GiB or more.", "anchors": ["Util/Base64.hpp: getBase64FromVector"]}
{"id": "C05", "title": "Periodic wrap into the box", "statement": "findPBCImage(lb,ub,x) terminates for lb<ub and leaves x in [lb,ub), displaced from its old value by an integer multiple of ub-lb; values already in the box are unchanged.", "quantifier": "every lb<ub and every x", "why_tests_cant": "Infinite domain; off-by-one-image errors only show at box faces.", "anchors": ["Util/GeoUtil.hpp: findPBCImage (3 arguments)"]}
{"id": "C06", "title": "Nearest periodic image", "statement": "findPBCImage(lb,ub,x,trg) leaves trg in [lb,ub) and x a periodic image of the old x that is at least as close to trg as every other periodic image (distance at most half a period).", "quantifier": "every lb<ub, every x and trg", "why_tests_cant": "All images of all pairs of points must be compared.", "anchors": ["Util/GeoUtil.hpp: findPBCImage (4 arguments)"]}
{"id": "C07", "title": "Sorting data with tags", "statement": "sortDataWithTag leaves the tags in non-decreasing order, keeps every tag attached to its datum (the list of pairs is permuted) and keeps data with equal tags in their original relative order, for any OpenMP schedule of its copy loops.", "quantifier": "all tag and data vectors of equal length, all loop schedules", "why_tests_cant": "Stability and pairing must hold for all inputs and schedules.", "anchors": ["Util/SortUtil.hpp: sort_indices, sortDataWithTag"]}
{"id": "C08", "title": "All-to-all exchange delivers everything once", "statement": "After exchangeAllToAllV on all ranks, each rank holds exactly the items that any rank addressed to it, each once, ordered by sending rank and in the sender's original order within one sender, and the reported source rank of each received item is the rank that sent it; nothing is lost, duplicated or misdelivered.", "quantifier": "every number of ranks, every data and destination lists with destinations in range", "why_tests_cant": "Every rank count and every routing pattern.", "anchors": ["MPI/CommMPI.hpp: exchangeAllToAllV", "Util/SortUtil.hpp: sortDataWithTag"]}
{"id": "C09", "title": "Distribute then collect gives the points back", "statement": "distributePts splits the points of a replicated array over ranks without splitting one point's coordinates, in rank order, covering each point exactly once; collectPts on the result leaves the original array on rank 0 and nothing elsewhere, collectPtsAll leaves it on every rank.", "quantifier": "every array, every dimension, every rank count", "why_tests_cant": "Rank counts and sizes (including more ranks than points) are unbounded.", "anchors": ["Util/PointDistribution.cpp: distributePts, collectPts, collectPtsAll"]}
{"id": "C10", "title": "Random streams of different threads and ranks never share a draw", "statement": "The generators held by TRngPool for the different (rank, thread) pairs consume pairwise disjoint parts of the one sequence fixed by the seed, together cover it, and each rank/thread's stream is a function of seed, rank count, thread count, rank and thread only.", "quantifier": "every seed, rank count, thread count, number of draws", "why_tests_cant": "Overlap may start after arbitrarily many draws.", "anchors": ["Util/TRngPool.hpp: TRngPool constructor, getU01"]}
{"id": "C11", "title": "Command line parsing", "statement": "cli::Parser::run succeeds only if every required option was given and every given option got the number of values its type takes; on success get(name) yields the value parsed from exactly the command line words assigned to that option, and the default for options not given; a word that belongs to no option is rejected; exchanging two option groups on the command line does not change any value; a positional word is accepted wherever it stands.", "quantifier": "all registered option sets and all argument lists", "why_tests_cant": "Argument lists are unbounded.", "anchors": ["Util/cmdparser.hpp: run, run_and_exit_if_error, get, find, find_default, CmdArgument::parse"]}
{"id": "C12", "title": "Configuration: required and optional keys", "statement": "Constructing SylinderConfig from a file terminates the program when a required key is missing, otherwise every field equals the value in the file if the key is present and its documented default when absent (initBoxLow/High default to simBoxLow/High, timerLevel defaults to logLevel), independent of key order; every entry of the boundaries list yields a boundary of the named type.", "quantifier": "all configuration maps", "why_tests_cant": "2^n presence combinations.", "anchors": ["Sylinder/SylinderConfig.cpp: SylinderConfig::SylinderConfig", "Util/YamlHelper.hpp: readConfig"]}
{"id": "C13", "title": "Orientation update is an exact rotation", "statement": "rotateEquatn(q,omega,dt) keeps a unit quaternion unit and turns the represented direction by exactly the angle |omega|*dt about omega (so the director obeys Rodrigues' formula); turning by dt1 and then dt2 equals turning by dt1+dt2; an angular velocity below float epsilon leaves q unchanged.", "quantifier": "every unit quaternion, angular velocity and time step", "why_tests_cant": "Continuous domain.", "anchors": ["Util/EquatnHelper.hpp: rotateEquatn", "Sylinder/Sylinder.cpp: stepEuler"]}
{"id": "C14", "title": "Random orientation and random points are on their manifolds", "statement": "setUnitRandomEquatn yields a unit quaternion, getRandPointInCircle a point inside the circle, getRandPointOnSphere a point exactly on the sphere, for every value of the uniform draws in [0,1].", "quantifier": "all draws in [0,1], all radii >= 0", "why_tests_cant": "Continuous domain.", "anchors": ["Util/EquatnHelper.hpp: setUnitRandomEquatn", "Util/GeoUtil.hpp: getRandPointInCircle, getRandPointOnSphere"]}
{"id": "C15", "title": "Quaternion kinematics matrix", "statement": "For the matrix psi filled by getPsiMatFromEquatn, psi*omega is tangent to the unit sphere of quaternions (orthogonal to q), psi^T psi is a quarter of |q|^2 times the identity, psi*omega is half the quaternion product (0,omega) q, i.e. the time derivative that rotateEquatn integrates, and getCrossProductMatrix(p) v is p x v.", "quantifier": "all quaternions and vectors", "why_tests_cant": "Continuous domain.", "anchors": ["Util/EquatnHelper.hpp: getPsiMatFromEquatn, getCrossProductMatrix"]}
{"id": "C16", "title": "copySwap swaps", "statement": "copySwap(a,b) exchanges the values of its two arguments.", "quantifier": "all values of all copyable types", "why_tests_cant": "One call on distinct values would show it, but a test with equal values would not; the claim is for all.", "anchors": ["Util/EigenDef.hpp: copySwap"]}
{"id": "C17", "title": "Byte buffer is a FIFO of packed values", "statement": "Values packed into a Buffer with pack and read back with unpack in the same order come back unchanged, for any interleaving of packing and unpacking in which reads never overtake writes.", "quantifier": "all sequences of pack/unpack operations", "why_tests_cant": "Histories are unbounded.", "anchors": ["Util/Buffer.hpp: Buffer::pack, unpack"]}
{"id": "C18", "title": "Bound projection", "statement": "The solver's projection of any vector onto its bounds yields, componentwise, the nearest point of [lb,ub]; it lies within the bounds, changes nothing already inside, is idempotent and never increases distances between two vectors.", "quantifier": "all vectors, all bounds with lb<=ub, all vector lengths", "why_tests_cant": "Continuous domain, unbounded length.", "anchors": ["Constraint/BCQPSolver.cpp: boundProjection"]}
{"id": "C19", "title": "Residual certifies the solution", "statement": "The residual the BCQP solver reports is zero exactly when x solves the bound constrained quadratic program (first order conditions with gradient Ax+b), and then, for symmetric positive semidefinite A, x minimises the objective over the box.", "quantifier": "all A, b, bounds lb<=ub, feasible x", "why_tests_cant": "Unbounded dimension, continuous domain.", "anchors": ["Constraint/BCQPSolver.cpp: checkProjectionResidual"]}
{"id": "C20", "title": "BBPGD result is feasible and reported residual is that of the returned vector", "statement": "Whenever solveBBPGD returns, the vector it leaves in xsol satisfies the bounds and the last residual in the history is the residual of that vector; if it returns because of convergence the residual is below tol; it returns after at most iteMax iterations.", "quantifier": "all operators, right-hand sides, bounds, initial guesses, tolerances and iteration limits", "why_tests_cant": "All executions of an iteration.", "anchors": ["Constraint/BCQPSolver.cpp: solveBBPGD"]}
{"id": "C21", "title": "APGD returns its best iterate", "statement": "Whenever solveAPGD returns, the vector it leaves in xsol is within the bounds and has the smallest residual of all residuals in the history; if the last residual is below tol the returned vector has that residual.", "quantifier": "all operators, right-hand sides, bounds, initial guesses, tolerances, iteration limits", "why_tests_cant": "All executions of an iteration.", "anchors": ["Constraint/BCQPSolver.cpp: solveAPGD"]}
{"id": "C22", "title": "LCP residual and solvers", "statement": "The CPSolver residual is zero exactly when x >= 0, Ax+b >= 0 and they are complementary; a solve that reports convergence leaves a vector whose residual is below the tolerance; the reported residual is that of the returned vector.", "quantifier": "all A, b, initial guesses, tolerances and iteration limits", "why_tests_cant": "All executions of an iteration.", "anchors": ["Collision/CPSolver.cpp: checkResiduePhi, LCP_BBPGD, LCP_APGD, LCP_mmNewton"]}
{"id": "C23", "title": "Constraint operator", "statement": "ConstraintOperator::apply computes Y = alpha*(D^T M D + K^-1) X + beta*Y column by column; for a symmetric positive semidefinite mobility and non-negative K^-1 the operator is symmetric positive semidefinite; it rejects mismatched column counts or maps.", "quantifier": "all D, M, K^-1, X, Y, alpha, beta, all column counts", "why_tests_cant": "Unbounded dimension.", "anchors": ["Constraint/ConstraintOperator.cpp: apply"]}
{"id": "C24", "title": "Operators honour alpha, beta", "statement": "Every Tpetra operator of the library leaves Y = alpha*Op(X) + beta*Y when applied with scalars alpha and beta.", "quantifier": "all X, Y, alpha, beta", "why_tests_cant": "Continuous domain; callers mostly use alpha=1, beta=0 where the defect is invisible.", "anchors": ["Collision/CPSolver.hpp: CPMatOp::apply", "Collision/CPSolver.cpp: mmNewtonOperator::apply", "Constraint/ConstraintOperator.cpp: apply"]}
{"id": "C25", "title": "Solver control parameters are those the user set", "statement": "solveConstraints runs with the tolerance, iteration limit and solver chosen by the most recent call of setControlParams.", "quantifier": "all call histories of setControlParams, setup, reset, solveConstraints", "why_tests_cant": "Depends on call order, all histories.", "anchors": ["Constraint/ConstraintSolver.cpp: setup, reset", "Constraint/ConstraintSolver.hpp: setControlParams"]}
{"id": "C26", "title": "Constraint force split", "statement": "After solveConstraints the unilateral and bilateral forces reported add up to D*gamma for the returned gamma, the bilateral one is the force of the bilateral multipliers only and the unilateral one that of the unilateral multipliers only, and each reported velocity is the mobility applied to the corresponding force.", "quantifier": "all constraint sets, mobilities, solver outcomes", "why_tests_cant": "Unbounded problem sizes, all solver executions.", "anchors": ["Constraint/ConstraintSolver.cpp: solveConstraints"]}
{"id": "C27", "title": "Constraint matrix rows mean gap rate and balanced force", "statement": "For every constraint, the row of D^T that is built maps body velocities to the rate of change of separation n_I.(U_I + W_I x p_I) + n_J.(U_J + W_J x p_J), and D maps multipliers to the force and torque (n, p x n) per body; one-sided constraints touch only body I; power balance holds: velocity . (D gamma) = (D^T velocity) . gamma.", "quantifier": "all constraint lists, velocities, multipliers", "why_tests_cant": "Unbounded numbers of constraints and bodies.", "anchors": ["Constraint/ConstraintCollector.cpp: buildConstraintMatrixVector"]}
{"id": "C28", "title": "Constraint numbering is a bijection shared by build and write-back", "statement": "For any distribution of constraints over thread queues, the local constraint number assigned to each collected constraint is unique, covers 0..n-1 and is the same when the vectors are built and when multipliers are written back, so each constraint receives the multiplier computed for it. clear leaves one empty queue per thread.", "quantifier": "all pools, all queue lengths", "why_tests_cant": "Every distribution over threads.", "anchors": ["Constraint/ConstraintCollector.cpp: buildConIndex, buildConstraintMatrixVector, writeBackGamma, getLocalNumberOfConstraints"]}
{"id": "C29", "title": "Stress totals do not depend on threads", "statement": "sumLocalConstraintStress returns the sum of the stresses of all unilateral and, separately, all bilateral constraints that are two-sided (or all, when one-sided ones are requested), independent of how constraints are spread over thread queues and in which order threads add their part.", "quantifier": "all pools, all schedules", "why_tests_cant": "All interleavings.", "anchors": ["Constraint/ConstraintCollector.cpp: sumLocalConstraintStress"]}
{"id": "C30", "title": "Writing multipliers back is repeatable", "statement": "Writing a multiplier vector back into the constraint blocks leaves each block with that multiplier and with its unit stress times the multiplier, no matter how often it is done.", "quantifier": "all pools, all sequences of write-backs", "why_tests_cant": "Histories of calls.", "anchors": ["Constraint/ConstraintCollector.cpp: writeBackGamma"]}
{"id": "C31", "title": "Point-segment distance", "statement": "DistPointSeg returns the point of the segment nearest to the given point and their distance, also for degenerate segments.", "quantifier": "all points and segments", "why_tests_cant": "Continuous domain.", "anchors": ["Collision/DCPQuery.hpp: DistPointSeg"]}
{"id": "C32", "title": "Segment-segment distance", "statement": "DCPQuery returns parameters in [0,1], the points with these parameters on the two segments and their distance, and no pair of points of the two segments is closer.", "quantifier": "all pairs of segments including parallel, crossing, touching and degenerate ones", "why_tests_cant": "Continuous domain with many degenerate branches.", "anchors": ["Collision/DCPQuery.hpp: DCPQuery::operator(), GetClampedRoot, ComputeIntersection, ComputeMinimumParameters"]}
{"id": "C33", "title": "Sphere boundary projection", "statement": "SphereShell::project returns the point of the sphere nearest to the query, and delta points from it to the allowed side with length equal to the distance from the query to the sphere.", "quantifier": "all centres, radii > 0, queries, inside/outside", "why_tests_cant": "Continuous domain with a singular point.", "anchors": ["Boundary/Boundary.cpp: SphereShell::project"]}
{"id": "C34", "title": "Wall boundary projection", "statement": "Wall::project returns the orthogonal projection of the query on the plane, and delta is along the wall normal with length equal to the distance of the query from the plane.", "quantifier": "all walls with non-zero axis, all queries", "why_tests_cant": "Continuous domain.", "anchors": ["Boundary/Boundary.cpp: Wall::Wall, Wall::project"]}
{"id": "C35", "title": "Tube boundary projection", "statement": "Tube::project returns the point of the cylinder surface nearest to the query, and delta points radially to the allowed side with length equal to the distance from the query to the surface.", "quantifier": "all tubes, queries, inside/outside", "why_tests_cant": "Continuous domain with a singular line.", "anchors": ["Boundary/Boundary.cpp: Tube::Tube, Tube::project"]}
{"id": "C36", "title": "Boundary self-check accepts correct projections and rejects wrong ones", "statement": "For every boundary, check(query, project(query)) holds, and check accepts only points (within its tolerance) on the boundary with delta along the inward direction.", "quantifier": "all boundaries and queries", "why_tests_cant": "Continuous domain.", "anchors": ["Boundary/Boundary.cpp: SphereShell::check, Wall::check, Tube::check"]}
{"id": "C37", "title": "Recorded contacts conserve momentum and angular momentum", "statement": "Every collision constraint recorded between two bodies has unit opposite normals, exerts opposite forces on the two bodies and zero net torque about any point, records the true surface separation of the two bodies, and its initial multiplier guess is feasible.", "quantifier": "all pairs of spheres/spherocylinders, all positions and orientations", "why_tests_cant": "Continuous domain, several branches.", "anchors": ["Sylinder/SylinderNear.hpp: sp_sp, sp_sy, sy_sy", "Constraint/ConstraintBlock.hpp: ConstraintBlock, reverseIJ"]}
{"id": "C38", "title": "Collision stress is symmetric and objective", "statement": "The stress stored for a collision is a symmetric tensor, does not change when the two bodies are exchanged, and does not change when both bodies are translated together, and turns as a tensor when both bodies are turned or mirrored.", "quantifier": "all pairs of bodies with a contact force along the line joining the contact points", "why_tests_cant": "Continuous domain; long tensor formulas.", "anchors": ["Sylinder/SylinderNear.hpp: collideStress, InitializeSyN, InitializeSyGA"]}
{"id": "C39", "title": "Each contact is recorded exactly once", "statement": "For every set of bodies with distinct ids, however targets are grouped and sources ordered by the tree, each unordered pair of bodies whose surfaces are closer than the buffer distance produces exactly one two-sided constraint, and no other pair produces one.", "quantifier": "all body sets, all groupings, all orders", "why_tests_cant": "All orders and groupings.", "anchors": ["Sylinder/SylinderNear.hpp: CalcSylinderNearForce::operator()"]}
{"id": "C40", "title": "Neighbour search radius misses no contact", "statement": "Any two bodies whose surfaces are closer than the recording distance are within the symmetric search radius of each other, so the neighbour search offers the pair to the collision kernel.", "quantifier": "all pairs of bodies, collision size ratios and buffers", "why_tests_cant": "Continuous parameter space.", "anchors": ["Sylinder/SylinderNear.hpp: getRSearch", "Sylinder/SylinderSystem.cpp: prepareStep"]}
{"id": "C41", "title": "Boundary contacts are not missed", "statement": "Any body that penetrates a boundary gets a one-sided constraint with a unit normal, recorded with the true separation of its surface and the boundary.", "quantifier": "all bodies, boundaries", "why_tests_cant": "Continuous domain.", "anchors": ["Sylinder/SylinderSystem.cpp: collectBoundaryCollision"]}
{"id": "C42", "title": "Mobility is symmetric positive definite", "statement": "For every body with positive radius and viscosity the drag coefficients are positive; the 6x6 mobility block built for it is symmetric positive definite, is the inverse of the drag, and is zero for immovable bodies, so an immovable body is not moved by any force, constraint or Brownian kick.", "quantifier": "all lengths, radii, viscosities, orientations", "why_tests_cant": "Continuous domain.", "anchors": ["Sylinder/Sylinder.cpp: calcDragCoeff, isSphere", "Sylinder/SylinderSystem.cpp: calcMobMatrix, calcVelocityBrown"]}
{"id": "C43", "title": "Total velocity is what the constraint solver assumed", "statement": "After a step the velocity with which each body is moved equals the non-constraint velocity given to the constraint solver plus the two constraint velocities; in a monolayer the in-plane restriction applied for the solver also applies to the motion.", "quantifier": "all forces, velocities, Brownian kicks, configurations", "why_tests_cant": "Continuous domain and all flag combinations.", "anchors": ["Sylinder/SylinderSystem.cpp: calcVelocityNonCon, sumForceVelocity, saveForceVelocityConstraints, stepEuler", "Sylinder/SylinderVelocity.md"]}
{"id": "C44", "title": "Snapshot folders partition the snapshots", "statement": "Every snapshot number belongs to exactly one result folder, whose name states the first and last number it holds; consecutive folders are contiguous, and a folder never holds more files than max(400, number of ranks) worth of snapshots.", "quantifier": "all snapshot numbers and rank counts", "why_tests_cant": "Unbounded numbers.", "anchors": ["Sylinder/SylinderSystem.cpp: getResultFolderWithID"]}
{"id": "C45", "title": "Snapshot cadence", "statement": "In a run with time step dt and snapshot interval timeSnap >= dt, results are written exactly at the steps whose number is a multiple of floor(timeSnap/dt), starting with step 0, with consecutive snapshot numbers; the program executes exactly the steps n with n*dt < timeTotal and then terminates.", "quantifier": "all dt, timeSnap, timeTotal", "why_tests_cant": "All parameter values and run lengths.", "anchors": ["Sylinder/SylinderSystem.cpp: getIfWriteResultCurrentStep, runStep, writeResult", "Sylinder/SylinderSystem_main.cpp: main"]}
{"id": "C46", "title": "Restart continues the run", "statement": "Reinitialising from the restart file written at a snapshot yields the step number, snapshot number, body positions, directions, ids, groups, flags and links that the uninterrupted run had right after that snapshot's step, and a random seed not used by an earlier segment of the run.", "quantifier": "all states, all histories of crash/restart", "why_tests_cant": "All histories of restarts.", "anchors": ["Sylinder/SylinderSystem.cpp: reinitialize, writeTimeStepInfo, writeResult, runStep, setInitialFromVTKFile"]}
{"id": "C47", "title": "A crash never leaves the restart file pointing at a missing snapshot", "statement": "At every crash point of a run on any number of ranks, the restart file is absent or names a snapshot all of whose files are completely written.", "quantifier": "all interleavings of the ranks' file operations, all crash points", "why_tests_cant": "Needs every interleaving and crash point.", "anchors": ["Sylinder/SylinderSystem.cpp: writeResult, writeAscii, writeVTK, writeTimeStepInfo"]}
{"id": "C48", "title": "Ids stay unique", "statement": "addNewSylinder gives every new body an id that no existing body on any rank has and no other new body gets, returns to each rank the ids of the bodies it added, and the set of new ids is a contiguous range above the old maximum; uniqueness holds after any sequence of additions.", "quantifier": "all rank counts, all histories of additions", "why_tests_cant": "All histories and all distributions.", "anchors": ["Sylinder/SylinderSystem.cpp: addNewSylinder, getMaxGid"]}
{"id": "C49", "title": "Link maps agree", "statement": "On every rank and after every history of addNewLink and reading links from files, the reverse link map contains (next,prev) exactly as often as the link map contains (prev,next), all ranks hold the same links, and a link added twice is stored once.", "quantifier": "all histories, all ranks", "why_tests_cant": "All histories.", "anchors": ["Sylinder/SylinderSystem.cpp: addNewLink, setLinkMapFromFile"]}
{"id": "C50", "title": "Ascii snapshot round trip", "statement": "Reading back an ascii snapshot restores for every body id, group, movability, radius, length, centre and direction, and the links.", "quantifier": "all bodies and link maps", "why_tests_cant": "Unbounded content.", "anchors": ["Sylinder/Sylinder.cpp: writeAscii", "Sylinder/SylinderSystem.cpp: writeAscii, setInitialFromFile, setLinkMapFromFile"]}
{"id": "C51", "title": "Bounding box contains and touches the bodies", "statement": "calcBoundingBox returns on every rank the smallest box containing both end points of every body on all ranks.", "quantifier": "all body sets, all distributions over ranks", "why_tests_cant": "Continuous domain; the failing quadrant is easy to miss.", "anchors": ["Sylinder/SylinderSystem.cpp: calcBoundingBox"]}
{"id": "C52", "title": "Global indices number the bodies consecutively", "statement": "After updateSylinderMap the global indices of all bodies on all ranks are exactly 0..N-1, each once, consecutive within a rank and increasing with rank; six degrees of freedom per body then tile the mobility map.", "quantifier": "all distributions of bodies over ranks", "why_tests_cant": "All distributions.", "anchors": ["Sylinder/SylinderSystem.cpp: updateSylinderMap", "Trilinos/TpetraUtil.cpp: getTMAPFromLocalSize"]}
{"id": "C53", "title": "Two-block map is a concatenation", "statement": "The map built by getTMAPFromTwoBlockTMAP contains each global index 0..N1+N2-1 exactly once over all ranks, and getTVFromTwoBlockTV puts entry i of the first vector at i and entry j of the second at N1+j.", "quantifier": "all maps, all rank counts", "why_tests_cant": "All distributions.", "anchors": ["Trilinos/TpetraUtil.cpp: getTMAPFromTwoBlockTMAP, getTVFromTwoBlockTV"]}
{"id": "C54", "title": "Neighbour tree capacity", "statement": "Whatever the history of body counts, whenever the neighbour tree is used its capacity is at least the number of bodies, and it is rebuilt only when the number of bodies grew by more than half since it was built; all ranks take the same decision.", "quantifier": "all histories of body counts", "why_tests_cant": "All histories.", "anchors": ["Sylinder/SylinderSystem.cpp: setTreeSylinder", "MPI/MixPairInteraction.hpp: updateTree"]}
{"id": "C55", "title": "Order tensor", "statement": "calcOrderParameter yields the mean director and a symmetric traceless tensor with eigenvalue bounds -1/3..2/3 on unit vectors, independent of how bodies are distributed over ranks.", "quantifier": "all body sets with unit directors, at least one body", "why_tests_cant": "Continuous domain.", "anchors": ["Sylinder/SylinderSystem.cpp: calcOrderParameter"]}
{"id": "C56", "title": "Periodic axes are those configured", "statement": "The domain boundary condition chosen makes axis k periodic exactly if simBoxPBC[k] is set, and the root domain extent is set to the configured one exactly for periodic axes of positive extent; a box with high below low on any axis is rejected.", "quantifier": "all eight flag combinations and all boxes", "why_tests_cant": "Finite for the flags, continuous for boxes.", "anchors": ["Sylinder/SylinderSystem.cpp: setDomainInfo"]}
{"id": "C57", "title": "Mixed target/source interaction", "statement": "MixPairInteraction returns one force per local target in the order of the targets, computed from sources only; each body keeps its position, radius and data through the copies; targets never act as sources nor sources as targets.", "quantifier": "all target and source lists", "why_tests_cant": "Unbounded lists.", "anchors": ["MPI/MixPairInteraction.hpp: updateSystem, computeForce, MixEPI/MixEPJ/MixFP"]}
{"id": "C58", "title": "Data directory finds the latest data", "statement": "ZDD find after buildIndex returns for each requested id the data most recently published under this id by any rank, and reports ids that no rank currently publishes.", "quantifier": "all histories of publish and find on all ranks", "why_tests_cant": "Histories and staleness.", "anchors": ["Trilinos/ZDD.hpp: buildIndex, find"]}
{"id": "C59", "title": "Initial configuration respects its bounds", "statement": "Bodies generated from the configuration have ids 0..N-1 in order, centres in the initial box (in the circular cross-section when requested), lengths below the maximum, and directors along the configured direction for components that are fixed.", "quantifier": "all random draws, all configurations", "why_tests_cant": "Random draws are unbounded.", "anchors": ["Sylinder/SylinderSystem.cpp: setInitialFromConfig, setInitialCircularCrossSection, getOrient"]}
{"id": "C60", "title": "Links act between nearest images as springs with their gap", "statement": "Each link stored for a local body gives exactly one bilateral constraint whose rest separation is the centre-line end distance under the minimum image convention minus both radii and the gap, with opposite unit normals along the connection.", "quantifier": "all bodies, links, periodic boxes", "why_tests_cant": "Continuous domain, all link maps.", "anchors": ["Sylinder/SylinderSystem.cpp: collectLinkBilateral"]}
{"id": "C61", "title": "Reported stress normalisation", "statement": "The stress reported by calcConStress is the sum of the stresses of all two-sided constraints on all ranks divided by the number of bodies times kBT, independent of how bodies and constraints are distributed over ranks.", "quantifier": "all distributions over ranks", "why_tests_cant": "All distributions.", "anchors": ["Sylinder/SylinderSystem.cpp: calcConStress"]}
{"id": "C62", "title": "Output arrays match their declarations", "statement": "Every per-body and per-endpoint array written in a VTP piece has exactly components*count entries and appears with the same name, type and component count in the parallel PVTP header, in the same order.", "quantifier": "all body counts", "why_tests_cant": "All sizes.", "anchors": ["Sylinder/Sylinder.hpp: writeVTP, writePVTP", "Constraint/ConstraintCollector.cpp: writeVTP, writePVTP"]}
{"id": "C63", "title": "The solver's problem is the end-of-step gap", "statement": "The gradient of the problem that ConstraintSolver::setup prepares is, component by component, the constraint gap at the end of the time step divided by dt; and where its residual is zero, each unilateral constraint has a non-negative multiplier and non-negative end gap of which one is zero, and each bilateral constraint whose multiplier is off its bounds has zero end gap (extension of its spring included).", "quantifier": "all constraint matrices, mobilities, gaps, spring constants, velocities and time steps", "why_tests_cant": "Unbounded dimension, continuous domain.", "anchors": ["Constraint/ConstraintSolver.cpp: setup, solveConstraints", "Constraint/ConstraintOperator.cpp: apply"]}
{"id": "C64", "title": "Brownian velocities satisfy fluctuation-dissipation", "statement": "The Brownian velocity of a movable body is a matrix times the translational normal draw plus a drift that is odd in the finite-difference draw, its angular velocity a number times the rotational draw; the resulting covariances are exactly 2 kBT/dt times the translational and rotational mobility of the body.", "quantifier": "all bodies, orientations, time steps, temperatures and draws", "why_tests_cant": "Statistical tests only estimate the covariance for a few shapes; the identity holds for every orientation and aspect ratio.", "anchors": ["Sylinder/SylinderSystem.cpp: calcVelocityBrown"]}
{"id": "C65", "title": "A monolayer keeps bodies in its plane", "statement": "After prepareStep in a monolayer run every body has its centre at the middle height of the box, a unit quaternion, and a horizontal director pointing along the horizontal part of its previous director.", "quantifier": "all bodies and orientations", "why_tests_cant": "Continuous domain; the failing orientation is a single point tests will not hit.", "anchors": ["Sylinder/SylinderSystem.cpp: prepareStep"]}
{"id": "C66", "title": "Bodies are put back into the periodic box", "statement": "applyBoxBC leaves every body with its centre in [low, high) along every periodic axis, moved by a whole number of box lengths, and changes nothing else of any body; along axes that are not periodic nothing changes.", "quantifier": "all boxes, all lists of bodies, all positions", "why_tests_cant": "Continuous domain; the cases at faces and rounding are single points.", "anchors": ["Sylinder/SylinderSystem.cpp: applyBoxBC, setDomainInfo", "FDPS/particle_system.hpp: adjustPositionIntoRootDomain"]}
{"id": "C67", "title": "The parallel radix sort sorts", "statement": "RadixSort::lsdSort leaves in the value array the same elements in order of increasing key, elements of equal key in their original order, and reads and writes only inside its arrays, whatever the number of threads.", "quantifier": "every array, every key width, every number of threads, every OpenMP execution", "why_tests_cant": "Wrong or racy orders depend on the thread schedule; a test sees one schedule.", "anchors": ["FDPS/sort.hpp: RadixSort::lsdSort"]}
{"id": "C68", "title": "Morton keys describe oct-tree cells", "statement": "The key of a position in the root cell is below 2^63; two positions agree in their leading 3*lev key bits exactly when they lie in the same oct-tree cell of level lev, and getCellID(lev, key) is the octant of the position at that level. Holds for every position in the root cell, faces included.", "quantifier": "every root cell, every position, every level up to 21", "why_tests_cant": "Continuous domain; errors in the bit masks show only for special coordinates.", "anchors": ["FDPS/key.hpp: MortonKey"]}
{"id": "C69", "title": "Box operations are geometric", "statement": "contained is membership in the half-open box, overlapped is having a common point, merge gives the smallest box with both, getDistanceMinSQ is the least squared distance between points of the two, shift translates.", "quantifier": "every pair of boxes, every point", "why_tests_cant": "Continuous domain; wrong cases are touching or degenerate boxes.", "anchors": ["FDPS/orthotope3.hpp: Orthotope3"]}
{"id": "C70", "title": "LinkCell builds an oct-tree over the sorted particles", "statement": "For particles sorted by key, LinkCell stays inside its arrays, and builds a tree whose root holds all particles, in which a cell with more than n_leaf_limit particles above the last level has eight children, child j holding exactly the particles of octant j; the level table lists the cells of each level and no two parents share children.", "quantifier": "every sorted list of keys, every leaf limit, every old content of the arrays, every order of the parallel loops", "why_tests_cant": "Unbounded particle numbers and thread schedules.", "anchors": ["FDPS/tree_for_force_utils.hpp: GetPartitionID, LinkCell, LinkCellST", "FDPS/tree.hpp: TreeCell"]}
{"id": "C71", "title": "Boxes of tree cells", "statement": "After CalcMoment the inner box of every cell is the smallest box with the positions of its particles and the outer box the smallest with everything within their search radii; empty cells have empty boxes. The loops stay inside their arrays.", "quantifier": "every tree built by LinkCell, every old content of the cells, every order of the parallel loops, all positions and radii", "why_tests_cant": "Unbounded particle numbers; wrong boxes only show up as rare missed neighbours.", "anchors": ["FDPS/tree_for_force_utils.hpp: CalcMoment, CalcMomentST", "FDPS/tree.hpp: MomentSearchInAndOut"]}
{"id": "C72", "title": "Interaction lists miss no neighbour", "statement": "The tree walk for a target box lists, each once, exactly the particles whose search sphere meets the inner box of the target or which lie in its outer box; hence if a particle is within the search radius of a member of a group or the member is within the radius of the particle, it is in the list of the group.", "quantifier": "every built tree, every target box, all positions and radii", "why_tests_cant": "A missed pair depends on the exact position relative to cell boundaries; tests hit it with probability zero.", "anchors": ["FDPS/tree_walk.hpp: MakeListUsingTreeRecursive", "FDPS/tree_for_force_impl_force.hpp: calcForce"]}
{"id": "C73", "title": "Groups partition the particles", "statement": "makeIPGroup splits the sorted particles into consecutive non-empty blocks that hold every particle exactly once, with boxes that contain the members and their search ranges, of at most n_group_limit members unless they share a cell of the last level.", "quantifier": "every built tree, every group limit not below the leaf limit", "why_tests_cant": "Unbounded sizes and tree shapes.", "anchors": ["FDPS/tree_for_force_utils.hpp: MakeIPGroupShort", "FDPS/tree_for_force_impl.hpp: makeIPGroupImpl"]}
{"id": "C74", "title": "Images of domains in a periodic box", "statement": "CalcNumberAndShiftOfImageDomain lists, each once, exactly the displacements by box lengths along periodic axes for which the displaced target domain has a point in common with the own box, the domain itself first if it is among them; without periodic axes the list is the domain itself.", "quantifier": "all boxes that meet the root domain, any choice of periodic axes, any reach (any number of shells of images)", "why_tests_cant": "The loop runs over an unbounded number of shells and stops at the first empty one; whether that loses images is a question about all geometries.", "anchors": ["FDPS/tree_for_force_utils.hpp: CalcNumberAndShiftOfImageDomain"]}
{"id": "C75", "title": "Image of a position", "statement": "CalcIDOfImageDomain returns for a position displaced from the root domain by box lengths along periodic axes exactly this displacement.", "quantifier": "all positions, displacements and choices of periodic axes", "why_tests_cant": "Unbounded displacements; a search loop without a bound.", "anchors": ["FDPS/tree_for_force_utils.hpp: CalcIDOfImageDomain"]}
{"id": "C76", "title": "Exchange of the local essential tree", "statement": "The two-step exchange of the symmetric short-range search ends on every rank and gives it copies of particles of all ranks and images, none twice and none of its own particles undisplaced, such that no pair of particles is missing of which one is within the search radius of the other, in any periodic image.", "quantifier": "any number of ranks, particles, radii and images, any choice of periodic axes, any trees built over the particles", "why_tests_cant": "A missed pair depends on positions relative to cells and domains of several ranks at once.", "anchors": ["FDPS/tree_for_force_impl.hpp: exchangeLocalEssentialTreeReuseListImpl", "FDPS/tree_for_force_utils2.hpp: FindScatterParticle, FindExchangeParticleDoubleWalk, ExchangeLet, ExchangeParticle"]}
{"id": "C77", "title": "Root cell", "statement": "The root cell of the trees contains all particles and all their copies displaced by box lengths, as far as the search ranges extend over the boundary of the root domain.", "quantifier": "any number of ranks and particles, any distribution over threads, any choice of periodic axes", "why_tests_cant": "A position outside the cell gives a wrong key silently; it depends on extreme coordinates.", "anchors": ["FDPS/tree_for_force_impl.hpp: setRootCell, getOuterBoundaryOfLocalTree", "FDPS/tree_for_force_utils.hpp: SetRootCellGlobalTree"]}
{"id": "C78", "title": "Forces over all neighbours", "statement": "calcForceAll of the symmetric short-range search ends on every rank; its forces are those of calls of the functor for groups in which every particle of the rank takes part exactly once, stored at the number of the particle, and the interaction list of a group has no copy twice and has every copy of a particle of any rank and image that is within the search radius of a member of the group or has a member in its own.", "quantifier": "any number of ranks, threads and particles, any leaf and group limit, any choice of periodic axes, every order of the parallel loops, every static schedule of the sort", "why_tests_cant": "The whole pipeline of sort, trees, exchange and walks has to fit together for all inputs.", "anchors": ["FDPS/tree_for_force.hpp: calcForceAll, calcForceMakingTree", "FDPS/tree_for_force_impl.hpp", "FDPS/tree_for_force_impl_force.hpp: calcForce"]}
{"id": "C79", "title": "Grid of domains", "statement": "SetNumberOfDomainMultiDimension factors the number of ranks into three numbers in descending order, and the position of a rank on the grid is the one its number says with the last axis running fastest.", "quantifier": "every number of ranks, every rank", "why_tests_cant": "A search loop with a floating-point first guess; tests try a few numbers of ranks.", "anchors": ["FDPS/domain_info.hpp: SetNumberOfDomainMultiDimension"]}
{"id": "C80", "title": "Decomposition into domains", "statement": "However often decomposeDomain is called, no sample outside the array is read and the domains tile the root domain without overlap as a grid of slabs, columns and boxes; after the first call every domain has its share of the samples up to one.", "quantifier": "any number of ranks on any grid, any samples of the root domain at least one per rank, any smoothing factor, any history of calls", "why_tests_cant": "Index arithmetic on unbounded numbers of samples and ranks; a gap between domains loses particles silently.", "anchors": ["FDPS/domain_info.hpp: decomposeDomain, calculateBoundaryOfDomain, sortCoordinateOfSampleParticle"]}
{"id": "C81", "title": "Sample particles", "statement": "getSampleParticle leaves the particles of the rank in their order and returns positions of different particles; the samples of all ranks fit into the buffer, and there are at least as many as ranks if there are as many particles.", "quantifier": "any particles, any random numbers, any distribution over ranks", "why_tests_cant": "A random in-place shuffle that is undone; totals over ranks.", "anchors": ["FDPS/particle_system.hpp: getSampleParticle"]}
{"id": "C82", "title": "Particle exchange", "statement": "exchangeParticle ends without a fault and leaves on every rank exactly the particles of all ranks that are in its domain: first its own in their order, then those of the other ranks in the order of the ranks; nothing is lost or duplicated.", "quantifier": "any grid of ranks, any domains that tile the root domain, any particles in the root domain, either way of communication, any order of arrival of the messages", "why_tests_cant": "Offsets into send and receive buffers over unbounded numbers of ranks and particles, two ways of communication chosen by message size, orders of arrival.", "anchors": ["FDPS/particle_system.hpp: exchangeParticle, searchWhichDomainParticleGoTo"]}
{"id": "C83", "title": "Bodies stay on the ranks that own their places", "statement": "After initialize and after every prepareStep of a run, however the bodies moved before it, the domains tile the root domain, every body is in the domain of its rank and has its number, no body is lost or duplicated, and the bodies are those of before, displaced by box lengths along periodic axes; no step gets stuck.", "quantifier": "any number of ranks and bodies (at least one per rank), any boundary conditions, any movement of the bodies, any number of steps, any random numbers and orders of messages", "why_tests_cant": "An invariant of unbounded runs that goes through wrapping, sampling, decomposition and exchange; the tree code relies on it silently.", "anchors": ["Sylinder/SylinderSystem.cpp: initialize, prepareStep, decomposeDomain, exchangeSylinder, applyBoxBC, updateSylinderRank", "FDPS/domain_info.hpp: decomposeDomainAll, collectSampleParticle"]}
{"id": "C84", "title": "Collisions over all ranks", "statement": "With the bodies on the ranks that own their places, collectPairCollision ends on every rank and adds to its queues exactly one contact for every pair of a body of the rank and a periodic image of a body of any rank that has a larger id and is closer than the buffer distance; the contact names these two bodies, and its points are on the axes of the body and of the displaced image. So all ranks together record every contact once.", "quantifier": "any number of ranks, bodies, threads, any boundary conditions, any reachable state of a run, any schedule", "why_tests_cant": "End to end: keys, sort, trees, exchange of particles with images, walks and the collision kernel; a missed or doubled pair shows only in rare geometries across ranks and periodic faces.", "anchors": ["Sylinder/SylinderSystem.cpp: collectPairCollision", "Sylinder/SylinderNear.hpp: CalcSylinderNearForce, SylinderNearEP", "FDPS/tree_for_force.hpp: calcForceAll"]}
{"id": "C85", "title": "Targets and sources over all ranks", "statement": "With targets and sources on the ranks that own their wrapped places, MixPairInteraction::computeForce ends on every rank, and forceResult has for each target of the rank, in order, the result of a call of the functor to which all periodic images of sources of all ranks within one of the two search radii were given exactly once; with the functor of the test it is their number, and the pairs recorded are exactly these.", "quantifier": "any numbers of ranks, targets, sources, threads, any classes of particles, any boundary conditions, any schedule", "why_tests_cant": "End to end through a mixed system, two kinds of copies and the tree; errors appear only for pairs across ranks and periodic faces.", "anchors": ["MPI/MixPairInteraction.hpp: computeForce, updateSystem", "MPI/MixPairInteraction_test.cpp: FindPair", "FDPS/tree_for_force.hpp: calcForceAll"]}
{"id": "C86", "title": "Random numbers of the sampling", "statement": "After init_genrand with any seed, and without it from the start state, genrand_int32 returns the outputs of MT19937 in order, for ever, and never leaves its array; the results of any sequence of calls are in the ranges the comments promise, those of genrand_res53 are multiples of 2^-53 in [0,1); so the samples drawn with it are of distinct particles.", "quantifier": "any seed, any number and order of calls", "why_tests_cant": "The state is refilled in place every 624 calls with indices that wrap, in words of 64 bits that must behave as words of 32; statistical tests do not notice small errors.", "anchors": ["FDPS/MT.hpp: init_genrand, genrand_int32, genrand_int31, genrand_real1, genrand_real2, genrand_real3, genrand_res53", "FDPS/particle_system.hpp: getSampleParticle"]}
{"id": "C87", "title": "Arrays in the memory pool keep their elements", "statement": "The arrays of FDPS that live in the shared memory pool behave as independent arrays, whatever other arrays do: a resize keeps the elements, push_back appends one, reserve functions change no element, and no call changes an element of another array, although allocating or freeing one array can move all the others, and although arrays that grow in a parallel region are first put into emergency buffers and moved later. At any time each array has the memory for its capacity inside an allocated block and shares no byte with another array. In a parallel region no call writes to a member of another array. When the last array has given its memory back, the pool is empty, as the assertion in freeObjectFromMemoryPool demands.", "quantifier": "All numbers, sizes and element types of arrays, all sequences of calls of all lengths, inside and outside of parallel regions, all initial capacities of the pool.", "why_tests_cant": "The pool moves memory behind the back of its users depending on the sequence of sizes; errors are writes into stale or foreign memory that show up elsewhere, and emergency buffers are used only if the pool is too small in a parallel region.", "anchors": ["FDPS/memory_pool.hpp: initialize, reInitialize, unifyMem, alloc, freeMem", "FDPS/reallocatable_array.hpp: constructor, destructor, ReallocInner, reserve, push_back, resizeNoInitialize, pushBackNoCheck, clearSize, reserveAtLeast, reserveEmptyAreaAtLeast, freeMem"]}
{"id": "C88", "title": "One time step over all ranks solves its constraints", "statement": "Take one call of runStep on all ranks whose constraint solver ends below its tolerance. The velocities with which the bodies are then moved, on whatever rank they live, solve the constraints of all ranks: for every contact the multiplier written back is not negative, the separation at the end of the step (to first order: separation now plus dt times its rate of change under the final velocities) is not negative, and is zero where the multiplier acts; for every spring the linear law holds at the end of the step; all within dt times the residual. The force and torque recorded on every body are the given ones plus the sum over all constraints of all ranks of multiplier times unit force and torque, and every body moves with the velocity so determined. If the velocity without constraints closes no contact, the multipliers are zero and the bodies move as without constraints. No step writes outside of an array.", "quantifier": "All numbers of ranks, bodies per rank, threads and constraints, all orders in which the threads write, all forces, prescribed velocities and random numbers, all values of the configuration with positive viscosity and time step.", "why_tests_cant": "The statement composes the Brownian velocity, the mobility, the collector, the operator, the solver, the split and the update of the bodies over all ranks; each part alone can be right while the velocity that moves a body is not the one the solver assumed, which happens in monolayers with Brownian motion.", "anchors": ["Sylinder/SylinderSystem.cpp: runStep, resolveConstraints, calcVelocityNonCon, sumForceVelocity, saveForceVelocityConstraints, stepEuler", "Constraint/ConstraintSolver.cpp: setup, solveConstraints, writebackGamma", "Constraint/ConstraintCollector.cpp: buildConstraintMatrixVector, writeBackGamma"]}
{"id": "C89", "title": "Bodies do not overlap after a converged step", "statement": "Take one time step on all ranks: the bodies are on the ranks that own their places, every rank collects the contacts of its bodies with all bodies and periodic images near them, and the constraint solver ends below its tolerance. For every two bodies with different ids, on any ranks and with any periodic image: if they were close before the step, then after the step their true shapes overlap by at most dt times (residual + angular speed times length of the first + the same for the second); if they were not, they are still apart by the buffer less the distance they moved. For spheres that move less than their buffer no two overlap by more than dt times the tolerance of the solver.", "quantifier": "All numbers of ranks, bodies, threads and orders of writing, all positions, orientations, sizes and velocities, periodic axes and domains, any other constraints in the pools.", "why_tests_cant": "It is the purpose of the code, and depends on all of its parts at once: particle exchange, tree, search radius, images, distance of segments, contact normals, matrix, mobility, solver and update of the bodies. A test sees one configuration, and an overlap that a wrong part lets through is small or rare.", "anchors": ["Sylinder/SylinderSystem.cpp: runStep, collectPairCollision, resolveConstraints, stepEuler", "Sylinder/SylinderNear.hpp: operator(), getRSearch", "Constraint/ConstraintSolver.cpp", "Constraint/ConstraintCollector.cpp", "FDPS/tree_for_force_impl.hpp"]}
{"id": "C90", "title": "Bodies do not cross boundaries in a converged step", "statement": "Take one time step on all ranks in which every rank collects the contacts of its bodies with the boundaries (walls, spherical shells, tubes) and the constraint solver ends below its tolerance. Every end of a body that was within the recording distance of a boundary is afterwards on the allowed side by the radius of the body, up to dt times (residual + angular speed times length) and half the curvature of the boundary times the square of the distance moved; every other end is as far as the recording distance less the distance moved. If the allowed side is convex or the body is a sphere, and the body moves less than its buffer, the same bound holds for all points of the body.", "quantifier": "All numbers of ranks, bodies, boundaries and threads, all positions, orientations, sizes and velocities, any other constraints in the pools.", "why_tests_cant": "The purpose of the boundaries; depends on the projection, the recording of one-sided constraints, the rows of the matrix, the mobility, the solver and the update of the bodies at once. A test sees one configuration.", "anchors": ["Sylinder/SylinderSystem.cpp: runStep, collectBoundaryCollision, resolveConstraints, stepEuler", "Boundary/Boundary.cpp: project", "Constraint/ConstraintSolver.cpp", "Constraint/ConstraintCollector.cpp"]}
{"id": "C91", "title": "A whole run keeps its bodies, apart and inside", "statement": "Start from any bodies on any ranks: initialize, the steps of initialize without Brownian motion, then any number of steps prepareStep(); runStep(). In every state of such a run the bodies are those of the beginning (ids, groups, radii, lengths; none lost or doubled), with unit orientations. In every step, after prepareStep, each body is on the rank whose domain it is in, has the sizes for collisions of the configuration, and the global indices are 0, 1, 2, ... over the ranks. After every step in which the solver converged, no two bodies overlap by more than dt times (tolerance plus angular speeds times lengths), over all ranks and periodic images, and no body is beyond a boundary by more than the corresponding amount. The run does not get stuck: from each state it reaches, prepareStep ends, all constraints are collected and the step is carried out.", "quantifier": "All numbers of steps, ranks, bodies, boundaries, links, threads; all positions, sizes, drawn numbers, forces given by the application, schedules of ranks and threads.", "why_tests_cant": "A property of all executions of the whole program; a test runs one configuration with one schedule for a bounded number of steps.", "anchors": ["Sylinder/SylinderSystem.cpp: initialize, prepareStep, runStep, updateSylinderMap, buildSylinderNearDataDirectory, collectPairCollision, collectBoundaryCollision, collectLinkBilateral, resolveConstraints, stepEuler"]}
{"id": "C92", "title": "The solver of the constraints converges if it may iterate long enough", "statement": "For every constraint problem with a symmetric positive definite matrix, bounds with room between them and any guess, the default solver (projected gradient with alternating Barzilai-Borwein steps) ends with a residual below the tolerance if the limit on the iterations is large enough; in particular the time steps of a run, whose constraints are of this kind, keep the bodies apart and inside if the limit is large.", "quantifier": "All matrices, vectors, bounds, guesses, tolerances above the level of rounding, all limits on the iterations.", "why_tests_cant": "The claim is about the limit of an infinite sequence of iterates for all problems; tests run a few problems (diagonally dominant random ones) for a few iterations, on which the method works. A run that hits the limit is reported by nothing but the history.", "anchors": ["Constraint/BCQPSolver.cpp:134-247 solveBBPGD", "Constraint/BCQPSolver.cpp:461-497 checkProjectionResidual", "Constraint/ConstraintSolver.cpp: solveConstraints", "Sylinder/SylinderSystem.cpp: runStep"]}
{"id": "C93", "title": "The links of a run obey the law of their springs at the end of every step", "statement": "After every converged time step of a run over all ranks, for every link of the link map whose first body exists: the pool of the rank of that body has a two-sided constraint between the plus end of the body and the minus end of the nearest image of the second body, wherever that one lives, and the multiplier is minus the stiffness times the extension that the link has after the step (distance between the ends, less the radii and the gap), up to the residual of the solver and second-order terms of the motion; for stiffness zero the extension itself vanishes up to these.", "quantifier": "All numbers of ranks and threads, schedules, steps of a run, bodies, periodic axes, link maps, stiffnesses, tolerances, and velocities.", "why_tests_cant": "It combines the directory over MPI, the image search, the assembly of the constraint matrix, the solver, the velocities and the rotation of the bodies; tests would need runs over several ranks and would see one configuration, not the order of the error.", "anchors": ["Sylinder/SylinderSystem.cpp:1385 collectLinkBilateral", "Constraint/ConstraintSolver.cpp: setup, solveConstraints, writebackGamma", "Constraint/ConstraintCollector.cpp:391-461", "Sylinder/SylinderSystem.cpp: runStep, stepEuler", "Util/EquatnHelper.hpp: rotateEquatn"]}
{"id": "C94", "title": "Bodies and links can be added during a run", "statement": "Whatever bodies and links an application adds between the steps of a run over all ranks: the ids of all bodies of all ranks stay different from each other, the bodies that are there are not changed, every rank gets its new bodies with the ids it is told, which are the numbers that follow the greatest id in some order, no link is lost, and if the new bodies fit and the links end at bodies that are there or at ids just returned, then everything that holds along a run without additions (C91, C93) holds for the steps that follow.", "quantifier": "All runs, numbers of ranks, schedules, additions (how many, where, how often), results of the shuffle.", "why_tests_cant": "The one test of the interface adds bodies once and prints the links for an external script; additions at any time of a run over many ranks, followed by migration and re-indexing of bodies, are not sampled.", "anchors": ["Sylinder/SylinderSystem.cpp:1311-1350 addNewSylinder", "Sylinder/SylinderSystem.cpp:1352-1368 addNewLink", "Sylinder/SylinderSystem_test_api.cpp:34-77", "Sylinder/SylinderSystem.cpp:886-968 prepareStep, runStep"]}
{"id": "C95", "title": "A step balances forces and moments over all ranks", "statement": "In every step of every run over all ranks, whether or not the constraint solver converges, the forces with which the bodies end the step add up to the forces given for the step plus what the boundaries exert; contacts and links, across ranks and periodic images, contribute nothing. The same holds for the moments about any point, for every axis such that the box is not periodic along the other two axes. Without boundaries the sums are those of the given forces alone.", "quantifier": "All runs, numbers of ranks, schedules, bodies, links, boundaries, given forces and random numbers; any outcome of the solver.", "why_tests_cant": "Tests print forces of single runs; nothing sums them over ranks, and an iteration that stops early is never checked.", "anchors": ["Constraint/ConstraintSolver.cpp:60-105 solveConstraints", "Constraint/ConstraintCollector.cpp buildConstraintMatrixVector", "Sylinder/SylinderSystem.cpp:948-968 runStep", "Sylinder/SylinderSystem.cpp:802-830 sumForceVelocity", "Sylinder/SylinderSystem.cpp:934-939 setForceNonBrown", "Sylinder/SylinderNear.hpp collideSS", "Sylinder/SylinderSystem.cpp:1385-1480 collectLinkBilateral"]}
{"id": "C96", "title": "Every step of a run integrates the overdamped equation of motion", "statement": "In every step of every run over all ranks, whether or not the constraint solver converges: the drag on each movable body, moving at its new velocity relative to the given and the Brownian velocity, balances the total force and torque that the body ends the step with (given forces plus those of all constraints); its position changes by the time step times its velocity and its orientation turns by the time step times its angular velocity. An immovable body without given velocity does not move whatever pushes it. The forces never extract energy: their power on each body at its relative velocity is not negative, and zero only if that velocity is zero.", "quantifier": "All runs, numbers of ranks, schedules, bodies, links, boundaries, given forces, given velocities and random numbers; any outcome of the solver.", "why_tests_cant": "The stored forces and velocities of a body come from different parts of the code (solver, save, sum), never compared in tests; an iteration that stops early is never checked.", "anchors": ["Sylinder/SylinderSystem.cpp:948-968 runStep", "Sylinder/SylinderSystem.cpp calcMobMatrix, calcVelocityNonCon, calcVelocityBrown, saveForceVelocityConstraints, sumForceVelocity, stepEuler", "Constraint/ConstraintSolver.cpp:60-105 solveConstraints", "Sylinder/Sylinder.cpp:91-99 stepEuler", "Sylinder/Sylinder.cpp calcDragCoeff"]}
{"id": "C97", "title": "Virtual work and energy balance of a step", "statement": "In every step of every run over all ranks, whether or not the constraint solver converges, the power of all forces and torques on all bodies equals the power of the given ones plus, for each constraint, its multiplier times the rate at which the bodies change its separation: constraint forces do no other work. If the solver converged (no link at the cap of its multiplier), the elastic energy of the links, with the separations after the step to first order in the time step, plus the energy taken by the drag, is at most the elastic energy before plus the work of the given forces plus an explicit slack of second order in the tolerance for springs, and for contacts the work of undoing earlier overlaps. Without given forces, given velocities and Brownian motion the energy therefore does not grow beyond this slack.", "quantifier": "All runs, numbers of ranks, schedules, bodies, links, boundaries, stiffnesses, time steps, given forces and random numbers.", "why_tests_cant": "An energy balance needs all ranks' forces, velocities, multipliers and separations together; the code stores them in different places and no test compares them. It holds for every time step and stiffness only because the spring is treated implicitly, which is a property of the assembled linear problem, not of one function.", "anchors": ["Constraint/ConstraintCollector.cpp buildConstraintMatrixVector", "Constraint/ConstraintSolver.cpp:60-105 solveConstraints", "Constraint/ConstraintOperator.cpp apply", "Sylinder/SylinderSystem.cpp:948-968 runStep", "Sylinder/SylinderSystem.cpp collectLinkBilateral"]}
{"id": "C98", "title": "A run that is stopped and resumed is the same run", "statement": "A run is stopped after any step in which a snapshot is written; a program started with the same configuration and number of ranks reads it. It goes on counting the steps, with the same links, and with the bodies the run has after the step: same ids, groups, flags, sizes, centres and directions (up to single precision, with explicit bounds also for the direction after the Euler step that reinitialize makes up for). The bodies can be distributed over the ranks, and both programs start their next step with the same bodies at the same places of the box. Through any number of stops, with bodies and links added in any of the programs, no body and no link is lost or duplicated, ids stay unique, and sizes are rounded once.", "quantifier": "All runs, numbers of steps, stops, ranks, bodies, links and additions; all schedules; all roundings to single precision with a given relative error.", "why_tests_cant": "A test compares one restarted run with one that was not stopped; the step in which the snapshot is written, the order and ranks of the bodies, wrapping, additions before and after the stop, and how errors add up over many stops multiply the cases.", "anchors": ["Sylinder/SylinderSystem.cpp:106-175 reinitialize", "Sylinder/SylinderSystem.cpp:395-476 setInitialFromVTKFile", "Sylinder/SylinderSystem.cpp:553-560 writeResult", "Sylinder/SylinderSystem.cpp:948-968 runStep", "Sylinder/SylinderSystem_main.cpp:28-32"]}
{"id": "C99", "title": "The check of test values passes exactly when the errors are small", "statement": "checkError joins the values of all ranks on rank 0, compares them with the true ones, and prints that the test passed if and only if the absolute and relative errors are below the bar; vectors of different sizes are reported.", "quantifier": "All numbers of ranks, all vectors of values with a total that fits an int, all positive bars.", "why_tests_cant": "The check is what tests rely on; a test of it would try a few vectors, and zeros in both vectors, where 0/0 meets std::max, are easily left out.", "anchors": ["Util/PointDistribution.cpp:105-165 checkError"]}
{"id": "C100", "title": "A step does not depend on how the bodies are distributed over ranks and threads", "statement": "Two programs with the same physical parameters, with any numbers of ranks and threads each, that have the same bodies, begin the next step with the same bodies at the same places in the box and find the same constraints: the same contacts, contacts with boundaries and links, between the same bodies, with the same separations, directions and points.  If both solve them, without Brownian motion (whose random numbers belong to threads) and with the same given forces and velocities, their bodies move alike, up to the tolerance of the solver.", "quantifier": "All configurations, numbers and grids of ranks, numbers of threads, schedules, assignments of bodies to ranks, orders of bodies, links and messages; bodies with ids of their own.", "why_tests_cant": "Tests compare runs on a few rank counts, where a pair that is found twice or not at all near the border of two domains need not occur.", "anchors": ["Sylinder/SylinderSystem.cpp:829-968 prepareStep, collectPairCollision, collectBoundaryCollision, collectLinkBilateral, runStep", "Sylinder/SylinderNear.hpp:180-560 CalcSylinderNearForce", "FDPS/tree_for_force_impl.hpp", "FDPS/domain_info.hpp"]}
{"id": "C101", "title": "The random test problems are what they say", "statement": "The constructors that make a random problem for BCQPSolver and CPSolver build, on every rank, arrays of a sparse matrix that stand for B^T D B plus the extra diagonal without entries of at most 1e-7; the matrix is symmetric positive definite, as the comment in the code says; the random bounds can be met; and test_LCP reports how far its result is from a solution.", "quantifier": "All sizes, numbers of ranks, draws of the random number generators, extra diagonals, vectors.", "why_tests_cant": "The matrices come from a random device: the draws for which a column is dropped or the matrix becomes indefinite do not turn up in a test, nor would the test notice.", "anchors": ["Constraint/BCQPSolver.cpp:23-131 BCQPSolver", "Constraint/BCQPSolver.cpp:512-533 generateRandomBounds", "Collision/CPSolver.cpp:184-290 CPSolver", "Collision/CPSolver.cpp:779-889 test_LCP"]}
{"id": "C102", "title": "Rounding errors of the Euler step do not run away", "statement": "If every floating-point operation has a relative error of at most u, then after any number of Euler steps the orientation is a unit quaternion up to 12 u, its distance to the exactly turned orientation has grown by at most 1500 T u per step (T the largest angle of a step, at least 1) plus the turns left out because the angular velocity is below the cutoff, and the position is within 8 n u L of the exact one.", "quantifier": "All roundings with relative error u, all sine and cosine within 2 u, all numbers of steps, velocities, angular velocities, time steps, starts.", "why_tests_cant": "Drift of the length of a quaternion or of an orientation shows after millions of steps, and a rounding of the worst kind at every operation does not occur in a test.", "anchors": ["Util/EquatnHelper.hpp:74-90 rotateEquatn", "Sylinder/Sylinder.cpp:91-99 stepEuler"]}
{"id": "C103", "title": "The Gauss-Legendre tables integrate polynomials of degree 2N-1", "statement": "For every N from 1 to 128, and only for these, Gauss_Legendre_Nodes_and_Weights gives N increasing symmetric nodes strictly between -1 and 1 and N positive symmetric weights; they integrate every polynomial of degree less than 2N up to 1e-75 times the sum of its absolute coefficients (plus 10 N u if the literals are rounded with relative error u), every continuous function up to four times its distance to such polynomials, and no higher degree in general.", "quantifier": "All N, all real polynomials of degree below 2N, all continuous functions, all roundings with relative error u.", "why_tests_cant": "A test integrates a few functions with a few N; a wrong digit far down one of the 16512 literals of one of the 128 cases would not show.", "anchors": ["Util/Gauss_Legendre_Nodes_and_Weights.hpp:18-40003 Gauss_Legendre_Nodes_and_Weights"]}
{"id": "C104", "title": "The circular queue is a bounded queue that drops the oldest item", "statement": "Whatever sequence of push_back and pop_front is applied to a circular_q of n items (never popping an empty one), it holds what a list holds to which items are appended and whose first item is dropped when it has more than n; front, at, size, empty, full and overrun_counter answer accordingly; the backtracer replays exactly the last n messages in order; disabled and moved-from queues hold nothing.", "quantifier": "All item types, all n, all sequences of operations and all messages.", "why_tests_cant": "Wrap-around of head and tail against each other depends on the history; a test sees a few histories of one capacity.", "anchors": ["spdlog/details/circular_q.h:16-138 circular_q", "spdlog/details/backtracer-inl.h:45-67 push_back, foreach_pop"]}
{"id": "C105", "title": "The logging thread pool neither deadlocks nor loses nor repeats messages", "statement": "For every number of workers, queue capacity of at least one, clients and interleaving of the threads (with spurious wakeups and any choice of who is notified), a state in which no thread can go on is one in which the destructor and all workers have returned and every message has been dealt with exactly once, except as many as the overrun counter counts, which is none if all clients wait for room; every run has a bounded number of steps; one worker keeps the order.", "quantifier": "All numbers of workers and clients, all capacities, all scripts of messages and policies, all interleavings of any length.", "why_tests_cant": "Lost wakeups and shutdown races show in a few schedules out of astronomically many; a test runs a handful.", "anchors": ["spdlog/details/mpmc_blocking_q.h:26-67 enqueue, enqueue_nowait, dequeue_for", "spdlog/details/thread_pool-inl.h:16-122 thread_pool, ~thread_pool, post_async_msg_, worker_loop_, process_next_msg_", "spdlog/details/circular_q.h:16-138 circular_q"]}
{"id": "C106", "title": "The printed volume and volume fraction are those of the bodies", "statement": "The volume that calcVolFrac adds up over ranks and threads is the volume (Lebesgue measure) of the part of space that the bodies take, if none overlap, up to a relative error of 3e-11 that comes from the digits of pi; the fraction is that over the volume of the box and at most one if all bodies are in the box. Short bodies, which the simulation treats as spheres, are still counted as rods.", "quantifier": "All lists of bodies with unit orientation, any lengths and radii, any distribution over ranks and threads, all boxes.", "why_tests_cant": "The formula of a body is plausible for every sign and factor; a test compares it with the same formula.", "anchors": ["Sylinder/SylinderSystem.cpp:292-315 calcVolFrac"]}
{"id": "C107", "title": "Every rank prints the log messages that it should", "statement": "Whatever calls of the logging registry were made before, from the first call of Logger::setup_mpi_spdlog or Logger::set_level on, rank 0 prints exactly the messages that have at least the level asked for last, and every other rank exactly errors and worse, through the default logger or any other registered one. The calls are defined exactly if rank 0 gets levels of 0 to 7. The default logger is always found under its name. Loggers that setup_mpi_spdlog replaces, and default loggers set later, do not follow.", "quantifier": "All sequences of calls of the registry of any length before, all sequences of Logger calls and messages after, all ranks, all levels.", "why_tests_cant": "Which loggers a level reaches depends on the history of a global registry; a test has one history.", "anchors": ["Util/Logger.hpp:35-79 setup_mpi_spdlog, set_level", "spdlog/details/registry-inl.h:33-310 registry", "spdlog/logger-inl.h:67-70,166-196 set_level, log_it_, sink_it_", "spdlog/logger.h:274-345 should_log, log_"]}
{"id": "C108", "title": "The file that all ranks open has every point", "statement": "When all ranks call dumpPoints, each of which opens (and empties) the same file, then in whatever order they run and in whatever pieces buffered output reaches the file, somebody can always go on until all have ended, no run is endless, and the file then has exactly one line for each point with its values, in the order of the ranks. If the total numbers of points and values do not match it is empty; if only the totals match, values end up with other points.", "quantifier": "All numbers of ranks and points, all contents of the file before, all interleavings, all pieces.", "why_tests_cant": "That a late fopen empties the file after rank 0 has written needs an unlucky schedule; a test on one rank cannot show it.", "anchors": ["Util/PointDistribution.cpp:82-107 dumpPoints", "Util/PointDistribution.cpp:206-255 collectPts"]}
{"id": "C109", "title": "In a dilute step the constraint solver converges", "statement": "If in a time step no movable body is pushed by two constraints (contacts, boundaries, springs or links; any number of bodies and ranks, whatever drives the bodies), the gradient solver ends with a residual below the tolerance, with no multiplier at its cap, as soon as the limit of iterations is at least a number that depends only on the number of constraints, on bounds for how fast each constraint responds to its multiplier and for the initial residual, and on the tolerance. Every constraint that pushes a movable body, or is a spring, has a positive response. For spheres it follows without any assumption on the solver that after such a step of any run no two bodies overlap by more than dt times the tolerance.", "quantifier": "All numbers of ranks, bodies and constraints, all configurations of runs, all draws and given forces, all schedules.", "why_tests_cant": "Convergence of a non-monotone gradient method with alternating step sizes cannot be seen on samples: C92 has problems with two unknowns on which it cycles for ever.", "anchors": ["Constraint/BCQPSolver.cpp:134-247 solveBBPGD", "Constraint/ConstraintSolver.cpp:60-105 solveConstraints", "Sylinder/SylinderSystem.cpp:948-1017 runStep", "Constraint/ConstraintOperator.cpp:30-71 apply"]}
{"id": "C110", "title": "Output folders exist when files are opened in them", "statement": "In every interleaving of the ranks of a run, fresh or restarted, with any number of ranks and snapshots: no rank terminates because makeSubFolder fails (several ranks create the same folder at the same time), no file that is written with fprintf without a check is a null pointer, and no output stream fails to open; when a snapshot is over, its folder has all its files, and the restart file exists.", "quantifier": "All numbers of ranks and snapshots, all first snapshot numbers, all old values of errno, all interleavings, all initial contents of the working directory in which nothing is in the way.", "why_tests_cant": "A race between mkdir on one rank and mkdir or open on another shows up only in rare schedules; runs in a used directory never show it.", "anchors": ["Util/IOHelper.hpp:63-75 makeSubFolder", "Sylinder/SylinderSystem.cpp:83-86 initialize", "Sylinder/SylinderSystem.cpp:489-560 writeAscii, writeTimeStepInfo, writeVTK, writeBox, writeResult"]}
{"id": "C111", "title": "A monolayer stays in its plane", "statement": "In every run of a monolayer without Brownian motion, in a box that is not periodic along z, with boundaries perpendicular to the plane (upright walls, shells centred in the plane, upright tubes or tubes with their axis in the plane) and no body that is given, read or added exactly upright: no body is ever upright when a step starts; when forces are computed all bodies are exactly in the plane with horizontal directors; constraint forces, which are not restricted to the plane by the code, move no body out of the plane and turn no director out of it. The projection of the next step then changes neither positions nor directors.", "quantifier": "All numbers of bodies, ranks, threads, steps, links, additions and restarts; all given forces and velocities; all schedules; whether the solver converges or not.", "why_tests_cant": "The code restricts given velocities to the plane but not those from constraints; whether they stay in it depends on the geometry of every contact, link and boundary over a whole run, and the projection of the next step hides small errors.", "anchors": ["Sylinder/SylinderSystem.cpp:726-800 calcVelocityNonCon", "Sylinder/SylinderSystem.cpp:905-920 prepareStep", "Sylinder/SylinderSystem.cpp:1092-1149 collectBoundaryCollision", "Sylinder/SylinderSystem.cpp:1429-1478 collectLinkBilateral", "Sylinder/SylinderNear.hpp contact geometry"]}
{"id": "C112", "title": "The generators of points give the points that they promise", "statement": "fixedPoints appends one, two or four different points strictly inside the box (the four with charges 1, -1, -1, 1 have no total charge and no dipole) and empties the vector for any other number. randomPoints gives (n+1)^3 points with all coordinates in [shift, shift + box) whatever the vector held before, and the points for a smaller n come first among those for a larger one. randomUniformFill gives numbers in [low, high). shiftAndScalePoints maps every coordinate to scale * x + shift of its axis, leaves numbers that do not make a whole point, and is undone by the inverse scale and shift.", "quantifier": "All numbers of points, boxes, shifts, scales, previous contents and random draws; monotone roundings.", "why_tests_cant": "Tests draw a few points; whether the upper end can be reached depends on the rounding of draws that are practically never seen.", "anchors": ["Util/PointDistribution.cpp:12-43 fixedPoints", "Util/PointDistribution.cpp:45-52 randomPoints", "Util/PointDistribution.cpp:54-62 shiftAndScalePoints", "Util/PointDistribution.cpp:64-80 randomUniformFill, randomLogNormalFill", "Util/PointDistribution.hpp:17-65"]}
{"id": "C113", "title": "A configuration that violates no constraint stays as it is", "statement": "If, when the constraints of a step are collected, different bodies and their images do not overlap, every end is at least its radius on the allowed side of every boundary, and linked ends are exactly as far apart as they should be, and nothing acts (no given forces or velocities, no temperature), then the solver stops with residual zero and all multipliers zero, and after this step and any number of further ones every body is at rest with the position, orientation and size it had, also when it has changed rank.", "quantifier": "All configurations, bodies, boundaries, links, numbers of ranks, threads, states of a run and numbers of steps.", "why_tests_cant": "A test can watch a few bodies at rest; that no schedule, rank layout or nearby periodic image makes the solver push needs a proof over the whole step.", "anchors": ["Sylinder/SylinderSystem.cpp:948-1030 runStep", "Sylinder/SylinderSystem.cpp:886-946 prepareStep", "Sylinder/SylinderSystem.cpp:829-884 resolveConstraints", "Sylinder/SylinderSystem.cpp:1092-1190 collectBoundaryCollision, collectPairCollision", "Sylinder/SylinderSystem.cpp:1385-1470 collectLinkBilateral", "Constraint/BCQPSolver.cpp"]}
{"id": "C114", "title": "A step does not depend on where in space the bodies are", "statement": "Displace all bodies and boundaries by a vector, each body along periodic directions also by any number of periods, and give them to any number of ranks and threads in any order. Then after the start the bodies are still displaced by this vector; a step collects the same constraints (same bodies, separations, directions, arms and stresses) as it would at the first place, although other pairs of images are found and other ranks own the bodies; and when both solvers converge the bodies move alike, as far as the tolerances leave the solution open, so that the displacement stays what it was.", "quantifier": "All configurations without monolayer, bodies, boundaries that are carried onto themselves by the periods, displacements, numbers of ranks and threads, states of runs, external forces; steps without Brownian motion.", "why_tests_cant": "A displaced run assigns bodies to other ranks, wraps others through the periodic box and finds other image pairs; a test compares a few displacements up to rounding and cannot show that none of this matters.", "anchors": ["Sylinder/SylinderSystem.cpp:948-1030 runStep", "Sylinder/SylinderSystem.cpp:886-946 prepareStep", "Sylinder/SylinderSystem.cpp:1092-1190 collectBoundaryCollision, collectPairCollision", "Sylinder/SylinderSystem.cpp:1385-1470 collectLinkBilateral", "Sylinder/SylinderNear.hpp CalcSylinderNearForce", "Boundary/Boundary.hpp project", "FDPS/domain_info.hpp, tree_for_force_impl.hpp"]}
{"id": "C115", "title": "A step does not depend on how the configuration is turned or mirrored", "statement": "Without periodic directions, turn or mirror all bodies and boundaries and displace them, and give them to any number of ranks and threads in any order. Then after the start the bodies are still moved so; a step collects the same constraints as it would before, with normals, arms and points turned and the stresses turned as tensors, although other bounding boxes overlap and other ranks own the bodies; and when both solvers converge the velocities, angular velocities and new positions are turned or mirrored too (angular velocities as axial vectors), as far as the tolerances leave the solution open.", "quantifier": "All configurations without periodic directions and monolayer, all bodies, boundaries, rotations, reflections, displacements, numbers of ranks and threads, states of runs, external forces turned with the bodies; steps without Brownian motion.", "why_tests_cant": "The search works on boxes along the axes and the levi-civita stress formula has many terms: turning exercises all of them, and a test compares a few rotations up to rounding.", "anchors": ["Sylinder/SylinderSystem.cpp:948-1030 runStep", "Sylinder/SylinderSystem.cpp:886-946 prepareStep", "Sylinder/SylinderSystem.cpp:1092-1190 collectBoundaryCollision, collectPairCollision", "Sylinder/SylinderSystem.cpp:1385-1470 collectLinkBilateral", "Sylinder/SylinderNear.hpp CalcSylinderNearForce, collideStress", "Boundary/Boundary.hpp project", "FDPS/domain_info.hpp, tree_for_force_impl.hpp"]}
{"id": "C116", "title": "A step does not depend on the names of the bodies", "statement": "Give the bodies other ids, and the links the same other ids, and give the bodies to any number of ranks and threads in any order. Then after the start the bodies are still the same; a step collects the same contacts, boundary contacts and links as it would before, a contact with its sides exchanged where the other body now has the smaller id, and with the same separations, normals, arms and stresses; and when both solvers converge the velocities, angular velocities and new positions of each body are the same, as far as the tolerances leave the solution open.", "quantifier": "All configurations without monolayer, all bodies, boundaries, periodic directions, injective renamings, numbers of ranks and threads, states of runs, external forces given to the same bodies; steps without Brownian motion.", "why_tests_cant": "Ids decide which body of a pair is processed first, who is found through the directory and which side of a constraint is which: a test uses a few ids, usually in order of creation.", "anchors": ["Sylinder/SylinderNear.hpp:194-408 CalcSylinderNearForce (gid comparison, sp_sy reverseIJ)", "Sylinder/SylinderSystem.cpp:948-1030 runStep", "Sylinder/SylinderSystem.cpp:1385-1470 collectLinkBilateral", "Collision/DCPQuery.hpp:198-472", "Constraint/ConstraintBlock.hpp reverseIJ"]}
{"id": "C117", "title": "A step does not depend on the units of force and time", "statement": "Express the viscosity, the time step, the spring constants and the external forces in other units of force and time. Then a step collects the same constraints, with the spring constants in the new unit; when both solvers converge the velocities and angular velocities are those of the old units, converted, as far as the tolerances leave the solution open; the bodies end at the same positions and with the same orientations; and the Brownian velocities, with the temperature converted and the same random numbers, are converted too.", "quantifier": "All configurations without monolayer, all bodies, boundaries, periodic directions, numbers of ranks and threads, states of runs, external forces and positive factors of force and time.", "why_tests_cant": "A test runs in one system of units; that no absolute time or force is hidden in the code is a statement about all factors.", "anchors": ["Sylinder/SylinderSystem.cpp:948-1070 runStep, calcVelocityBrown", "Sylinder/SylinderSystem.cpp:1385-1477 collectLinkBilateral (linkKappa)", "Sylinder/Sylinder.cpp:69-99 calcDragCoeff, stepEuler", "Util/EquatnHelper.hpp:74-100 rotateEquatn", "Constraint/ConstraintSolver.cpp setup, solveConstraints"]}
{"id": "C118", "title": "A rod has no head and tail", "statement": "Turn some of the bodies over, so that the head of each is where its tail was; these bodies are not linked, and no rod is shorter than 2^-25.5. Then a step collects exactly the same constraints: the same contacts, contacts with boundaries and links, with the same separations, directions, points and stresses; when both solvers converge the velocities agree as far as the tolerances leave the solution open; with the same random numbers the Brownian velocities are the same; and a body that was turned over remains so when it moves and turns.", "quantifier": "All configurations without monolayer, all bodies and choices of bodies to turn over, boundaries, periodic directions, numbers of ranks and threads, states of runs and external forces.", "why_tests_cant": "The distance of two segments is computed in nine cases that treat the two ends of a segment, and the two segments, differently; that the result is the same for all pairs of segments, parallel ones included, cannot be sampled.", "anchors": ["Collision/DCPQuery.hpp:90-128,198-472", "Sylinder/SylinderNear.hpp:194-478 sy_sy, sp_sy, collideStress", "Sylinder/SylinderSystem.cpp:1092-1149 collectBoundaryCollision", "Sylinder/SylinderSystem.cpp:948-1090 runStep, calcVelocityBrown", "Util/EquatnHelper.hpp:74-100 rotateEquatn"]}
{"id": "C119", "title": "A rotating log keeps the newest messages", "statement": "The files of a rotating log (the log, and those with numbers) have different names and are in one folder. Whatever attempts to rename or to open a file fail, nothing is written through a null pointer, no file exceeds the limit unless it holds a single message or was there before, and no other file is touched. When nothing fails, the files hold the newest part of all messages, those of earlier runs included, in order, without gaps and without splitting a message; a file with a number is full.", "quantifier": "All names, limits, numbers of files, old files, sequences of messages of less than 2^64 characters in total, and outcomes of renaming and opening.", "why_tests_cant": "Which files are moved and removed depends on the lengths of all messages and on failures that tests cannot provoke at each of the calls.", "anchors": ["spdlog/sinks/rotating_file_sink-inl.h:26-128", "spdlog/details/file_helper-inl.h:28-144"]}
{"id": "C120", "title": "A log without duplicates counts what it leaves out", "statement": "A duplicate filter passes on, in order, exactly the messages that do not repeat the text of the last message passed on within the given time; before each there is a line with the number of messages left out since, if there were any; messages left out at the end are not reported. Each sink behind the filter gets those of these lines that have its level. The level of a message plays no part in this, so that an error can get lost, and the lines do not always determine the messages.", "quantifier": "All durations, sinks, levels, and sequences of fewer than 2^64 messages with any times (also decreasing ones).", "why_tests_cant": "The sequences of messages and times are unbounded, and the claim is about the whole output.", "anchors": ["spdlog/sinks/dup_filter_sink.h:38-84", "spdlog/sinks/dist_sink.h:57-67", "spdlog/sinks/sink-inl.h:12-15"]}
{"id": "C121", "title": "The test of the LCP solvers reports negative entries, and only these", "statement": "For a vector x on any number of ranks, test_LCP prints the number of negative entries of x and of A x + b over all ranks and the largest violation; it prints zeros exactly if there is no negative entry. This does not mean that x solves the problem: complementarity is not tested, and NaN passes.", "quantifier": "All vectors of less than 2^31 entries, distributed in any way.", "why_tests_cant": "The reductions over ranks and the meaning of a report without errors are claims about all vectors.", "anchors": ["Collision/CPSolver.cpp:828-889 test_LCP"]}
{"id": "C122", "title": "The levels of loggers that are given as text are obeyed", "statement": "Any text of 1 to 512 characters is a list of items name=level or level, separated by commas, with blanks and capitals as one likes. After load_levels every registered logger has the level of the last item with its name, otherwise the level without a name, otherwise its own one as before; loggers that are initialised later get theirs in the same way; nothing depends on the order of the hash map. Longer texts change nothing. The remarks and examples of the files are not all true: '*=off' turns nothing off, unrecognised levels are not ignored but undo earlier ones, and a second argument undoes the first for later loggers.", "quantifier": "All texts, registries that programs can reach, and orders of the hash map.", "why_tests_cant": "Texts and registries are unbounded, and the order of the map is not in the hands of a test.", "anchors": ["spdlog/cfg/helpers-inl.h:24-116 load_levels, extract_key_vals_, extract_kv_, trim_, to_lower_", "spdlog/common-inl.h:32-52 from_str", "spdlog/cfg/argv.h:24-36 load_argv_levels", "spdlog/cfg/env.h:28-35 load_env_levels", "spdlog/details/registry-inl.h:60-86,270-289 initialize_logger, set_levels"]}
{"id": "C123", "title": "The folders of a log file are made and the file is opened", "statement": "If no file is in the way, create_dir reports success, the folder and all folders around it are there, and nothing else has changed. If something around it is a file, it reports failure and has made nothing. file_helper::open succeeds exactly if no file is in the way and the name is not that of a folder; afterwards the folders and the file are there, and nothing else has changed. The remark that success means that the directory is there is false if there is a file of its name.", "quantifier": "All file systems, depths, names, numbers of tries, with and without truncation.", "why_tests_cant": "File systems and depths are unbounded.", "anchors": ["spdlog/details/os-inl.h:186-200,508-567 path_exists, mkdir_, create_dir, dir_name", "spdlog/details/file_helper-inl.h:28-62 open"]}
{"id": "C124", "title": "Daily log files hold the messages of their days", "statement": "The sink of daily log files puts every message into the file of the earliest time of its span of 24 hours between two changes: the file of its day if the change is at midnight, otherwise that or the file of the day before. Without truncation and limit nothing is lost, and no other file is touched; with truncation the same holds if the change is at midnight. With a limit and the change at midnight exactly the latest files remain, counting those of the days before that were found. At other times the change is to a file of the same name: truncation loses what was written that day, and a limit of one file removes the file that has just been opened. If a message is handled on the next day, however little later, all messages of that day go to the file of the day before.", "quantifier": "All files found, times of the change, differences of local time, limits, and sequences of messages in the order of their times.", "why_tests_cant": "Sequences of messages and days are unbounded, and a test would have to run for days.", "anchors": ["spdlog/sinks/daily_file_sink.h:28-38,67-89,98-189 daily_file_sink", "spdlog/details/file_helper-inl.h:28-62,87-95 open, write"]}
{"id": "C125", "title": "The VTK files are well-formed XML with exactly the arrays given", "statement": "A reader of XML that goes through the text of a VTK file one character at a time reads all of it and finds the tags in their nesting: in a parallel header the declaration of each field with its name, type and number of components in the order given, the points and each piece; in the file of a rank the four sections with their arrays, and in each array exactly the characters of its Base64 encoding. This holds for all files that SimToolbox writes, and the heads and tails for the other kinds of files make XML of any XML between them. Names are not escaped: a field whose name has a quote or an ampersand makes a header that cannot be read.", "quantifier": "All fields, numbers of components, names without quote, less-than sign and ampersand, pieces, steps, ranks, bodies, constraints, and contents of arrays.", "why_tests_cant": "The tests that exist do not read the files back; names, numbers and contents are unbounded.", "anchors": ["Util/IOHelper.hpp:81-331 writeHeadVTU, writeTailVTU, writePVTUFile, writeHeadVTP, writeTailVTP, writePVTPFile, writeDataArrayBase64, writeHeadVTR, writeTailVTR, writeHeadVTI, writeTailVTI", "Sylinder/Sylinder.hpp:399-452 writeVTP", "Constraint/ConstraintCollector.cpp:190-223 writeVTP"]}
{"id": "C126", "title": "Hourly log files hold the messages of their hours", "statement": "If messages come in the order of their times and are handled in the hour in which they were made, the sink of hourly log files puts every message into the file of its hour, in order, behind what the file held unless it is truncated, and touches no other file. With a limit exactly the latest files remain, counting those of the hours before that were found. If a message is handled in the next hour, however little later, all messages of that hour go to the file of the hour before.", "quantifier": "All files found, differences of local time, limits, and sequences of messages.", "why_tests_cant": "Sequences of messages and hours are unbounded, and a test would have to run for hours.", "anchors": ["spdlog/sinks/hourly_file_sink.h:30-36,49-64,73-92,100-163 hourly_file_sink", "spdlog/details/file_helper-inl.h:28-62,87-95 open, write"]}
{"id": "C127", "title": "The sinks of a logger get their messages, and the backtrace is the latest messages", "statement": "Every sink of a logger gets exactly the messages that have both its level and the logger's, in order, with a flush behind those that are important enough, whatever the other sinks are and even if they throw. After a backtrace of n messages was turned on, printing it gives the first line, the latest n messages logged since, whatever the level of the logger was, and the last line; printing it again gives the two lines only. A message that was passed on at once is printed again in the backtrace.", "quantifier": "All sinks, levels, sets of messages on which a sink throws, and sequences of calls.", "why_tests_cant": "Sequences of calls are unbounded, and the queue of the backtrace wraps around at every length.", "anchors": ["spdlog/logger-inl.h:67-70,108-133,166-225 set_level, enable_backtrace, flush, log_it_, sink_it_, flush_, dump_backtrace_, should_flush_", "spdlog/logger.h:45-50,159-170,322-323 log", "spdlog/details/backtracer-inl.h:33-67", "spdlog/sinks/sink-inl.h:12-15 should_log"]}
