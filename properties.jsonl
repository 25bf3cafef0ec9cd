{"id": "C01", "title": "Dense products are matrix products", "statement": "MatrixMultiplication, TransponsedMatrixMultiplication and AddTransponsedMatrixMultiplication on row-major arrays compute A*B, A'*B and C+A'*B: every output entry equals the mathematical one, no entry outside the m*p (n*p) output block is touched and no input is read outside its declared size.", "quantifier": "for all sizes m, n, p and all array contents", "why_tests_cant": "A test checks a few matrices; index arithmetic such as i*n+k can be right for square or small matrices and wrong for other shapes.", "anchors": ["src/Utilities.cpp:MatrixMultiplication", "src/Utilities.cpp:TransponsedMatrixMultiplication", "src/Utilities.cpp:AddTransponsedMatrixMultiplication"]}
{"id": "C02", "title": "Sparse matrix-vector products agree with the dense matrix they represent", "statement": "For a valid compressed-column matrix, the sparse MatrixMultiplication, TransponsedMatrixMultiplication and AddTransponsedMatrixMultiplication return S*b, S'*b and c+S'*b where S is the dense matrix represented by the compressed columns (duplicates summed), without out-of-range accesses.", "quantifier": "for all valid compressed-column matrices of all sizes and sparsity patterns and all vectors", "why_tests_cant": "The number of sparsity patterns is unbounded; tests use two or three hand written patterns.", "anchors": ["src/Utilities.cpp:MatrixMultiplication", "src/Utilities.cpp:TransponsedMatrixMultiplication", "src/Utilities.cpp:AddTransponsedMatrixMultiplication"]}
{"id": "C03", "title": "Dense complementarity Hessian is symmetric and doubles the complementarity product", "statement": "The dense MatrixSymmetrizationProduct yields C = L'R + R'L, C is exactly symmetric in any arithmetic (including floating point), and x'Cx/2 = (Lx)'(Rx) in exact arithmetic.", "quantifier": "for all sizes, all L, R and all x", "why_tests_cant": "A symmetric result on sample data does not show symmetry for all data, and the quadratic identity is a statement about all x.", "anchors": ["src/Utilities.cpp:MatrixSymmetrizationProduct", "src/LCQProblem.cpp:setConstraints"]}
{"id": "C04", "title": "Sparse complementarity Hessian equals the dense one up to the drop threshold", "statement": "For valid compressed-column L, R whose row indices are strictly increasing inside each column, the sparse MatrixSymmetrizationProduct returns a valid compressed-column matrix whose entry (i,j) is (L'R+R'L)_ij if its absolute value exceeds 1e-25 and 0 otherwise; it returns a null pointer exactly when every entry is below the threshold.  Without sorted rows the result can be wrong.", "quantifier": "for all valid sorted L, R of all sizes; existential witness for the unsorted case", "why_tests_cant": "Depends on all interleavings of two sparsity patterns; the tests use sorted patterns only.", "anchors": ["src/Utilities.cpp:MatrixSymmetrizationProduct", "src/Utilities.cpp:getIndexOfIn", "src/Utilities.cpp:isZero"]}
{"id": "C05", "title": "Affine map and quadratic form agree between dense and sparse storage for symmetric matrices", "statement": "Dense AffineLinearTransformation returns alpha*A*b+c.  The sparse version returns alpha*S'*b+c, hence alpha*S*b+c whenever S is symmetric; QuadraticFormProduct returns p'Qp in both storages, for symmetric and for non-symmetric matrices.  For non-symmetric S the sparse affine map differs from its documentation.", "quantifier": "for all sizes, matrices and vectors; existential witness for the non-symmetric case", "why_tests_cant": "Tests use symmetric matrices only, so the transposition is invisible to them.", "anchors": ["src/Utilities.cpp:AffineLinearTransformation", "src/Utilities.cpp:QuadraticFormProduct"]}
{"id": "C06", "title": "MaxAbs is the infinity norm exactly when no entry is NaN", "statement": "MaxAbs(a,m) equals max_i |a_i| (0 for m=0) for every NaN-free vector, and NaN entries are ignored: the result of a vector with NaNs is the norm of its NaN-free part.", "quantifier": "for all lengths and all vectors", "why_tests_cant": "NaN interaction with comparison order inside a loop needs all positions of NaNs.", "anchors": ["src/Utilities.cpp:MaxAbs", "src/Utilities.cpp:getMax"]}
{"id": "C07", "title": "Weighted sums are element-wise and safe under in-place use", "statement": "WeightedMatrixAdd/WeightedVectorAdd compute alpha*A+beta*B element by element and give the same result when the output array is also one of the inputs.", "quantifier": "for all sizes, weights, arrays and aliasing of the output with either input", "why_tests_cant": "Aliasing bugs depend on evaluation order and only show for particular shapes.", "anchors": ["src/Utilities.cpp:WeightedMatrixAdd", "src/Utilities.cpp:WeightedVectorAdd", "src/LCQProblem.cpp:updateStep", "src/LCQProblem.cpp:updateStationarity"]}
{"id": "C08", "title": "Dense to sparse to dense conversion is lossless", "statement": "csc_to_dns(dns_to_csc(M)) = M for every NaN-free dense matrix, and dns_to_csc always yields a valid compressed-column matrix with sorted rows, no duplicates and no stored zeros.  NaN entries are turned into 0.", "quantifier": "for all sizes and all contents", "why_tests_cant": "Round trip on sample matrices says nothing about other zero patterns, rectangular shapes or special values.", "anchors": ["src/Utilities.cpp:csc_to_dns", "src/Utilities.cpp:dns_to_csc"]}
{"id": "C09", "title": "Sparse to dense conversion is faithful and rejects exactly the invalid row indices", "statement": "For valid column pointers csc_to_dns returns a dense array whose (i,j) entry is the stored value (last one if the position is duplicated) or 0, and it returns null with INDEX_OUT_OF_BOUNDS iff some stored row index is outside 0..m-1; it never writes outside the m*n array.", "quantifier": "for all sizes, patterns and (possibly invalid) row indices", "why_tests_cant": "The check is on the flattened index i*n+j, so its exactness is an arithmetic fact about all i, j, n, m.", "anchors": ["src/Utilities.cpp:csc_to_dns"]}
{"id": "C10", "title": "Upper triangular copy keeps exactly the upper triangle", "statement": "copyCSC(M,true) is a valid compressed-column matrix whose entry (i,j) is M_ij for i<=j and 0 below the diagonal, so a symmetric M is recovered from it by mirroring; copyCSC(M,false) is an identical copy.", "quantifier": "for all valid compressed-column matrices", "why_tests_cant": "Needs all patterns, including empty columns and columns entirely below the diagonal.", "anchors": ["src/Utilities.cpp:copyCSC", "src/SubsolverOSQP.cpp:SubsolverOSQP"]}
{"id": "C11", "title": "Options always stay valid", "statement": "Whatever sequence of int/double/bool setter calls (accepted or rejected) is applied to a default Options object, the stored values satisfy: tolerances > EPS, initial penalty > 1e-25, update factor > 1, max iterations >= 1, max penalty > 0, EPS < eta < 1, print level and QP solver inside their enums (for non-NaN arguments).", "quantifier": "for all finite sequences of setter calls with all non-NaN arguments", "why_tests_cant": "It is an invariant over unbounded call histories.", "anchors": ["src/Options.cpp:setStationarityTolerance", "src/Options.cpp:setToDefault"]}
{"id": "C12", "title": "Rejected option values change nothing, accepted ones change only their field", "statement": "Every Options setter either returns SUCCESSFUL_RETURN and updates precisely its own field to the argument, or returns the documented error code and leaves the object unchanged; acceptance happens iff the argument is in the documented range.  NaN arguments are accepted by every double setter.", "quantifier": "for all option objects and all arguments", "why_tests_cant": "Frame conditions over all fields and all values are not covered by examples.", "anchors": ["src/Options.cpp:setStationarityTolerance", "src/Options.cpp:setEtaDynamicPenalty"]}
{"id": "C13", "title": "Copying options is faithful and independent", "statement": "Copy construction and assignment of Options reproduce every field, including the OSQP settings by value; changing one object afterwards does not change the other, also for chains of copies and self assignment.", "quantifier": "for all option objects and all subsequent setter sequences", "why_tests_cant": "Needs every field and every later mutation.", "anchors": ["src/Options.cpp:copy", "src/Options.cpp:setOSQPOptions"]}
{"id": "C14", "title": "Dense load stores exactly the problem that was passed", "statement": "If the dense loadLCQP returns success then the loaded problem has objective Q, g, constraint matrix (A;L;R) stacked row-wise, constraint lower bounds (lbA or -inf; lbL or 0; lbR or 0), upper bounds (ubA or +inf; ubL or +inf; ubR or +inf), complementarity Hessian L'R+R'L and starting point x0 or 0; nothing is read past nV*nV, nV, nComp*nV, nC*nV, nComp, nC entries of the arguments.", "quantifier": "for all dimensions nV>=1, nComp>=1, nC>=0, all data and all combinations of absent optional arguments", "why_tests_cant": "2^9 combinations of optional arguments times all dimensions.", "anchors": ["src/LCQProblem.cpp:loadLCQP", "src/LCQProblem.cpp:setConstraints", "src/LCQProblem.cpp:setComplementarityBounds", "include/LCQProblem.ipp:setInitialGuess"]}
{"id": "C15", "title": "Dense load error codes", "statement": "The dense loadLCQP returns INVALID_OBJECTIVE_LINEAR_TERM iff g is missing, else INVALID_CONSTRAINT_MATRIX iff A is missing while nC>0, else INVALID_LOWER_COMPLEMENTARITY_BOUND iff some lower complementarity bound is -inf, else success, provided Q, L and R are given.  A missing L or R is NOT reported as INVALID_COMPLEMENTARITY_MATRIX: the null pointer is dereferenced first.", "quantifier": "for all argument combinations", "why_tests_cant": "Priority of checks over all argument combinations; undefined behaviour cannot be observed by a test.", "anchors": ["src/LCQProblem.cpp:loadLCQP", "src/LCQProblem.cpp:setConstraints", "src/LCQProblem.cpp:setComplementarityBounds"]}
{"id": "C16", "title": "Sparse load builds the same problem as dense load", "statement": "Loading valid sorted compressed-column data with a non-zero complementarity Hessian succeeds and the loaded constraint matrix, bounds, objective and starting point represent the same problem as loading the corresponding dense data; the complementarity Hessian agrees up to the 1e-25 drop threshold.  Two documented discrepancies: a missing A with nC>0 is accepted, and a zero complementarity Hessian is rejected.", "quantifier": "for all dimensions and all valid compressed-column data", "why_tests_cant": "All pairs of sparsity patterns; tests compare only final optima of a few problems.", "anchors": ["src/LCQProblem.cpp:loadLCQP", "src/LCQProblem.cpp:setConstraints"]}
{"id": "C17", "title": "Switching between dense and sparse mode preserves the problem", "statement": "switchToSparseMode and switchToDenseMode return success on a loaded problem with NaN-free data and valid indices, preserve every matrix (for the switch to dense mode: provided no position is stored twice; of duplicates only the last one survives, so the problem changes), are the identity when already in the requested mode, and switching there and back restores the original dense data.", "quantifier": "for all loaded problems", "why_tests_cant": "Requires all matrices and both directions.", "anchors": ["src/LCQProblem.cpp:switchToSparseMode", "src/LCQProblem.cpp:switchToDenseMode"]}
{"id": "C18", "title": "runSolver terminates", "statement": "runSolver returns after at most maxIterations+1 passes of its main loop and at most maxIterations+1 subproblem solves, whatever the QP solver answers and whatever arithmetic is used (NaNs included), provided maxIterations < INT_MAX.  The reported total iteration count is at most maxIterations+1 (and can be maxIterations+1).", "quantifier": "for all problems, options, QP solver behaviours, arithmetics", "why_tests_cant": "Termination under arbitrary oracle behaviour is not observable by finite tests.", "anchors": ["src/LCQProblem.cpp:runSolver", "src/LCQProblem.cpp:updateTotalIter"]}
{"id": "C19", "title": "Only documented return codes leave runSolver", "statement": "runSolver returns success, MAX_ITERATIONS_REACHED (only with more than maxIterations iterations counted), MAX_PENALTY_REACHED (only with penalty above the maximum), a subsolver error code (only if the last subsolver call returned it) or an initialization error; the reported solution status is PROBLEM_NOT_SOLVED exactly when an initialised run does not return success.", "quantifier": "for all executions", "why_tests_cant": "Statement about every path through the loop.", "anchors": ["src/LCQProblem.cpp:runSolver", "src/LCQProblem.cpp:initializeSolver", "src/OutputStatistics.cpp:updateSolutionStatus"]}
{"id": "C20", "title": "Success certifies the tolerances at the returned point", "statement": "If runSolver returns success then, at the returned primal point, the complementarity value is below the complementarity tolerance and the recorded stationarity vector (recomputed at that point with the final penalty parameter) is below the stationarity tolerance.  In exact arithmetic (with Q symmetric if it is stored sparse) that vector is the gradient of the penalised Lagrangian if a penalty update has been made or the complementarity term has no linear part (e.g. no lower complementarity bounds); otherwise it misses the linear part of the penalty gradient and the certificate fails.", "quantifier": "for all executions and all QP solver behaviours (any arithmetic for the recorded quantities, exact arithmetic for the gradient); existential witness for the failure", "why_tests_cant": "Relates data computed at different times of the loop (penalty may change between computing and testing), for all executions.", "anchors": ["src/LCQProblem.cpp:runSolver", "src/LCQProblem.cpp:stationarityCheck", "src/LCQProblem.cpp:complementarityCheck", "src/LCQProblem.cpp:updateStationarity"]}
{"id": "C21", "title": "Returned multipliers satisfy the LCQP stationarity condition", "statement": "If runSolver returns success for a problem without lower complementarity bounds (or all zero), and with Q symmetric if it is stored sparse, then the vectors returned by getPrimalSolution and getDualSolution satisfy ||Qx + g - A'y_A - L'y_L - R'y_R - y_box||_inf < stationarityTolerance.  With non-zero lower complementarity bounds this fails.", "quantifier": "for all executions in exact arithmetic with finite results; existential witness for the failure", "why_tests_cant": "The dual transformation must cancel the penalty gradient for all data; tests only compare primal points.", "anchors": ["src/LCQProblem.cpp:transformDuals", "src/LCQProblem.cpp:updateStationarity", "src/LCQProblem.cpp:runSolver", "src/LCQProblem.cpp:getDualSolution"]}
{"id": "C22", "title": "Penalty parameter follows the geometric schedule", "statement": "At any time rho = rho0 * factor^(outer iterations), the reported final penalty equals rho, the outer-iteration statistic equals the number of penalty updates and rho never decreases.", "quantifier": "for all executions (exact arithmetic for the closed form)", "why_tests_cant": "Invariant over unbounded executions including two updates in one iteration.", "anchors": ["src/LCQProblem.cpp:updatePenalty", "src/LCQProblem.cpp:updateOuterIter", "src/OutputStatistics.cpp:updateRhoOpt"]}
{"id": "C23", "title": "Penalty cap", "statement": "A successful run never ends with a penalty above maxPenaltyParameter unless no update was made at all, MAX_PENALTY_REACHED is returned only if the penalty exceeds the maximum, and the number of outer iterations is bounded by the number of updates needed to exceed the cap plus one.", "quantifier": "for all executions", "why_tests_cant": "Needs that a dynamic penalty update and a successful termination cannot happen in the same pass.", "anchors": ["src/LCQProblem.cpp:runSolver", "src/LCQProblem.cpp:leyfferCheckPositive", "src/LCQProblem.cpp:complementarityCheck"]}
{"id": "C24", "title": "Penalised Hessian is always Q + rho*C", "statement": "After initialisation and after every penalty update the penalised Hessian used by the solver equals Q + rho*C, in dense mode (any arithmetic, entrywise 1*Q+rho*C) and in sparse mode (exact arithmetic), where sparse mode updates only selected entries in place.", "quantifier": "for all matrices, sparsity patterns and numbers of updates", "why_tests_cant": "The incremental index bookkeeping must be right for all pattern pairs and after any number of updates.", "anchors": ["src/LCQProblem.cpp:setQk", "src/LCQProblem.cpp:updateQk"]}
{"id": "C25", "title": "Complementarity value is the shifted product", "statement": "The complementarity measure used for termination equals (Lx-lbL)'(Rx-lbR), with missing bounds read as zero, whenever both lower bounds are given or both are missing.  Giving exactly one of lbL, lbR makes runSolver dereference a null pointer.", "quantifier": "for all problems and all points x", "why_tests_cant": "The expanded form const + linear + quadratic/2 must match for all x.", "anchors": ["src/LCQProblem.cpp:getPhi", "src/LCQProblem.cpp:initializeSolver"]}
{"id": "C26", "title": "Step length is admissible and optimal", "statement": "The step length is always in (0,1]; when the curvature is positive and the slope negative it minimises the penalised objective along the step over [0,1]; otherwise it is 1.  If the subproblem is solved exactly with symmetric convex Q, steps are not perturbed, a penalty update has been made or the complementarity term has no linear part, and the full step is a strict descent direction (or has non-positive curvature) the penalised objective does not increase.", "quantifier": "for all states with finite data in exact arithmetic", "why_tests_cant": "Optimality over a continuum.", "anchors": ["src/LCQProblem.cpp:getOptimalStepLength", "src/LCQProblem.cpp:updateStep"]}
{"id": "C27", "title": "Iterates stay feasible", "statement": "If every successful QP answer satisfies the linear, box and complementarity-side bounds and step perturbation is disabled, then every iterate after the first subproblem, and in particular the returned point, satisfies lbA<=Ax<=ubA, lbL<=Lx<=ubL, lbR<=Rx<=ubR and lb<=x<=ub.", "quantifier": "for all executions in exact arithmetic", "why_tests_cant": "Convexity argument along all iterations.", "anchors": ["src/LCQProblem.cpp:updateStep", "src/LCQProblem.cpp:solveQPSubproblem", "src/LCQProblem.cpp:runSolver"]}
{"id": "C28", "title": "Dense and sparse runs are equivalent", "statement": "For symmetric data, if no nonzero entry of the complementarity Hessian is below 1e-25 in absolute value, a run in sparse mode and a run in dense mode on the same problem with the same QP answers produce the same iterates, return code, statistics and solution in exact arithmetic.", "quantifier": "for all problems and all QP answer sequences", "why_tests_cant": "Bisimulation over unbounded runs.", "anchors": ["src/LCQProblem.cpp:runSolver", "src/LCQProblem.cpp:updateLinearization", "src/LCQProblem.cpp:getPhi", "src/LCQProblem.cpp:updateStationarity", "src/LCQProblem.cpp:transformDuals"]}
{"id": "C29", "title": "Dynamic penalty rule", "statement": "With n=nDynamicPenalty>0 the penalty is increased by the dynamic rule exactly when n complementarity values have been recorded since the last update, the current value is not below the complementarity tolerance, and it is at least eta times each of the last n values (i.e. eta times their maximum); the record keeps the last n values in order.  With n=0 the rule never fires; negative n behaves as disabled.  In a pass that goes on, the penalty is updated once if the rule fires and once more if the new iterate passes the stationarity test, and the record is emptied exactly then.", "quantifier": "for all histories", "why_tests_cant": "History dependent behaviour over unbounded sequences.", "anchors": ["src/LCQProblem.cpp:leyfferCheckPositive", "src/LCQProblem.cpp:updatePenalty"]}
{"id": "C30", "title": "Iteration tracking is consistent", "statement": "With step storing enabled, all tracked series have length equal to the total iteration count, every stored iterate has nV entries, the accumulated subproblem iterations are the prefix sums of the per-iteration counts, and after a successful run the last accumulated value equals the reported total number of subproblem iterations; without step storing all series are empty.", "quantifier": "for all executions (with non-negative subsolver iteration counts for the total)", "why_tests_cant": "Invariant over unbounded runs.", "anchors": ["src/OutputStatistics.cpp:updateTrackingVectors", "src/LCQProblem.cpp:storeSteps", "src/LCQProblem.cpp:solveQPSubproblem"]}
{"id": "C31", "title": "Statistics objects: reset, copy and counters", "statement": "reset returns the statistics to their initial values, assignment copies every field and is independent afterwards, counters reject negative increments without change, and array getters return a copy of the series (null iff empty).", "quantifier": "for all statistics objects and update sequences", "why_tests_cant": "Frame and copy properties over all states.", "anchors": ["src/OutputStatistics.cpp:reset", "src/OutputStatistics.cpp:operator="]}
{"id": "C32", "title": "Stationarity classification", "statement": "After success the status is S-stationary iff both multipliers are non-negative at every weakly complementary index; otherwise M-stationary iff at each such index both multipliers are positive or their product is below the tolerance in absolute value; otherwise C-stationary iff at each remaining such index the product exceeds the tolerance; otherwise W-stationary.  Weak means Lx<=tol and Rx<=tol (without shifting by the lower bounds) and the multipliers are the penalised ones (before transformDuals).  If at each index one side exceeds the tolerance because of its lower bound, S-stationary is reported whatever the multipliers are.", "quantifier": "for all multipliers, points and index sets", "why_tests_cant": "Case analysis with early return over all index sets.", "anchors": ["src/LCQProblem.cpp:determineStationarityType", "src/LCQProblem.cpp:getWeakComplementarities"]}
{"id": "C33", "title": "Solver choice consistency", "statement": "initializeSolver accepts a dense QP solver only in dense mode and sparse ones only in sparse mode (DENSE_SPARSE_MISSMATCH otherwise), OSQP only without box constraints (INVALID_OSQP_BOX_CONSTRAINTS otherwise) and any other solver value gives NOT_YET_IMPLEMENTED; the number of duals is nV+nC+2nComp for qpOASES and nC+2nComp for OSQP.", "quantifier": "for all problems and solver choices", "why_tests_cant": "Decision table over all states, including states after earlier runs.", "anchors": ["src/LCQProblem.cpp:initializeSolver"]}
{"id": "C34", "title": "Running twice", "statement": "A second runSolver call without reloading does not honour the box constraints of the problem (they are silently replaced by -inf/+inf); with OSQP a second call reads the multiplier array out of bounds. After a sparse qpOASES run the recorded positions of the entries of C are appended again, so a second run either makes no penalty update or indexes C out of bounds.", "quantifier": "for all problems with at least one finite bound / all OSQP problems", "why_tests_cant": "Silent change of the problem and undefined behaviour are not visible in a test that only checks the return code.", "anchors": ["src/LCQProblem.cpp:initializeSolver", "include/LCQProblem.ipp:setLB"]}
{"id": "C35", "title": "Reloading a problem", "statement": "Loading a new dense problem into a used object gives the same run as a fresh object if no complementarity bounds or box bounds are left over from earlier loads and the dynamic penalty record is empty or disabled; but lower complementarity bounds of the previous problem are kept when the new problem has none, so the complementarity measure is wrong.", "quantifier": "for all pairs of problems; existential witness for the stale bounds", "why_tests_cant": "Independence from history over all earlier problems.", "anchors": ["src/LCQProblem.cpp:loadLCQP", "src/LCQProblem.cpp:setComplementarityBounds", "src/LCQProblem.cpp:initializeSolver"]}
{"id": "C36", "title": "No undefined behaviour on the documented path", "statement": "For arguments of the documented sizes and a fresh object, dense load followed by runSolver and the solution getters performs no out-of-bounds access, null dereference, uninitialised read or counter overflow, for every QP solver behaviour; the same holds for any sequence of loads, option changes, mode switches and runs with the qpOASES solvers that has at most one run in sparse mode, if lbL and lbR are both given or both missing, 2*maxIterations+2 <= INT_MAX and every reported QP iteration count is at most N in magnitude with (maxIterations+1)*N <= INT_MAX.  Without the last bound the statistics counter overflows; with exactly one of lbL, lbR a null pointer is dereferenced. With OSQP the set-up and the warm start at the first QP are assumed to be accepted; C93 shows what happens otherwise.", "quantifier": "for all dimensions, data, options and QP behaviours", "why_tests_cant": "Absence of undefined behaviour is a universal statement.", "anchors": ["src/LCQProblem.cpp:loadLCQP", "src/LCQProblem.cpp:runSolver", "src/LCQProblem.cpp:getPrimalSolution", "src/LCQProblem.cpp:getDualSolution"]}
{"id": "C37", "title": "Step perturbation is tiny", "statement": "A step perturbation moves each coordinate of the iterate by -EPS, 0 or +EPS and nothing else; consequently, with QP answers that are within t of feasible points, after k passes of the main loop the iterate is within t + k*EPS of a feasible point in each coordinate: neither perturbations nor errors of the QP solver are amplified. The same holds for the point left by a run, whatever its return code.", "quantifier": "for all iterates, all random sequences and all executions", "why_tests_cant": "All random sequences.", "anchors": ["src/LCQProblem.cpp:perturbStep", "src/LCQProblem.cpp:perturbGradient"]}
{"id": "C38", "title": "Solution getters", "statement": "getPrimalSolution/getDualSolution copy exactly nV / nDuals entries of the current iterate/multipliers, write nothing else, do nothing for null arguments and return the current status; they do not modify the object.", "quantifier": "for all objects and buffers", "why_tests_cant": "All sizes and buffer contents.", "anchors": ["src/LCQProblem.cpp:getPrimalSolution", "src/LCQProblem.cpp:getDualSolution", "src/LCQProblem.cpp:getNumberOfDuals"]}
{"id": "C39", "title": "Constructor validity", "statement": "A problem object is usable iff nV>=1, nComp>=1 and nC>=0; otherwise its dimensions stay indeterminate, and a later load reads indeterminate values instead of reliably returning LCQPOBJECT_NOT_SETUP.", "quantifier": "for all integer triples", "why_tests_cant": "Indeterminate values may happen to look right in a test.", "anchors": ["src/LCQProblem.cpp:LCQProblem"]}
{"id": "C40", "title": "OSQP and qpOASES wrappers", "statement": "The qpOASES wrapper succeeds iff the solver returns code 0; the OSQP wrapper succeeds iff it gets no box bounds, set-up and warm starts work, the error flag is 0 and the status is positive, and it reports the negated OSQP multipliers; the iteration count and exit flag handed back are those of the solver in every case in which the solver was run.", "quantifier": "for all solver responses", "why_tests_cant": "All failure combinations of an external library.", "anchors": ["src/SubsolverOSQP.cpp:solve", "src/SubsolverOSQP.cpp:getSolution", "src/SubsolverQPOASES.cpp:solve", "src/Subsolver.cpp:solve"]}
{"id": "C41", "title": "Reading data files", "statement": "readFromFile fills exactly n entries when the file holds at least n numbers; a file with fewer numbers is nevertheless reported as success and the remaining entries stay uninitialised; a non-numeric token gives UNABLE_TO_READ_FILE.  Loading from files with a dual guess reads past the dual guess buffer.", "quantifier": "for all file contents and all n", "why_tests_cant": "All file lengths; uninitialised data is not observable reliably.", "anchors": ["src/Utilities.cpp:readFromFile", "src/LCQProblem.cpp:loadLCQP"]}
{"id": "C42", "title": "Messages do not alter return codes", "statement": "PrintMessage returns the return value it was given, for every return value and message type, so wrapping a return in PrintMessage never changes it. Different return values have different messages. The three versions of loadLCQP print nothing if they return success, and otherwise print exactly one message, that of the code they return.", "quantifier": "for all return values and message types; all objects, arguments and files for loadLCQP", "why_tests_cant": "All enum values.", "anchors": ["src/MessageHandler.cpp:PrintMessage", "src/LCQProblem.cpp:87-447"]}
{"id": "C43", "title": "Console output follows the print level", "statement": "With print level NONE a successful run prints nothing; with INNER_LOOP_ITERATES exactly one iteration line is printed per iteration; with OUTER_LOOP_ITERATES exactly the iterations with inner counter 0 are printed; the solution line is printed exactly once, on success.", "quantifier": "for all executions", "why_tests_cant": "All executions.", "anchors": ["src/LCQProblem.cpp:printIteration", "src/LCQProblem.cpp:runSolver", "src/MessageHandler.cpp:PrintSolution"]}
{"id": "C44", "title": "MATLAB column-major conversion and statistics labels", "statement": "colMajorToRowMajor yields the row-major layout of the same matrix.  The statistics struct returned by the MATLAB interface stores the tracked series under the wrong field names.", "quantifier": "for all sizes and matrices; witness over field indices", "why_tests_cant": "Layout must be right for all shapes; labels are not tested.", "anchors": ["interfaces/matlab/LCQPow.cpp:colMajorToRowMajor", "interfaces/matlab/LCQPow.cpp:mexFunction"]}
{"id": "C45", "title": "Python dense loading", "statement": "The Python interface hands column-major matrix memory to the row-major loader: the loaded matrices are the given ones iff reinterpreting the memory does not change them, e.g. for symmetric square matrices or a single row; in general L, R, A are scrambled.", "quantifier": "for all sizes and matrices; witness for scrambling", "why_tests_cant": "Tests with symmetric or single-row matrices pass.", "anchors": ["interfaces/python/lcqpow/LCQProblem.cpp"]}
{"id": "C46", "title": "Object memory is released exactly once", "statement": "For every sequence of load, run, mode switch calls on one problem object followed by destruction no array is freed twice, and none is used after being freed with one exception (an OSQP run whose setup is rejected after an earlier OSQP run uses the released workspace); everything allocated in the last load is freed, while the copies and answers that a load, a second run without load or a sparse qpOASES run replaces are leaked. A run leaves the pointers to the problem data alone, and a successful run reads all of the data.", "quantifier": "for all call sequences", "why_tests_cant": "All call sequences; double frees may stay silent.", "anchors": ["src/LCQProblem.cpp:clear", "src/LCQProblem.cpp:switchToSparseMode", "src/LCQProblem.cpp:initializeSolver"]}
{"id": "C47", "title": "Success with lower complementarity bounds can be reported at a non-stationary point", "statement": "With non-zero lower complementarity bounds runSolver can return success at a point that is not even weakly stationary (for no choice of multipliers vanishing at inactive constraints is the Lagrangian gradient below the stationarity tolerance), although Q is symmetric positive definite and every QP is solved exactly: the linear part of the penalty gradient is missing until the first penalty update.", "quantifier": "existential witness: a concrete problem, an exact QP solver and the complete run", "why_tests_cant": "Tests compare with the reported status; they do not quantify over multipliers nor assume an exact QP solver.", "anchors": ["src/LCQProblem.cpp:initializeSolver", "src/LCQProblem.cpp:updatePenalty", "src/LCQProblem.cpp:updateStationarity", "src/LCQProblem.cpp:runSolver"]}
{"id": "C48", "title": "Every QP request is the intended subproblem", "statement": "The first QP request of a run describes min 1/2 x'Qx + g0'x under all linear constraints, both sides of all complementarity pairs and the box bounds, with g0 = g or, if the zero-penalty start is disabled, g + rho*C*x0; every later one is the same with linear term g + rho*grad phi(x) (without the constant part of grad phi before the first penalty update) at the point x reached by the step of that pass, with the current penalty parameter.  OSQP receives the upper triangle of Q, qpOASES the full matrix; the answer v makes the next step v - x.", "quantifier": "for all problems, options, solver choices and executions in exact arithmetic", "why_tests_cant": "Request contents over all iterations are not observable in tests.", "anchors": ["src/LCQProblem.cpp:initializeSolver", "src/LCQProblem.cpp:updateLinearization", "src/LCQProblem.cpp:solveQPSubproblem", "src/Subsolver.cpp:solve"]}
{"id": "C49", "title": "S-stationarity is reported regardless of the true type", "statement": "If the complementarity sides have no upper bounds and every subproblem is solved exactly, every successful run reports S-stationarity.  There is a run (exact subproblems, positive definite Q, zero lower bounds) that reports S-stationarity at a weakly complementary point where all multipliers solving the stationarity condition (even up to an error of one) are negative, i.e. at a point that is not S-stationary.", "quantifier": "for all problems and successful runs with exact subproblems; existential witness", "why_tests_cant": "The universal part ranges over all problems and exact solvers; tests of the status on examples cannot show that the classification is vacuous.", "anchors": ["src/LCQProblem.cpp:determineStationarityType", "src/LCQProblem.cpp:transformDuals"]}
{"id": "C50", "title": "Problem data from MATLAB", "statement": "In every call of the MATLAB interface that its documentation describes, with full arrays of the documented sizes, the object is given the sizes, vectors, L, R and A of the call, and the transpose of Q; the load is refused exactly if lbL or lbR has an entry -infinity. The loaded problem is the given one iff Q is symmetric.", "quantifier": "all calls of the four documented forms with or without parameter struct, all sizes, all matrices and vectors, all parameter structs whose guesses have the right size", "why_tests_cant": "The example scripts use a handful of problems, all with symmetric Q; argument positions depend on the number and class of the arguments.", "anchors": ["interfaces/matlab/LCQPow.cpp:143-166", "interfaces/matlab/LCQPow.cpp:213-279", "interfaces/matlab/LCQPow.cpp:592-675"]}
{"id": "C51", "title": "Unchecked MATLAB arguments", "statement": "The checks of the MATLAB interface do not depend on lbL, ubL, lbR, ubR, and accept a call exactly if every other argument has the class and size its role demands; with such an argument too short, with a sparse g, or with sparse L and full Q, or with one of these four arguments non-empty and of another class (single, int32, char, logical), the interface reads past the end of an array. With OSQP a dual guess of the demanded size nC+2*nComp is always read past its end by the loader. A guess is accepted exactly if it is a column of the demanded size: nV for x0, nV+nC+2*nComp (qpOASES) or nC+2*nComp (OSQP) for y0. A primal guess that is not a column of nV doubles stops the call with an error that names it.", "quantifier": "all argument lists; all calls which can be loaded without the dual guess", "why_tests_cant": "An out-of-bounds read goes unnoticed unless a memory checker is used inside MATLAB.", "anchors": ["interfaces/matlab/LCQPow.cpp:633-660", "interfaces/matlab/LCQPow.cpp:841-853", "include/LCQProblem.ipp:133-158"]}
{"id": "C52", "title": "MATLAB parameter struct", "statement": "Each field of the parameter struct reaches the option of its name independently of the other fields; values which the setter rejects are ignored; maxPenaltyParameter is truncated to an integer, so that values below 1 are ignored and values of 2^31 and more are undefined behaviour. A logical field that is not a 1 x 1 logical array, or a numeric field that is not a 1 x 1 double array, stops the call with an error.", "quantifier": "all parameter structs with scalar fields of the documented classes, all default options", "why_tests_cant": "Fifteen fields with independent ranges; the truncation has no effect on the integral values used in the examples.", "anchors": ["interfaces/matlab/LCQPow.cpp:677-839", "src/Options.cpp:85-259"]}
{"id": "C53", "title": "MATLAB outputs that were never set", "statement": "If the chosen QP solver does not go with the kind of the matrices, the interface reads the uninitialised status. If there are no dual variables after the run (the first QP failed and no guess was given) the dual output is uninitialised memory.", "quantifier": "all calls, all behaviours of the QP solver", "why_tests_cant": "Uninitialised memory often holds zeros in a test.", "anchors": ["interfaces/matlab/LCQPow.cpp:870-949", "src/LCQProblem.cpp:1485-1504"]}
{"id": "C54", "title": "Copying a problem object", "statement": "The class has a destructor that releases its arrays but no copy constructor. Whatever was called on an object before, if one of its array members is not null (always the case after construction with valid dimensions) then destroying it and a copy of it releases an array twice.", "quantifier": "all objects after all sequences of calls", "why_tests_cant": "No test copies an object; the property is about all states in which a copy may be taken.", "anchors": ["include/LCQProblem.hpp:47-64", "src/LCQProblem.cpp:82-84", "src/LCQProblem.cpp:1641-1794"]}
{"id": "C55", "title": "Enough iterations", "statement": "If Q is symmetric and strongly convex, QP answers are exact, the perturbation is off, the initial penalty and the stationarity tolerance are positive, the update factor is above 1 and the largest penalty parameter is finite, then the number of iterations is bounded by a number that depends only on the problem, the initial guess and these options, not on the iteration limit or on the answers chosen; so a large enough iteration limit is never hit. Convexity alone is not enough: for the objective 0 there is a problem with bounded feasible set on which every iteration limit is used up.", "quantifier": "all problems with strongly convex objective, all exact QP solvers, all executions, all iteration limits", "why_tests_cant": "A statement about all iteration limits, and about the absence of cycling; tests stop at one limit.", "anchors": ["src/LCQProblem.cpp:444-560", "src/LCQProblem.cpp:1217-1237"]}
{"id": "C56", "title": "Meaning of the recorded and printed values", "statement": "If steps are stored, there is one record per iteration: counters, iterate, QP iterations as reported by the QP solver, step length, largest entry of the step, largest entry of the stationarity vector, objective, complementarity violation and merit value, each evaluated at the recorded iterate with the penalty parameter of its outer iteration; without perturbation each iterate is the previous one plus step length times step, so their distance is step length times step size. The lines of the printed table show the same numbers, every iteration (level 2) or the first one of every outer iteration (level 1), with a header at every tenth. After success the last recorded stationarity and complementarity values are below the tolerances. The merit value is the penalty function for zero lower complementarity bounds only.", "quantifier": "all runs with any arithmetic (table, printed lines, last values); all finite problems and QP answers in exact arithmetic (meaning of the values)", "why_tests_cant": "No test looks at the recorded or printed values; the statement is about every entry of every run.", "anchors": ["src/LCQProblem.cpp:1161-1203", "src/LCQProblem.cpp:1364-1378", "src/LCQProblem.cpp:1540-1600", "src/OutputStatistics.cpp:131-164"]}
{"id": "C57", "title": "What success means when the arithmetic rounds", "statement": "If a dense problem is loaded and solved successfully in an arithmetic with relative rounding error u and underflow threshold t (IEEE doubles: u = 2^-53, t = 2^-1022), and the tested values are finite, then at the returned point the exact complementarity violation of the problem passed by the caller is below the tolerance plus ((1+u)^(2nV+2nComp+6)-1) times its magnitude (the same expression with all signs positive, every product counting t more), each component of the exact gradient of the penalised Lagrangian is below the stationarity tolerance plus ((1+u)^(nV+nC+2nComp+11)-1) times its magnitude, and the returned multipliers satisfy the stationarity condition of the problem up to this and ((1+u)^(nV+3)-1) times the magnitude of their terms (off by rho*g_phi if the lower complementarity bounds have a linear part and the penalty was updated).", "quantifier": "all dense problems, options, QP answers and arithmetics satisfying the standard model of floating point arithmetic", "why_tests_cant": "Tests compare single results with a tolerance chosen by hand; a bound for the accumulated rounding errors of every problem needs a proof.", "anchors": ["src/LCQProblem.cpp:87-144", "src/LCQProblem.cpp:444-560", "src/LCQProblem.cpp:967-990", "src/LCQProblem.cpp:1172-1185", "src/LCQProblem.cpp:1246-1272", "src/LCQProblem.cpp:1381-1409", "src/Utilities.cpp:38-330"]}
{"id": "C58", "title": "Step perturbation in doubles", "statement": "In IEEE double arithmetic the step perturbation changes a finite coordinate of absolute value less than 4 exactly if its random number is not 1 modulo 3, and it changes no coordinate of absolute value greater than 4 and no infinite or NaN coordinate; hence it has no effect at all on an iterate whose coordinates are all greater than 4 in absolute value.", "quantifier": "all doubles, iterates and random numbers", "why_tests_cant": "There are 2^64 doubles, and absorption depends on rounding to nearest at every magnitude.", "anchors": ["src/LCQProblem.cpp:553-556", "src/LCQProblem.cpp:1353-1362", "include/Utilities.hpp:345-352"]}
{"id": "C59", "title": "Penalty parameter in doubles", "statement": "With initial penalty and update factor accepted by the option setters (and not NaN) every penalty update strictly increases the penalty parameter in IEEE double arithmetic until it becomes +inf: after k updates it is +inf or at least rho0*(1+2^-53)^k, and at least rho0*2^k if the factor is at least 2. With such a factor a run performs at most N+1 penalty updates if rho0*2^N exceeds the largest penalty parameter.", "quantifier": "all accepted options, problems, QP answers and numbers of updates", "why_tests_cant": "A factor just above 1 could be absorbed by rounding for some value of the penalty parameter; only a proof covers all pairs of doubles.", "anchors": ["src/LCQProblem.cpp:1199-1205", "src/Options.cpp:113-133", "include/Utilities.hpp:345-360"]}
{"id": "C60", "title": "Sizes and indices in the type int", "statement": "With every int addition and multiplication of sizes and indices checked, construction, dense or sparse load, switching and the run give the same result as with unbounded integers if nV*nV, nV+nC+2nComp and (dense mode) (nC+2nComp)*nV fit into int, and for a sparse load the numbers of stored entries of A, L and R fit together. For valid sizes the constructor computes without signed overflow exactly if nV <= 46340 and nC+2nComp fits, also for sparse problems, because it allocates the dense matrix Qk; a dense load overflows if (nC+2nComp)*nV does not fit and a sparse load if the number of stored entries does not. The functions that count stored entries in int while they build a sparse matrix (conversion from dense, the product of L and R, upper triangle, merge of Q and rho*C) give the unchecked matrix exactly if its number of entries fits and overflow otherwise; the number is at most the number of positions for the conversion and the product, the number of entries of the source for the upper triangle, and for the merge the sum of the entries of Q and C, and nV*nV if both are sorted. Hence with nV*nV in range the counters overflow neither in the product of a successful sparse load nor in the merge of the matrices it leaves, if the rows of Q are sorted or the entries of Q and nV*nV fit together; nor in the conversion of dense Q and C and their merge.", "quantifier": "all problems, options, QP answers, arithmetics and numbers of passes", "why_tests_cant": "Problems beyond the limits need gigabytes of data, and signed overflow is undefined behaviour that need not show up when it occurs.", "anchors": ["src/LCQProblem.cpp:34-79", "src/LCQProblem.cpp:569-626", "src/LCQProblem.cpp:629-700", "src/LCQProblem.cpp:885-1034", "src/Utilities.cpp:38-330", "src/Utilities.cpp:583-630", "src/Utilities.cpp:119-168", "src/Utilities.cpp:516-561", "src/LCQProblem.cpp:799-863"]}
{"id": "C61", "title": "NaN and success", "statement": "In dense and sparse mode the point of a successful run contains no NaN. MaxAbs ignores NaN: it equals the maximum over the other entries. In dense mode a single NaN among the multipliers of the constraints returned by the QP solver therefore passes the stationarity test: if the new point is complementary, the pass ends the run with success whatever the gradient is (the expected property, that success implies a stationarity vector without NaN, is false).", "quantifier": "all problems, options, QP answers, numbers of passes and arithmetics with a NaN (IEEE doubles included)", "why_tests_cant": "The tests never return NaN from a QP solver, and one would have to be placed at every position of every answer.", "anchors": ["src/Utilities.cpp:253-265", "src/LCQProblem.cpp:1151-1158", "src/LCQProblem.cpp:1170-1183", "src/LCQProblem.cpp:1246-1272", "src/LCQProblem.cpp:516-531"]}
{"id": "C62", "title": "QP solver options from MATLAB", "statement": "Every entry of the qpOASES_options and OSQP_options structs that is a full double scalar reaches the solver option of its name whatever the other entries are; missing and non-scalar entries leave the option unchanged; the print level is cut to -2..3 and the initial status of the bounds to -1..1; all other entries are ignored (among them maxIter and maxCpuTime of the qpOASES struct). An entry with a single element of another class (a logical value such as polish = true, a character, a struct) is read as a double all the same, which is undefined behaviour.", "quantifier": "all structs, all default options, all conversions from double to int", "why_tests_cant": "The repository has no tests of the MATLAB interface, and reading 8 bytes from a 1-byte logical need not be noticed.", "anchors": ["interfaces/matlab/LCQPow.cpp:282-342", "interfaces/matlab/LCQPow.cpp:346-482", "interfaces/matlab/LCQPow.cpp:488-565", "interfaces/matlab/LCQPow.cpp:826-838"]}
{"id": "C63", "title": "Drift of the sparse penalised Hessian", "statement": "In sparse mode the penalised Hessian is updated in place. At every head of the main loop it has a stored entry exactly where Q or C has one, with the value q + rho0*c to which (rho*(1 - 1/factor))*c was added in each of the k penalty updates. In exact arithmetic this is q + rho*c. In rounded arithmetic with unit roundoff u the distance from q + rho*c is at most ((1+u)^(k+4) - 1) times the magnitude of the numbers added, which is at most |q| + 5*rho*|c| up to underflow terms if the factor is at least 2; IEEE doubles are such an arithmetic. The drift occurs: with the default penalty options, q = 2 and c = 1, the first update yields 2.0199999999999996 although the dense version computes 2.02 (the expected property, that both modes hand the same Hessian to the QP solver, is false of doubles).", "quantifier": "all sparse problems with sorted columns of Q, all options, QP answers, numbers of passes and of penalty updates; all arithmetics (first part), all arithmetics satisfying the standard model of rounding (error bound)", "why_tests_cant": "Tests compare results with a tolerance after a few penalty updates and never look at the Hessian; the bound concerns every number of updates.", "anchors": ["src/LCQProblem.cpp:1316-1326", "src/LCQProblem.cpp:794-880"]}
{"id": "C64", "title": "What success means in sparse mode when the arithmetic rounds", "statement": "Let an object be constructed, sparse data with sorted columns be loaded and runSolver return success, with an arithmetic which rounds with unit roundoff u (underflow threshold t) and in which a number taken for zero has absolute value at most z. If the computed complementarity value is finite, the exact complementarity violation of the problem given by the arguments, at the returned point, is below complementarityTolerance + ((1+u)^(2nV+2nComp+6)-1)*magnitude + z/2*(sum|x_i|)^2. If the stationarity vector is finite, every component of the gradient of the penalised Lagrangian (with the multipliers kept in yk_A and the box part of yk, if the QP solver has one) is below stationarityTolerance + ((1+u)^(k+nV+nC+2nComp+12)-1)*magnitude + rho*z*sum|x_i| after k penalty updates, provided that a penalty update was made or g_phi = 0; the returned multipliers satisfy the stationarity condition of the LCQP up to the same error plus ((1+u)^(nV+3)-1)*magnitude if g_phi = 0 or no update was made, and are off by rho*g_phi otherwise. The statements concern the transposed Hessian, which is the Hessian itself if it is symmetric. IEEE doubles are such an arithmetic with u = 2^-53, z = 1e-25 up to one rounding. The z-terms are needed: with default tolerances a run with doubles reports success at a point with complementarity violation above 1e13, because the product 1e-26 of two entries of L and R was dropped (the expected property, that success implies a violation below the tolerance up to rounding errors, is false in sparse mode).", "quantifier": "all sparse problems with sorted columns, all options, all QP solvers (sparse qpOASES, OSQP) and their answers, all numbers of passes and penalty updates; all arithmetics satisfying the standard model of rounding", "why_tests_cant": "Tests use a few well-scaled problems; the bound covers every size, every number of penalty updates and every pattern of dropped entries, and the counterexample needs numbers of very different size.", "anchors": ["src/LCQProblem.cpp:390-447", "src/LCQProblem.cpp:1157-1190", "src/LCQProblem.cpp:1246-1275", "src/LCQProblem.cpp:1316-1326", "src/LCQProblem.cpp:1381-1415", "src/Utilities.cpp:118-172", "src/Utilities.cpp:678-690"]}
{"id": "C65", "title": "Sparse matrices in the MATLAB interface", "statement": "In every documented call of the MATLAB interface with sparse Q, L, R (and A) the interface constructs an object of the right sizes, applies the options, and calls the sparse loader with every argument in its own place; matrices are copied without unused space and Q is not transposed. The call is refused exactly if the complementarity Hessian L'R+R'L has no entry above 1e-25 in absolute value or an entry of lbL, lbR is minus infinity (with the code of the library); otherwise the object holds the problem of the call. If Q is sparse and another matrix is full, the load is refused. False as expected properties: a sparse L, R or A next to a full Q passes the checks and is read as a full array, beyond its end; a sparse g is read as a full array; in a call with 11 arguments and a sparse matrix A without rows, A is taken for lb.", "quantifier": "all sizes, sparse matrices, vectors, option structs and documented argument counts; all arithmetics (exact arithmetic for the criterion with 1e-25)", "why_tests_cant": "Argument positions depend on the number of arguments and on the sizes; a test covers one combination with one pattern, and out-of-bounds reads may go unnoticed.", "anchors": ["interfaces/matlab/LCQPow.cpp:60-300", "interfaces/matlab/LCQPow.cpp:143-166", "interfaces/matlab/LCQPow.cpp:213-258"]}
{"id": "C66", "title": "Scalar helpers", "statement": "On finite values isEqual and isZero compare the absolute difference or value with the tolerance (1e-25 if none is given), getMax and getMin are maximum and minimum, getAbs is the absolute value and getSign is 1 for nonnegative and -1 for negative numbers. NaN equals nothing, is not zero and has sign -1; getMax and getMin return the second argument if one argument is NaN, so a NaN in the first argument is lost. getIndexOfIn never reads outside of the given range and returns the first position of the value unless a larger value precedes it, and -1 otherwise; in a sorted range -1 is returned exactly if the value does not occur.", "quantifier": "all numbers, including NaN and infinities in exact arithmetic; all integers, lists and ranges", "why_tests_cant": "The statement covers all values, NaN, and unsorted lists.", "anchors": ["src/Utilities.cpp:652-736"]}
{"id": "C67", "title": "Sparse matrices in the Python interface", "statement": "loadLCQP from Python with sparse matrices of the right sizes is refused exactly if the complementarity Hessian has no stored entry or an entry of lbL or lbR is minus infinity, with the code of the library; otherwise the object holds the problem of the call: every matrix with the same stored entries (none is transposed, unlike in the dense version), the stacked constraint matrix, all bounds and guesses in their places. The same problem leads to the same object through the MATLAB interface. A vector which is too short never leads to a successful load. False as expected properties: sizes of matrices are checked (an L with too many rows is accepted and its additional rows are added to those of R in the constraint matrix; a Q which is too large is accepted and OSQP runs then read outside of the linear term), and a missing A is reported when there are linear constraints.", "quantifier": "all sizes, sparse matrices, vectors and objects; all arithmetics", "why_tests_cant": "Tests load one small problem of the right sizes; the statement covers every combination of optional arguments and sizes, and out-of-bounds reads may go unnoticed.", "anchors": ["interfaces/python/lcqpow/LCQProblem.cpp:24-30", "interfaces/python/lcqpow/LCQProblem.cpp:114-146", "src/LCQProblem.cpp:390-447", "src/SubsolverOSQP.cpp:37-46"]}
{"id": "C68", "title": "Success means approximate local optimality", "statement": "If the objective is convex, subproblems are solved exactly steps are not perturbed, and a penalty update was made or the lower complementarity bounds give no linear part, then the point x returned with success is feasible, and every feasible point y whose complementarity sides do not clash with those of x (in particular every point of the branches on which x lies) has an objective value not below that of x minus the stationarity tolerance times |y - x| + (1 - a)|p|, p and a being the last step and step length. If x is exactly complementary, this holds for all points of the program near x. Without these assumptions on the objective and the perturbation, the corresponding inequality for the derivative of the penalty function holds. The returned multipliers of a complementarity side without upper bound are not below -rho times the value of the other side. False as expected property: the returned point is a global minimum.", "quantifier": "all problems with symmetric Q, all option values, all exact QP solvers, all numbers of iterations; dense and sparse load; exact arithmetic over ordered fields", "why_tests_cant": "A test compares with known solutions of a few problems; the inequality concerns all feasible points of all problems.", "anchors": ["src/LCQProblem.cpp:449-580", "src/LCQProblem.cpp:1152-1272"]}
{"id": "C69", "title": "Symmetries of the problem are kept by the iteration", "statement": "Let a linear map S keep feasible points feasible and change neither the objective nor the complementarity violation, let the objective be strictly convex, let subproblems be solved exactly, and let the perturbation be off and the first QP be the unpenalised one (or the initial guess be fixed by S). Then S fixes the point left by every run that enters the main loop. Hence a run never succeeds if no feasible point fixed by S is complementary up to the tolerance. In particular no run without perturbation solves min (x^2+y^2)/2, x+y=1, 0 <= x _|_ y >= 0 with a complementarity tolerance of at most 1/4, whatever the other options are, although (1,0) and (0,1) are solutions.", "quantifier": "all problems, symmetries, option values, exact QP solvers and numbers of iterations; exact arithmetic over ordered fields", "why_tests_cant": "A run that fails for one set of options says nothing about the others; the statement excludes success for all penalty sequences and iteration limits.", "anchors": ["src/LCQProblem.cpp:449-580", "src/LCQProblem.cpp:1152-1244"]}
{"id": "C70", "title": "The run is that of the abstract algorithm and does not depend on solver, storage format or presentation", "statement": "If the objective is convex and subproblems are solved exactly, then a run that is not ended by a failing QP call is a run of the abstract sequential penalty algorithm (minimise the objective plus the linearised penalty term over the feasible set, move by the minimising step length, raise the penalty parameter when stationary or when the violation does not decrease enough): the same return code, point, step, penalty parameter and counters. If the objective is strictly convex, the abstract algorithm is deterministic. Hence two runs with the same objective, violation function, feasible set, initial guess and options return the same code, point, penalty parameter and counters: whichever QP solver is used, whether the matrices are dense or sparse, which side of the pairs is called L and which R, whether bounds of variables are given as bounds or as linear constraints, and whatever redundant constraints there are. The multipliers may differ.", "quantifier": "all problems with symmetric positive (semi)definite Q, all option values, all exact QP solvers, all numbers of passes; exact arithmetic over ordered fields", "why_tests_cant": "Two runs can be compared for some problems only, and rounding hides whether a difference has a reason in the algorithm.", "anchors": ["src/LCQProblem.cpp:449-580", "src/LCQProblem.cpp:1115-1372"]}
{"id": "C71", "title": "Names of the Python interface", "statement": "In the Python package, the attribute of an enumeration with the name of a C++ enumerator is that enumerator, except for six return codes (five are bound under a name that ends with a blank, DENSE_SPARSE_MISSMATCH is not bound and is shown as ???), and no name of the package hides another. Each option that can be set from Python has a setter and a getter with matching types; an accepted value is returned by the getter of the same name and by no other, a refused one changes nothing. No Python program can switch off the step perturbation or change the options of the QP solvers, in any of its Options objects. The getters of the statistics return the series they are named after. The mode of a problem object is that of the last accepted load; since Python has no call to change it, a run after loading arrays or files is refused for QPOASES_SPARSE and OSQP_SPARSE, and after loading sparse matrices for QPOASES_DENSE.", "quantifier": "all return codes and attribute names, all option values, all sequences of operations on any number of Options objects, all sequences of calls on a problem object with all data and QP solver answers", "why_tests_cant": "There are no tests of the Python interface; sequences of calls are unbounded, and a missing name shows only when that code is returned.", "anchors": ["interfaces/python/lcqpow/Utilities.cpp:12-79", "interfaces/python/lcqpow/Options.cpp:14-44", "interfaces/python/lcqpow/OutputStatistics.cpp:17-33", "interfaces/python/lcqpow/LCQProblem.cpp:70-176"]}
{"id": "C72", "title": "Data files as text, and loss of precision when arrays are stored", "statement": "The text of a data file determines one sequence of numbers, and readFromFile reads that sequence, so that C41 holds for texts; a decimal literal is read as the double next to its value. Writing an array with writeToFile and reading it back yields the array with each entry rounded to six decimals: finite entries change by at most 1e-6; integers, entries of absolute value at least 2^33, doubles next to a number with six decimals, infinities and NaN do not change; order is kept; a second round changes nothing. An entry is read back as zero exactly if its absolute value is at most 5e-7, so small matrix entries (as in the shipped example OptimizeOnCircle) are lost. If the file cannot be opened for writing, fclose is called with a null pointer.", "quantifier": "all texts, all arrays of doubles, all lengths", "why_tests_cant": "All 2^64 doubles and all texts; tests use a few numbers with at most six decimals, for which nothing is lost.", "anchors": ["src/Utilities.cpp:readFromFile", "src/Utilities.cpp:writeToFile"]}
{"id": "C73", "title": "Console output as text: numbers, columns, arrays", "statement": "A number of the iteration table is shown as the closest number with three significant digits (relative error at most 0.5 percent; zero only for zero), in at most ten characters; infinities and NaN by name; counters exactly. The table of a run consists of lines of one width (59 characters, 90 from print level 2 on), header, separators and rows having the same columns, provided the iteration limit is below 500000 and a QP solver call needs less than a million iterations; a counter of seven digits breaks the layout. printMatrix shows the rows in order with five decimals (error at most half a unit of the last one), printStep and printBounds the components with two decimals. Printing a sparse matrix equals printing its dense form; if a row index lies outside the matrix, the null pointer returned by csc_to_dns is accessed. An error message of the library is shown as \"ERROR: \" and one line of text, different for different codes; only the text for an invalid etaDynamicPenalty does not end its line.", "quantifier": "all doubles, all integers, all runs (any data, any answers of the QP solver), all arrays, all sparse matrices", "why_tests_cant": "Rounding and widths have to be right for all 2^64 doubles (denormals need the full ten characters) and every run; no test looks at the output.", "anchors": ["src/LCQProblem.cpp:printIteration", "src/LCQProblem.cpp:printHeader", "src/LCQProblem.cpp:printLine", "src/Utilities.cpp:printMatrix", "src/Utilities.cpp:printStep", "src/Utilities.cpp:printBounds", "src/MessageHandler.cpp:28-211"]}
{"id": "C74", "title": "Printing and storing do not influence the computation", "statement": "Two programs of loads, option settings, mode switches and runs that differ only in the print level and in the option to store the iterates return the same codes, make the same number of QP solver calls, report the same error messages and leave the same iterate, multipliers, penalty parameter, status, counters and problem data; every getter other than those of the stored series returns the same. A run without output is defined whenever the run with output is; on the documented path both are. (On the documented path: under the conditions of C36.)", "quantifier": "all data (dense and sparse, the three QP solvers), all options, all answers of the QP solver, all sequences of calls, all arithmetics", "why_tests_cant": "It relates two executions for all data and options; tests run with one print level each and compare no pairs of runs.", "anchors": ["src/LCQProblem.cpp:printIteration", "src/LCQProblem.cpp:storeSteps", "src/LCQProblem.cpp:runSolver", "src/Options.cpp:setPrintLevel"]}
{"id": "C75", "title": "The example program OptimizeOnCircle", "statement": "For every number N of directions, the program builds its nine arrays without leaving their bounds and they hold the problem: minimise a quadratic in p subject to d_i.p + lambda_i = 1, sum theta_i = 1, 0 <= lambda_i _|_ theta_i >= 0. A point p belongs to a feasible complementary point exactly if it lies on the boundary of the polygon d_i.p <= 1. The program has no undefined behaviour; it ends with exit code 1, or with exit code 0 and then xOpt is the final iterate, yOpt begins with the final multipliers. With exit code 0 and OSQP answers within t of the linear constraints, p lies within s = t + k*EPS of a point whose distance from the origin is more than 1 - (1000 EPS + (N+1)s + N s^2) and at most 1/cos(pi/N); for the 100 directions of the program and t = 1e-6 that is between 0.9998 and 1.0005. 'No undefined behaviour' is shown for QP solvers that report iteration counts of magnitude at most M with 1001*M <= INT_MAX (otherwise the statistics counter can overflow) and, where OSQP is used, whose set-up and warm start at the first QP are accepted (otherwise C93 applies).", "quantifier": "all numbers of directions, all answers of OSQP (for the absence of undefined behaviour: as bounded in the statement), all random numbers, all contents of uninitialised memory", "why_tests_cant": "The example is not run by the tests, and a run covers one number of directions and one behaviour of OSQP.", "anchors": ["examples/OptimizeOnCircle.cpp:main"]}
{"id": "C76", "title": "The example program solve_lcqp_from_file", "statement": "If the data directory holds the arrays of a problem, each file with one number per line, then the program finds the numbers of variables, constraints and complementarity pairs from the numbers of lines and is exactly: load of these arrays without dual guess, switch to sparse data, run with the sparse qpOASES solver; exit code 0 if and only if all three succeed, otherwise 1 (-1 without directory). For files written by writeToFile the arrays are the original ones rounded to six decimals. For every directory with a non-empty Q.txt and at least as many lines in L.txt as variables no step is undefined, and a file that is unfit leads to exit code 1. Disagreements with the code's intention: without (or with an empty) Q.txt it divides by zero; with too few lines in L.txt it works on uninitialised dimensions; y0.txt is never read; matrices stored with one row per line are silently taken for smaller ones. 'No undefined behaviour' is shown for QP solvers that report iteration counts of magnitude at most M with 1001*M <= INT_MAX (otherwise the statistics counter can overflow).", "quantifier": "all contents of the directory, all answers of the QP solver (for the absence of undefined behaviour: as bounded in the statement), all contents of uninitialised memory", "why_tests_cant": "The example is not run by the tests and the repository has one data directory; the claim is about all file contents.", "anchors": ["examples/solve_lcqp_from_file.cpp:main", "examples/solve_lcqp_from_file.cpp:PathExists", "src/Utilities.cpp:readFromFile"]}
{"id": "C77", "title": "The warm-up programs", "statement": "The nine warm-up programs that print a solution and test_max_penalty.cpp have no undefined behaviour: exit code 0 exactly after a successful run, then xOpt is the final iterate, yOpt begins with the final multipliers (all printed entries are written ones) and the statistics are those of the run; test_max_penalty.cpp returns 0 exactly if the solver returned MAX_PENALTY_REACHED. With exact subproblem solutions and exact arithmetic, and no failure reported by the QP solver, it always does so, after at most 260 passes. The plain warm-up problem has exactly the minimizers (1,0) and (0,1) (shifted by c). With exact subproblem solutions and exact arithmetic, exit code 0 of one of the seven programs with this problem implies that xOpt is within 3e-5 of one of the two minimizers, or of the corner, and then the printed penalty parameter is at least 1e6. The corner does occur (disagreement with the intention): if rand() does not break the symmetry, warm_up.cpp ends successfully at the corner and reports an S-stationary point, although both multipliers are about -2. For the two programs with more constraints, if the QP solver returns points within 1e-9 of feasible ones: exit code 0 of warm_up_w_A.cpp implies that xOpt satisfies the constraints up to 1e-5, one of its coordinates vanishes up to 1e-6 and the printed multipliers satisfy the stationarity condition up to 1e6*EPS; exit code 0 of warm_up_binary.cpp implies that the first coordinate is 0 or 1/2 up to 1e-8, and then the second vanishes in the latter case. 'No undefined behaviour' is shown for QP solvers that report iteration counts of magnitude at most M with 1001*M <= INT_MAX (otherwise the statistics counter can overflow) and, where OSQP is used, whose set-up and warm start at the first QP are accepted (otherwise C93 applies). The options of warm_up (both), warm_up_binary, warm_up_store_steps, warm_up_sparse, warm_up_shifted, warm_up_OSQP_options and warm_up_qpOASES_options are the defaults, except for the QP solver (0, 0, 0, 0, 1, 2, 2, 1), the print level (2 in the first six), storing of steps and the settings of the QP solver in the last two. The last two pass their options after loading the problem, the others before.", "quantifier": "all answers of the QP solver (for the absence of undefined behaviour: as bounded in the statement), all results of rand(), all contents of uninitialised memory; for the solution: all exact QP answers and all results of rand()", "why_tests_cant": "The test runs each program once with one seed and does not look at the solution; the claim covers every seed, every exact QP solver and every uninitialised memory content.", "anchors": ["examples/warm_up.cpp:main", "test/warm_up_shifted.cpp:main", "test/examples/test_max_penalty.cpp:main", "test/examples/warm_up_OSQP_options.cpp:main", "src/LCQProblem.cpp:runSolver", "test/examples/warm_up_w_A.cpp:main", "test/examples/warm_up_binary.cpp:main"]}
{"id": "C78", "title": "Whole calls of the MATLAB interface", "statement": "Let a call of the MATLAB function follow the documentation of LCQPow.m (full or sparse arrays of matching sizes, both or none of lbL and lbR, a QP solver that fits to the kind of the arrays), with one to three outputs. Then the call has no undefined behaviour and ends with an error only if lbL or lbR has an entry -inf or, for sparse matrices, if L'R+R'L has no nonzero entry. Otherwise it runs the solver on exactly the given problem with exactly the given options and returns the last iterate, as many multipliers as the solver has, and the statistics of the run under their names (except qp_exit_flag when steps are stored). In exact arithmetic, with symmetric Q and answers of the QP solver within t of feasible points: if stats.exit_flag is 0, then x is within t + (iters_total-1)*EPS of a point satisfying all constraints but the complementarity, the complementarity violation at x is below complementarityTolerance, and, if the lower complementarity bounds have no linear part, x and y satisfy the stationarity condition of the given problem up to stationarityTolerance. 'No undefined behaviour' is shown for QP solvers that report iteration counts between 0 and M with (maxIterations+1)*M <= INT_MAX and 2*maxIterations+2 <= INT_MAX (otherwise a counter can overflow) and, where OSQP is used, whose set-up and warm start at the first QP are accepted (otherwise C93 applies).", "quantifier": "all documented calls of all sizes with all parameter structs, all answers of the QP solver (for the absence of undefined behaviour: as bounded in the statement), all contents of uninitialised memory, one to three outputs", "why_tests_cant": "There are no tests of the MATLAB interface; the claim covers every documented call from the arguments to the outputs, for every behaviour of the QP solver.", "anchors": ["interfaces/matlab/LCQPow.cpp:mexFunction", "interfaces/matlab/LCQPow.m", "src/LCQProblem.cpp:runSolver"]}
{"id": "C79", "title": "The MATLAB example scripts", "statement": "The five scripts in interfaces/matlab/examples build the intended data without an index error (for the circle: any number of directions; sparse() gives valid matrices with sorted columns) and call the interface as documented. With any QP answers no call has undefined behaviour, and none ends with an error (with sparse matrices: unless rounding makes all products of entries of L and R zero, which does not happen in exact arithmetic); what the scripts print or record are the last iterate, its multipliers and the statistics of the run. In exact arithmetic: warm_up.m with exact QP answers prints after a success a point within 3e-5 of (1,0) or (0,1), or of the origin and then the penalty parameter is at least 1e6; if the QP answers are within t of feasible points, exit flag 0 in generalized_constraints.m, scale1.m, solvers_test.m and success in optimize_on_circle.m mean that the result is within t + k*EPS of a point satisfying the linear constraints, with complementarity violation below the tolerance and, except in the first (its lower bound has a linear part), stationarity residual below the tolerance; in the circle scripts the point is then near the boundary of the polygon. optimize_on_circle.m makes 47 calls with the initial penalty parameters 1e-7*1.5^j and records twice the objective (shifted to be zero at the reference point) at the result. 'No undefined behaviour' is shown for QP solvers that report iteration counts between 0 and M with 1001*M <= INT_MAX (otherwise the statistics counter can overflow) and, where OSQP is used, whose set-up and warm start at the first QP are accepted (otherwise C93 applies). The rounds of solvers_test.m use the numbers of directions 10, 30, ..., 190.", "quantifier": "all answers of the QP solver (for the absence of undefined behaviour: as bounded in the statement), all contents of uninitialised memory, all numbers of directions and all directions, the three QP solvers in warm_up.m and solvers_test.m", "why_tests_cant": "The scripts are not run by any test; the claim covers every behaviour of the QP solver and every discretisation of the circle.", "anchors": ["interfaces/matlab/examples/warm_up.m", "interfaces/matlab/examples/generalized_constraints.m", "interfaces/matlab/examples/scale1.m", "interfaces/matlab/examples/solvers_test.m", "interfaces/matlab/examples/optimize_on_circle.m", "interfaces/matlab/LCQPow.cpp:mexFunction"]}
{"id": "C80", "title": "The Python example scripts", "statement": "The ten scripts in interfaces/python/examples, executed statement by statement. warm_up.py, warm_up_w_A.py and test_max_penalty.py hand over exactly the data and options of the C++ programs of the same name, in matrices of the shapes given by nV, nC and nComp, warm_up_binary.py and warm_up_osqp.py variants of them; OptimizeOnCircle.py and OptimizeOnCircleStoreSteps.py fill their arrays within bounds for every number of directions, with the data of OptimizeOnCircle.cpp up to the rounding of the linear term (equal in exact arithmetic). The five warm-up scripts other than warm_up_sparse.py always load and run without undefined behaviour, for all QP answers, and print the last iterate, its multipliers and the statistics of the run; the failure message is printed exactly if the run did not return success. In exact arithmetic: without a failure message warm_up.py and warm_up_osqp.py (exact QP answers) print a point within 3e-5 of (1,0) or (0,1), or of the origin with a penalty parameter of at least 1e6; warm_up_w_A.py and warm_up_binary.py (QP answers within t of feasible points) print a point close to the feasible set with small complementarity violation; test_max_penalty.py always prints that the test succeeded. warm_up_sparse.py and both circle scripts never solve anything: the run is refused for every QP solver behaviour and the scripts then read an uninitialised status. The file scripts count lines with either kind of line end, raise exceptions for missing files, read uninitialised dimensions if L.txt is shorter than lb.txt, and otherwise always end with the message that solving failed. 'No undefined behaviour' is shown for QP solvers that report iteration counts of magnitude at most M with 1001*M <= INT_MAX (otherwise the statistics counter can overflow) and, where OSQP is used, whose set-up and warm start at the first QP are accepted (otherwise C93 applies).", "quantifier": "all answers of the QP solver (for the absence of undefined behaviour: as bounded in the statement), all contents of uninitialised memory, all numbers of directions and all directions, all contents of the data files", "why_tests_cant": "No test runs the scripts; three of them have undefined behaviour in every execution whatever the QP solver does, and the results claimed are for all QP solver behaviours.", "anchors": ["interfaces/python/examples/warm_up.py", "interfaces/python/examples/warm_up_w_A.py", "interfaces/python/examples/warm_up_binary.py", "interfaces/python/examples/warm_up_osqp.py", "interfaces/python/examples/warm_up_sparse.py", "interfaces/python/examples/test_max_penalty.py", "interfaces/python/examples/OptimizeOnCircle.py", "interfaces/python/examples/OptimizeOnCircleStoreSteps.py", "interfaces/python/examples/solve_lcqp_from_file.py", "interfaces/python/examples/solve_generalized_from_file.py"]}
{"id": "C81", "title": "The unit tests that depend on random numbers or on the QP solver", "statement": "The tests that run the solver on hand made objects (DenseToSparse, CheckQPReturnFlag, RunWarmUp) use the default options with output switched off. SparseDenseBackAndForth passes whatever std::rand() returns, in exact arithmetic and with IEEE doubles. DenseToSparse, CheckQPReturnFlag and RunWarmUp have no undefined behaviour with any QP answers. In DenseToSparse all mode switches succeed, and the redundant ones leave the object as it is, so it can fail only because one of the two runs reaches a limit or the QP solver fails. CheckQPReturnFlag passes exactly if the run returns SUBPROBLEM_SOLVER_ERROR (the reported exit flag is then not zero), and it passes with every QP solver that reports success only if the bounds of every constraint leave room for a value. RunWarmUp: all 100 loads into the same object succeed; with exact QP answers in exact arithmetic its stationarity checks never fail, and if the check of the point fails, the point is within 3e-5 of (1,0) or (0,1), or of the origin with a penalty parameter of at least 1e6; the last case occurs (if rand() never breaks the symmetry), so an exact QP solver does not guarantee that the test passes. 'No undefined behaviour' is shown for QP solvers that report iteration counts of magnitude at most M with 1001*M <= INT_MAX (otherwise the statistics counter can overflow).", "quantifier": "all random numbers, all answers of the QP solver (for the absence of undefined behaviour: as bounded in the statement), all contents of uninitialised memory, all options set as in the tests", "why_tests_cant": "A test passes or fails for the random numbers and QP answers it meets; the claim says for all of them which tests can fail and why.", "anchors": ["test/RunUnitTests.cpp", "src/LCQProblem.cpp:switchToSparseMode", "src/LCQProblem.cpp:switchToDenseMode", "src/LCQProblem.cpp:runSolver"]}
{"id": "C82", "title": "Memory of the Python class for sparse matrices", "statement": "Whatever a Python program does with cscWrapper objects (create, let go, hand to loadLCQP), no block is released twice, used after its release or released by the wrong function, and a load reads the struct and the arrays of every matrix it is given. When an object goes away its three arrays are released. Expected but false: its struct is released too; the destructor frees the pointer only when it is null, so every object leaks its struct (and nothing else is leaked). The class must not be copied: the struct of a C++ copy points to the arrays of the original.", "quantifier": "for all programs over the class and all array lengths", "why_tests_cant": "Leaks and use after release do not change results; the tests never build wrappers in a loop, never let them go before a load, and no test runs under a leak checker.", "anchors": ["interfaces/python/lcqpow/LCQProblem.cpp:cscWrapper", "src/Utilities.cpp:createCSC"]}
{"id": "C83", "title": "Runs do not depend on units, order and sign of the variables", "statement": "Multiply the objective by c>0 and the complementarity products by w>0, and replace the variables by x = T y, where T renumbers the variables, changes signs and applies a common unit s>0 (more generally: T is invertible and its transpose multiplies the max norm by s). If the initial penalty parameter and its limit are multiplied by c/w, the stationarity tolerance by c*s, the complementarity tolerance by w, the initial guess is converted and all other options are kept, then with a strictly convex objective, exactly solved subproblems and exact arithmetic the run returns the same code after the same number of passes and penalty updates in the converted point, with the same step lengths and the penalty parameter multiplied by c/w (unless a QP call fails). With perturbation enabled this holds if the variables are kept. Expected but false: the same for a move of the origin (x = y - v); before the first penalty update the linear term of the complementarity function is missing, and a run can end successfully in a different point.", "quantifier": "all problems with strictly convex objective, all factors, permutations and signs, all options, exact QP answers (other ones may be returned by the solver of the second run)", "why_tests_cant": "It is a statement about pairs of runs for all problems and all changes of units; tests compare single runs with single numbers.", "anchors": ["src/LCQProblem.cpp:runSolver", "src/LCQProblem.cpp:stationarityCheck", "src/LCQProblem.cpp:complementarityCheck", "src/LCQProblem.cpp:updatePenalty", "src/LCQProblem.cpp:leyfferCheckPositive", "src/LCQProblem.cpp:getOptimalStepLength"]}
{"id": "C84", "title": "What the initial guess is good for", "statement": "Strictly convex objective, exact arithmetic, exactly solved subproblems, no failing QP call. (a) If the first subproblem is solved without penalty term (solveZeroPenaltyFirst, the default), the primal and dual initial guess have no influence on the result: runs from different guesses return the same code, point, step length, penalty parameter, counters and stored values of the complementarity function. (b) If it is solved with penalty term, if moreover the complementarity function has no linear term (as for zero lower complementarity bounds), there are no upper bounds on the complementarity sides, the tolerances are positive and the guess satisfies all constraints including complementarity, then the run ends in the guess after one pass exactly if the guess is strongly stationary and the initial penalty parameter outweighs its negative complementarity multipliers; then it returns success with the penalty parameter unchanged. For every strongly stationary point all sufficiently large initial penalty parameters do. Expected but false: a run started in a global solution does not return a worse point; with the default choice of the first subproblem it can.", "quantifier": "all problems with strictly convex objective, all pairs of initial guesses, all options, all exact QP solvers", "why_tests_cant": "The statements compare runs from all pairs of initial guesses, and characterise the guesses that are returned; tests try single guesses.", "anchors": ["src/LCQProblem.cpp:runSolver", "src/LCQProblem.cpp:initializeSolver", "src/LCQProblem.cpp:setInitialGuess", "src/LCQProblem.cpp:updateQPSolver", "src/LCQProblem.cpp:stationarityCheck", "src/Options.cpp:setSolveZeroPenaltyFirst"]}
{"id": "C85", "title": "When the penalty homotopy is guaranteed to succeed, and when not", "statement": "Strongly convex objective, exact arithmetic, exactly solved subproblems, no perturbation, no failing QP call, positive initial penalty parameter and tolerances, update factor greater than one. (a) If some point satisfies all linear constraints and bounds with both sides of every complementarity pair at their lower bounds (for instance the origin of a problem with zero lower bounds), then for every initial guess there is a number Rs such that no run whose limit of the penalty parameter is at least Rs is ended by this limit: it is successful or ended by the iteration limit. With a positive stationarity tolerance, all runs with such a penalty limit and a sufficiently large iteration limit are successful; the dynamic penalty rule, the choice of the first subproblem, the form of the load and the QP solver do not matter. With matching qpOASES mode, QP calls that succeed and counters that stay in range, the run returns one of these two codes. (b) Without such a point nothing of this kind holds: there is a problem with strongly convex objective and points that satisfy all constraints and complementarity, for which every run from the default initial guess, for all penalty and iteration limits, update factors and initial penalty parameters, ends unsuccessfully in the same non-complementary point.", "quantifier": "all problems with strongly convex objective and such a point, all initial guesses, all options, all exact QP solvers; in (b) all options and exact QP solvers", "why_tests_cant": "A guarantee of success for all problems of a class, and the impossibility of success for all values of the limits, are statements about infinitely many runs.", "anchors": ["src/LCQProblem.cpp:runSolver", "src/LCQProblem.cpp:updatePenalty", "src/LCQProblem.cpp:updateStep", "src/LCQProblem.cpp:getOptimalStepLength", "src/LCQProblem.cpp:getPhi"]}
{"id": "C86", "title": "Runs with a QP solver of limited accuracy such as OSQP", "statement": "Suppose each successful QP answer violates no constraint or bound by more than eps, and its multipliers are positive only within eps of the lower and negative only within eps of the upper bound (OSQP's termination test on the primal residual gives this). (a) The point left by a run, with whatever return code, violates no linear constraint, side constraint or bound by more than eps plus (if the steps are perturbed) the number of steps times the size of the perturbation times the sum of the absolute coefficients: errors of the QP solver do not add up over the iterations. (b) At the point x returned by a successful run (after a penalty update, or with zero lower bounds of the sides), the derivative of the penalty function towards any feasible point y is not below minus the stationarity tolerance times the distance of y and the length of the part of the last step that was not made, minus eps times the sum of the absolute values of the last multipliers; the QP solver's accuracy for the gradient does not enter (a perturbation of the steps adds a term of its size). (c) With convex objective and unperturbed steps, a feasible point whose sides do not clash with those of x is better by no more than these two amounts, and every complementarity product is below the tolerance plus eps times the sum over the other pairs of the larger absolute value of the two sides. (d) The last term is needed: there is a problem with strongly convex objective and a successful OSQP run with default tolerances and answers within 1/1000 of the solutions, whose returned point has a complementarity pair with both sides equal to 1, because the solver sums products with signs.", "quantifier": "all problems, all runs with answers accurate up to eps (all eps), dense and sparse loads, exact arithmetic of the solver itself", "why_tests_cant": "It relates the quality of the result to the accuracy of the QP solver for all problems and all sequences of inexact answers; (d) needs an answer sequence that no test with an accurate QP solver produces.", "anchors": ["src/LCQProblem.cpp:runSolver", "src/LCQProblem.cpp:getPhi", "src/LCQProblem.cpp:getOptimalStepLength", "src/LCQProblem.cpp:updateStep", "src/LCQProblem.cpp:stationarityCheck", "src/LCQProblem.cpp:complementarityCheck", "src/SubsolverOSQP.cpp:getSolution"]}
{"id": "C87", "title": "Documented tolerances and the MATLAB options file", "statement": "(a) The options file shipped with the MATLAB interface cannot be used: apart from two syntax errors (a missing and a superfluous comma) a call of the interface that passes its struct is refused with a type error for solveZeroPenaltyFirst, for every problem, because the flags are numbers and not logicals. (b) With the flags made logical the struct is accepted, and the options differ from the library's defaults exactly in stationarity tolerance, complementarity tolerance and print level; in double precision the tolerances are 1000*2^-52 and 1000000*2^-52, and the stationarity tolerance is then smaller and the complementarity tolerance greater than the library's default (the factors 1000 and 1000000 are exchanged). (c) The documentation calls the stationarity tolerance a tolerance for the 1-norm of the stationarity violation. After a successful run with exact arithmetic (zero lower bounds of the sides, or no penalty update) this norm is at most the number of variables times the tolerance, and there is a run with an exact QP solver that is successful although the norm is 3/2 times the tolerance.", "quantifier": "all problems and argument lists of the MATLAB interface in (a), (b); all problems and runs with exact arithmetic in (c)", "why_tests_cant": "The refusal and the set options are claimed for every problem and every arithmetic, the bound for all runs; the test suites neither use the options file nor evaluate a norm.", "anchors": ["interfaces/matlab/LCQPow_options.m:5-15", "interfaces/matlab/LCQPow.cpp:checkDimensionAndTypeBool", "include/Options.hpp:stationarityTolerance", "src/Options.cpp:setToDefault", "src/LCQProblem.cpp:stationarityCheck", "interfaces/matlab/LCQPow.m:44"]}
{"id": "C88", "title": "One set-up of the QP solver per run", "statement": "The README promises a constant Hessian and a single factorization of the KKT matrix. In any arithmetic, for any object (loaded or not) and any answers of the QP solver: all requests of a run contain the same matrices, which are the Hessian of the objective and the stacked constraint matrix of the object (never the penalty term), the same bounds and the same settings; only the first request of the run sets the QP solver up, and every later one is a hot start without initial guess, so that only the linear term changes. A run that goes on after a pass has sent exactly one request in it, and a run whose initialisation fails sends none. The QP solver's answers to any other request have no influence on the run.", "quantifier": "all objects, environments, arithmetics, numbers of passes and sequences of QP answers, including failing ones", "why_tests_cant": "It is about every request in every run; a test sees the result only and would pass with a new set-up in each iteration.", "anchors": ["README.md:3", "src/LCQProblem.cpp:runSolver", "src/LCQProblem.cpp:solveQPSubproblem", "src/LCQProblem.cpp:initializeSolver", "src/SubsolverQPOASES.cpp:solve", "src/SubsolverOSQP.cpp:solve"]}
{"id": "C89", "title": "Uninitialised memory has no influence on results, with two exceptions", "statement": "The source allocates arrays with new double[n] in many places and leaves their contents undefined until they are written. In any arithmetic, for any two contents of freshly allocated memory and otherwise the same environment: loading a problem from arrays of the documented sizes gives the same return code, and the same object if it succeeds; a run of a prepared object (any of the three QP solvers, with OSQP provided that no dual guess was given) gives the same return code, iterate, statistics and output, and the same multipliers unless no dual guess was given and the run ends with an error code at its first QP. A successful run is thus completely determined by its inputs. The two exceptions are real: (a) without dual guess, after a failing first QP with qpOASES the stored multipliers are the uninitialised array; (b) with OSQP, only the first eighth of the multipliers passed to the solver comes from the given dual guess, the others are uninitialised memory, because memcpy is called with a number of entries instead of a number of bytes, and the return code of a run can depend on them.", "quantifier": "all contents of uninitialised memory, environments, arithmetics, prepared objects, numbers of passes", "why_tests_cant": "A test sees one content of the memory (often zeros); the claim compares all contents, and the faulty memcpy passes every test whose guess is not essential.", "anchors": ["src/LCQProblem.cpp:solveQPSubproblem", "src/LCQProblem.cpp:1120-1130", "src/LCQProblem.cpp:937-948", "src/LCQProblem.cpp:transformDuals", "src/LCQProblem.cpp:runSolver", "src/LCQProblem.cpp:loadLCQP"]}
{"id": "C90", "title": "Random numbers enter a run through the step perturbation only", "statement": "perturbStep calls rand(), whose state belongs to the whole process. In any arithmetic: without step perturbation a run does not depend on the random numbers and uses none. With step perturbation (the default) the result of a run depends on the remainders modulo 3 of the random numbers it has used, and on nothing else of them; a successful run uses exactly nV numbers for each QP but the first. As a consequence solving the same problem twice in one process need not give the same result: there is a problem whose two runs with the same object return different points, and one, with exact QP answers and an admissible complementarity tolerance, where the first run succeeds and the second ends at the penalty limit.", "quantifier": "all objects, environments, arithmetics, numbers of passes and sequences of random numbers", "why_tests_cant": "Tests run with the same initial state of rand() every time and see one sequence of random numbers.", "anchors": ["src/LCQProblem.cpp:perturbStep", "src/LCQProblem.cpp:1353-1362", "src/LCQProblem.cpp:runSolver", "src/Options.cpp:setComplementarityTolerance"]}
{"id": "C91", "title": "What a run leaves when it gives up", "statement": "A run that enters its main loop and does not succeed never gives up at an acceptable point: in exact arithmetic the point it leaves violates the complementarity tolerance, or violates the stationarity tolerance with the multipliers and the penalty parameter of the last pass; in any arithmetic (with rounding, infinities and NaN) the stored residual or the point left fails the respective test as the program computes it, and after MAX_PENALTY_REACHED it is the test of complementarity unless the initial penalty parameter exceeds the maximum. If the code is MAX_PENALTY_REACHED and the initial penalty parameter is at most the maximum, the point left is not complementary; if moreover the rule of Leyffer is switched off and there was an earlier penalty update, it is stationary for the penalised problem with the last admissible penalty parameter r, and the final penalty parameter is r times the factor. At both limits the multipliers left are those of the penalised problem: unlike those of a successful run they have not been transformed, so that as multipliers of the LCQP they are wrong by r times the gradient of the penalty.", "quantifier": "the computed tests: any arithmetic, all data and answers of the QP solver; the rest: all finite problems, exact arithmetic (any linearly ordered field), all finite answers of the QP solver; all numbers of passes, all unsuccessful return codes after the first QP", "why_tests_cant": "The tests only look at the return code of unsuccessful runs, never at the point or the multipliers left by them.", "anchors": ["src/LCQProblem.cpp:runSolver", "src/LCQProblem.cpp:leyfferCheckPositive", "src/LCQProblem.cpp:stationarityCheck", "src/LCQProblem.cpp:complementarityCheck", "src/LCQProblem.cpp:transformDuals", "interfaces/matlab/LCQPow.m:59-60"]}
{"id": "C92", "title": "Setting a single bound has no effect on a run", "statement": "The protected setters setLB(int,double) and setUB(int,double) return LCQPOBJECT_NOT_SETUP or INDEX_OUT_OF_BOUNDS without changing anything, or change exactly one entry of an existing array; if the array does not exist they dereference a null pointer. The arrays are created only by initializeSolver: after any load into a new object every call with an index in range dereferences the null pointer, even if the load has given bounds. A successful call never influences a run: with qpOASES every object that can be initialised runs as without the call and ends in the same state, and with OSQP the run is refused with INVALID_OSQP_BOX_CONSTRAINTS.", "quantifier": "all objects, environments, arithmetics, indices, values and numbers of passes", "why_tests_cant": "The setters are protected and are not called anywhere in the repository.", "anchors": ["include/LCQProblem.ipp:76-90", "include/LCQProblem.ipp:115-130", "src/LCQProblem.cpp:initializeSolver"]}
{"id": "C93", "title": "What the statistics say about the QP solver", "statement": "In every initialised run whose QP solver was started, the subproblem iteration statistic is the sum of the iteration numbers of all answers of the QP solver in that run (negative numbers count as zero, a failed last QP is included), and the reported QP exit flag is that of the last answer; the first request is a set-up, all others are hot starts. If OSQP could not be started (three dedicated return codes), this happens at the first QP, and iterations and exit flag of the last QP of an earlier run are reported instead; on an object that has not solved a QP yet none of the three codes is ever returned, because the program reads the two uninitialised members first. If the first QP fails, the documented 'most recent value' of the penalty parameter is reported as 0 although the parameter has its initial value. Conversely, on every loaded object that has not solved a QP yet and passes the initialisation for OSQP, a refused set-up or primal guess always makes the run read uninitialised memory; so does the example program OptimizeOnCircle, for every number of directions and all directions.", "quantifier": "all objects, arithmetics, answers of the QP solver and numbers of passes", "why_tests_cant": "The tests do not compare the statistics with what the QP solver reports, and never let the set-up of OSQP fail.", "anchors": ["src/LCQProblem.cpp:solveQPSubproblem", "src/LCQProblem.cpp:runSolver", "src/OutputStatistics.cpp:updateSubproblemIter", "src/SubsolverOSQP.cpp:solve", "include/LCQProblem.hpp:514-515", "interfaces/matlab/LCQPow.m:58-68", "src/SubsolverOSQP.cpp:124-185", "examples/OptimizeOnCircle.cpp:main"]}
