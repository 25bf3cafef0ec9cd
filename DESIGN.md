# Design of the LCQPow verification

Subject: hallfjonas/LCQPow (C++), sources in `/repo`.  The model is a Lean 4 /
Mathlib shallow embedding in `/verif/lean/Verif`.

## Approach

### Numbers
The C++ code computes with `double`.  The model is *generic in the arithmetic*:
a class `Scalar α` (file `Basic/Scalar.lean`) contains the operations the code
uses (`+ - * /`, unary minus, `fabs`, `<`, `<=`, decimal literals, `INFINITY`)
and **no laws**.  All model functions are written for an arbitrary `Scalar α`.

* Control-flow theorems (termination, return codes, statistics, memory safety,
  dynamic penalty rule, success certifies tolerances, ...) are proved for *every*
  `Scalar α`.  They therefore hold for IEEE doubles with rounding, NaN and
  infinities (an instance for Lean's `Float` is provided as a sanity check).
* Algebraic theorems (matrix products, KKT residual, step length, feasibility,
  dense/sparse equivalence) are proved for `Ext K`: the exact numbers of an
  arbitrary linearly ordered field `K` extended by `+inf`, `-inf` and `NaN` with
  IEEE-style propagation.  What is abstracted away is rounding and signed zero,
  nothing else.  Examples use `K = ℚ`, and `K = ℝ` is an instance.
* Theorems with rounding errors (C57) assume `Rounds α K u t` (`Spec/Rounding.lean`), the standard model of
  floating point arithmetic with relative error `u` and underflow threshold `t`.  `Spec/Binary64.lean` defines IEEE
  binary64 (round to nearest even, gradual underflow, overflow; one zero) over the rational numbers, and
  `Lemmas/Binary64.lean` proves that it satisfies the assumption with `u = 2^-53` and `t = 2^-1022`.

### Memory and undefined behaviour
Functions run in a result monad `M = Except Fault`.  Arrays are lists; every
read and write is checked and an out-of-range access, null dereference, read of
an indeterminate scalar or signed overflow of an iteration counter is the
distinct outcome `Fault`.  Pointers are `Option`.  Loops are written with
explicit loop combinators with the bounds of the C++ loops.

### External code
qpOASES and OSQP are a parameter of the model: an arbitrary oracle which for the
n-th call and the complete request returns status, iteration count, exit flag and
primal/dual answers.  Theorems that need something from the solver (feasible
answers, optimal answers) state it as a hypothesis.  `rand()` is an arbitrary
stream.  Files are token streams.

### Layout
* `Basic/`    arithmetic class, fault monad, loops.
* `Model/`    the model, one file per C++ source file; each definition cites file and lines.
* `Spec/`     small specifications, independent from the model helpers.
* `Lemmas/`   helper lemmas.
* `Props/`    property theorems, non-vacuity examples, negation witnesses.

## Per property plan

| id | what is modelled | how it is proved |
|----|------------------|------------------|
| C01 | dense kernels of Utilities.cpp with flat index arithmetic | loop invariant to sequential sums (any arithmetic), then `Matrix` product over `K` |
| C02 | csc record, sparse kernels | loop invariants; denotation of a csc as a matrix (sum of stored entries) |
| C03 | dense symmetrisation | loop invariant; symmetry in any arithmetic; quadratic identity by `Matrix` algebra |
| C04 | sparse symmetrisation with `getIndexOfIn`, `isZero` | invariant over the two pattern scans; witness for unsorted rows |
| C05 | affine map, quadratic form (both storages) | loop invariants plus `Matrix` algebra; witness |
| C06 | `MaxAbs` | invariant on running max/min in `Ext K` |
| C07 | weighted sums with an explicit aliasing argument | loop invariant, any arithmetic |
| C08, C09 | `dns_to_csc`, `csc_to_dns` incl. early returns | invariants on the prefix built |
| C10 | `copyCSC` | invariant |
| C11, C12, C13 | Options as a record, setters, copy | induction over setter sequences; case analysis |
| C14, C15 | dense load path | composition of kernel theorems; fault witnesses |
| C16 | sparse load path | denotation of the stacked csc |
| C17 | mode switches | C08/C09 |
| C18, C19, C20 | runSolver loop with oracle | measure / loop invariant, any arithmetic |
| C21 | transformDuals + stationarity | invariants + `Matrix` algebra over `K`; witness |
| C22, C23 | penalty updates | loop invariant |
| C24 | setQk/updateQk (dense, sparse merge) | denotation invariant |
| C25 | getPhi, initializeSolver | `Matrix` algebra; fault witness |
| C26 | getOptimalStepLength | ordered field reasoning |
| C27 | loop + QP feasibility hypothesis | convexity invariant |
| C28 | loop in both modes | simulation relation |
| C29 | leyfferCheckPositive | spec as history list |
| C30, C31 | OutputStatistics + loop | invariant |
| C32 | determineStationarityType | spec by quantifiers over indices; witness |
| C33 | initializeSolver | decision table |
| C34, C35 | repeated runs / loads on one object | computation on the model state; witnesses; independence by simulation |
| C36 | everything on the dense path; the sparse path of a first run; loads, option changes, mode switches and runs in any order, with at most one run in sparse mode (`MixedUse`) | well-formedness invariant implies no fault |
| C37 | perturbStep; passes of the main loop with QP answers near the feasible set | loop invariant; convexity of the feasible set |
| C38 | getters | loop invariant |
| C39 | constructor with indeterminate members | case analysis |
| C40 | subsolver wrappers | case analysis over oracle answers |
| C41 | readFromFile on token streams | induction |
| C42 | PrintMessage; messages of the load functions | case analysis; inversion of the loaders |
| C43 | output event log in the loop | loop invariant |
| C44 | colMajorToRowMajor, field table of mexFunction | loop invariant; computation |
| C45 | Eigen column-major memory handed to the loader | index algebra; witness |
| C46, C54 | ownership skeleton of the object: every pointer, allocation, release and use | heap invariant over call sequences; tracking of the blocks of one load; loss of overwritten pointers |
| C47, C49 | runs of the loop | concrete runs over ℚ; C49 also by the sign of multipliers of exact subproblems |
| C48 | requests to the QP solver | the requests are part of the model's call of the oracle |
| C55 | the main loop with exact answers | the merit function decreases by a fixed amount in every pass that fails the stationarity test, and is bounded below; levels of the penalty parameter; explicit alternating run |
| C56 | tracking and printing in a pass | records of a run: induction over the passes, frame lemmas for the rest of a pass, exact values at the heads |
| C57 | dense runs in an arithmetic with rounding errors | the arrays at the last pass in closed form for any arithmetic (`Head`), then error bounds term by term (`Apx`); example runs with IEEE doubles evaluated by the kernel |
| C58 | `perturbStep` with `Dbl` | rounding to nearest returns `x` when the perturbation is below half the distance to the neighbours (above 4), and cannot return `x` when it is above (below 4) |
| C59 | main loop with `Dbl` | the successor of a normal double is at most `x * (1 + 2^-52)`, rounding is monotone and fixes doubles; then C22, C23 |
| C60 | copy of the model with checked `int` arithmetic (`Model/Checked`), and of the functions that build sparse matrices with checked counters (`Model/CheckedCount`) | congruence of loops, index bounds; evaluation of the load functions up to the overflow; checked and unchecked counter run side by side |
| C61 | a set of values that spreads through sums and products and fails every comparison (`Spec/Nan`) | spread through the loops of `getPhi` and `updateStationarity` |
| C62 | `Model/MatlabOptions`; the resulting record is written out by option name (`Spec/MatlabOptions`) | one rewriting step per entry |
| C63 | `Spec/Drift` (entry of a sparse matrix, recursion for an entry of the Hessian, magnitude of its terms) | merging as a lookup; standard model of rounding, one step per penalty update |
| C64 | `Spec/RoundingSparse` (arithmetic with a zero threshold, problem given by sparse arguments, magnitudes) | sums with gaps for the sparse kernels; C57 carried over, with a matrix of dropped entries |
| C65 | documented sparse calls as a structure with a list of arguments, `Held`: the object holds the problem of the call | reading functions of the interface one argument at a time; C16 for the load |
| C66 | max, min, absolute value; first occurrence in a list | case distinction; loop invariant |
| C67 | sparse problem as a structure, `Held` as in C65 | C16 for the load; inversion of the loader for the lengths |
| C68 | feasible points, branches of the complementarity constraints, local minimum with explicit error term | first order conditions of the subproblem solved last, condition for a step length below one, convexity |
| C69 | symmetry: linear map that keeps feasible set, objective and violation | uniqueness of the subproblem's solution, induction over the passes |
| C70 | abstract penalty algorithm (`Spec/Reference.lean`, on functions and sets, without arrays or multipliers) | simulation of the passes; uniqueness of the minimisers of strictly convex functions |
| C71 | C++ names written out from the headers (`Spec/PythonBind`), attributes as lookups; last accepted load and last options as folds over the calls | finite tables; C13 for the objects; C33 for the run; the loaders keep the mode unless they succeed |
| C72 | grammar of numbers and white space as relations (`Text.Number`, `Text.Integer`, `Text.White`), token sequence of a text as an inductive relation (`Text.Toks`), all without the model's scanner; `back` = round to six decimals, then to double; values of decimal literals | induction over the text; spacing of doubles around 2^33; C41 |
| C73 | nearest number with three significant digits (`Text.Short`), text consisting of lines of one width (`Text.Lines`), reading back by the scanner of C72 | decimal exponent of a rational (`Int.log`); invariant of the main loop on the printed events (`run_sane`) |
| C74 | what is left of an object without its output (`Obj.bare`), programs (`Cmd`, `execAll`) | each function commutes with `bare`; printing and storing only add output (`bare_runSolver`, `silent_runSolver`) |
| C75 | `Model/Circle`: the array writes of the program one by one; entries of the arrays (`Spec/Circle`), exact problem (`Spec/CircleProb`) | loop invariant for the arrays; the run by C20, C21, C36, C37 after loading (C14) and switching (C17); weighted mean of the slacks; sum of the roots of unity, nearest direction |
| C76 | `Model/FromFile`: `main` on a directory of texts; `Spec/FromFile`: line counts, columns of numbers, sizes, unfit files | getline loop by induction on the text, tokens by C72, then C41 (files are the dense load), C15, C36 |
| C77 | `Model/WarmUp`: `main`, `mainMax` of ten small programs as data of one program; `Spec/WarmUp`: the problem and the points near which a run may end | C15, C36, C38 for safety; for the solution an invariant on the last subproblem (`Head2`) and inequalities in two variables (`WarmUpMath`); for `C77_max` each pass without penalty update halves the gradient (`WarmUpMaxMath.halve`), so at most 37 passes per penalty value; the programs with more constraints by C20, C21, C37 (`WarmUpMore`) |
| C78 | documented calls as in C50/C65; `Lims.Feas`: the constraints of a call; `Is`/`Describes`: the call describes a problem | C50/C65 for the load, `runSolver_total` for the run, C38/C44 for the outputs; C37, C20, C21 for exact arithmetic |
| C79 | `Model/MatlabScripts`: the scripts statement by statement, `sparse` and indexed assignment included; entries of the arrays by `Spec/Circle` and `Spec/Scripts`, problems in exact arithmetic (`circleProb`, `genProb`, `scaleProb`) | invariant of the loop over the directions; the calls are calls as in C78 (`circleDense`, `circleSparse`, ...), then C77 (`Good.near`), C37, C20, C21, C75 |
| C80 | `Model/PythonScripts`: the scripts statement by statement, numpy arrays and indexed assignment included; data compared with those of the C++ programs (`WarmUp.*`, `Circle.build`); numbers of lines by `lineCount` | the loaders of the Python interface on the same arrays as the C++ loaders (C45, C71), then C77 (`Good.result`, `binary_close`); C71 for the refused runs; C76 for files |
| C81 | `Model/UnitTests`: the tests as programs with a verdict; `RowsSound`: success only if the bounds of each row leave room | round trip (`dns_csc_dns`); C36 (`C36_mixed`), C19, C33; `first_fails` for the infeasible QP; induction over the 100 passes (`Clean`: what a run leaves behind), C21 and C77 (`Good.result`) |
| C82 | `Model/Wrapper`: heap events of the Python class for sparse matrices | heap invariant over programs (as C46) |
| C83 | reference algorithm of C70 in other variables and units (`Spec/Units.lean`) | simulation of the passes; C70 |
| C84 | strong stationarity (`Spec/Strong.lean`), reference algorithm of C70 | the first step leads to the solution of the first subproblem; KKT points of it with penalty term linearised in a complementary point are the S-stationary points |
| C85 | `Spec/Apex.lean`: a point where all pairs are at their lower bounds; reference algorithm of C70 | at an iterate where the subproblem has been solved the complementarity function is at most (decrease towards that point)/ρ; each pass that is stationary without being complementary multiplies ρ, the merit function bounds the number of other passes; C55 |
| C86 | `Spec/Inexact.lean`: QP answers exact up to `ε`, OSQP's description of its result | linear inequalities valid for all answers hold for the iterates (convex combinations, perturbation added); variational inequality with an error term |
| C87 | `Model/MatlabDefaults.lean`: the struct of the MATLAB options file; the 1-norm of C21's residual | C52; evaluation; C21 and an evaluated run |
| C88 | `Spec/OneSetup.lean`: which requests may be sent; the QP solver replaced by any other for all other requests | congruence of all parts of the run; number of requests |
| C89 | `OtherMemory`: two environments that differ in the contents of uninitialised memory only | every fresh array is overwritten before it is read (`AgreeTo`: agreement on the entries written so far); congruence of all parts of the run |
| C90 | the random numbers replaced by any others with the same remainders modulo 3 where they are used | congruence of all parts of the run; number of random numbers used; two evaluated pairs of runs |
| C91 | gradient of the Lagrangian of the penalised problem and complementarity value at the point left; the computed tests in any arithmetic | case distinction over the last pass (which rule updated the penalty, which limit was hit); evaluated runs for both limits |
| C92 | the array before and after; equality of whole runs | loads do not touch the arrays; initialisation overwrites them |
| C93 | list of requests of a run and the answers to them (`answersFrom`) | induction over the passes; an OSQP workspace that exists stays until the end of the run |
| C50-C53 | MATLAB argument handling | decision trees over `mxArray` records; C44's layout lemma |

## Simplifications of the model

* *Arithmetic*: see above.  Theorems for every `Scalar α` make no assumption on rounding.
* *Fresh arrays*: `new double[n]` returns arbitrary values, given by the environment (`Env.alloc`), so
  theorems hold whatever the uninitialised memory contains.
* *Dimensions* are natural numbers; that sums and products of dimensions do not overflow is the subject of C60.
* *qpOASES wrapper*: the answer of the oracle is an arbitrary function of the call number and the request.
  The request contains all arguments that the wrapper passes.
* *OSQP wrapper*: `osqp_setup` may reject its input; a workspace exists after a setup that succeeded.
* *Files* are token streams: `fscanf("%lf")` yields the next number, no token, or end of file.  `Model/Text` models the text itself
  (formats `%lf`, `%d`, `%f` of the C library, without hexadecimal numbers, `nan(...)` and the sign of zero); C72 shows that each text
  has one token stream and is read like it.
* *Directories* (`Model/FromFile`, for the example program only): a path is absent, not readable, or a text.  The counters of lines do
  not overflow; `(int)sqrt(n)` is the integer square root; an integer division by zero is an outcome of its own (`Out.divZero`).
* *Console output* is a list of events (header, iteration line with its numbers, message).  `Model/Print` turns the events into text
  (formats `%d`, `%6d`, `%10.3g`, `%.5f`, `%.2f`; the sign of zero and of NaN is lost); only C73 is about this text.
* *MATLAB scripts* (`Model/MatlabScripts`): plots and time measurements are left out; `cos`, `sin` are parameters; a matrix product with inner
  dimension two is computed from left to right; the parameter struct is built anew for each call.
* *Python scripts* (`Model/PythonScripts`): plots are left out; `cos`, `sin` are parameters; a Python exception is an outcome of its own
  (`Halt.raised`); `np.dot` with two terms is computed from left to right; `np.infty` (removed in version 2 of numpy) is infinity.
* *MATLAB* (`Model/Matlab`): an `mxArray` is a record of class, dimensions, values and sparse parts;
  `mexErrMsgTxt` leaves the program.  Conversion of a double to int is a parameter that may fail.  The options of the QP solvers are
  numbers for the rest of the model; how they are read from their structs is modelled separately (`Model/MatlabOptions`).
* *Python* (`Model/Python`): an Eigen matrix is its column-major memory with row and column counts.  The
  conversion from numpy is external.  The names of the bindings are tables (`Model/PythonBind`); only arguments of the documented
  types are considered.
* *Heap* (`Model/Memory`): a separate model of the same functions that keeps the pointers and the list of
  heap events only.  Conditions on data are arguments of the calls and universally quantified (for
  instance: is `lbL` given, does the check fail, what does the solver return, how many iterations).
  Blocks are numbered in order of allocation.  `std::vector` and `std::deque` members manage their own
  memory and are left out, as are the qpOASES objects inside the wrapper.

## Where the code and the expected property disagree

Each item is a theorem about the model (name in parentheses).

* No problem with more than 46340 variables can be constructed, not even a sparse one: the constructor computes `nV*nV`
  in `int` for a dense matrix (`C60_new`).  The test of `csc_to_dns` for row indices outside of the matrix overflows for
  large indices (example in `Props/Checked.lean`).
* Success can be reported at points that are not stationary for the problem: the linear term is `g` until
  the first penalty update, although the penalty linear term is needed from the start when lower
  complementarity bounds are not zero (`C20_fails`, `C47_not_stationary`).
* The multipliers reported ignore the shift by `lbL`, `lbR` (`C21_fails`).
* The stationarity type uses multipliers that satisfy the sign condition by construction, so
  S-stationarity is reported in general (`C32_always`, `C32_fails`).
* Only one of `lbL`, `lbR` given: null pointer dereference in `initializeSolver` (`C36_one_bound`).
* `loadLCQP` dereferences `L`, `R`, `Q` before checking them (`C15_missing_LR`, `C15_missing_Q`).
* A constructor call with invalid dimensions leaves the object unusable: its dimensions are indeterminate
  (`C39_unusable`).
* The step length is 1 for a direction with zero slope and positive curvature; the merit function can
  increase (`C26_increase`).
* A failing initialisation returns an error code but leaves the status of the previous run (`C19_stale`).
* The recorded merit value lacks the linear part of the penalty when lower complementarity bounds are not
  zero, it is not `obj + rho * phi` (`C56_merit_fails`).
* Second run on one object: the box constraints are lost (`C34_box`, `Ex.C34_fails`), with OSQP an
  out-of-bounds read (`C34_osqp`; after a reload, if the setup fails, a use of released memory, `C34_workspace`), in
  sparse mode the Hessian update fails (`C34_sparse`).
* Reload: complementarity bounds, box bounds and dynamic penalty records of the earlier problem survive
  (`C35_mixed`, `Ex.C35_fails`, `Ex.C35_record`, `Ex.C35_boxes`).
* The documented affine map with a csc matrix is computed with the transpose
  (`C05_spAffine_documented_false`); harmless for symmetric matrices (`C05_spAffine_symmetric`).
* The example `solve_lcqp_from_file` divides by zero without `Q.txt` (`FromFile.C76_divzero`), uses uninitialised dimensions without
  `L.txt` (`FromFile.C76_nocomp`), never reads `y0.txt` because of `y0f = &y0f[0]` (`FromFile.C76_dual`), and takes matrices stored
  with one row per line for smaller ones (`FromFile.C76_rows`).
* `warm_up.cpp` may end successfully at the corner of the two axes, which is not a local minimizer, and reports an S-stationary point
  although both multipliers of the pair are about -2: the pair counts as strictly complementary because its entries (4e-7) exceed
  `complementarityTolerance` (`WarmUp.C77_origin`).
* `MaxAbs` ignores NaN (`C06_nan_ignored`), the sparse conversion drops NaN (`C08_nan_lost`), option
  setters accept NaN (`C12_nan`, `C11_nan_breaks`).
* Sparse complementarity Hessian: row indices must be sorted (`C04_unsorted_wrong`); entries below 1e-25
  are dropped, which changes runs (`Ex.C28_tiny`).
* Dense and sparse mode disagree when `Q` is not symmetric (`Ex.C28_asymmetric`).
* Of a position of a sparse matrix that is stored twice, the switch to dense mode keeps only the last value, whereas the products
  in sparse mode add both up (`C17_duplicates`).
* Files: short files count as read (`C41_short`, `Ex.C41_garbage`), a dual guess file is read past its end
  (`C41_dual`).
* `setOSQPOptions` with the object's own settings uses released memory (`OptWorld.C13_self_settings_uaf`).
* MATLAB: `C44_misnamed`, `C51_unchecked`, `C51_foreign` (an argument of another class is read as double values), `C51_dual`, `C53_mismatch`, `C53_garbage`; the parameter struct
  truncates `maxPenaltyParameter` (`C52_options`); `Q` is transposed (`C50_symmetric`).
* The message for an invalid `etaDynamicPenalty` does not end its line (`C73_message`).
* Python: matrices are read transposed (`C45_held`, `C45_shapes`, `Ex.C45_fails`).
* Memory: an OSQP run whose setup fails after an earlier OSQP run uses and releases the old workspace
  again (`Mem.C46_stale`).  Leaks: reload (`Mem.C46_reload_leaks`), second run (`Mem.C46_rerun_leaks`),
  every sparse qpOASES run (`Mem.C46_qpSparse_leaks`).  Copying an object leads to a double release
  (`Mem.C54_copy`).  Every sparse matrix object of the Python interface leaks its struct (`Wrap.C82_leak`).
* Moving the origin of the variables changes the run (`C83_shift`), because of the missing linear term before the first penalty
  update.
* An initial guess has no influence unless `solveZeroPenaltyFirst` is switched off (`C84_loads`), so a known global solution given
  as initial guess may be left for a worse point (`C84_worse`).
* *Success*: with a feasible point where both sides of all pairs are at their lower bounds, and a strongly convex objective, runs
  with sufficiently large penalty and iteration limits succeed (`C85_success`).  The constants of the proof are huge, so this is
  a qualitative guarantee that says nothing about the default limits; beyond the range of `int` and `double` only `C85_codes`
  and `C85_total` are about the program.  Without such a point a solvable problem may be unsolvable for the homotopy from the
  default guess whatever the options (`C85_stuck`): the iterates stay where two linear constraints hold them.
* *Inexact QP solvers*: `getPhi` sums the products of the sides with their signs, so a product that is negative because the QP
  solver violates a side's lower bound slightly can hide a violated complementarity constraint: a successful run with default
  tolerances and answers within 1/1000 of the solutions returns a point with a pair (1, 1) (`C86_hidden`); `C86_loads` bounds what
  can be hidden.
* *Documentation*: the options file of the MATLAB interface has two syntax errors, and without them it is refused (`Mex.C87_file`);
  with logical flags it exchanges the two tolerances of the library (`Mex.C87_double`).  The stationarity tolerance is for the
  maximum norm and not, as documented, for the 1-norm (`C87_norm`).  The README's constant Hessian and single set-up of the QP
  solver are true (`C88_requests`).
* *Uninitialised memory*: results do not depend on it (`C89_run`) except that, without a dual guess, the multipliers after a failing
  first QP are the uninitialised array of LCQProblem.cpp:1128-1130 (`C89_garbage`), and that with OSQP seven eighths of the dual
  guess are uninitialised because of the size passed to `memcpy` in LCQProblem.cpp:947 (`C89_osqp`); the return code can depend on
  that (`Ex.C89_depends`).
* *Repeated runs*: with the default step perturbation two runs of the same problem in one process use different random numbers and may
  return different points (`Ex.C90_again`), and with a small tolerance different codes (`Ex.C90_code`).
* *Multipliers of an unsuccessful run*: `LCQPow.m` documents `y` as "the dual solution (or last iterate on failed call)".  After a failed
  call `y` holds multipliers of the penalised problem, after a successful one multipliers of the LCQP (`C91_penalty`, `C91_witness`).
* *Setters of a single bound*: they crash before the first run, and what they set later is overwritten by the next run (`C92_first`,
  `C92_useless`).
* *Failed start of OSQP*: the codes for it are returned only if an earlier run has solved a QP, with the iterations and the exit flag of
  that QP (`C93_stale`); before that the members `qpIterk` and `qpSolverExitFlag` are read uninitialised (`C93_never`, `C93_witness`): on
  every fresh object a refused set-up or primal guess is undefined behaviour (`C93_uninit`, `C93_fresh`), for example in
  OptimizeOnCircle.cpp (`C93_circle`).  The statements about absence of undefined behaviour with OSQP assume that it is accepted.
* *`rho_opt` after a failed first QP* is 0 and not, as documented, the most recent penalty parameter (`C93_rho`).
* *Running into the iteration limit*: with exact QP answers the number of iterations is bounded
  independently of the limit if the objective is strongly convex (`C55_enough`); for merely convex
  objectives the iterates may alternate for ever (`C55_cycles`).
* The step perturbation by the machine precision does nothing to coordinates greater than 4 in absolute value
  (`C58_unchanged`, `C58_none`).
* *Success implies that the stationarity vector was tested*: `MaxAbs` ignores NaN (`C61_maxAbs`), so NaN multipliers from the QP
  solver make the stationarity test pass (`C61_blind`, with a run in doubles).
* *Solver options from MATLAB are checked for their class*: a logical scalar is read as a double (`C62_foreign`).
* *Dense and sparse mode hand the same Hessian to the QP solver*: true in exact arithmetic (`C63_exact`); in doubles the sparse
  update in place drifts (`C63_drift`), within the bound `C63_error`.
* *In sparse mode success implies a complementarity violation below the tolerance, up to rounding errors*: false for badly
  scaled data since entries of `L'R + R'L` below 1e-25 are dropped (`C64_dropped`); true with an extra term (`C64_complementary`).
* *MATLAB calls with sparse arrays that pass the checks read inside of their arrays*: a sparse `L`, `R` or `A` next to a full `Q`
  (`C65_mixed`) and a sparse `g` (`C65_vector`) are read as full arrays; with 11 arguments a sparse `A` without rows is taken for
  `lb` (`C65_emptyA`).
* *The Python interface checks the sizes of sparse matrices*: it does not (`Ex.C67_shapes`); *a missing `A` is reported*: not by the
  sparse loader (`Ex.C67_missing`).
* *Every return code has a name in Python*: DENSE_SPARSE_MISSMATCH has none and is shown as `???`, five names end with a blank and
  cannot be written as attributes (`C71_codes`, `C71_show`).  *All options can be set from Python*: the step perturbation and the
  options of the QP solvers cannot (`C71_hidden`).
* *The shipped Python examples run*: five of them (warm_up_sparse.py, OptimizeOnCircle.py, OptimizeOnCircleStoreSteps.py,
  solve_lcqp_from_file.py, solve_generalized_from_file.py) load dense data and choose a sparse QP solver; such a run is always refused,
  and Python has no call to change the mode (`C71_run`).  The first three then read a status that was never set: undefined behaviour in
  every execution (`C80_sparse_never`, `C80_circle_never`); the other two print a message (`C80_files_never`).
* *The file scripts report unusable data*: with fewer lines in L.txt than in lb.txt uninitialised dimensions are read
  (`C80_files_nocomp`); an empty lb.txt is a division by zero, a missing file an exception (`C80_files_missing`).  The bounds in lb.txt
  and ub.txt are never handed over, and the directories the scripts name are not part of the repository.
* *An array written to a file can be read back*: only up to 1e-6; entries up to 5e-7 become zero (`C72_error`, `C72_small`).
* *The columns of the iteration table are aligned*: only for counters of at most six digits (`C73_run`, `C73_overflow`).
* *Any sparse matrix can be printed*: `printMatrix` does not check the result of `csc_to_dns`; an invalid row index leads to an access
  through the null pointer (`C73_csc`).
* *Success means a global minimum*: only a local one up to the tolerance (`C68_not_global`, `C68_dense`).
* *A solvable convex problem is solved for large enough penalty parameters*: without perturbation (it is on by default), symmetric
  problems whose solutions are not symmetric are never solved (`C69_fails`, `C69_witness`).
* *`getMax` and `getMin` do not lose NaN*: a NaN in the first argument is dropped (`C66_nan`).
* *A missing `L` or `R` is reported as INVALID_COMPLEMENTARITY_MATRIX*: this code is never returned by the dense `loadLCQP`
  (`C15_range`).

## Testing the theorems

Definitions of the model are edited one at a time in a scratch copy (`seeded/LOG.jsonl` records the edit,
the claim it breaks and the theorems whose proofs fail).  An edit that no theorem notices means a theorem
is missing or too weak.  In the log `failed_first` are the proofs that fail when the library is rebuilt
(properties or lemmas), `failed` are the listed theorems that are or rest on them, `tightened` are theorems
that were added or strengthened because of the edit.

The unit tests of the source (/repo/test/RunUnitTests.cpp) are run on the model with IEEE doubles in
`Props/UnitTests.lean`; the QP solver is replaced by the solution of the subproblems of the warm-up problem.  The four tests that depend
on random numbers or on the QP solver are treated for all random numbers and answers in C81: RunWarmUp can fail with an exact QP solver
(`C81_warmUp_origin`), the others cannot fail except through the QP solver or a limit.

The definition of IEEE doubles (`Spec/Binary64.lean`) was compared with the hardware on 20000 pseudo-random pairs of
numbers (sum, difference, product, quotient, comparison) and 2000 decimal literals, without a difference.

## Trusted base

* Lean 4.33.0 kernel, Mathlib as provided.  Axioms expected: `propext`,
  `Classical.choice`, `Quot.sound` only.
* The transcription of C++ to Lean (each definition cites its source lines).
* Assumptions about external code stated above.

## Not modelled

Floating point rounding in the algebraic theorems other than C57-C59; `int` overflow in the interfaces
(iteration counters are covered by the model, sizes, indices and the counters of stored entries by C60; the checked counters
are proved function by function and not threaded through the checked run);
allocation failure; time; threads.
