import Verif.Model.Python
import Verif.Model.Files
import Verif.Model.OptionsHeap

/-!
# The names of the Python interface: /repo/interfaces/python/lcqpow/Utilities.cpp, Options.cpp,
OutputStatistics.cpp, LCQProblem.cpp:70-176 and __init__.py

`pybind11` is external.  What is used of it: `value(name, v)` makes `v` the attribute `name` of the
enumeration, `export_values` makes it an attribute of the module as well, a value without name is shown
as `???`; `def(name, f)` makes `f` a method, several definitions of one name are tried in order until the
argument has the right type.  A number given for a parameter of type `double` is already a `double` here
(Python ints are converted), and only arguments of the documented types are looked at.
-/

namespace LCQ
open Scalar

/-! ## enumerations -/

/-- values of `ReturnValue`, /repo/interfaces/python/lcqpow/Utilities.cpp:12-59 -/
def pyReturnValue : List (String × RV) :=
  [("NOT_YET_IMPLEMENTED", .notYetImplemented),
   ("SUCCESSFUL_RETURN", .successfulReturn),
   ("INVALID_ARGUMENT", .invalidArgument),
   ("INVALID_PENALTY_UPDATE_VALUE", .invalidPenaltyUpdateValue),
   ("INVALID_COMPLEMENTARITY_TOLERANCE", .invalidComplementarityTolerance),
   ("INVALID_INITIAL_PENALTY_VALUE", .invalidInitialPenaltyValue),
   ("INVALID_MAX_ITERATIONS_VALUE", .invalidMaxIterationsValue),
   ("INVALID_STATIONARITY_TOLERANCE", .invalidStationarityTolerance),
   ("INVALID_NUMBER_OF_OPTIM_VARS", .invalidNumberOfOptimVars),
   ("INVALID_NUMBER_OF_COMP_VARS ", .invalidNumberOfCompVars),
   ("INVALID_NUMBER_OF_CONSTRAINT_VARS", .invalidNumberOfConstraintVars),
   ("INVALID_QPSOLVER", .invalidQpsolver),
   ("INVALID_OSQP_BOX_CONSTRAINTS", .invalidOsqpBoxConstraints),
   ("INVALID_TOTAL_ITER_COUNT", .invalidTotalIterCount),
   ("INVALID_TOTAL_OUTER_ITER", .invalidTotalOuterIter),
   ("IVALID_SUBPROBLEM_ITER", .ivalidSubproblemIter),
   ("INVALID_RHO_OPT", .invalidRhoOpt),
   ("INVALID_PRINT_LEVEL_VALUE", .invalidPrintLevelValue),
   ("INVALID_OBJECTIVE_LINEAR_TERM", .invalidObjectiveLinearTerm),
   ("INVALID_CONSTRAINT_MATRIX", .invalidConstraintMatrix),
   ("INVALID_COMPLEMENTARITY_MATRIX", .invalidComplementarityMatrix),
   ("INVALID_ETA_VALUE", .invalidEtaValue),
   ("OSQP_INITIAL_PRIMAL_GUESS_FAILED", .osqpInitialPrimalGuessFailed),
   ("OSQP_INITIAL_DUAL_GUESS_FAILED", .osqpInitialDualGuessFailed),
   ("INVALID_LOWER_COMPLEMENTARITY_BOUND", .invalidLowerComplementarityBound),
   ("INVALID_MAX_RHO_VALUE", .invalidMaxRhoValue),
   ("MAX_ITERATIONS_REACHED", .maxIterationsReached),
   ("MAX_PENALTY_REACHED", .maxPenaltyReached),
   ("INITIAL_SUBPROBLEM_FAILED", .initialSubproblemFailed),
   ("SUBPROBLEM_SOLVER_ERROR", .subproblemSolverError),
   ("FAILED_SYM_COMPLEMENTARITY_MATRIX", .failedSymComplementarityMatrix),
   ("FAILED_SWITCH_TO_SPARSE", .failedSwitchToSparse),
   ("FAILED_SWITCH_TO_DENSE", .failedSwitchToDense),
   ("OSQP_WORKSPACE_NOT_SET_UP", .osqpWorkspaceNotSetUp),
   ("LCQPOBJECT_NOT_SETUP", .lcqpobjectNotSetup),
   ("INDEX_OUT_OF_BOUNDS ", .indexOutOfBounds),
   ("UNABLE_TO_READ_FILE ", .unableToReadFile),
   ("INVALID_INDEX_POINTER ", .invalidIndexPointer),
   ("INVALID_INDEX_ARRAY ", .invalidIndexArray)]

/-- values of `AlgorithmStatus`, /repo/interfaces/python/lcqpow/Utilities.cpp:61-67 -/
def pyAlgorithmStatus : List (String × AlgStat) :=
  [("PROBLEM_NOT_SOLVED", .notSolved), ("W_STATIONARY_SOLUTION", .wStat), ("C_STATIONARY_SOLUTION", .cStat),
   ("M_STATIONARY_SOLUTION", .mStat), ("S_STATIONARY_SOLUTION", .sStat)]

/-- values of `PrintLevel`, /repo/interfaces/python/lcqpow/Utilities.cpp:69-73 and
/repo/include/Utilities.hpp:115-119 -/
def pyPrintLevel : List (String × Int) :=
  [("NONE", 0), ("OUTER_LOOP_ITERATES", 1), ("INNER_LOOP_ITERATES", 2)]

/-- values of `QPSolver`, /repo/interfaces/python/lcqpow/Utilities.cpp:75-79 and
/repo/include/Utilities.hpp:125-129 -/
def pyQPSolver : List (String × Int) :=
  [("QPOASES_DENSE", 0), ("QPOASES_SPARSE", 1), ("OSQP_SPARSE", 2)]

/-- attribute `name` of an enumeration -/
def pyAttr {β : Type} (t : List (String × β)) (name : String) : Option β :=
  (t.find? fun v => v.1 == name).map Prod.snd

/-- how a value is shown, `???` without a name -/
def pyShow {β : Type} [BEq β] (t : List (String × β)) (v : β) : String :=
  ((t.find? fun w => w.2 == v).map Prod.fst).getD "???"

/-- the names in the package after `from .LCQProblem import *` etc.,
/repo/interfaces/python/lcqpow/__init__.py:1-4: classes and exported values, in order of definition -/
def pyNames : List String :=
  ["cscWrapper", "LCQProblem", "Options", "OutputStatistics", "ReturnValue"] ++ pyReturnValue.map Prod.fst ++
    ["AlgorithmStatus"] ++ pyAlgorithmStatus.map Prod.fst ++ ["PrintLevel"] ++ pyPrintLevel.map Prod.fst ++
    ["QPSolver"] ++ pyQPSolver.map Prod.fst

/-! ## options -/

/-- Python value given to or returned by a method of `Options` -/
inductive PyArg (α : Type) where
  /-- floating point number -/
  | num (v : α)
  /-- int -/
  | int (k : Int)
  /-- bool -/
  | flag (b : Bool)
  /-- PrintLevel -/
  | level (k : Int)
  /-- QPSolver -/
  | solver (k : Int)
  deriving DecidableEq

/-- public member functions of `Options`, /repo/include/Options.hpp -/
inductive OptFn where
  /-- setToDefault -/
  | setToDefault
  /-- getStationarityTolerance -/
  | getStatTol
  /-- setStationarityTolerance -/
  | setStatTol
  /-- getComplementarityTolerance -/
  | getComplTol
  /-- setComplementarityTolerance -/
  | setComplTol
  /-- getInitialPenaltyParameter -/
  | getRho0
  /-- setInitialPenaltyParameter -/
  | setRho0
  /-- getPenaltyUpdateFactor -/
  | getFactor
  /-- setPenaltyUpdateFactor -/
  | setFactor
  /-- getSolveZeroPenaltyFirst -/
  | getZeroFirst
  /-- setSolveZeroPenaltyFirst -/
  | setZeroFirst
  /-- getPerturbStep -/
  | getPerturb
  /-- setPerturbStep -/
  | setPerturb
  /-- getMaxIterations -/
  | getMaxIter
  /-- setMaxIterations -/
  | setMaxIter
  /-- getMaxPenaltyParameter -/
  | getMaxRho
  /-- setMaxPenaltyParameter -/
  | setMaxRho
  /-- getNDynamicPenalty -/
  | getNDyn
  /-- setNDynamicPenalty -/
  | setNDyn
  /-- getEtaDynamicPenalty -/
  | getEta
  /-- setEtaDynamicPenalty -/
  | setEta
  /-- getPrintLevel -/
  | getPrintLevel
  /-- setPrintLevel(PrintLevel) -/
  | setPrintLevelEnum
  /-- setPrintLevel(int) -/
  | setPrintLevelInt
  /-- getStoreSteps -/
  | getStoreSteps
  /-- setStoreSteps -/
  | setStoreSteps
  /-- getQPSolver -/
  | getQPSolver
  /-- setQPSolver(QPSolver) -/
  | setQPSolverEnum
  /-- setQPSolver(int) -/
  | setQPSolverInt
  /-- getqpOASESOptions -/
  | getQpoases
  /-- setqpOASESOptions -/
  | setQpoases
  /-- getOSQPOptions -/
  | getOSQP
  /-- setOSQPOptions -/
  | setOSQP
  deriving DecidableEq

/-- methods of the class `Options`, /repo/interfaces/python/lcqpow/Options.cpp:14-44 -/
def pyOptions : List (String × OptFn) :=
  [("setToDefault", .setToDefault),
   ("getStationarityTolerance", .getStatTol), ("setStationarityTolerance", .setStatTol),
   ("getComplementarityTolerance", .getComplTol), ("setComplementarityTolerance", .setComplTol),
   ("getInitialPenaltyParameter", .getRho0), ("setInitialPenaltyParameter", .setRho0),
   ("getPenaltyUpdateFactor", .getFactor), ("setPenaltyUpdateFactor", .setFactor),
   ("getSolveZeroPenaltyFirst", .getZeroFirst), ("setSolveZeroPenaltyFirst", .setZeroFirst),
   ("getMaxIterations", .getMaxIter), ("setMaxIterations", .setMaxIter),
   ("getMaxPenaltyParameter", .getMaxRho), ("setMaxPenaltyParameter", .setMaxRho),
   ("getNDynamicPenalty", .getNDyn), ("setNDynamicPenalty", .setNDyn),
   ("getEtaDynamicPenalty", .getEta), ("setEtaDynamicPenalty", .setEta),
   ("getPrintLevel", .getPrintLevel), ("setPrintLevel", .setPrintLevelEnum), ("setPrintLevel", .setPrintLevelInt),
   ("getStoreSteps", .getStoreSteps), ("setStoreSteps", .setStoreSteps),
   ("getQPSolver", .getQPSolver), ("setQPSolver", .setQPSolverEnum), ("setQPSolver", .setQPSolverInt)]

variable {α : Type} [Scalar α]

omit [Scalar α] in
/-- a setter with an argument of the type of its parameter -/
def OptFn.call : OptFn → PyArg α → Option (Options.Call α)
  | .setStatTol, .num v => some (.statTol v)
  | .setComplTol, .num v => some (.complTol v)
  | .setRho0, .num v => some (.rho0 v)
  | .setFactor, .num v => some (.factor v)
  | .setZeroFirst, .flag b => some (.zeroFirst b)
  | .setPerturb, .flag b => some (.perturb b)
  | .setMaxIter, .int k => some (.maxIter k)
  | .setMaxRho, .num v => some (.maxRho v)
  | .setNDyn, .int k => some (.nDyn k)
  | .setEta, .num v => some (.eta v)
  | .setPrintLevelEnum, .level k => some (.printLevelEnum k)
  | .setPrintLevelInt, .int k => some (.printLevel k)
  | .setStoreSteps, .flag b => some (.storeSteps b)
  | .setQPSolverEnum, .solver k => some (.qpSolverEnum k)
  | .setQPSolverInt, .int k => some (.qpSolver k)
  | _, _ => none

omit [Scalar α] in
/-- a getter, /repo/src/Options.cpp:80-260 -/
def OptFn.get (o : Options α) : OptFn → Option (PyArg α)
  | .getStatTol => some (.num o.statTol)
  | .getComplTol => some (.num o.complTol)
  | .getRho0 => some (.num o.rho0)
  | .getFactor => some (.num o.factor)
  | .getZeroFirst => some (.flag o.zeroFirst)
  | .getPerturb => some (.flag o.perturb)
  | .getMaxIter => some (.int o.maxIter)
  | .getMaxRho => some (.num o.maxRho)
  | .getNDyn => some (.int o.nDyn)
  | .getEta => some (.num o.eta)
  | .getPrintLevel => some (.level o.printLevel)
  | .getStoreSteps => some (.flag o.storeSteps)
  | .getQPSolver => some (.solver o.qpSolver)
  | _ => none

/-- the functions bound to a method name, in order -/
def pyBound (name : String) : List OptFn := (pyOptions.filter fun v => v.1 == name).map Prod.snd

omit [Scalar α] in
/-- the setter call behind `options.name(a)`; `none`: Python error -/
def pySetter (name : String) (a : PyArg α) : Option (Options.Call α) := (pyBound name).findSome? fun f => f.call a

/-- `options.name(a)` -/
def pySet (o : Options α) (name : String) (a : PyArg α) : Option (RV × Options α) := (pySetter name a).map o.call

omit [Scalar α] in
/-- `options.name()` -/
def pyGet (o : Options α) (name : String) : Option (PyArg α) := (pyBound name).findSome? fun f => f.get o

/-- what a Python program can do with its (numbered) `Options` objects,
/repo/interfaces/python/lcqpow/Options.cpp:14-44 -/
inductive PyOptOp (α : Type) where
  /-- `x = Options()` -/
  | new (x : Nat)
  /-- `x = Options(y)` -/
  | copy (x y : Nat)
  /-- `x.setToDefault()` -/
  | reset (x : Nat)
  /-- `x.name(a)` -/
  | set (x : Nat) (name : String) (a : PyArg α)
  /-- the object is collected -/
  | del (x : Nat)

omit [Scalar α] in
/-- the C++ operation behind it; `none`: Python error, nothing happens -/
def PyOptOp.cpp : PyOptOp α → Option (OptWorld.Op α)
  | .new x => some (.new x)
  | .copy x y => some (.newCopy x y)
  | .reset x => some (.reset x)
  | .set x name a => (pySetter name a).map (.set x)
  | .del x => some (.destroy x)

/-! ## statistics -/

/-- value returned by a method of `OutputStatistics` -/
inductive PyStat (α : Type) where
  /-- int -/
  | int (k : Int)
  /-- floating point number -/
  | num (v : α)
  /-- AlgorithmStatus -/
  | status (t : AlgStat)
  /-- list of ints -/
  | ints (l : List Int)
  /-- list of floating point numbers -/
  | nums (l : List α)
  deriving DecidableEq

omit [Scalar α] in
/-- methods of the class `OutputStatistics`, /repo/interfaces/python/lcqpow/OutputStatistics.cpp:17-33; the
member functions are those of /repo/src/OutputStatistics.cpp:166-370 -/
def pyStats : List (String × (Stats α → PyStat α)) :=
  [("getIterTotal", fun s => .int s.iterTotal), ("getIterOuter", fun s => .int s.iterOuter),
   ("getSubproblemIter", fun s => .int s.subproblemIter), ("getRhoOpt", fun s => .num s.rhoOpt),
   ("getSolutionStatus", fun s => .status s.status), ("getQPSolverExitFlag", fun s => .int s.exitFlag),
   ("getInnerIters", fun s => .ints s.innerIters), ("getSubproblemIters", fun s => .ints s.subIters),
   ("getAccuSubproblemIters", fun s => .ints s.accuIters), ("getStepLength", fun s => .nums s.stepLength),
   ("getStepSize", fun s => .nums s.stepSize), ("getStatVals", fun s => .nums s.statVals),
   ("getObjVals", fun s => .nums s.objVals), ("getPhiVals", fun s => .nums s.phiVals),
   ("getMeritVals", fun s => .nums s.meritVals)]

omit [Scalar α] in
/-- `stats.name()` -/
def pyStat (s : Stats α) (name : String) : Option (PyStat α) := (pyAttr pyStats name).map fun f => f s

/-! ## problem objects -/

/-- the calls a Python program can make on a problem object that change it,
/repo/interfaces/python/lcqpow/LCQProblem.cpp:76-176 (`switchToSparseMode` and `switchToDenseMode` have no
Python method) -/
inductive PyObjOp (α : Type) where
  /-- setOptions -/
  | setOptions (opts : Options α)
  /-- loadLCQP with arrays -/
  | loadDense (a : PyDense α)
  /-- loadLCQP with cscWrapper objects -/
  | loadSparse (a : PySparse α)
  /-- loadLCQP with file names -/
  | loadFiles (a : FileArgs α)
  /-- runSolver (observed for so many passes of the main loop) -/
  | run (fuel : Nat)

/-- execution of a call: returned value (if any) and new object; `none`: still running -/
def PyObjOp.exec (e : Env α) (o : Obj α) : PyObjOp α → M (Option (Option RV × Obj α))
  | .setOptions opts => .ok (some (none, LCQ.setOptions o opts))
  | .loadDense a => do let r ← pyLoadDense e o a; .ok (some (some r.1, r.2))
  | .loadSparse a => do let r ← pyLoadSparse e o a; .ok (some (some r.1, r.2))
  | .loadFiles a => do let r ← LCQ.loadFiles e o a; .ok (some (some r.1, r.2))
  | .run fuel => do let r ← runSolver e fuel o; .ok (r.map fun r => (some r.1, r.2))

end LCQ
