import Verif.Model.Types

/-!
# Names of the C++ interface, for comparison with the Python interface
-/

namespace LCQ

/-- the enumerators of `ReturnValue` as written in /repo/include/Utilities.hpp:37-87 -/
def RV.cpp : RV → String
  | .notYetImplemented => "NOT_YET_IMPLEMENTED"
  | .successfulReturn => "SUCCESSFUL_RETURN"
  | .invalidArgument => "INVALID_ARGUMENT"
  | .invalidPenaltyUpdateValue => "INVALID_PENALTY_UPDATE_VALUE"
  | .invalidComplementarityTolerance => "INVALID_COMPLEMENTARITY_TOLERANCE"
  | .invalidInitialPenaltyValue => "INVALID_INITIAL_PENALTY_VALUE"
  | .invalidMaxIterationsValue => "INVALID_MAX_ITERATIONS_VALUE"
  | .invalidStationarityTolerance => "INVALID_STATIONARITY_TOLERANCE"
  | .invalidNumberOfOptimVars => "INVALID_NUMBER_OF_OPTIM_VARS"
  | .invalidNumberOfCompVars => "INVALID_NUMBER_OF_COMP_VARS"
  | .invalidNumberOfConstraintVars => "INVALID_NUMBER_OF_CONSTRAINT_VARS"
  | .invalidQpsolver => "INVALID_QPSOLVER"
  | .invalidOsqpBoxConstraints => "INVALID_OSQP_BOX_CONSTRAINTS"
  | .invalidTotalIterCount => "INVALID_TOTAL_ITER_COUNT"
  | .invalidTotalOuterIter => "INVALID_TOTAL_OUTER_ITER"
  | .ivalidSubproblemIter => "IVALID_SUBPROBLEM_ITER"
  | .invalidRhoOpt => "INVALID_RHO_OPT"
  | .invalidPrintLevelValue => "INVALID_PRINT_LEVEL_VALUE"
  | .invalidObjectiveLinearTerm => "INVALID_OBJECTIVE_LINEAR_TERM"
  | .invalidConstraintMatrix => "INVALID_CONSTRAINT_MATRIX"
  | .invalidComplementarityMatrix => "INVALID_COMPLEMENTARITY_MATRIX"
  | .invalidEtaValue => "INVALID_ETA_VALUE"
  | .invalidLowerComplementarityBound => "INVALID_LOWER_COMPLEMENTARITY_BOUND"
  | .invalidMaxRhoValue => "INVALID_MAX_RHO_VALUE"
  | .maxIterationsReached => "MAX_ITERATIONS_REACHED"
  | .maxPenaltyReached => "MAX_PENALTY_REACHED"
  | .initialSubproblemFailed => "INITIAL_SUBPROBLEM_FAILED"
  | .subproblemSolverError => "SUBPROBLEM_SOLVER_ERROR"
  | .failedSymComplementarityMatrix => "FAILED_SYM_COMPLEMENTARITY_MATRIX"
  | .failedSwitchToSparse => "FAILED_SWITCH_TO_SPARSE"
  | .failedSwitchToDense => "FAILED_SWITCH_TO_DENSE"
  | .osqpWorkspaceNotSetUp => "OSQP_WORKSPACE_NOT_SET_UP"
  | .osqpInitialPrimalGuessFailed => "OSQP_INITIAL_PRIMAL_GUESS_FAILED"
  | .osqpInitialDualGuessFailed => "OSQP_INITIAL_DUAL_GUESS_FAILED"
  | .lcqpobjectNotSetup => "LCQPOBJECT_NOT_SETUP"
  | .indexOutOfBounds => "INDEX_OUT_OF_BOUNDS"
  | .unableToReadFile => "UNABLE_TO_READ_FILE"
  | .invalidIndexPointer => "INVALID_INDEX_POINTER"
  | .invalidIndexArray => "INVALID_INDEX_ARRAY"
  | .denseSparseMissmatch => "DENSE_SPARSE_MISSMATCH"

/-- the enumerators of `AlgorithmStatus` as written in /repo/include/Utilities.hpp:103-109 -/
def AlgStat.cpp : AlgStat → String
  | .notSolved => "PROBLEM_NOT_SOLVED"
  | .wStat => "W_STATIONARY_SOLUTION"
  | .cStat => "C_STATIONARY_SOLUTION"
  | .mStat => "M_STATIONARY_SOLUTION"
  | .sStat => "S_STATIONARY_SOLUTION"

/-- something that can be written after a dot in a Python program: a letter or underscore, followed by letters, digits and
underscores (names outside ASCII do not occur) -/
def isIdent (s : String) : Bool :=
  match s.toList with
  | [] => false
  | c :: cs => (c.isAlpha || c == '_') && cs.all fun d => d.isAlphanum || d == '_'

/-- the options that have a setter and a getter in the documentation of `Options` and can be set from Python -/
def pyOptionNames : List String :=
  ["StationarityTolerance", "ComplementarityTolerance", "InitialPenaltyParameter", "PenaltyUpdateFactor",
   "SolveZeroPenaltyFirst", "MaxIterations", "MaxPenaltyParameter", "NDynamicPenalty", "EtaDynamicPenalty",
   "PrintLevel", "StoreSteps", "QPSolver"]

end LCQ
