import Verif.Basic.Mem

/-!
# Enumerations (/repo/include/Utilities.hpp:37-129) and messages (/repo/src/MessageHandler.cpp)
-/

namespace LCQ

/-- `enum ReturnValue`, /repo/include/Utilities.hpp:37-87. -/
inductive RV where
  /-- NOT_YET_IMPLEMENTED = -1 -/
  | notYetImplemented
  /-- SUCCESSFUL_RETURN = 0 -/
  | successfulReturn
  /-- INVALID_ARGUMENT = 100 -/
  | invalidArgument
  /-- INVALID_PENALTY_UPDATE_VALUE = 101 -/
  | invalidPenaltyUpdateValue
  /-- INVALID_COMPLEMENTARITY_TOLERANCE = 102 -/
  | invalidComplementarityTolerance
  /-- INVALID_INITIAL_PENALTY_VALUE = 103 -/
  | invalidInitialPenaltyValue
  /-- INVALID_MAX_ITERATIONS_VALUE = 104 -/
  | invalidMaxIterationsValue
  /-- INVALID_STATIONARITY_TOLERANCE = 105 -/
  | invalidStationarityTolerance
  /-- INVALID_NUMBER_OF_OPTIM_VARS = 106 -/
  | invalidNumberOfOptimVars
  /-- INVALID_NUMBER_OF_COMP_VARS = 107 -/
  | invalidNumberOfCompVars
  /-- INVALID_NUMBER_OF_CONSTRAINT_VARS = 108 -/
  | invalidNumberOfConstraintVars
  /-- INVALID_QPSOLVER = 109 -/
  | invalidQpsolver
  /-- INVALID_OSQP_BOX_CONSTRAINTS = 110 -/
  | invalidOsqpBoxConstraints
  /-- INVALID_TOTAL_ITER_COUNT = 111 -/
  | invalidTotalIterCount
  /-- INVALID_TOTAL_OUTER_ITER = 112 -/
  | invalidTotalOuterIter
  /-- IVALID_SUBPROBLEM_ITER = 113 -/
  | ivalidSubproblemIter
  /-- INVALID_RHO_OPT = 114 -/
  | invalidRhoOpt
  /-- INVALID_PRINT_LEVEL_VALUE = 115 -/
  | invalidPrintLevelValue
  /-- INVALID_OBJECTIVE_LINEAR_TERM = 116 -/
  | invalidObjectiveLinearTerm
  /-- INVALID_CONSTRAINT_MATRIX = 117 -/
  | invalidConstraintMatrix
  /-- INVALID_COMPLEMENTARITY_MATRIX = 118 -/
  | invalidComplementarityMatrix
  /-- INVALID_ETA_VALUE = 119 -/
  | invalidEtaValue
  /-- INVALID_LOWER_COMPLEMENTARITY_BOUND = 120 -/
  | invalidLowerComplementarityBound
  /-- INVALID_MAX_RHO_VALUE = 121 -/
  | invalidMaxRhoValue
  /-- MAX_ITERATIONS_REACHED = 200 -/
  | maxIterationsReached
  /-- MAX_PENALTY_REACHED = 201 -/
  | maxPenaltyReached
  /-- INITIAL_SUBPROBLEM_FAILED = 202 -/
  | initialSubproblemFailed
  /-- SUBPROBLEM_SOLVER_ERROR = 203 -/
  | subproblemSolverError
  /-- FAILED_SYM_COMPLEMENTARITY_MATRIX = 204 -/
  | failedSymComplementarityMatrix
  /-- FAILED_SWITCH_TO_SPARSE = 205 -/
  | failedSwitchToSparse
  /-- FAILED_SWITCH_TO_DENSE = 206 -/
  | failedSwitchToDense
  /-- OSQP_WORKSPACE_NOT_SET_UP = 207 -/
  | osqpWorkspaceNotSetUp
  /-- OSQP_INITIAL_PRIMAL_GUESS_FAILED = 208 -/
  | osqpInitialPrimalGuessFailed
  /-- OSQP_INITIAL_DUAL_GUESS_FAILED = 209 -/
  | osqpInitialDualGuessFailed
  /-- LCQPOBJECT_NOT_SETUP = 300 -/
  | lcqpobjectNotSetup
  /-- INDEX_OUT_OF_BOUNDS = 301 -/
  | indexOutOfBounds
  /-- UNABLE_TO_READ_FILE = 302 -/
  | unableToReadFile
  /-- INVALID_INDEX_POINTER = 400 -/
  | invalidIndexPointer
  /-- INVALID_INDEX_ARRAY = 401 -/
  | invalidIndexArray
  /-- DENSE_SPARSE_MISSMATCH = 402 -/
  | denseSparseMissmatch
  deriving DecidableEq, Repr

/-- numeric values, /repo/include/Utilities.hpp:37-87 -/
def RV.code : RV → Int
  | .notYetImplemented => -1
  | .successfulReturn => 0
  | .invalidArgument => 100
  | .invalidPenaltyUpdateValue => 101
  | .invalidComplementarityTolerance => 102
  | .invalidInitialPenaltyValue => 103
  | .invalidMaxIterationsValue => 104
  | .invalidStationarityTolerance => 105
  | .invalidNumberOfOptimVars => 106
  | .invalidNumberOfCompVars => 107
  | .invalidNumberOfConstraintVars => 108
  | .invalidQpsolver => 109
  | .invalidOsqpBoxConstraints => 110
  | .invalidTotalIterCount => 111
  | .invalidTotalOuterIter => 112
  | .ivalidSubproblemIter => 113
  | .invalidRhoOpt => 114
  | .invalidPrintLevelValue => 115
  | .invalidObjectiveLinearTerm => 116
  | .invalidConstraintMatrix => 117
  | .invalidComplementarityMatrix => 118
  | .invalidEtaValue => 119
  | .invalidLowerComplementarityBound => 120
  | .invalidMaxRhoValue => 121
  | .maxIterationsReached => 200
  | .maxPenaltyReached => 201
  | .initialSubproblemFailed => 202
  | .subproblemSolverError => 203
  | .failedSymComplementarityMatrix => 204
  | .failedSwitchToSparse => 205
  | .failedSwitchToDense => 206
  | .osqpWorkspaceNotSetUp => 207
  | .osqpInitialPrimalGuessFailed => 208
  | .osqpInitialDualGuessFailed => 209
  | .lcqpobjectNotSetup => 300
  | .indexOutOfBounds => 301
  | .unableToReadFile => 302
  | .invalidIndexPointer => 400
  | .invalidIndexArray => 401
  | .denseSparseMissmatch => 402

/-- `enum MessageType`, /repo/include/Utilities.hpp:93-97. -/
inductive MsgType where
  /-- MESSAGE -/
  | message
  /-- WARNING -/
  | warning
  /-- ERROR -/
  | error
  deriving DecidableEq, Repr

/-- `enum AlgorithmStatus`, /repo/include/Utilities.hpp:103-109. -/
inductive AlgStat where
  /-- PROBLEM_NOT_SOLVED = 0 -/
  | notSolved
  /-- W_STATIONARY_SOLUTION = 1 -/
  | wStat
  /-- C_STATIONARY_SOLUTION = 2 -/
  | cStat
  /-- M_STATIONARY_SOLUTION = 3 -/
  | mStat
  /-- S_STATIONARY_SOLUTION = 4 -/
  | sStat
  deriving DecidableEq, Repr

/-- numeric value of a status -/
def AlgStat.code : AlgStat → Int
  | .notSolved => 0
  | .wStat => 1
  | .cStat => 2
  | .mStat => 3
  | .sStat => 4

/-- prefix printed by `PrintMessage`, /repo/src/MessageHandler.cpp:31-45. -/
def msgPrefix : MsgType → String
  | .message => ""
  | .warning => "WARNING: "
  | .error => "ERROR: "

/-- text printed by `PrintMessage`, /repo/src/MessageHandler.cpp:47-204. -/
def msgText : RV → String
  | .notYetImplemented => "This method has not yet been implemented.\n"
  | .successfulReturn => ""
  | .invalidArgument => "Invalid argument passed.\n"
  | .invalidPenaltyUpdateValue => "Ignoring invalid penalty update value.\n"
  | .invalidComplementarityTolerance => "Ignoring invalid complementarity tolerance.\n"
  | .invalidInitialPenaltyValue => "Invalid argument passed (initial penalty value).\n"
  | .invalidMaxIterationsValue => "Ignoring invalid number of maximum iterations.\n"
  | .invalidStationarityTolerance => "Ignoring invalid stationarity tolerance.\n"
  | .invalidNumberOfOptimVars =>
    "Invalid optimization variable dimension passed (required to be > 0).\n"
  | .invalidNumberOfCompVars => "Invalid complementarity dimension passed (required to be > 0).\n"
  | .invalidNumberOfConstraintVars =>
    "Invalid number of optimization variables passed (required to be >= 0).\n"
  | .invalidQpsolver => "Invalid QPSolver passed.\n"
  | .invalidOsqpBoxConstraints =>
    "Invalid constraints passed to OSQP solver: This solver does not handle box constraints, please pass them through linear constraints.\n"
  | .invalidTotalIterCount =>
    "Invalid total number of iterations delta passed to output statistics (must be non-negative integer).\n"
  | .invalidTotalOuterIter =>
    "Invalid total number of outer iterations delta passed to output statistics (must be non-negative integer).\n"
  | .ivalidSubproblemIter =>
    "Invalid total number of subproblem solver iterates delta passed to output statistics (must be non-negative integer).\n"
  | .invalidRhoOpt =>
    "Invalid rho value at solution passed to output statistics (must be positive double).\n"
  | .invalidPrintLevelValue =>
    "Ignoring invalid integer to be parsed to print level passed (must be in range of enum).\n"
  | .invalidObjectiveLinearTerm =>
    "Invalid objective linear term passed (must be a double array of length n).\n"
  | .invalidConstraintMatrix =>
    "Invalid constraint matrix passed (matrix was null pointer but number of constraints is positive).\n"
  | .invalidComplementarityMatrix => "Invalid complementarity matrix passed (can not be null pointer).\n"
  | .invalidEtaValue =>
    "Invalid etaDynamicPenalty value, which describes the fraction of loss required for complementarity progress (must be in (0,1))."
  | .invalidLowerComplementarityBound => "Lower complementarity bound must be bounded below.\n"
  | .invalidMaxRhoValue => "Ignoring invalid number of maximum penalty value.\n"
  | .maxIterationsReached => "Maximum number of iterations reached.\n"
  | .maxPenaltyReached => "Maxium penalty value reached.\n"
  | .initialSubproblemFailed => "Failed to solve initial QP.\n"
  | .subproblemSolverError => "The subproblem solver produced an error.\n"
  | .failedSymComplementarityMatrix => "Failed to compute the symmetric complementarity matrix C.\n"
  | .failedSwitchToSparse =>
    "Failed to switch to sparse mode (a to be created sparse matrix was nullpointer).\n"
  | .failedSwitchToDense =>
    "Failed to switch to dense mode (an array to be created was nullpointer).\n"
  | .osqpWorkspaceNotSetUp => "OSQP Workspace is not set up (please check for OSQP errors).\n"
  | .osqpInitialPrimalGuessFailed => "OSQP failed to use the primal initial guess.\n"
  | .osqpInitialDualGuessFailed => "OSQP failed to use the dual initial guess.\n"
  | .lcqpobjectNotSetup => "The LCQP object has not been set up correctly.\n"
  | .indexOutOfBounds => "Index out of bounds.\n"
  | .unableToReadFile => "Unable to read file.\n"
  | .invalidIndexPointer => "Invalid index pointer passed in csc format.\n"
  | .invalidIndexArray => "Invalid index array passed in csc format.\n"
  | .denseSparseMissmatch =>
    "The solver was initialized with dense (sparse) matrices but a sparse (dense) method was chosen.\n"

/-- `MessageHandler::PrintMessage`, /repo/src/MessageHandler.cpp:28-211: returned value and text
written to `stdout`.  (Values outside the enumeration are not representable.) -/
def printMessage (ret : RV) (ty : MsgType) : RV × String := (ret, msgPrefix ty ++ msgText ret)

/-- `MessageHandler::PrintSolution`, /repo/src/MessageHandler.cpp:214-247. -/
def printSolution (s : AlgStat) : AlgStat × String :=
  (s, (if s ≠ .notSolved then "\n\n#################################\n" else "") ++
    (match s with
      | .notSolved => "The LCQP has not been solved.\n"
      | .wStat => "## W-Stationary solution found ##\n"
      | .cStat => "## C-Stationary solution found ##\n"
      | .mStat => "## M-Stationary solution found ##\n"
      | .sStat => "## S-Stationary solution found ##\n") ++
    (if s ≠ .notSolved then "#################################\n\n" else ""))

end LCQ
