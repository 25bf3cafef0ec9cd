import Verif.Model.Types

/-!
# Model of /repo/src/Options.cpp

The contents of `qpOASES::Options` and `OSQPSettings` are external data; they are represented by an
abstract token (a natural number per contents).  `PrintLevel` and `QPSolver` are `int`s because the
enum overloads of their setters store any value.  The warnings printed by the setters are modelled
by `printMessage`, only their return value is kept here.
-/

namespace LCQ
open Scalar

/-- Members of `Options`, /repo/include/Options.hpp:192-213. -/
structure Options (α : Type) where
  /-- stationarityTolerance -/
  statTol : α
  /-- complementarityTolerance -/
  complTol : α
  /-- initialPenaltyParameter -/
  rho0 : α
  /-- penaltyUpdateFactor -/
  factor : α
  /-- solveZeroPenaltyFirst -/
  zeroFirst : Bool
  /-- perturbStep -/
  perturb : Bool
  /-- maxIterations -/
  maxIter : Int
  /-- maxPenaltyParameter -/
  maxRho : α
  /-- nDynamicPenalty -/
  nDyn : Int
  /-- etaDynamicPenalty -/
  eta : α
  /-- printLevel (0 NONE, 1 OUTER_LOOP_ITERATES, 2 INNER_LOOP_ITERATES) -/
  printLevel : Int
  /-- storeSteps -/
  storeSteps : Bool
  /-- qpSolver (0 QPOASES_DENSE, 1 QPOASES_SPARSE, 2 OSQP_SPARSE) -/
  qpSolver : Int
  /-- contents of qpOASES_opts -/
  qpoases : Nat
  /-- OSQP_opts: contents of the settings (value level) or their address (`Model/OptionsHeap`) -/
  osqp : Option Nat
  deriving DecidableEq

namespace Options
variable {α : Type} [Scalar α]

/-- `setStationarityTolerance`, /repo/src/Options.cpp:85-91. -/
def setStatTol (o : Options α) (val : α) : RV × Options α :=
  if val <=. eps then ((printMessage .invalidStationarityTolerance .warning).1, o)
  else (.successfulReturn, { o with statTol := val })

/-- `setComplementarityTolerance`, /repo/src/Options.cpp:99-105. -/
def setComplTol (o : Options α) (val : α) : RV × Options α :=
  if val <=. eps then ((printMessage .invalidComplementarityTolerance .warning).1, o)
  else (.successfulReturn, { o with complTol := val })

/-- `setInitialPenaltyParameter`, /repo/src/Options.cpp:113-119. -/
def setRho0 (o : Options α) (val : α) : RV × Options α :=
  if val <=. zeroTol then ((printMessage .invalidInitialPenaltyValue .warning).1, o)
  else (.successfulReturn, { o with rho0 := val })

/-- `setPenaltyUpdateFactor`, /repo/src/Options.cpp:127-133. -/
def setFactor (o : Options α) (val : α) : RV × Options α :=
  if val <=. one then ((printMessage .invalidPenaltyUpdateValue .warning).1, o)
  else (.successfulReturn, { o with factor := val })

/-- `setSolveZeroPenaltyFirst`, /repo/src/Options.cpp:141-144. -/
def setZeroFirst (o : Options α) (val : Bool) : RV × Options α :=
  (.successfulReturn, { o with zeroFirst := val })

/-- `setPerturbStep`, /repo/src/Options.cpp:152-155. -/
def setPerturb (o : Options α) (val : Bool) : RV × Options α :=
  (.successfulReturn, { o with perturb := val })

/-- `setMaxIterations`, /repo/src/Options.cpp:163-169. -/
def setMaxIter (o : Options α) (val : Int) : RV × Options α :=
  if val ≤ 0 then ((printMessage .invalidMaxIterationsValue .warning).1, o)
  else (.successfulReturn, { o with maxIter := val })

/-- `setMaxPenaltyParameter`, /repo/src/Options.cpp:177-183. -/
def setMaxRho (o : Options α) (val : α) : RV × Options α :=
  if val <=. zero then ((printMessage .invalidMaxRhoValue .warning).1, o)
  else (.successfulReturn, { o with maxRho := val })

/-- `setNDynamicPenalty`, /repo/src/Options.cpp:190-193. -/
def setNDyn (o : Options α) (val : Int) : RV × Options α :=
  (.successfulReturn, { o with nDyn := val })

/-- `setEtaDynamicPenalty`, /repo/src/Options.cpp:201-207. -/
def setEta (o : Options α) (val : α) : RV × Options α :=
  if (val <=. eps) || (one <=. val) then ((printMessage .invalidEtaValue .warning).1, o)
  else (.successfulReturn, { o with eta := val })

/-- `setPrintLevel(PrintLevel)`, /repo/src/Options.cpp:215-218. -/
def setPrintLevelEnum (o : Options α) (val : Int) : RV × Options α :=
  (.successfulReturn, { o with printLevel := val })

/-- `setPrintLevel(int)`, /repo/src/Options.cpp:221-228. -/
def setPrintLevel (o : Options α) (val : Int) : RV × Options α :=
  if val < 0 ∨ val > 2 then ((printMessage .invalidPrintLevelValue .warning).1, o)
  else (.successfulReturn, { o with printLevel := val })

/-- `setStoreSteps`, /repo/src/Options.cpp:236-239. -/
def setStoreSteps (o : Options α) (val : Bool) : RV × Options α :=
  (.successfulReturn, { o with storeSteps := val })

/-- `setQPSolver(QPSolver)`, /repo/src/Options.cpp:247-250. -/
def setQPSolverEnum (o : Options α) (val : Int) : RV × Options α :=
  (.successfulReturn, { o with qpSolver := val })

/-- `setQPSolver(int)`, /repo/src/Options.cpp:253-259. -/
def setQPSolver (o : Options α) (val : Int) : RV × Options α :=
  if val < 0 ∨ val > 2 then ((printMessage .invalidQpsolver .warning).1, o)
  else (.successfulReturn, { o with qpSolver := val })

/-- `setqpOASESOptions`, /repo/src/Options.cpp:262-266. -/
def setQpoases (o : Options α) (val : Nat) : RV × Options α :=
  (.successfulReturn, { o with qpoases := val })

/-- The plain members after `setToDefault`, /repo/src/Options.cpp:296-320.  `qd`, `sd` are the
default contents of the external option structs (after the three changes in lines 322-334). -/
def default (qd sd : Nat) : Options α :=
  { complTol := lit 1000 0 *. eps
    statTol := lit 1000000 0 *. eps
    rho0 := lit 1 2
    factor := two
    zeroFirst := true
    perturb := true
    maxIter := 1000
    maxRho := lit 100000000 0
    nDyn := 3
    eta := lit 9 1
    printLevel := 2
    storeSteps := false
    qpSolver := 0
    qpoases := qd
    osqp := some sd }

/-- A call of one of the setters with plain arguments (all but `setOSQPOptions`). -/
inductive Call (α : Type) where
  /-- setStationarityTolerance -/
  | statTol (v : α)
  /-- setComplementarityTolerance -/
  | complTol (v : α)
  /-- setInitialPenaltyParameter -/
  | rho0 (v : α)
  /-- setPenaltyUpdateFactor -/
  | factor (v : α)
  /-- setSolveZeroPenaltyFirst -/
  | zeroFirst (v : Bool)
  /-- setPerturbStep -/
  | perturb (v : Bool)
  /-- setMaxIterations -/
  | maxIter (v : Int)
  /-- setMaxPenaltyParameter -/
  | maxRho (v : α)
  /-- setNDynamicPenalty -/
  | nDyn (v : Int)
  /-- setEtaDynamicPenalty -/
  | eta (v : α)
  /-- setPrintLevel(int) -/
  | printLevel (v : Int)
  /-- setPrintLevel(PrintLevel) -/
  | printLevelEnum (v : Int)
  /-- setStoreSteps -/
  | storeSteps (v : Bool)
  /-- setQPSolver(int) -/
  | qpSolver (v : Int)
  /-- setQPSolver(QPSolver) -/
  | qpSolverEnum (v : Int)
  /-- setqpOASESOptions -/
  | qpoases (v : Nat)

/-- dispatch of a setter call -/
def call (o : Options α) : Call α → RV × Options α
  | .statTol v => o.setStatTol v
  | .complTol v => o.setComplTol v
  | .rho0 v => o.setRho0 v
  | .factor v => o.setFactor v
  | .zeroFirst v => o.setZeroFirst v
  | .perturb v => o.setPerturb v
  | .maxIter v => o.setMaxIter v
  | .maxRho v => o.setMaxRho v
  | .nDyn v => o.setNDyn v
  | .eta v => o.setEta v
  | .printLevel v => o.setPrintLevel v
  | .printLevelEnum v => o.setPrintLevelEnum v
  | .storeSteps v => o.setStoreSteps v
  | .qpSolver v => o.setQPSolver v
  | .qpSolverEnum v => o.setQPSolverEnum v
  | .qpoases v => o.setQpoases v

/-- a sequence of setter calls, return values ignored -/
def calls (o : Options α) (cs : List (Call α)) : Options α := cs.foldl (fun o c => (o.call c).2) o

end Options
end LCQ
