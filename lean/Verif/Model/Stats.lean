import Verif.Model.Types

/-!
# Model of /repo/src/OutputStatistics.cpp
-/

namespace LCQ
open Scalar

/-- Members of `OutputStatistics`, /repo/include/OutputStatistics.hpp:209-226. -/
structure Stats (α : Type) where
  /-- iterTotal -/
  iterTotal : Int
  /-- iterOuter -/
  iterOuter : Int
  /-- subproblemIter -/
  subproblemIter : Int
  /-- rhoOpt -/
  rhoOpt : α
  /-- status -/
  status : AlgStat
  /-- qpSolver_exit_flag -/
  exitFlag : Int
  /-- innerIters -/
  innerIters : List Int
  /-- subproblemIters -/
  subIters : List Int
  /-- accuSubproblemIters -/
  accuIters : List Int
  /-- xSteps -/
  xSteps : List (List α)
  /-- stepLength -/
  stepLength : List α
  /-- stepSize -/
  stepSize : List α
  /-- statVals -/
  statVals : List α
  /-- objVals -/
  objVals : List α
  /-- phiVals -/
  phiVals : List α
  /-- meritVals -/
  meritVals : List α
  deriving DecidableEq, Repr

namespace Stats
variable {α : Type} [Scalar α]

/-- default constructor with the member initialisers, /repo/include/OutputStatistics.hpp:209-226 -/
def fresh : Stats α where
  iterTotal := 0
  iterOuter := 0
  subproblemIter := 0
  rhoOpt := zero
  status := .notSolved
  exitFlag := 0
  innerIters := []
  subIters := []
  accuIters := []
  xSteps := []
  stepLength := []
  stepSize := []
  statVals := []
  objVals := []
  phiVals := []
  meritVals := []

/-- `operator=`, /repo/src/OutputStatistics.cpp:31-53: every member of `rhs` is assigned. -/
def assign (s rhs : Stats α) : Stats α :=
  { s with
    iterTotal := rhs.iterTotal
    iterOuter := rhs.iterOuter
    subproblemIter := rhs.subproblemIter
    rhoOpt := rhs.rhoOpt
    status := rhs.status
    exitFlag := rhs.exitFlag
    xSteps := rhs.xSteps
    innerIters := rhs.innerIters
    subIters := rhs.subIters
    accuIters := rhs.accuIters
    stepLength := rhs.stepLength
    stepSize := rhs.stepSize
    statVals := rhs.statVals
    objVals := rhs.objVals
    phiVals := rhs.phiVals
    meritVals := rhs.meritVals }

/-- `reset`, /repo/src/OutputStatistics.cpp:56-78 -/
def reset (s : Stats α) : Stats α :=
  { s with
    iterTotal := 0
    iterOuter := 0
    subproblemIter := 0
    rhoOpt := zero
    status := .notSolved
    exitFlag := 0
    xSteps := []
    innerIters := []
    subIters := []
    accuIters := []
    stepLength := []
    stepSize := []
    statVals := []
    objVals := []
    phiVals := []
    meritVals := [] }

/-- `updateIterTotal`, /repo/src/OutputStatistics.cpp:81-87 -/
def updateIterTotal (s : Stats α) (d : Int) : M (RV × Stats α) :=
  if d < 0 then .ok (.invalidTotalIterCount, s)
  else do
    let v ← addInt s.iterTotal d
    .ok (.successfulReturn, { s with iterTotal := v })

/-- `updateIterOuter`, /repo/src/OutputStatistics.cpp:90-96 -/
def updateIterOuter (s : Stats α) (d : Int) : M (RV × Stats α) :=
  if d < 0 then .ok (.invalidTotalOuterIter, s)
  else do
    let v ← addInt s.iterOuter d
    .ok (.successfulReturn, { s with iterOuter := v })

/-- `updateSubproblemIter`, /repo/src/OutputStatistics.cpp:99-105 -/
def updateSubproblemIter (s : Stats α) (d : Int) : M (RV × Stats α) :=
  if d < 0 then .ok (.ivalidSubproblemIter, s)
  else do
    let v ← addInt s.subproblemIter d
    .ok (.successfulReturn, { s with subproblemIter := v })

/-- `updateRhoOpt`, /repo/src/OutputStatistics.cpp:108-114 -/
def updateRhoOpt (s : Stats α) (r : α) : RV × Stats α :=
  if r <=. zero then (.invalidRhoOpt, s)
  else (.successfulReturn, { s with rhoOpt := r })

/-- `updateSolutionStatus`, /repo/src/OutputStatistics.cpp:117-121 -/
def updateStatus (s : Stats α) (t : AlgStat) : RV × Stats α :=
  (.successfulReturn, { s with status := t })

/-- `updateQPSolverExitFlag`, /repo/src/OutputStatistics.cpp:124-128 -/
def updateExitFlag (s : Stats α) (f : Int) : RV × Stats α :=
  (.successfulReturn, { s with exitFlag := f })

/-- arguments of `updateTrackingVectors` other than the iterate -/
structure Row (α : Type) where
  /-- thisInnerIter -/
  inner : Int
  /-- thisSubproblemIter -/
  sub : Int
  /-- thisStepLength -/
  len : α
  /-- thisStepSize -/
  size : α
  /-- statVal -/
  stat : α
  /-- objVal -/
  obj : α
  /-- phiVal -/
  phi : α
  /-- meritVal -/
  merit : α

/-- the next accumulated iteration number, /repo/src/OutputStatistics.cpp:151-154 -/
def accuNext (l : List Int) (d : Int) : M Int :=
  match l.getLast? with
  | none => .ok d
  | some last => addInt last d

/-- `updateTrackingVectors`, /repo/src/OutputStatistics.cpp:131-164 -/
def track (s : Stats α) (x : List α) (r : Row α) (nV : Nat) : M (RV × Stats α) := do
  let xs ← loop nV (fun i (acc : List α) => do
    let v ← rd x i
    .ok (acc ++ [v])) []
  let acc ← accuNext s.accuIters r.sub
  .ok (.successfulReturn,
    { s with
      xSteps := s.xSteps ++ [xs]
      innerIters := s.innerIters ++ [r.inner]
      subIters := s.subIters ++ [r.sub]
      accuIters := s.accuIters ++ [acc]
      stepLength := s.stepLength ++ [r.len]
      stepSize := s.stepSize ++ [r.size]
      statVals := s.statVals ++ [r.stat]
      objVals := s.objVals ++ [r.obj]
      phiVals := s.phiVals ++ [r.phi]
      meritVals := s.meritVals ++ [r.merit] })

/-- The raw-pointer getters (`getInnerIters`, `getStepLength`, ...),
/repo/src/OutputStatistics.cpp:203-370: null for an empty series, otherwise a fresh array. -/
def getArr {β : Type} (l : List β) (junk : Nat → β) : M (Option (List β)) :=
  if l.length = 0 then .ok none
  else do
    let vals ← loop l.length (fun i vals => do
      let v ← rd l i
      wr vals i v) ((List.range l.length).map junk)
    .ok (some vals)

/-- calls on one statistics object -/
inductive Call (α : Type) where
  /-- reset -/
  | reset
  /-- updateIterTotal -/
  | total (d : Int)
  /-- updateIterOuter -/
  | outer (d : Int)
  /-- updateSubproblemIter -/
  | sub (d : Int)
  /-- updateRhoOpt -/
  | rho (r : α)
  /-- updateSolutionStatus -/
  | status (t : AlgStat)
  /-- updateQPSolverExitFlag -/
  | flag (f : Int)
  /-- updateTrackingVectors -/
  | track (x : List α) (r : Row α) (nV : Nat)

/-- execute a call -/
def call (s : Stats α) : Call α → M (RV × Stats α)
  | .reset => .ok (.successfulReturn, s.reset)
  | .total d => s.updateIterTotal d
  | .outer d => s.updateIterOuter d
  | .sub d => s.updateSubproblemIter d
  | .rho r => .ok (s.updateRhoOpt r)
  | .status t => .ok (s.updateStatus t)
  | .flag f => .ok (s.updateExitFlag f)
  | .track x r nV => s.track x r nV

/-- execute a sequence of calls -/
def calls (s : Stats α) (cs : List (Call α)) : M (Stats α) :=
  cs.foldlM (fun s c => do let r ← s.call c; .ok r.2) s

end Stats
end LCQ
