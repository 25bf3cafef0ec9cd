import Verif.Model.Matlab

/-!
# Model of the subsolver options of the MATLAB interface, /repo/interfaces/matlab/LCQPow.cpp:282-565

Simplifications.
* The texts of warnings and the warning about the number of entries are left out; they have no other effect.
* The entry `linsys_solver` of the OSQP options has no effect besides a warning (and a leaked string) and is left out.
* Booleans and enumerations of the subsolvers are integers.  `__SUPPRESSANYOUTPUT__` is not defined.
* `qpOASES::int_t` and `c_int` conversions are the same parameter `toInt`, which may fail.
-/

namespace LCQ
open Scalar

variable {α : Type}

/-- `hasOptionsValue`, /repo/interfaces/matlab/LCQPow.cpp:289-313, and the read `*optionValue`: `mxGetPr` of any array with one
element, whatever its class -/
def scalarOpt (p : Mx α) (name : String) : M (Option α) :=
  match p.field name with
  | none => .ok none
  | some a =>
    if a.isEmpty = false ∧ a.rows = 1 ∧ a.cols = 1 then do
      let b ← a.pr
      let l ← deref b
      let v ← rd l 0
      .ok (some v)
    else .ok none

/-- an entry that is stored as it is -/
def optNum {σ : Type} (p : Mx α) (name : String) (set : α → σ → σ) (o : σ) : M σ := do
  let v ← scalarOpt p name
  match v with
  | none => .ok o
  | some v => .ok (set v o)

/-- an entry that is converted to an integer -/
def optInt {σ : Type} (toInt : α → M Int) (p : Mx α) (name : String) (set : Int → σ → σ) (o : σ) : M σ := do
  let v ← scalarOpt p name
  match v with
  | none => .ok o
  | some v => do
    let k ← toInt v
    .ok (set k o)

/-- cut to an interval by two comparisons -/
def cut (lo hi k : Int) : Int :=
  let k := if k < lo then lo else k
  if k > hi then hi else k

/-- `qpOASES::Options`, the members that the interface sets -/
structure QpoOptions (α : Type) where
  /-- printLevel -/
  printLevel : Int
  /-- enableRamping -/
  enableRamping : Int
  /-- enableFarBounds -/
  enableFarBounds : Int
  /-- enableFlippingBounds -/
  enableFlippingBounds : Int
  /-- enableRegularisation -/
  enableRegularisation : Int
  /-- enableFullLITests -/
  enableFullLITests : Int
  /-- enableNZCTests -/
  enableNZCTests : Int
  /-- enableDriftCorrection -/
  enableDriftCorrection : Int
  /-- enableCholeskyRefactorisation -/
  enableCholeskyRefactorisation : Int
  /-- enableEqualities -/
  enableEqualities : Int
  /-- terminationTolerance -/
  terminationTolerance : α
  /-- boundTolerance -/
  boundTolerance : α
  /-- boundRelaxation -/
  boundRelaxation : α
  /-- epsNum -/
  epsNum : α
  /-- epsDen -/
  epsDen : α
  /-- maxPrimalJump -/
  maxPrimalJump : α
  /-- maxDualJump -/
  maxDualJump : α
  /-- initialRamping -/
  initialRamping : α
  /-- finalRamping -/
  finalRamping : α
  /-- initialFarBounds -/
  initialFarBounds : α
  /-- growFarBounds -/
  growFarBounds : α
  /-- initialStatusBounds -/
  initialStatusBounds : Int
  /-- epsFlipping -/
  epsFlipping : α
  /-- numRegularisationSteps -/
  numRegularisationSteps : Int
  /-- epsRegularisation -/
  epsRegularisation : α
  /-- numRefinementSteps -/
  numRefinementSteps : Int
  /-- epsIterRef -/
  epsIterRef : α
  /-- epsLITests -/
  epsLITests : α
  /-- epsNZCTests -/
  epsNZCTests : α

/-- `OSQPSettings`, the members that the interface sets -/
structure OsqpOptions (α : Type) where
  /-- rho -/
  rho : α
  /-- sigma -/
  sigma : α
  /-- scaling -/
  scaling : Int
  /-- adaptive_rho -/
  adaptiveRho : Int
  /-- adaptive_rho_interval -/
  adaptiveRhoInterval : Int
  /-- adaptive_rho_tolerance -/
  adaptiveRhoTolerance : α
  /-- adaptive_rho_fraction -/
  adaptiveRhoFraction : α
  /-- max_iter -/
  maxIter : Int
  /-- eps_abs -/
  epsAbs : α
  /-- eps_rel -/
  epsRel : α
  /-- eps_prim_inf -/
  epsPrimInf : α
  /-- eps_dual_inf -/
  epsDualInf : α
  /-- alpha -/
  alpha : α
  /-- delta -/
  delta : α
  /-- polish -/
  polish : Int
  /-- polish_refine_iter -/
  polishRefineIter : Int
  /-- verbose -/
  verbose : Int
  /-- scaled_termination -/
  scaledTermination : Int
  /-- check_termination -/
  checkTermination : Int
  /-- warm_start -/
  warmStart : Int
  /-- time_limit -/
  timeLimit : α

/-- `setupqpOASESOptions`, /repo/interfaces/matlab/LCQPow.cpp:346-482; `PL_DEBUG_ITER` is -2, `PL_HIGH` is 3 -/
def setupQpoases (toInt : α → M Int) (p : Mx α) (o : QpoOptions α) : M (QpoOptions α) := do
  let o ← optInt toInt p "printLevel" (fun k o => { o with printLevel := cut (-2) 3 k }) o
  let o ← optInt toInt p "enableRamping" (fun k o => { o with enableRamping := k }) o
  let o ← optInt toInt p "enableFarBounds" (fun k o => { o with enableFarBounds := k }) o
  let o ← optInt toInt p "enableFlippingBounds" (fun k o => { o with enableFlippingBounds := k }) o
  let o ← optInt toInt p "enableRegularisation" (fun k o => { o with enableRegularisation := k }) o
  let o ← optInt toInt p "enableFullLITests" (fun k o => { o with enableFullLITests := k }) o
  let o ← optInt toInt p "enableNZCTests" (fun k o => { o with enableNZCTests := k }) o
  let o ← optInt toInt p "enableDriftCorrection" (fun k o => { o with enableDriftCorrection := k }) o
  let o ← optInt toInt p "enableCholeskyRefactorisation" (fun k o => { o with enableCholeskyRefactorisation := k }) o
  let o ← optInt toInt p "enableEqualities" (fun k o => { o with enableEqualities := k }) o
  let o ← optNum p "terminationTolerance" (fun v o => { o with terminationTolerance := v }) o
  let o ← optNum p "boundTolerance" (fun v o => { o with boundTolerance := v }) o
  let o ← optNum p "boundRelaxation" (fun v o => { o with boundRelaxation := v }) o
  let o ← optNum p "epsNum" (fun v o => { o with epsNum := v }) o
  let o ← optNum p "epsDen" (fun v o => { o with epsDen := v }) o
  let o ← optNum p "maxPrimalJump" (fun v o => { o with maxPrimalJump := v }) o
  let o ← optNum p "maxDualJump" (fun v o => { o with maxDualJump := v }) o
  let o ← optNum p "initialRamping" (fun v o => { o with initialRamping := v }) o
  let o ← optNum p "finalRamping" (fun v o => { o with finalRamping := v }) o
  let o ← optNum p "initialFarBounds" (fun v o => { o with initialFarBounds := v }) o
  let o ← optNum p "growFarBounds" (fun v o => { o with growFarBounds := v }) o
  let o ← optInt toInt p "initialStatusBounds" (fun k o => { o with initialStatusBounds := cut (-1) 1 k }) o
  let o ← optNum p "epsFlipping" (fun v o => { o with epsFlipping := v }) o
  let o ← optInt toInt p "numRegularisationSteps" (fun k o => { o with numRegularisationSteps := k }) o
  let o ← optNum p "epsRegularisation" (fun v o => { o with epsRegularisation := v }) o
  let o ← optInt toInt p "numRefinementSteps" (fun k o => { o with numRefinementSteps := k }) o
  let o ← optNum p "epsIterRef" (fun v o => { o with epsIterRef := v }) o
  let o ← optNum p "epsLITests" (fun v o => { o with epsLITests := v }) o
  let o ← optNum p "epsNZCTests" (fun v o => { o with epsNZCTests := v }) o
  .ok o

/-- `setupOSQPOptions`, /repo/interfaces/matlab/LCQPow.cpp:488-565 -/
def setupOsqp (toInt : α → M Int) (p : Mx α) (o : OsqpOptions α) : M (OsqpOptions α) := do
  let o ← optNum p "rho" (fun v o => { o with rho := v }) o
  let o ← optNum p "sigma" (fun v o => { o with sigma := v }) o
  let o ← optInt toInt p "scaling" (fun k o => { o with scaling := k }) o
  let o ← optInt toInt p "adaptive_rho" (fun k o => { o with adaptiveRho := k }) o
  let o ← optInt toInt p "adaptive_rho_interval" (fun k o => { o with adaptiveRhoInterval := k }) o
  let o ← optNum p "adaptive_rho_tolerance" (fun v o => { o with adaptiveRhoTolerance := v }) o
  let o ← optNum p "adaptive_rho_fraction" (fun v o => { o with adaptiveRhoFraction := v }) o
  let o ← optInt toInt p "max_iter" (fun k o => { o with maxIter := k }) o
  let o ← optNum p "eps_abs" (fun v o => { o with epsAbs := v }) o
  let o ← optNum p "eps_rel" (fun v o => { o with epsRel := v }) o
  let o ← optNum p "eps_prim_inf" (fun v o => { o with epsPrimInf := v }) o
  let o ← optNum p "eps_dual_inf" (fun v o => { o with epsDualInf := v }) o
  let o ← optNum p "alpha" (fun v o => { o with alpha := v }) o
  let o ← optNum p "delta" (fun v o => { o with delta := v }) o
  let o ← optInt toInt p "polish" (fun k o => { o with polish := k }) o
  let o ← optInt toInt p "polish_refine_iter" (fun k o => { o with polishRefineIter := k }) o
  let o ← optInt toInt p "verbose" (fun k o => { o with verbose := k }) o
  let o ← optInt toInt p "scaled_termination" (fun k o => { o with scaledTermination := k }) o
  let o ← optInt toInt p "check_termination" (fun k o => { o with checkTermination := k }) o
  let o ← optInt toInt p "warm_start" (fun k o => { o with warmStart := k }) o
  let o ← optNum p "time_limit" (fun v o => { o with timeLimit := v }) o
  .ok o

end LCQ
