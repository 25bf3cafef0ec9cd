import Verif.Model.MatlabOptions

/-!
# Options of the QP solvers in a MATLAB struct (specification)
-/

namespace LCQ

variable {α : Type}

/-- the entry `name` of the struct is missing or not a scalar (`none`), or a full double scalar of the given value -/
def EntryIs (p : Mx α) (name : String) (v : Option α) : Prop :=
  match v with
  | none => ∀ a, p.field name = some a → ¬ (a.rows = 1 ∧ a.cols = 1)
  | some x => p.field name = some (.dbl 1 1 [x])

/-- the entry `name` is missing or not a scalar (`none`), or a full double scalar with the given integral part -/
def IntEntryIs (toInt : α → M Int) (p : Mx α) (name : String) (k : Option Int) : Prop :=
  match k with
  | none => EntryIs p name none
  | some k => ∃ x, EntryIs p name (some x) ∧ toInt x = .ok k

/-- an entry with one element that is no double: a logical value, a character, a struct, ... -/
def ForeignScalar (p : Mx α) (name : String) : Prop :=
  ∃ a, p.field name = some a ∧ a.rows = 1 ∧ a.cols = 1 ∧ a.isDouble = false

/-- real options of qpOASES -/
def qpoNums : List String :=
  ["terminationTolerance", "boundTolerance", "boundRelaxation", "epsNum", "epsDen", "maxPrimalJump",
   "maxDualJump", "initialRamping", "finalRamping", "initialFarBounds", "growFarBounds", "epsFlipping",
   "epsRegularisation", "epsIterRef", "epsLITests", "epsNZCTests"]

/-- integral options of qpOASES -/
def qpoInts : List String :=
  ["printLevel", "enableRamping", "enableFarBounds", "enableFlippingBounds", "enableRegularisation",
   "enableFullLITests", "enableNZCTests", "enableDriftCorrection", "enableCholeskyRefactorisation",
   "enableEqualities", "initialStatusBounds", "numRegularisationSteps", "numRefinementSteps"]

/-- real options of OSQP -/
def osqpNums : List String :=
  ["rho", "sigma", "adaptive_rho_tolerance", "adaptive_rho_fraction", "eps_abs", "eps_rel", "eps_prim_inf",
   "eps_dual_inf", "alpha", "delta", "time_limit"]

/-- integral options of OSQP -/
def osqpInts : List String :=
  ["scaling", "adaptive_rho", "adaptive_rho_interval", "max_iter", "polish", "polish_refine_iter", "verbose",
   "scaled_termination", "check_termination", "warm_start"]

/-- the options `o` with the given entries, by name -/
def qpoWith (v : String → Option α) (k : String → Option Int) (o : QpoOptions α) : QpoOptions α where
  printLevel := ((k "printLevel").map fun k => max (-2) (min k 3)).getD o.printLevel
  enableRamping := (k "enableRamping").getD o.enableRamping
  enableFarBounds := (k "enableFarBounds").getD o.enableFarBounds
  enableFlippingBounds := (k "enableFlippingBounds").getD o.enableFlippingBounds
  enableRegularisation := (k "enableRegularisation").getD o.enableRegularisation
  enableFullLITests := (k "enableFullLITests").getD o.enableFullLITests
  enableNZCTests := (k "enableNZCTests").getD o.enableNZCTests
  enableDriftCorrection := (k "enableDriftCorrection").getD o.enableDriftCorrection
  enableCholeskyRefactorisation := (k "enableCholeskyRefactorisation").getD o.enableCholeskyRefactorisation
  enableEqualities := (k "enableEqualities").getD o.enableEqualities
  terminationTolerance := (v "terminationTolerance").getD o.terminationTolerance
  boundTolerance := (v "boundTolerance").getD o.boundTolerance
  boundRelaxation := (v "boundRelaxation").getD o.boundRelaxation
  epsNum := (v "epsNum").getD o.epsNum
  epsDen := (v "epsDen").getD o.epsDen
  maxPrimalJump := (v "maxPrimalJump").getD o.maxPrimalJump
  maxDualJump := (v "maxDualJump").getD o.maxDualJump
  initialRamping := (v "initialRamping").getD o.initialRamping
  finalRamping := (v "finalRamping").getD o.finalRamping
  initialFarBounds := (v "initialFarBounds").getD o.initialFarBounds
  growFarBounds := (v "growFarBounds").getD o.growFarBounds
  initialStatusBounds := ((k "initialStatusBounds").map fun k => max (-1) (min k 1)).getD o.initialStatusBounds
  epsFlipping := (v "epsFlipping").getD o.epsFlipping
  numRegularisationSteps := (k "numRegularisationSteps").getD o.numRegularisationSteps
  epsRegularisation := (v "epsRegularisation").getD o.epsRegularisation
  numRefinementSteps := (k "numRefinementSteps").getD o.numRefinementSteps
  epsIterRef := (v "epsIterRef").getD o.epsIterRef
  epsLITests := (v "epsLITests").getD o.epsLITests
  epsNZCTests := (v "epsNZCTests").getD o.epsNZCTests

/-- the options `o` with the given entries, by name -/
def osqpWith (v : String → Option α) (k : String → Option Int) (o : OsqpOptions α) : OsqpOptions α where
  rho := (v "rho").getD o.rho
  sigma := (v "sigma").getD o.sigma
  scaling := (k "scaling").getD o.scaling
  adaptiveRho := (k "adaptive_rho").getD o.adaptiveRho
  adaptiveRhoInterval := (k "adaptive_rho_interval").getD o.adaptiveRhoInterval
  adaptiveRhoTolerance := (v "adaptive_rho_tolerance").getD o.adaptiveRhoTolerance
  adaptiveRhoFraction := (v "adaptive_rho_fraction").getD o.adaptiveRhoFraction
  maxIter := (k "max_iter").getD o.maxIter
  epsAbs := (v "eps_abs").getD o.epsAbs
  epsRel := (v "eps_rel").getD o.epsRel
  epsPrimInf := (v "eps_prim_inf").getD o.epsPrimInf
  epsDualInf := (v "eps_dual_inf").getD o.epsDualInf
  alpha := (v "alpha").getD o.alpha
  delta := (v "delta").getD o.delta
  polish := (k "polish").getD o.polish
  polishRefineIter := (k "polish_refine_iter").getD o.polishRefineIter
  verbose := (k "verbose").getD o.verbose
  scaledTermination := (k "scaled_termination").getD o.scaledTermination
  checkTermination := (k "check_termination").getD o.checkTermination
  warmStart := (k "warm_start").getD o.warmStart
  timeLimit := (v "time_limit").getD o.timeLimit

end LCQ
