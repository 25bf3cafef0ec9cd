import Verif.Spec.Binary64
import Verif.Model.Solver

/-!
# The unit tests of the source, run on the model

Each example below is a test of /repo/test/RunUnitTests.cpp, evaluated by the kernel with IEEE doubles
(`Verif/Spec/Binary64.lean`).  They are no proofs of properties; they show that the model computes what the source was
observed to compute.  The external QP solver is replaced by the exact solution of the subproblems of the warm-up problem.
-/

namespace LCQ.UnitTest
open Scalar

/-- doubles -/
def ds (l : List Int) : List Dbl := l.map ofInt

/-- the computed array consists of the given numbers -/
def eq (r : M (List Dbl)) (l : List Int) : Bool :=
  match r with
  | .ok v => decide (v.map Dbl.val = l.map fun z => some (z : ℚ))
  | _ => false

/-- the computed number is the given one -/
def eq1 (r : M Dbl) (z : Int) : Bool :=
  match r with
  | .ok v => decide (Dbl.val v = some (z : ℚ))
  | _ => false

/-- memory not yet written -/
def fresh (n : Nat) : List Dbl := List.replicate n .nan

/-! ## Utilities -/

/-- MatrixMultiplicationTest, lines 33-57 -/
example : eq (matMul (ds [1, 0, 2, 3, 1, 1]) (ds [2, 0, 0, 2, 1, 0, 0, 1, 0, -1, -1, 0]) (fresh 8) 2 3 4)
    [2, -2, -2, 2, 7, -1, -1, 7] = true := by decide +kernel

/-- TransposedMatrixMultiplicationTest, lines 60-78 -/
example : eq (matTMul (ds [1, 0, 2, 3, 1, 1]) (ds [98, -10]) (fresh 3) 2 3 1) [68, -10, 186] = true := by decide +kernel

/-- MatrixSymmetrization, lines 81-104 -/
example : eq (symProd (ds [1, 0, 2, 3, 1, 1]) (ds [2, 0, 1, 0, 0, -1]) (fresh 9) 2 3) [4, 0, 2, 0, 0, -1, 2, -1, 2] = true := by
  decide +kernel

/-- AffineTransformation, lines 107-129 -/
example : eq (affine (ofInt 2) (ds [1, 0, 2, 3, 1, 1]) (ds [2, 0, 1]) (ds [-3, -3]) (fresh 2) 2 3) [5, 11] = true := by
  decide +kernel

/-- MatrixAdd, lines 132-159 -/
example : eq (weightedAdd (ofInt (-1)) (.buf (ds [0, 1, 3, 1, 10, 1])) (lit 5 1) (.buf (ds [2, 0, 0, 4, 2, 2])) (fresh 6) 3 2)
    [1, -1, -3, 1, -9, 0] = true := by decide +kernel

/-- VectorAdd, lines 162-187 -/
example : eq (weightedVecAdd (ofInt 2) (.buf (ds [0, 1, 2, 3])) (ofInt (-1)) (.buf (ds [10, 2, 0, 3])) (fresh 4) 4)
    [-10, 0, 4, 3] = true := by decide +kernel

/-- QuadraticFormProduct, lines 190-204 -/
example : eq1 (quadForm (ds [0, 1, 0, 1, 2, 1, 0, 1, 0]) (ds [1, 2, 3]) 3) 24 = true := by decide +kernel

/-- DotProduct, lines 207-221 -/
example : eq1 (dotProd (ds [0, 1, 2, 3]) (ds [10, 2, 0, 3]) 4) 11 = true := by decide +kernel

/-- MaxAbs, lines 224-246 -/
example : eq1 (maxAbs (ds [0, 1, 2, 3]) 4) 3 = true ∧ eq1 (maxAbs (ds [0, -1, 2, 0]) 4) 2 = true ∧
    eq1 (maxAbs (ds [0, -4, 2, 0]) 4) 4 = true := by decide +kernel

/-- Options, lines 249-262 -/
example : let o := ((Options.default 0 0 : Options Dbl).setRho0 (ofInt 100)).2.setFactor (ofInt 100)
    Dbl.val o.2.rho0 = some 100 ∧ Dbl.val o.2.factor = some 100 := by decide +kernel

/-- the computed dense matrix consists of the given numbers -/
def eqO (r : M (Option (List Dbl))) (l : List Int) : Bool :=
  match r with
  | .ok (some v) => eq (.ok v) l
  | _ => false

/-- CSCtoDNS, lines 265-332.  In the first two matrices the last column pointer is beyond the three entries; the check
for `nzmax` ends the conversion in time. -/
example : eqO (cscToDns ⟨2, 3, 3, [0, 1, 3, 4], [0, 0, 1], ds [2, 1, 2]⟩) [2, 1, 0, 0, 2, 0] = true ∧
    eqO (cscToDns ⟨2, 3, 3, [0, 2, 2, 4], [0, 1, 1], ds [2, 1, 10]⟩) [2, 0, 0, 1, 0, 10] = true ∧
    eqO (cscToDns ⟨3, 2, 3, [0, 2, 3], [0, 2, 0], ds [2, 10, 1]⟩) [2, 1, 0, 0, 10, 0] = true := by decide +kernel

/-- SparseDenseBackAndForth, lines 335-375, for one matrix -/
example : eqO (do
    let S ← dnsToCsc (ds [0, 8, 0, 0, 4, 0, 0, 0, 3, 0]) 2 5
    cscToDns S) [0, 8, 0, 0, 4, 0, 0, 0, 3, 0] = true := by decide +kernel

/-- CSCtoTriangular, lines 378-410 -/
example : (match copyCSCUpper (⟨2, 2, 4, [0, 2, 4], [0, 1, 0, 1], ds [2, 3, 3, 2]⟩ : CSC Dbl) with
    | .ok S => decide (S.p = [0, 1, 3]) && decide (S.i = [0, 0, 1]) && eq (.ok S.x) [2, 3, 2] && decide (S.m = 2) &&
      decide (S.n = 2) && decide (S.nzmax = 3)
    | _ => false) = true := by decide +kernel

/-! ## Runs -/

/-- arguments of the warm-up problem -/
def args : DenseArgs Dbl where
  Q := some (ds [2, 0, 0, 2])
  g := some (ds [-2, -2])
  L := some (ds [1, 0])
  R := some (ds [0, 1])

/-- solution of `min z² + g*z` subject to `0 ≤ z` -/
def sol (g : Dbl) : Dbl := getMax zero (-. (g /. two))

/-- its multiplier -/
def mult (g : Dbl) : Dbl := two *. sol g +. g

/-- QP solver for `min |x|² + g'x` subject to `0 ≤ x`, with the multipliers of the rows -/
def qp (q : Req Dbl) : Resp Dbl where
  ret := 0
  iter := 1
  status := 1
  setup := true
  warmX := true
  warmY := true
  x := fun i => sol (q.g.getD i zero)
  y := fun i => if i < 2 then zero else mult (q.g.getD (i - 2) zero)

/-- the outside world; `r` are the pseudo-random numbers -/
def env (r : Nat → Nat) : Env Dbl where
  qp := fun _ => qp
  rnd := r
  junk := fun _ _ => .nan
  junkI := fun _ => -1

/-- object of the tests: default options without output -/
def obj : Obj Dbl := Obj.new (Options.default 0 0 |>.setPrintLevelEnum 0).2 2 0 1

/-- `|v| <= tolerance` -/
def small (v : Dbl) : Bool := Scalar.abs v <=. obj.d.opts.statTol

/-- the checks of RunWarmUp, lines 531-546 -/
def checks (x y : List Dbl) : Bool :=
  let x0 := x.getD 0 .nan
  let x1 := x.getD 1 .nan
  ((small (x0 -. one) && small x1) || (small (x1 -. one) && small x0)) &&
  small (two *. x0 -. two -. y.getD 0 .nan -. y.getD 2 .nan) && small (two *. x1 -. two -. y.getD 1 .nan -. y.getD 3 .nan)

/-- one repetition of RunWarmUp; the result is the object, if all checks succeed -/
def warmUp (r : Nat → Nat) (o : Obj Dbl) : Option (Obj Dbl) :=
  match loadDense (env r) o args with
  | .ok (.successfulReturn, o) =>
    match runSolver (env r) 2000 o with
    | .ok (some (.successfulReturn, o)) =>
      match o.s.xk, o.s.yk with
      | some x, some y => if checks x y then some o else none
      | _, _ => none
    | _ => none
  | _ => none

/-- RunWarmUp, lines 505-551, one repetition: 30 iterations, 15 penalty updates -/
example : (warmUp (fun k => k * k + 1) obj).map (fun o => (o.s.stats.iterTotal, o.s.stats.iterOuter)) = some (30, 15) := by
  decide +kernel

/-- DenseToSparse, lines 413-460 -/
def denseToSparse (r : Nat → Nat) : M (List RV) := do
  let c1 ← loadDense (env r) obj args
  let c2 ← switchToDense c1.2
  let c3 ← switchToSparse c2.2
  let c4 ← switchToSparse c3.2
  let o := setOptions c4.2 (c4.2.d.opts.setQPSolverEnum 1).2
  match ← runSolver (env r) 2000 o with
  | none => .ok []
  | some c5 =>
    let c6 ← switchToDense c5.2
    let o := setOptions c6.2 (c6.2.d.opts.setQPSolverEnum 0).2
    match ← runSolver (env r) 2000 o with
    | none => .ok []
    | some c7 => .ok [c1.1, c2.1, c3.1, c4.1, c5.1, c6.1, c7.1]

/-- all calls are successful -/
def allOk (r : M (List RV)) : Bool :=
  match r with
  | .ok l => decide (l = List.replicate 7 .successfulReturn)
  | _ => false

example : allOk (denseToSparse fun k => k * k + 1) = true := by decide +kernel

/-- CheckQPReturnFlag, lines 463-502: the QP solver finds out that the problem is infeasible (37 is
`RET_INIT_FAILED_INFEASIBILITY` of qpOASES) -/
def returnFlag : Option (RV × RV × Int) :=
  let e := { env id with qp := fun _ q => { qp q with ret := 37 } }
  match loadDense e (Obj.new (Options.default 0 0 |>.setPrintLevelEnum 0).2 2 1 1) { args with
    A := some (ds [1, 0])
    lbA := some (ds [0])
    ubA := some (ds [-1]) } with
  | .ok (c1, o) =>
    match runSolver e 2000 o with
    | .ok (some (c2, o)) => some (c1, c2, o.s.stats.exitFlag)
    | _ => none
  | _ => none

example : returnFlag = some (.successfulReturn, .subproblemSolverError, 37) := by decide +kernel

end LCQ.UnitTest
