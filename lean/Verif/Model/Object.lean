import Verif.Model.Utilities
import Verif.Model.Options
import Verif.Model.Stats

/-!
# Data of an `LCQProblem` object and of the outside world

The members of /repo/include/LCQProblem.hpp:462-532 are split into `Data` (problem data, constant
while the main loop runs) and `St` (iteration data).  Pointers are `Option`, scalar members without
initialiser are `Option` with `none` for "indeterminate".

Simplifications: dimensions are natural numbers (a constructed object has `nV ≥ 1`, `nC ≥ 0`,
`nComp ≥ 1`); index arithmetic such as `nV*nV` does not overflow; allocation never fails; the
contents of uninitialised arrays are arbitrary values (`Env.junk`), not faults.
-/

namespace LCQ
open Scalar

/-- nV, nC, nComp -/
structure Dims where
  /-- number of variables -/
  nV : Nat
  /-- number of linear constraints -/
  nC : Nat
  /-- number of complementarity pairs -/
  nComp : Nat
  deriving DecidableEq, Repr

/-- rows of the stacked constraint matrix (A; L; R) -/
def Dims.nA (d : Dims) : Nat := d.nC + 2 * d.nComp

/-- The matrices held by the `Subsolver` member, i.e. which wrapper class is active and its data.
/repo/include/Subsolver.hpp, SubsolverQPOASES.hpp:118-141, SubsolverOSQP.hpp:104-114. -/
inductive Sub (α : Type) where
  /-- qpOASES with dense matrices -/
  | dense (nV nC : Nat) (Q A : List α)
  /-- qpOASES with sparse matrices -/
  | sparse (nV nC : Nat) (Q A : CSC α)
  /-- OSQP (upper triangle of the Hessian) -/
  | osqp (Q A : CSC α)
  deriving DecidableEq, Repr

/-- One call of the external QP solver. -/
structure Req (α : Type) where
  /-- active wrapper and matrices -/
  sub : Sub α
  /-- first solve or hot start -/
  init : Bool
  /-- linear term -/
  g : List α
  /-- constraint bounds -/
  lbA : List α
  /-- constraint bounds -/
  ubA : List α
  /-- primal guess -/
  x0 : Option (List α)
  /-- dual guess -/
  y0 : Option (List α)
  /-- box bounds -/
  lb : Option (List α)
  /-- box bounds -/
  ub : Option (List α)
  /-- solver settings -/
  qpoases : Nat
  /-- solver settings -/
  osqp : Option Nat

/-- Answer of the external QP solver.  For qpOASES `ret` is the return value of `init` or `hotstart`
(0 is success) and `iter` the number of working set recalculations; for OSQP `setup`, `warmX`,
`warmY` tell whether the respective calls succeeded, `ret` is the result of `osqp_solve`, `status`
is `info->status_val` and `iter` is `info->iter`.  `x`, `y` are the solution arrays. -/
structure Resp (α : Type) where
  /-- return value -/
  ret : Int
  /-- iterations -/
  iter : Int
  /-- OSQP status -/
  status : Int
  /-- OSQP workspace set up -/
  setup : Bool
  /-- OSQP accepts the primal guess -/
  warmX : Bool
  /-- OSQP accepts the dual guess -/
  warmY : Bool
  /-- primal answer -/
  x : Nat → α
  /-- dual answer -/
  y : Nat → α

/-- The `work` pointer of the OSQP wrapper, /repo/include/SubsolverOSQP.hpp:107. -/
inductive Work where
  /-- null pointer -/
  | null
  /-- workspace set up -/
  | live
  /-- workspace freed by `clear`, which does not reset the pointer -/
  | dangling
  deriving DecidableEq, Repr

/-- The outside world. -/
structure Env (α : Type) where
  /-- answer to the n-th QP call -/
  qp : Nat → Req α → Resp α
  /-- n-th result of `rand()` -/
  rnd : Nat → Nat
  /-- contents of uninitialised arrays, by allocation site -/
  junk : Nat → Nat → α
  /-- contents of uninitialised int arrays -/
  junkI : Nat → Int

/-- Printed output. -/
inductive Ev (α : Type) where
  /-- empty line before a run -/
  | newline
  /-- header of the iteration table -/
  | header
  /-- iteration line: outer, inner, station, complem, rho, norm p and, with inner iterates,
  alpha and subproblem iterations -/
  | iter (outer : Int) (inner : Int) (stat phi rho np : α) (more : Option (α × Int))
  /-- solution line -/
  | solution (t : AlgStat)
  /-- error message -/
  | msg (r : RV)
  deriving DecidableEq, Repr

/-- Problem data. -/
structure Data (α : Type) where
  /-- nV, nC, nComp -/
  dims : Option Dims
  /-- nDuals -/
  nDuals : Option Nat
  /-- boxDualOffset -/
  boxOff : Option Nat
  /-- Q -/
  Q : Option (List α)
  /-- g -/
  g : Option (List α)
  /-- lb -/
  lb : Option (List α)
  /-- ub -/
  ub : Option (List α)
  /-- lb_tmp -/
  lbTmp : Option (List α)
  /-- ub_tmp -/
  ubTmp : Option (List α)
  /-- A (stacked) -/
  A : Option (List α)
  /-- lbA -/
  lbA : Option (List α)
  /-- ubA -/
  ubA : Option (List α)
  /-- L -/
  L : Option (List α)
  /-- R -/
  R : Option (List α)
  /-- C -/
  C : Option (List α)
  /-- lbL -/
  lbL : Option (List α)
  /-- ubL -/
  ubL : Option (List α)
  /-- lbR -/
  lbR : Option (List α)
  /-- ubR -/
  ubR : Option (List α)
  /-- g_phi -/
  gPhi : Option (List α)
  /-- phi_const -/
  phiConst : α
  /-- sparseSolver -/
  sparse : Bool
  /-- Q_sparse -/
  Qs : Option (CSC α)
  /-- A_sparse -/
  As : Option (CSC α)
  /-- L_sparse -/
  Ls : Option (CSC α)
  /-- R_sparse -/
  Rs : Option (CSC α)
  /-- C_sparse -/
  Cs : Option (CSC α)
  /-- subsolver -/
  sub : Option (Sub α)
  /-- options -/
  opts : Options α

/-- Iteration data. -/
structure St (α : Type) where
  /-- rho -/
  rho : Option α
  /-- alphak -/
  alpha : Option α
  /-- g_tilde -/
  gTilde : Option (List α)
  /-- gk -/
  gk : Option (List α)
  /-- xk -/
  xk : Option (List α)
  /-- yk -/
  yk : Option (List α)
  /-- yk_A -/
  ykA : Option (List α)
  /-- xnew -/
  xnew : Option (List α)
  /-- pk -/
  pk : Option (List α)
  /-- lk_tmp -/
  lkTmp : Option (List α)
  /-- Qk -/
  Qk : Option (List α)
  /-- statk -/
  statk : Option (List α)
  /-- constr_statk -/
  cstat : Option (List α)
  /-- box_statk -/
  bstat : Option (List α)
  /-- outerIter -/
  outer : Option Int
  /-- innerIter -/
  inner : Option Int
  /-- totalIter -/
  total : Option Int
  /-- qpIterk -/
  qpIter : Option Int
  /-- qpSolverExitFlag -/
  qpExit : Option Int
  /-- algoStat -/
  algo : Option AlgStat
  /-- Qk_sparse -/
  Qks : Option (CSC α)
  /-- Qk_indices_of_C -/
  idxC : List Int
  /-- complHistory -/
  hist : List α
  /-- stats -/
  stats : Stats α
  /-- OSQP workspace pointer -/
  work : Work
  /-- answer of the last QP call, held inside the QP solver -/
  ans : Option (Resp α)
  /-- number of QP calls so far (ghost) -/
  calls : Nat
  /-- number of `rand()` calls so far (ghost) -/
  rnd : Nat
  /-- printed so far (ghost) -/
  out : List (Ev α)

/-- An `LCQProblem` object. -/
structure Obj (α : Type) where
  /-- problem data -/
  d : Data α
  /-- iteration data -/
  s : St α

variable {α : Type} [Scalar α]

/-- `new double[n]` -/
def Env.alloc (e : Env α) (site n : Nat) : List α := (List.range n).map (e.junk site)

/-- print a line -/
def St.say (s : St α) (v : Ev α) : St α := { s with out := s.out ++ [v] }

/-- members before the constructor body runs, /repo/include/LCQProblem.hpp:462-532 -/
def Data.blank (opts : Options α) : Data α where
  dims := none
  nDuals := none
  boxOff := none
  Q := none
  g := none
  lb := none
  ub := none
  lbTmp := none
  ubTmp := none
  A := none
  lbA := none
  ubA := none
  L := none
  R := none
  C := none
  lbL := none
  ubL := none
  lbR := none
  ubR := none
  gPhi := none
  phiConst := zero
  sparse := false
  Qs := none
  As := none
  Ls := none
  Rs := none
  Cs := none
  sub := none
  opts := opts

/-- members before the constructor body runs, /repo/include/LCQProblem.hpp:462-532 -/
def St.blank : St α where
  rho := none
  alpha := none
  gTilde := none
  gk := none
  xk := none
  yk := none
  ykA := none
  xnew := none
  pk := none
  lkTmp := none
  Qk := none
  statk := none
  cstat := none
  bstat := none
  outer := none
  inner := none
  total := none
  qpIter := none
  qpExit := none
  algo := none
  Qks := none
  idxC := []
  hist := []
  stats := Stats.fresh
  work := .null
  ans := none
  calls := 0
  rnd := 0
  out := []

/-- `LCQProblem( )`, /repo/src/LCQProblem.cpp:40; `opts` are the default options. -/
def Obj.blank (opts : Options α) : Obj α := { d := Data.blank opts, s := St.blank }

/-- `LCQProblem(nV, nC, nComp)`, /repo/src/LCQProblem.cpp:43-79. -/
def Obj.new (opts : Options α) (nV nC nComp : Int) : Obj α :=
  let o := Obj.blank opts
  if nV ≤ 0 then { o with s := o.s.say (.msg .invalidNumberOfOptimVars) }
  else if nComp ≤ 0 then { o with s := o.s.say (.msg .invalidNumberOfOptimVars) }
  else if nC < 0 then { o with s := o.s.say (.msg .invalidNumberOfConstraintVars) }
  else
    let n := nV.toNat
    { o with
      d := { o.d with dims := some { nV := n, nC := nC.toNat, nComp := nComp.toNat } }
      s := { o.s with
        Qk := some (List.replicate (n * n) zero)
        gk := some (List.replicate n zero)
        xnew := some (List.replicate n zero)
        ykA := some (List.replicate (nC.toNat + 2 * nComp.toNat) zero)
        pk := some (List.replicate n zero)
        statk := some (List.replicate n zero)
        cstat := some (List.replicate n zero)
        bstat := some (List.replicate n zero)
        lkTmp := some (List.replicate n zero) } }

end LCQ
