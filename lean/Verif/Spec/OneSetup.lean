import Verif.Model.Solver

/-!
# The requests of one run

The README says that the Hessian of all QPs of a run is that of the objective and needs one factorization only.
-/

namespace LCQ

variable {α : Type} [Scalar α]

/-- the parts of a request that are the same in all requests of a run -/
structure QpForm (α : Type) where
  /-- matrices -/
  sub : Sub α
  /-- constraint bounds -/
  lbA : List α
  /-- constraint bounds -/
  ubA : List α
  /-- box bounds -/
  lb : Option (List α)
  /-- box bounds -/
  ub : Option (List α)
  /-- settings of qpOASES -/
  qpoases : Nat
  /-- settings of OSQP -/
  osqp : Option Nat

/-- the `k`-th request may be `q` when the first request of the run has number `c`: the matrices, bounds and settings
are those in `p`, the first request sets the solver up, and every later one is a hot start without guess -/
def QpForm.Allows (p : QpForm α) (c k : Nat) (q : Req α) : Prop :=
  q.sub = p.sub ∧ q.lbA = p.lbA ∧ q.ubA = p.ubA ∧ q.lb = p.lb ∧ q.ub = p.ub ∧
  q.qpoases = p.qpoases ∧ q.osqp = p.osqp ∧
  ((k = c ∧ q.init = true) ∨ (c < k ∧ q.init = false ∧ q.x0 = none ∧ q.y0 = none))

/-- `p` contains the matrices of the problem: the Hessian of the objective and the stacked constraints of the object, in
the form the chosen QP solver wants them; the penalty parameter does not occur -/
def QpForm.From (p : QpForm α) (o : Obj α) : Prop :=
  ∃ n, o.d.dims = some n ∧
  ((o.d.opts.qpSolver = 0 ∧ ∃ Q A, o.d.Q = some Q ∧ o.d.A = some A ∧
      p.sub = .dense n.nV n.nA (Q.take (n.nV * n.nV)) (A.take (n.nA * n.nV))) ∨
   (o.d.opts.qpSolver = 1 ∧ ∃ Q A Q' A', o.d.Qs = some Q ∧ o.d.As = some A ∧ qpCopy Q n.nV n.nV = .ok Q' ∧
      qpCopy A n.nA n.nV = .ok A' ∧ p.sub = .sparse n.nV n.nA Q' A') ∨
   (o.d.opts.qpSolver = 2 ∧ ∃ Q A Q' A', o.d.Qs = some Q ∧ o.d.As = some A ∧ copyCSCUpper Q = .ok Q' ∧
      copyCSC A = .ok A' ∧ p.sub = .osqp Q' A'))

end LCQ
