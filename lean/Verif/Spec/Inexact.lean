import Verif.Spec.Qp

/-!
# Inexact solutions of the subproblems (specification)
-/

namespace LCQ
open Scalar Ext
open scoped Matrix

variable {K : Type} [Field K] [LinearOrder K] {n : Dims}

/-- What OSQP's termination test on the primal residual establishes, for qpOASES' sign convention: no constraint or bound is
violated by more than `ε`, and a multiplier is positive only within `ε` of the lower and negative only within `ε` of the
upper bound.  Nothing is said about the gradient: the solver tests it itself. -/
structure Qp.Near (p : Qp K n) (ε : K) (x : Fin n.nV → K) (z : Fin n.nA → K) (w : Fin n.nV → K) : Prop where
  lA : ∀ i, (p.lA i <=. fin ((p.A *ᵥ x) i + ε)) = true
  uA : ∀ i, (fin ((p.A *ᵥ x) i - ε) <=. p.uA i) = true
  l : ∀ i, (p.l i <=. fin (x i + ε)) = true
  u : ∀ i, (fin (x i - ε) <=. p.u i) = true
  zpos : ∀ i, 0 < z i → (fin ((p.A *ᵥ x) i - ε) <=. p.lA i) = true
  zneg : ∀ i, z i < 0 → (p.uA i <=. fin ((p.A *ᵥ x) i + ε)) = true
  wpos : ∀ i, 0 < w i → (fin (x i - ε) <=. p.l i) = true
  wneg : ∀ i, w i < 0 → (p.u i <=. fin (x i + ε)) = true

/-- OSQP's own description of its result: point `x`, multipliers `y` of its sign convention (the negatives of `z`), and a
vector `s` within the bounds that differs from `Ax` by at most `ε` in each component, such that `y` is in the normal cone of the
bounds at `s`; no bounds on `x`. -/
structure Qp.Osqp (p : Qp K n) (ε : K) (x : Fin n.nV → K) (y s : Fin n.nA → K) : Prop where
  near : ∀ i, |(p.A *ᵥ x) i - s i| ≤ ε
  lA : ∀ i, (p.lA i <=. fin (s i)) = true
  uA : ∀ i, (fin (s i) <=. p.uA i) = true
  pos : ∀ i, 0 < y i → p.uA i = fin (s i)
  neg : ∀ i, y i < 0 → p.lA i = fin (s i)
  free : p.l = (fun _ => ninf) ∧ p.u = fun _ => pinf

end LCQ
