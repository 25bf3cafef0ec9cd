import Verif.Model.Solver
import Mathlib.LinearAlgebra.Matrix.Notation
import Mathlib.Algebra.Order.Field.Basic
import Mathlib.Algebra.Order.Group.Abs

/-!
# The penalty homotopy as an algorithm on vectors (specification)

The algorithm of the solver, written without arrays, storage formats, constraint matrices and multipliers.  It works with
the objective, the complementarity function and the set of points that satisfy the constraints, and asks for a minimiser
of a convex quadratic function over this set once per pass.
-/

namespace LCQ.Ref
open scoped Matrix

/-- A problem: objective `½ x'Qx + g'x`, complementarity function `phi` with Hessian `C` and linear term `h`, feasible
set `X` of the subproblems. -/
structure Pb (K : Type) (m : Nat) where
  /-- Hessian of the objective -/
  Q : Matrix (Fin m) (Fin m) K
  /-- linear term of the objective -/
  g : Fin m → K
  /-- Hessian of the complementarity function -/
  C : Matrix (Fin m) (Fin m) K
  /-- linear term of the complementarity function -/
  h : Fin m → K
  /-- the complementarity function -/
  phi : (Fin m → K) → K
  /-- points that satisfy all linear constraints and bounds -/
  X : (Fin m → K) → Prop

/-- options -/
structure Par (K : Type) where
  /-- factor of a penalty update -/
  factor : K
  /-- stationarity tolerance -/
  statTol : K
  /-- complementarity tolerance -/
  complTol : K
  /-- limit of the penalty parameter -/
  maxRho : K
  /-- factor of the dynamic penalty rule -/
  eta : K
  /-- limit of the number of passes -/
  maxIter : Int
  /-- number of values compared by the dynamic penalty rule; 0: the rule is not used -/
  nDyn : Nat
  /-- the first subproblem is solved without penalty term -/
  zeroFirst : Bool
  /-- the iterates are perturbed -/
  perturb : Bool
  /-- random numbers -/
  rnd : Nat → Nat

/-- state at the head of the loop -/
structure St (K : Type) (m : Nat) where
  /-- iterate -/
  x : Fin m → K
  /-- step to be taken -/
  p : Fin m → K
  /-- its length -/
  a : K
  /-- penalty parameter -/
  r : K
  /-- gradient of the last subproblem at its solution: the force of the constraints -/
  c : Fin m → K
  /-- penalty updates -/
  outer : Int
  /-- passes since the last penalty update -/
  inner : Int
  /-- passes -/
  total : Int
  /-- values of the complementarity function -/
  hist : List K
  /-- random numbers used -/
  used : Nat

section
variable {K : Type} [Field K] [LinearOrder K] {m : Nat} (A : Pb K m) (o : Par K)

/-- linear term of the penalised objective.  Before the first penalty update the linear term of the complementarity
function is missing in the source. -/
def lin (t : St K m) : Fin m → K := if 0 < t.outer then A.g + t.r • A.h else A.g

/-- Hessian of the penalised objective -/
def hess (t : St K m) : Matrix (Fin m) (Fin m) K := A.Q + t.r • A.C

/-- gradient of the penalised objective -/
def grad (t : St K m) (x : Fin m → K) : Fin m → K := hess A t *ᵥ x + lin A t

/-- linear term of the next subproblem: the complementarity function is linearised at the iterate -/
def sub (t : St K m) : Fin m → K := t.r • (A.C *ᵥ t.x) + lin A t

/-- `v` minimises `½ v'Qv + b'v` over the feasible set -/
def IsMin (b v : Fin m → K) : Prop :=
  A.X v ∧ ∀ y, A.X y → v ⬝ᵥ (A.Q *ᵥ v) / 2 + b ⬝ᵥ v ≤ y ⬝ᵥ (A.Q *ᵥ y) / 2 + b ⬝ᵥ y

/-- penalty update -/
def bump (t : St K m) : St K m :=
  { t with
    r := t.r * o.factor
    outer := t.outer + 1
    inner := 0
    hist := if 0 < o.nDyn then [] else t.hist }

/-- take the step -/
def move (t : St K m) : St K m := { t with x := t.x + t.a • t.p, total := t.total + 1, inner := t.inner + 1 }

/-- dynamic penalty rule: update if the complementarity function has not decreased compared to all stored values -/
def dyn (t : St K m) : St K m :=
  if o.nDyn = 0 then t
  else if t.hist.length < o.nDyn then { t with hist := t.hist ++ [A.phi t.x] }
  else if A.phi t.x < o.complTol ∨ ∃ w ∈ t.hist, A.phi t.x < o.eta * w then { t with hist := t.hist.tail ++ [A.phi t.x] }
  else bump o { t with hist := t.hist.tail ++ [A.phi t.x] }

/-- the stationarity test, for a state after `move` -/
def Stat (t : St K m) : Prop := ∀ i, |(grad A t t.x - t.c) i| < o.statTol

instance (t : St K m) : Decidable (Stat A o t) := inferInstanceAs (Decidable (∀ i, _))

/-- one pass up to the next subproblem: go on from `inl t`, or end with `inr (code, t)` -/
def head (s : St K m) : St K m ⊕ (RV × St K m) :=
  let t := dyn A o (move s)
  if Stat A o (move s) ∧ A.phi t.x < o.complTol then .inr (.successfulReturn, t)
  else
    let u := if Stat A o (move s) then bump o t else t
    if o.maxIter < u.total then .inr (.maxIterationsReached, u)
    else if o.maxRho < u.r then .inr (.maxPenaltyReached, u)
    else .inl u

/-- a point whose coordinates are moved by at most 2.221e-16 each -/
def shake (k : Nat) (x : Fin m → K) : Fin m → K := fun i =>
  x i + (((o.rnd (k + i) % 3 : Nat) : Int) - 1 : Int) * (2221 / 10 ^ 19)

/-- exact line search on `[0, 1]` for the penalised objective, where it is convex and decreasing -/
def len (q l : K) : K := if 0 < q ∧ l < 0 then min (-l / q) 1 else 1

/-- the state after the subproblem has been solved by `v` -/
def step (t : St K m) (v : Fin m → K) : St K m :=
  let x := if o.perturb then shake o t.used t.x else t.x
  { t with
    x := x
    p := v - t.x
    a := len ((v - t.x) ⬝ᵥ (hess A t *ᵥ (v - t.x))) ((v - t.x) ⬝ᵥ grad A t x)
    c := A.Q *ᵥ v + sub A t
    used := if o.perturb then t.used + m else t.used }

/-- linear term of the first subproblem -/
def first (r0 : K) (x0 : Fin m → K) : Fin m → K := if o.zeroFirst then A.g else r0 • (A.C *ᵥ x0) + A.g

/-- the state after the first subproblem has been solved by `v` -/
def start (r0 : K) (x0 : Fin m → K) (h0 : List K) (k : Nat) (v : Fin m → K) : St K m :=
  { x := x0
    p := v - x0
    a := 1
    r := r0
    c := A.Q *ᵥ v + first A o r0 x0
    outer := 0
    inner := 0
    total := 0
    hist := h0
    used := k }

/-- the loop, observed for at most the given number of passes; `none`: still running -/
inductive Loop : Nat → St K m → Option (RV × St K m) → Prop
  | out (s : St K m) : Loop 0 s none
  | stop {k : Nat} {s : St K m} {q : RV × St K m} : head A o s = .inr q → Loop (k + 1) s (some q)
  | next {k : Nat} {s t : St K m} {v : Fin m → K} {q : Option (RV × St K m)} : head A o s = .inl t →
      IsMin A (sub A t) v → Loop k (step A o t v) q → Loop (k + 1) s q

/-- a run from the initial guess `x0` with initial penalty parameter `r0`; `h0` are values of the complementarity
function stored before (a new object has none), `k` random numbers have been used before -/
def Run (r0 : K) (x0 : Fin m → K) (h0 : List K) (k fuel : Nat) (q : Option (RV × St K m)) : Prop :=
  ∃ v, IsMin A (first A o r0 x0) v ∧ Loop A o fuel (start A o r0 x0 h0 k v) q

end

end LCQ.Ref
