import Verif.Spec.Drift

/-!
# Sparse problems in rounded arithmetic (specification)

Entries of `L'R + R'L` which are computed as almost zero are not stored in sparse mode.  `RoundsZ` says what "almost zero"
means: a number which the program takes for zero is finite and has an absolute value of at most `z`.
-/

namespace LCQ
open Scalar
open scoped Matrix

/-- the arithmetic rounds, and numbers taken for zero are small -/
structure RoundsZ (α : Type) [Scalar α] (K : Type) [Field K] [LinearOrder K] (u t z : K) extends RoundsDiv α K u t where
  z0 : 0 ≤ z
  small : ∀ a, isZero a = true → ∃ x, val a = some x ∧ |x| ≤ z

section
variable {α : Type} [Scalar α] {K : Type} [Field K] [LinearOrder K] {u t : K}

/-- the numbers which the entries of a compressed-column matrix stand for -/
def Rounds.den (F : Rounds α K u t) (m k : Nat) : Option (CSC α) → Matrix (Fin m) (Fin k) K
  | none => 0
  | some S => fun i j => F.vo (S.entry i j)

/-- the problem which the arguments of the sparse loader stand for -/
def Rounds.probS (F : Rounds α K u t) (n : Dims) (a : SparseArgs α) : Prob K n where
  Q := F.den n.nV n.nV a.Q
  g := F.vec n.nV (a.g.getD [])
  A := F.den n.nC n.nV a.A
  L := F.den n.nComp n.nV a.L
  R := F.den n.nComp n.nV a.R
  lbL := F.vec n.nComp (a.lbL.getD [])
  lbR := F.vec n.nComp (a.lbR.getD [])

/-- the columns of all matrices are sorted -/
structure SparseArgs.Sorted (a : SparseArgs α) : Prop where
  Q : ∀ S, a.Q = some S → S.Sorted
  A : ∀ S, a.A = some S → S.Sorted
  L : ∀ S, a.L = some S → S.Sorted
  R : ∀ S, a.R = some S → S.Sorted

end

namespace Prob
variable {K : Type} [Field K] [LinearOrder K] {n : Dims} (P : Prob K n) (t : K)

/-- the problem with the transposed Hessian -/
def flip : Prob K n := { P with Q := P.Qᵀ }

/-- magnitude of the gradient of the penalised Lagrangian in sparse mode after `k` penalty updates; `f` is the update factor
and `r j` the penalty parameter after `j` updates -/
def magStatS (f : K) (r : Nat → K) (k : Nat) {off : Nat} (x : Fin n.nV → K) (y : Fin (off + n.nA) → K) (i : Fin n.nV) : K :=
  ∑ j, (magHess t f r (P.Q i j) (P.magC t i j) k * |x j| + t) + |P.g i| + |r k| * P.magG t i +
    ∑ l, (|P.AA l i| * |yLin y l| + t) + |yBox y i| + 7 * t

end Prob

end LCQ
