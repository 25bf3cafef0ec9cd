import Verif.Spec.Rounding
import Verif.Spec.Sparse
import Mathlib.Algebra.BigOperators.Group.Finset.Basic

/-!
# The sparse penalised Hessian in rounded arithmetic (specification)
-/

namespace LCQ
open Scalar

/-- the stored entry in row `i` of column `j`, if there is one (the first one if there are several) -/
def CSC.entry {α : Type} [Scalar α] (S : CSC α) (i j : Nat) : Option α :=
  ((List.range' (S.P j) (S.P (j + 1) - S.P j)).find? fun k => S.I k = i).map fun k => S.x.getD k zero

/-- the arithmetic rounds, divisions included -/
structure RoundsDiv (α : Type) [Scalar α] (K : Type) [Field K] [LinearOrder K] (u t : K) extends Rounds α K u t where
  div : ∀ a b c y, val b = some y → y ≠ 0 → val (a /. b) = some c →
    ∃ x, val a = some x ∧ |c - x / y| ≤ u * (|x / y| + t)

/-- the number which an entry stands for, `0` if there is no stored entry -/
def Rounds.vo {α : Type} [Scalar α] {K : Type} [Field K] [LinearOrder K] {u t : K} (F : Rounds α K u t) : Option α → K
  | none => 0
  | some a => F.v a

/-- The penalty parameter after `k` updates is `rho k`, the update factor is `f`.  An entry of the penalised Hessian at a
place where `Q` has the entry `q` and `C` has the entry `c` (`none`: no stored entry): at first `q + rho*c`, and each
update adds `(rho*(1 - 1/f))*c`. -/
def hessEntry {α : Type} [Scalar α] (rho : Nat → α) (f : α) (q c : Option α) : Nat → Option α
  | 0 => match q, c with
    | none, none => none
    | some q, none => some q
    | none, some c => some (rho 0 *. c)
    | some q, some c => some (q +. rho 0 *. c)
  | k + 1 => match c with
    | none => hessEntry rho f q none k
    | some c => (hessEntry rho f q (some c) k).map fun v => v +. (rho (k + 1) *. (one -. one /. f)) *. c

/-- magnitude of the numbers which are added up to an entry of the penalised Hessian within `k` updates; `q` and `c` are
the entries of `Q` and `C` and `r j` is the penalty parameter after `j` updates -/
def magHess {K : Type} [Field K] [LinearOrder K] (t f : K) (r : Nat → K) (q c : K) (k : Nat) : K :=
  |q| + (|r 0| * |c| + t) +
    ∑ j ∈ Finset.range k, ((|r (j + 1)| * (1 + 1 / |f| + t) + t) * |c| + t + (|r j| + t / |f|) * |c|)

end LCQ
