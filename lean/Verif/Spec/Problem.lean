import Verif.Model.Load
import Verif.Spec.Sparse

/-!
# What a load function is supposed to store (specification)
-/

namespace LCQ
open Scalar

variable {α : Type} [Scalar α]

/-- the first `n` entries of an optional argument, or `n` copies of the default -/
def orFill (b : Option (List α)) (n : Nat) (v : α) : List α :=
  match b with
  | some b => b.take n
  | none => List.replicate n v

/-- an optional array argument that is missing or has at least `n` entries -/
def OptLen (b : Option (List α)) (n : Nat) : Prop := ∀ v, b = some v → n ≤ v.length

/-- some entry of an optional lower bound is `-∞` -/
def HasMinusInf (b : Option (List α)) (n : Nat) : Prop :=
  ∃ v, b = some v ∧ ∃ i, i < n ∧ ∃ x, v[i]? = some x ∧ (x <=. (-. inf)) = true

/-- the arguments of the dense `loadLCQP` have the documented sizes, and Q, L, R are given -/
structure DenseArgs.Fits (a : DenseArgs α) (n : Dims) : Prop where
  Q : ∃ v, a.Q = some v ∧ n.nV * n.nV ≤ v.length
  L : ∃ v, a.L = some v ∧ n.nComp * n.nV ≤ v.length
  R : ∃ v, a.R = some v ∧ n.nComp * n.nV ≤ v.length
  g : OptLen a.g n.nV
  A : OptLen a.A (n.nC * n.nV)
  lbA : OptLen a.lbA n.nC
  ubA : OptLen a.ubA n.nC
  lbL : OptLen a.lbL n.nComp
  ubL : OptLen a.ubL n.nComp
  lbR : OptLen a.lbR n.nComp
  ubR : OptLen a.ubR n.nComp
  lb : OptLen a.lb n.nV
  ub : OptLen a.ub n.nV
  x0 : OptLen a.x0 n.nV
  y0 : OptLen a.y0 (n.nV + n.nA)

/-- a valid compressed-column matrix of the given size -/
def CSC.Is (S : CSC α) (m n : Nat) : Prop := S.Valid ∧ S.m = m ∧ S.n = n

/-- the arguments of the sparse `loadLCQP` have the documented sizes, and Q, L, R are given -/
structure SparseArgs.Fits (a : SparseArgs α) (n : Dims) : Prop where
  Q : ∃ S, a.Q = some S ∧ S.Is n.nV n.nV
  L : ∃ S, a.L = some S ∧ S.Is n.nComp n.nV
  R : ∃ S, a.R = some S ∧ S.Is n.nComp n.nV
  A : ∀ S, a.A = some S → S.Is n.nC n.nV
  g : OptLen a.g n.nV
  lbA : OptLen a.lbA n.nC
  ubA : OptLen a.ubA n.nC
  lbL : OptLen a.lbL n.nComp
  ubL : OptLen a.ubL n.nComp
  lbR : OptLen a.lbR n.nComp
  ubR : OptLen a.ubR n.nComp
  lb : OptLen a.lb n.nV
  ub : OptLen a.ub n.nV
  x0 : OptLen a.x0 n.nV
  y0 : OptLen a.y0 (n.nV + n.nA)

/-! ## Exact data -/

section exact
variable {K : Type} [Zero K]

/-- the array holds the (finite) vector `v` -/
def VecIs (b : Option (List (Ext K))) (n : Nat) (v : Fin n → K) : Prop :=
  ∃ l : List K, b = some (emb l) ∧ l.length = n ∧ vec n l = v

/-- the flat array holds the matrix `Mx` -/
def DnsIs (b : Option (List (Ext K))) (m n : Nat) (Mx : Matrix (Fin m) (Fin n) K) : Prop :=
  ∃ l : List K, b = some (emb l) ∧ l.length = m * n ∧ mat m n l = Mx

end exact

section exact
variable {K : Type} [AddCommMonoid K]

/-- the compressed-column record holds the matrix `Mx` -/
def SpIs (S : Option (CSC (Ext K))) (m n : Nat) (Mx : Matrix (Fin m) (Fin n) K) : Prop :=
  ∃ T : CSC K, S = some T.emb ∧ T.Valid ∧ T.m = m ∧ T.n = n ∧ T.den m n = Mx

/-- dense or sparse storage of the matrix `Mx` -/
def MatIs (sp : Bool) (b : Option (List (Ext K))) (S : Option (CSC (Ext K))) (m n : Nat)
    (Mx : Matrix (Fin m) (Fin n) K) : Prop := if sp then SpIs S m n Mx else DnsIs b m n Mx

/-- the rows of `A`, then those of `L`, then those of `R` -/
def stackRows (n : Dims) (A : Matrix (Fin n.nC) (Fin n.nV) K) (L R : Matrix (Fin n.nComp) (Fin n.nV) K) :
    Matrix (Fin n.nA) (Fin n.nV) K := fun r c =>
  if h : r.1 < n.nC then A ⟨r.1, h⟩ c
  else if h : r.1 < n.nC + n.nComp then L ⟨r.1 - n.nC, by omega⟩ c
  else R ⟨r.1 - (n.nC + n.nComp), by have := r.2; simp only [Dims.nA] at this; omega⟩ c

/-- the object stores the matrices of the problem, in dense or sparse form -/
structure HoldsMats (o : Obj (Ext K)) (n : Dims) (Q : Matrix (Fin n.nV) (Fin n.nV) K)
    (A : Matrix (Fin n.nC) (Fin n.nV) K) (L R : Matrix (Fin n.nComp) (Fin n.nV) K) : Prop where
  Q : MatIs o.d.sparse o.d.Q o.d.Qs n.nV n.nV Q
  A : MatIs o.d.sparse o.d.A o.d.As n.nA n.nV (stackRows n A L R)
  L : MatIs o.d.sparse o.d.L o.d.Ls n.nComp n.nV L
  R : MatIs o.d.sparse o.d.R o.d.Rs n.nComp n.nV R

end exact

end LCQ
