import Verif.Model.Utilities
import Verif.Spec.Linear
import Mathlib.Algebra.BigOperators.Intervals

/-!
# Specification of compressed-column matrices
-/

namespace LCQ

/-- column pointer as a natural number -/
def CSC.P {α : Type} (S : CSC α) (j : Nat) : Nat := (S.p.getD j 0).toNat
/-- row index as a natural number -/
def CSC.I {α : Type} (S : CSC α) (k : Nat) : Nat := (S.i.getD k 0).toNat

/-- Valid column structure: column pointers start at 0 and increase, and the stored entries fit
into the arrays. -/
structure CSC.ValidPtr {α : Type} (S : CSC α) : Prop where
  plen : S.p.length = S.n + 1
  p0 : S.p.getD 0 0 = 0
  mono : ∀ j < S.n, S.p.getD j 0 ≤ S.p.getD (j + 1) 0
  nz : S.P S.n ≤ S.nzmax
  ilen : S.nzmax ≤ S.i.length
  xlen : S.nzmax ≤ S.x.length

/-- Valid compressed-column data: moreover the row indices are inside the matrix.  Neither
sorted rows nor the absence of duplicates are required. -/
structure CSC.Valid {α : Type} (S : CSC α) : Prop extends S.ValidPtr where
  rows : ∀ k < S.P S.n, 0 ≤ S.i.getD k 0 ∧ S.i.getD k 0 < S.m

/-- Row indices strictly increase inside every column. -/
def CSC.Sorted {α : Type} (S : CSC α) : Prop :=
  ∀ j < S.n, ∀ k l, S.P j ≤ k → k < l → l < S.P (j + 1) → S.i.getD k 0 < S.i.getD l 0

/-- No row index occurs twice in a column. -/
def CSC.Simple {α : Type} (S : CSC α) : Prop :=
  ∀ j < S.n, ∀ k l, S.P j ≤ k → k < l → l < S.P (j + 1) → S.i.getD k 0 ≠ S.i.getD l 0

theorem CSC.Sorted.simple {α : Type} {S : CSC α} (h : S.Sorted) : S.Simple :=
  fun j hj k l h1 h2 h3 => (h j hj k l h1 h2 h3).ne

/-- The matrix represented by a compressed-column matrix over `K` (duplicates are summed). -/
def CSC.den {K : Type} [AddCommMonoid K] (S : CSC K) (m n : Nat) : Matrix (Fin m) (Fin n) K :=
  fun r c => ∑ k ∈ Finset.Ico (S.P c) (S.P (c + 1)), if S.I k = r then S.x.getD k 0 else 0

/-- same pattern, finite values -/
def CSC.emb {K : Type} (S : CSC K) : CSC (Ext K) :=
  { m := S.m, n := S.n, nzmax := S.nzmax, p := S.p, i := S.i, x := LCQ.emb S.x }

end LCQ
