import Verif.Model.Solver

/-!
# Sparse matrices built with checked counters

`Model/Checked.lean` leaves out the counters of stored entries (`p[j+1]++` in the source).  Here the four functions that build a sparse
matrix entry by entry are repeated with this increment checked.  The counter is the number of entries so far (see `Build`), the vectors
grow before it is increased.
-/

namespace LCQ.Cnt
open LCQ Scalar

variable {α : Type} [Scalar α]

/-- `rows.push_back; data.push_back; p[j+1]++` on `int` -/
def push (b : Build α) (r : Int) (v : α) : M (Build α) :=
  if (b.rows.length : Int) + 1 ≤ intMax then .ok (b.push r v) else .error .overflow

/-- `Utilities::MatrixSymmetrizationProduct` sparse, /repo/src/Utilities.cpp:119-173, see `LCQ.symProdSparse` -/
def symProdSparse (L R : CSC α) : M (Option (CSC α)) := do
  let n := L.n
  let b ← loop n (fun j b => do
    let b ← loop n (fun i b => do
      let tmp ← colDot L R i j zero
      let tmp ← colDot R L i j tmp
      if !isZero tmp then push b i tmp else .ok b) b
    .ok b.close) Build.init
  if b.rows.length = 0 then .ok none
  else .ok (some (createCSC n n b.rows.length b.data b.rows b.p))

/-- `Utilities::copyCSC(M, true)`, /repo/src/Utilities.cpp:522-561, see `LCQ.copyCSCUpper` -/
def copyCSCUpper (S : CSC α) : M (CSC α) := do
  let b ← loop S.n (fun j b => do
    let lo ← rd S.p j
    let hi ← rd S.p (j + 1)
    let b ← loopI lo hi (fun k b => do
      let r ← rdI S.i k
      if r > (j : Int) then .ok b
      else do
        let v ← rdI S.x k
        push b r v) b
    .ok b.close) Build.init
  .ok { m := S.m, n := S.n, nzmax := b.rows.length, p := b.p, i := b.rows, x := b.data }

/-- `Utilities::dns_to_csc`, /repo/src/Utilities.cpp:620-650, see `LCQ.dnsToCsc` -/
def dnsToCsc (full : List α) (m n : Nat) : M (CSC α) := do
  let b ← loop n (fun i b => do
    let b ← loop m (fun j b => do
      let v ← rd full (j * n + i)
      if (zero <. v) || (v <. zero) then push b j v else .ok b) b
    .ok b.close) Build.init
  .ok (createCSC m n b.rows.length b.data b.rows b.p)

/-- one column of the merge in the sparse `setQk`, /repo/src/LCQProblem.cpp:812-861, see `LCQ.mergeCol` -/
def mergeCol (rho : α) (Q C : CSC α) (hiQ hiC : Int) :
    Nat → Int → Int → Build α × List Int → M (Build α × List Int)
  | 0, _, _, s => .ok s
  | f + 1, q, c, s =>
    if q < hiQ ∧ hiC ≤ c then do
      let v ← rdI Q.x q
      let r ← rdI Q.i q
      let b ← push s.1 r v
      mergeCol rho Q C hiQ hiC f (q + 1) c (b, s.2)
    else if hiQ ≤ q ∧ c < hiC then do
      let v ← rdI C.x c
      let r ← rdI C.i c
      let b ← push s.1 r (rho *. v)
      mergeCol rho Q C hiQ hiC f q (c + 1) (b, s.2 ++ [(s.1.rows.length : Int)])
    else if q < hiQ ∧ c < hiC then do
      let rq ← rdI Q.i q
      let rc ← rdI C.i c
      if rq < rc then do
        let v ← rdI Q.x q
        let b ← push s.1 rq v
        mergeCol rho Q C hiQ hiC f (q + 1) c (b, s.2)
      else if rc < rq then do
        let v ← rdI C.x c
        let b ← push s.1 rc (rho *. v)
        mergeCol rho Q C hiQ hiC f q (c + 1) (b, s.2 ++ [(s.1.rows.length : Int)])
      else do
        let v ← rdI Q.x q
        let w ← rdI C.x c
        let b ← push s.1 rq (v +. rho *. w)
        mergeCol rho Q C hiQ hiC f (q + 1) (c + 1) (b, s.2 ++ [(s.1.rows.length : Int)])
    else .ok s

/-- all columns of the merge, /repo/src/LCQProblem.cpp:801-863, see `LCQ.mergeQC` -/
def mergeQC (rho : α) (Q C : CSC α) (nV : Nat) (idx : List Int) : M (Build α × List Int) :=
  loop nV (fun j s => do
    let loQ ← rd Q.p j
    let loC ← rd C.p j
    let hiQ ← rd Q.p (j + 1)
    let hiC ← rd C.p (j + 1)
    let s ← mergeCol rho Q C hiQ hiC ((hiQ - loQ).toNat + (hiC - loC).toNat) loQ loC s
    .ok (s.1.close, s.2)) (Build.init, idx)

end LCQ.Cnt
