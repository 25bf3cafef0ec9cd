import Verif.Model.Load
import Verif.Model.Solver

/-!
# Model of the Python interface, /repo/interfaces/python/lcqpow/LCQProblem.cpp

The conversion of numpy arrays to `Eigen` objects (pybind11) is external; it yields the same matrix.
`Eigen::MatrixXd` stores its entries by columns, and `data()` of an object without entries is the null
pointer.  The bindings of `Options` and `OutputStatistics` only call the C++ functions of the same name.
The `csc` structs of the wrapper class are values here; that they are never freed does not show.
-/

namespace LCQ
open Scalar
variable {α : Type} [Scalar α]

/-- `Eigen::MatrixXd` -/
structure Eigen (α : Type) where
  /-- rows -/
  m : Nat
  /-- columns -/
  n : Nat
  /-- entries by columns -/
  data : List α

/-- `vec.data()`, and `getRawPtrFromEigenVectorXd`, /repo/interfaces/python/lcqpow/LCQProblem.cpp:58-61 -/
def vecPtr (v : List α) : Option (List α) := if 0 < v.length then some v else none

/-- `mat.data()` -/
def Eigen.ptr (A : Eigen α) : Option (List α) := if 0 < A.data.length then some A.data else none

/-- `getRawPtrFromEigenMatrixXd`, /repo/interfaces/python/lcqpow/LCQProblem.cpp:64-67 -/
def Eigen.rawPtr (A : Eigen α) : Option (List α) := if 0 < A.n ∧ 0 < A.m then A.ptr else none

/-- arguments of the dense `loadLCQP`; those with default values are empty when left out -/
structure PyDense (α : Type) where
  /-- Q -/
  Q : Eigen α
  /-- g -/
  g : List α
  /-- L -/
  L : Eigen α
  /-- R -/
  R : Eigen α
  /-- lbL -/
  lbL : List α := []
  /-- ubL -/
  ubL : List α := []
  /-- lbR -/
  lbR : List α := []
  /-- ubR -/
  ubR : List α := []
  /-- A -/
  A : Eigen α := ⟨0, 0, []⟩
  /-- lbA -/
  lbA : List α := []
  /-- ubA -/
  ubA : List α := []
  /-- lb -/
  lb : List α := []
  /-- ub -/
  ub : List α := []
  /-- x0 -/
  x0 : List α := []
  /-- y0 -/
  y0 : List α := []

/-- the pointers handed to the dense loader, /repo/interfaces/python/lcqpow/LCQProblem.cpp:88-100.  No size is checked. -/
def PyDense.args (a : PyDense α) : DenseArgs α where
  Q := a.Q.ptr
  g := vecPtr a.g
  L := a.L.ptr
  R := a.R.ptr
  lbL := vecPtr a.lbL
  ubL := vecPtr a.ubL
  lbR := vecPtr a.lbR
  ubR := vecPtr a.ubR
  A := a.A.rawPtr
  lbA := vecPtr a.lbA
  ubA := vecPtr a.ubA
  lb := vecPtr a.lb
  ub := vecPtr a.ub
  x0 := vecPtr a.x0
  y0 := vecPtr a.y0

/-- dense `loadLCQP`, /repo/interfaces/python/lcqpow/LCQProblem.cpp:81-113 -/
def pyLoadDense (e : Env α) (o : Obj α) (a : PyDense α) : M (RV × Obj α) := loadDense e o a.args

/-- `cscWrapper(m, n, nnx, x, i, p)`, /repo/interfaces/python/lcqpow/LCQProblem.cpp:24-30 -/
def pyCsc (m n nnx : Nat) (x : List α) (i p : List Int) : Option (CSC α) := some (createCSC m n nnx x i p)

/-- arguments of the sparse `loadLCQP` -/
structure PySparse (α : Type) where
  /-- Q -/
  Q : Option (CSC α)
  /-- g -/
  g : List α
  /-- L -/
  L : Option (CSC α)
  /-- R -/
  R : Option (CSC α)
  /-- lbL -/
  lbL : List α := []
  /-- ubL -/
  ubL : List α := []
  /-- lbR -/
  lbR : List α := []
  /-- ubR -/
  ubR : List α := []
  /-- A -/
  A : Option (CSC α) := none
  /-- lbA -/
  lbA : List α := []
  /-- ubA -/
  ubA : List α := []
  /-- lb -/
  lb : List α := []
  /-- ub -/
  ub : List α := []
  /-- x0 -/
  x0 : List α := []
  /-- y0 -/
  y0 : List α := []

/-- the pointers handed to the sparse loader, /repo/interfaces/python/lcqpow/LCQProblem.cpp:122-134 -/
def PySparse.args (a : PySparse α) : SparseArgs α where
  Q := a.Q
  g := vecPtr a.g
  L := a.L
  R := a.R
  lbL := vecPtr a.lbL
  ubL := vecPtr a.ubL
  lbR := vecPtr a.lbR
  ubR := vecPtr a.ubR
  A := a.A
  lbA := vecPtr a.lbA
  ubA := vecPtr a.ubA
  lb := vecPtr a.lb
  ub := vecPtr a.ub
  x0 := vecPtr a.x0
  y0 := vecPtr a.y0

/-- sparse `loadLCQP`, /repo/interfaces/python/lcqpow/LCQProblem.cpp:114-146 -/
def pyLoadSparse (e : Env α) (o : Obj α) (a : PySparse α) : M (RV × Obj α) := loadSparse e o a.args

/-- `xOpt.data()` for a vector of zeros of the given length -/
def zeros (n : Nat) : Option (List α) := vecPtr (List.replicate n zero)

/-- `getPrimalSolution`, /repo/interfaces/python/lcqpow/LCQProblem.cpp:163-167 -/
def pyPrimal (o : Obj α) : M (List α) := do
  let n ← getNumberOfPrimals o
  let r ← getPrimalSolution o (zeros n)
  .ok (r.2.getD [])

/-- `getDualSolution`, /repo/interfaces/python/lcqpow/LCQProblem.cpp:168-172 -/
def pyDual (o : Obj α) : M (List α) := do
  let n ← getNumberOfDuals o
  let r ← getDualSolution o (zeros n)
  .ok (r.2.getD [])

end LCQ
