import Verif.Spec.Problem
import Mathlib.Tactic.Abel
import Mathlib.Tactic.Ring

/-!
# The linear complementarity quadratic program (specification)

`min ½ x'Qx + g'x` subject to the linear constraints and `0 ≤ Lx - lbL ⟂ Rx - lbR ≥ 0`.
-/

namespace LCQ
open scoped Matrix

/-- Finite data of a problem.  A missing lower complementarity bound counts as zero. -/
structure Prob (K : Type) (n : Dims) where
  /-- Hessian of the objective -/
  Q : Matrix (Fin n.nV) (Fin n.nV) K
  /-- linear term of the objective -/
  g : Fin n.nV → K
  /-- linear constraints -/
  A : Matrix (Fin n.nC) (Fin n.nV) K
  /-- left complementarity matrix -/
  L : Matrix (Fin n.nComp) (Fin n.nV) K
  /-- right complementarity matrix -/
  R : Matrix (Fin n.nComp) (Fin n.nV) K
  /-- lower bound of `Lx` -/
  lbL : Fin n.nComp → K
  /-- lower bound of `Rx` -/
  lbR : Fin n.nComp → K

namespace Prob
variable {K : Type} [Field K] {n : Dims} (P : Prob K n)

/-- the objective -/
def obj (x : Fin n.nV → K) : K := P.g ⬝ᵥ x + x ⬝ᵥ (P.Q *ᵥ x) / 2

/-- complementarity violation `(Lx - lbL)'(Rx - lbR)` -/
def phi (x : Fin n.nV → K) : K := (P.L *ᵥ x - P.lbL) ⬝ᵥ (P.R *ᵥ x - P.lbR)

/-- gradient of the objective (for symmetric `Q`) -/
def gradObj (x : Fin n.nV → K) : Fin n.nV → K := P.Q *ᵥ x + P.g

/-- gradient of the complementarity violation -/
def gradPhi (x : Fin n.nV → K) : Fin n.nV → K :=
  P.Rᵀ *ᵥ (P.L *ᵥ x - P.lbL) + P.Lᵀ *ᵥ (P.R *ᵥ x - P.lbR)

/-- the penalty function -/
def pen (rho : K) (x : Fin n.nV → K) : K := P.obj x + rho * P.phi x

/-- Hessian of the complementarity violation -/
def C : Matrix (Fin n.nV) (Fin n.nV) K := P.Lᵀ * P.R + P.Rᵀ * P.L

/-- linear term of the complementarity violation -/
def gPhi : Fin n.nV → K := -(P.Rᵀ *ᵥ P.lbL + P.Lᵀ *ᵥ P.lbR)

theorem C_symm : P.Cᵀ = P.C := by
  rw [C, Matrix.transpose_add, Matrix.transpose_mul, Matrix.transpose_mul, Matrix.transpose_transpose,
    Matrix.transpose_transpose, add_comm]

theorem gradPhi_eq (x : Fin n.nV → K) : P.gradPhi x = P.C *ᵥ x + P.gPhi := by
  rw [gradPhi, C, gPhi, Matrix.add_mulVec, ← Matrix.mulVec_mulVec, ← Matrix.mulVec_mulVec, Matrix.mulVec_sub,
    Matrix.mulVec_sub]
  abel

theorem phi_eq [NeZero (2 : K)] (x : Fin n.nV → K) :
    P.phi x = P.lbL ⬝ᵥ P.lbR + P.gPhi ⬝ᵥ x + x ⬝ᵥ (P.C *ᵥ x) / 2 := by
  have h1 : x ⬝ᵥ (P.C *ᵥ x) = 2 * ((P.L *ᵥ x) ⬝ᵥ (P.R *ᵥ x)) := by
    rw [C, Matrix.add_mulVec, dotProduct_add, ← Matrix.mulVec_mulVec, ← Matrix.mulVec_mulVec,
      Matrix.dotProduct_mulVec x P.Lᵀ, Matrix.dotProduct_mulVec x P.Rᵀ, Matrix.vecMul_transpose,
      Matrix.vecMul_transpose, dotProduct_comm (P.R *ᵥ x)]
    ring
  have h2 : P.gPhi ⬝ᵥ x = -(P.lbL ⬝ᵥ (P.R *ᵥ x) + P.lbR ⬝ᵥ (P.L *ᵥ x)) := by
    rw [gPhi, neg_dotProduct, add_dotProduct, Matrix.mulVec_transpose, Matrix.mulVec_transpose,
      ← Matrix.dotProduct_mulVec, ← Matrix.dotProduct_mulVec]
  rw [h1, h2, phi, sub_dotProduct, dotProduct_sub, dotProduct_sub, mul_div_cancel_left₀ _ (NeZero.ne 2),
    dotProduct_comm (P.L *ᵥ x) P.lbR]
  ring

/-- all linear constraints of the subproblem: the rows of `A`, `L` and `R` -/
def AA : Matrix (Fin n.nA) (Fin n.nV) K := stackRows n P.A P.L P.R

end Prob

/-! ## multipliers

An array of multipliers starts with `off` multipliers of the box constraints (`off = nV` for qpOASES and `0` for
OSQP), followed by those of the rows of `A`, `L` and `R`. -/

section
variable {K : Type} [Zero K] {n : Dims} {off : Nat}

/-- multipliers of the box constraints, zero if there are none -/
def yBox (y : Fin (off + n.nA) → K) : Fin n.nV → K := fun i => if h : off = n.nV then y ⟨i, by have := i.2; omega⟩ else 0

/-- multipliers of the linear constraints -/
def yLin (y : Fin (off + n.nA) → K) : Fin n.nA → K := fun i => y ⟨off + i, by have := i.2; omega⟩

/-- multipliers of the rows of `A` -/
def yA (z : Fin n.nA → K) : Fin n.nC → K := fun i => z ⟨i, by have := i.2; simp only [Dims.nA]; omega⟩

/-- multipliers of the rows of `L` -/
def yL (z : Fin n.nA → K) : Fin n.nComp → K := fun i => z ⟨n.nC + i, by have := i.2; simp only [Dims.nA]; omega⟩

/-- multipliers of the rows of `R` -/
def yR (z : Fin n.nA → K) : Fin n.nComp → K :=
  fun i => z ⟨n.nC + n.nComp + i, by have := i.2; simp only [Dims.nA]; omega⟩

end

/-- residual of the stationarity condition of the problem for the multipliers `y` -/
def Prob.residual {K : Type} [Field K] {n : Dims} (P : Prob K n) {off : Nat} (x : Fin n.nV → K)
    (y : Fin (off + n.nA) → K) : Fin n.nV → K :=
  P.gradObj x - P.Aᵀ *ᵥ yA (yLin y) - P.Lᵀ *ᵥ yL (yLin y) - P.Rᵀ *ᵥ yR (yLin y) - yBox y

/-- gradient of the Lagrangian of the penalised problem for the penalty parameter `r` and the multipliers `y` -/
def Prob.penResidual {K : Type} [Field K] {n : Dims} (P : Prob K n) {off : Nat} (r : K) (x : Fin n.nV → K)
    (y : Fin (off + n.nA) → K) : Fin n.nV → K :=
  P.gradObj x + r • P.gradPhi x - P.Aᵀ *ᵥ yA (yLin y) - P.Lᵀ *ᵥ yL (yLin y) - P.Rᵀ *ᵥ yR (yLin y) - yBox y

/-! ## objects holding a problem -/

section
variable {K : Type} [Field K] [LinearOrder K] {n : Dims}

/-- A loaded object holds the problem `P`: its matrices, in dense or sparse form, the gradient, and the lower
complementarity bounds, where two missing bounds stand for zero. -/
structure Holds (o : Obj (Ext K)) (n : Dims) (P : Prob K n) : Prop where
  dims : o.d.dims = some n
  mats : HoldsMats o n P.Q P.A P.L P.R
  C : MatIs o.d.sparse o.d.C o.d.Cs n.nV n.nV P.C
  g : VecIs o.d.g n.nV P.g
  low : (o.d.lbL = none ∧ o.d.lbR = none ∧ P.lbL = 0 ∧ P.lbR = 0 ∧ o.d.gPhi = none ∧ o.d.phiConst = .fin 0) ∨
    (VecIs o.d.lbL n.nComp P.lbL ∧ VecIs o.d.lbR n.nComp P.lbR)

end

end LCQ
