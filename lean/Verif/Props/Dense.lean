import Verif.Lemmas.Exact

/-!
# C01, C03, C05 (dense part), C07: dense kernels
-/

set_option linter.unusedSectionVars false

namespace LCQ
open Scalar Ext Matrix

section
variable {K : Type} [Field K] [LinearOrder K]

/-- C01: the dense product is the matrix product, whatever the previous contents of the output. -/
theorem C01_matMul (m n p : Nat) (A B : List K) (C : List (Ext K))
    (hA : A.length = m * n) (hB : B.length = n * p) (hC : C.length = m * p) :
    ∃ D : List K, matMul (emb A) (emb B) C m n p = .ok (emb D) ∧ D.length = m * p ∧
      mat m p D = mat m n A * mat n p B := by
  refine ⟨grid m p fun i j => ∑ k : Fin n, A.getD (i * n + k) 0 * B.getD (k * p + j) 0, ?_, by simp, ?_⟩
  · rw [matMul_ok (by simpa) (by simpa) hC, ← emb_grid]
    simp only [gt_emb, fin_mul, facc_fin_Fin]
  · rw [mat_grid]
    rfl

/-- C01: the transposed product is `A'B`. -/
theorem C01_matTMul (m n p : Nat) (A B : List K) (C : List (Ext K))
    (hA : A.length = m * n) (hB : B.length = m * p) (hC : C.length = n * p) :
    ∃ D : List K, matTMul (emb A) (emb B) C m n p = .ok (emb D) ∧ D.length = n * p ∧
      mat n p D = (mat m n A)ᵀ * mat m p B := by
  refine ⟨grid n p fun i j => ∑ k : Fin m, A.getD (k * n + i) 0 * B.getD (k * p + j) 0, ?_, by simp, ?_⟩
  · rw [matTMul_ok (by simpa) (by simpa) hC, ← emb_grid]
    simp only [gt_emb, fin_mul, facc_fin_Fin]
  · rw [mat_grid]
    rfl

/-- C01: the accumulating transposed product is `C + A'B`. -/
theorem C01_addMatTMul (m n p : Nat) (A B C : List K)
    (hA : A.length = m * n) (hB : B.length = m * p) (hC : C.length = n * p) :
    ∃ D : List K, addMatTMul (emb A) (emb B) (emb C) m n p = .ok (emb D) ∧ D.length = n * p ∧
      mat n p D = mat n p C + (mat m n A)ᵀ * mat m p B := by
  refine ⟨grid n p fun i j => C.getD (i * p + j) 0 +
    ∑ k : Fin m, A.getD (k * n + i) 0 * B.getD (k * p + j) 0, ?_, by simp, ?_⟩
  · rw [addMatTMul_ok (by simpa) (by simpa) (by simpa), ← emb_grid]
    simp only [gt_emb, fin_mul, facc_fin, Finset.sum_range]
  · rw [mat_grid]
    rfl

example : matMul (emb [1, 2, 3, 4, 5, (6 : ℚ)]) (emb [1, 0, 2]) [.nan, .nan] 2 3 1
    = .ok (emb [7, 16]) := by decide +kernel

example : matTMul (emb [1, 2, 3, 4, 5, (6 : ℚ)]) (emb [1, 2]) [.nan, .pinf, .nan] 2 3 1
    = .ok (emb [9, 12, 15]) := by decide +kernel

/-- C03: the dense complementarity Hessian is `L'R + R'L`. -/
theorem C03_symProd (m n : Nat) (A B : List K) (C : List (Ext K))
    (hA : A.length = m * n) (hB : B.length = m * n) (hC : C.length = n * n) :
    ∃ D : List K, symProd (emb A) (emb B) C m n = .ok (emb D) ∧ D.length = n * n ∧
      mat n n D = (mat m n A)ᵀ * mat m n B + (mat m n B)ᵀ * mat m n A := by
  let f : Nat → Nat → K := fun i j => ∑ k : Fin m, (A.getD (k * n + i) 0 * B.getD (k * n + j) 0 +
    B.getD (k * n + i) 0 * A.getD (k * n + j) 0)
  have hf : ∀ i j, f i j = f j i := by
    intro i j
    apply Finset.sum_congr rfl
    intro k _
    ring
  refine ⟨grid n n f, ?_, by simp, ?_⟩
  · rw [symProd_ok (by simpa) (by simpa) hC, ← emb_grid]
    congr 1
    apply grid_congr
    intro i _ j _
    simp only [symVal, gt_emb, fin_mul, fin_add, facc_fin_Fin]
    split
    · rfl
    · rw [hf i j]
  · rw [mat_grid]
    funext i j
    simp only [f, Finset.sum_add_distrib]
    rfl

/-- C03: `x'Cx/2 = (Lx)'(Rx)` for the matrix computed by the code (stated without division). -/
theorem C03_quadratic_identity (m n : Nat) (L R : List K) (C : List (Ext K))
    (hL : L.length = m * n) (hR : R.length = m * n) (hC : C.length = n * n) :
    ∃ D : List K, symProd (emb L) (emb R) C m n = .ok (emb D) ∧ D.length = n * n ∧
      ∀ x : Fin n → K,
        x ⬝ᵥ (mat n n D *ᵥ x) = 2 * ((mat m n L *ᵥ x) ⬝ᵥ (mat m n R *ᵥ x)) := by
  obtain ⟨D, h1, h2, hD⟩ := C03_symProd m n L R C hL hR hC
  refine ⟨D, h1, h2, fun x => ?_⟩
  rw [hD, add_mulVec, dotProduct_add, ← mulVec_mulVec, ← mulVec_mulVec,
    dotProduct_mulVec x (mat m n L)ᵀ, dotProduct_mulVec x (mat m n R)ᵀ, vecMul_transpose,
    vecMul_transpose, dotProduct_comm (mat m n R *ᵥ x), two_mul]

end

/-- C03: the computed matrix is symmetric entry by entry in every arithmetic. -/
theorem C03_symmetric {α : Type} [Scalar α] (m n : Nat) (A B C : List α)
    (hA : A.length = m * n) (hB : B.length = m * n) (hC : C.length = n * n) :
    ∃ D : List α, symProd A B C m n = .ok D ∧ D.length = n * n ∧
      ∀ i < n, ∀ j < n, D[i * n + j]? = D[j * n + i]? := by
  refine ⟨_, symProd_ok hA hB hC, by simp, ?_⟩
  intro i hi j hj
  rw [grid, tab_getElem? _ (idx_lt hi hj), tab_getElem? _ (idx_lt hj hi), idx_div hj, idx_mod hj,
    idx_div hi, idx_mod hi]
  congr 1
  by_cases h1 : j ≤ i
  · by_cases h2 : i ≤ j
    · have : i = j := by omega
      subst this; rfl
    · simp [h1, h2]
  · have h2 : i ≤ j := by omega
    simp [h1, h2]

example : symProd (emb [1, 2, 0, (1 : ℚ)]) (emb [0, 1, 3, 1]) (List.replicate 4 .nan) 2 2
    = .ok (emb [0, 4, 4, 6]) := by decide +kernel

end LCQ
