import Verif.Lemmas.SparseExact

/-!
# C02, C05: sparse kernels
-/

set_option linter.unusedSectionVars false

namespace LCQ
open Scalar Ext Matrix

variable {K : Type} [Field K] [LinearOrder K]

/-- C02: the sparse product is `S*b`. -/
theorem C02_spMul (S : CSC K) (h : S.Valid) (b : List K) (c : List (Ext K))
    (hb : b.length = S.n) (hc : c.length = S.m) :
    ∃ d : List K, spMul S.emb (emb b) c = .ok (emb d) ∧ d.length = S.m ∧
      vec S.m d = S.den S.m S.n *ᵥ vec S.n b := by
  refine ⟨tab S.m fun r => if hr : r < S.m then
    ∑ j : Fin S.n, S.den S.m S.n ⟨r, hr⟩ j * b.getD j 0 else 0, ?_, by simp, ?_⟩
  · rw [spMul_ok h.emb (by simp [hb]) hc, ← emb_tab]
    congr 1
    apply tab_congr
    intro r hr
    have hr' : r < S.m := hr
    rw [dif_pos hr', ← scat_exact S b r hr' S.n (le_refl _)]
    rfl
  · rw [vec_tab]
    funext r
    rw [dif_pos r.2]
    rfl

/-- C02: the sparse transposed product is `S'*b`. -/
theorem C02_spTMul (S : CSC K) (h : S.Valid) (b : List K) (c : List (Ext K))
    (hb : b.length = S.m) (hc : c.length = S.n) :
    ∃ d : List K, spTMul S.emb (emb b) c = .ok (emb d) ∧ d.length = S.n ∧
      vec S.n d = (S.den S.m S.n)ᵀ *ᵥ vec S.m b := by
  refine ⟨tab S.n fun j => if hj : j < S.n then
    ∑ r : Fin S.m, S.den S.m S.n r ⟨j, hj⟩ * b.getD r 0 else 0, ?_, by simp, ?_⟩
  · rw [spTMul_ok h.emb (by simp [hb]) hc, ← emb_tab]
    congr 1
    apply tab_congr
    intro j hj
    have hj' : j < S.n := hj
    rw [dif_pos hj', CSC.den_sum h hj' (fun r => b.getD r 0)]
    simp only [CSC.emb_P, CSC.emb_I, CSC.emb_x, gt_emb, fin_mul, zero_fin]
    rw [facc_Ico (S.P j) (S.P (j + 1)) (fun k => b.getD (S.I k) 0 * S.x.getD k 0), zero_add]
    congr 1
    apply Finset.sum_congr rfl
    intro k _
    ring
  · rw [vec_tab]
    funext j
    rw [dif_pos j.2]
    rfl

/-- C02: the accumulating sparse transposed product is `c + S'*b`. -/
theorem C02_addSpTMul (S : CSC K) (h : S.Valid) (b c : List K)
    (hb : b.length = S.m) (hc : c.length = S.n) :
    ∃ d : List K, addSpTMul S.emb (emb b) (emb c) = .ok (emb d) ∧ d.length = S.n ∧
      vec S.n d = vec S.n c + (S.den S.m S.n)ᵀ *ᵥ vec S.m b := by
  refine ⟨tab S.n fun j => c.getD j 0 + if hj : j < S.n then
    ∑ r : Fin S.m, S.den S.m S.n r ⟨j, hj⟩ * b.getD r 0 else 0, ?_, by simp, ?_⟩
  · rw [addSpTMul_ok h.emb (by simp [hb]) (by simpa using hc), ← emb_tab]
    congr 1
    apply tab_congr
    intro j hj
    have hj' : j < S.n := hj
    rw [dif_pos hj', CSC.den_sum h hj' (fun r => b.getD r 0)]
    simp only [CSC.emb_P, CSC.emb_I, CSC.emb_x, gt_emb, fin_mul]
    rw [facc_Ico (S.P j) (S.P (j + 1)) (fun k => b.getD (S.I k) 0 * S.x.getD k 0)]
    congr 2
    apply Finset.sum_congr rfl
    intro k _
    ring
  · rw [vec_tab]
    funext j
    rw [dif_pos j.2]
    rfl

/-- a 2×3 example with an empty column and a duplicate: `[[5,0,2],[0,0,4]]` -/
def exS : CSC ℚ := { m := 2, n := 3, nzmax := 4, p := [0, 2, 2, 4], i := [0, 0, 0, 1], x := [2, 3, 2, 4] }

theorem exS_valid : exS.Valid where
  plen := rfl
  p0 := rfl
  mono := by decide
  nz := by decide
  ilen := by decide
  xlen := by decide
  rows := by decide

example : spMul exS.emb (emb [1, 7, 10]) [.nan, .pinf] = .ok (emb [25, 40]) := by decide +kernel
example : spTMul exS.emb (emb [1, 2]) [.nan, .pinf, .nan] = .ok (emb [5, 0, 10]) := by
  decide +kernel
example : addSpTMul exS.emb (emb [1, 2]) (emb [1, 1, 1]) = .ok (emb [6, 1, 11]) := by
  decide +kernel

/-- C05: dense affine map. -/
theorem C05_affine (alpha : K) (m n : Nat) (A b c : List K) (d : List (Ext K))
    (hA : A.length = m * n) (hb : b.length = n) (hc : c.length = m) (hd : d.length = m) :
    ∃ e : List K, affine (fin alpha) (emb A) (emb b) (emb c) d m n = .ok (emb e) ∧ e.length = m ∧
      vec m e = alpha • (mat m n A *ᵥ vec n b) + vec m c := by
  refine ⟨tab m fun i => alpha * ∑ k : Fin n, A.getD (i * n + k) 0 * b.getD k 0 + c.getD i 0,
    ?_, by simp, ?_⟩
  · rw [affine_ok (by simpa) (by simpa) (by simpa) hd, ← emb_tab]
    simp only [gt_emb, fin_mul, facc_fin_Fin, fin_add]
  · rw [vec_tab]
    rfl

/-- C05: the sparse affine map uses the transposed matrix. -/
theorem C05_spAffine_transposed (alpha : K) (S : CSC K) (h : S.Valid) (b c : List K)
    (d : List (Ext K)) (hb : b.length = S.m) (hc : c.length = S.n) (hd : d.length = S.n) :
    ∃ e : List K, spAffine (fin alpha) S.emb (emb b) (emb c) d S.n = .ok (emb e) ∧ e.length = S.n ∧
      vec S.n e = alpha • ((S.den S.m S.n)ᵀ *ᵥ vec S.m b) + vec S.n c := by
  refine ⟨tab S.n fun j => alpha * (if hj : j < S.n then
    ∑ r : Fin S.m, S.den S.m S.n r ⟨j, hj⟩ * b.getD r 0 else 0) + c.getD j 0, ?_, by simp, ?_⟩
  · have := spAffine_ok (alpha := fin alpha) h.emb (b := emb b) (c := emb c) (d := d) (by simp [hb])
      (by simpa using hc) hd
    rw [show S.emb.n = S.n from rfl] at this
    rw [this, ← emb_tab]
    congr 1
    apply tab_congr
    intro j hj
    rw [dif_pos hj, colSum_exact h b hj, gt_emb]
    simp
  · rw [vec_tab]
    funext j
    rw [dif_pos j.2]
    rfl

/-- C05: for a symmetric matrix the sparse affine map is `alpha*S*b + c`, as documented. -/
theorem C05_spAffine_symmetric (alpha : K) (S : CSC K) (h : S.Valid) (hsq : S.m = S.n) (b c : List K)
    (d : List (Ext K)) (hsym : (S.den S.n S.n)ᵀ = S.den S.n S.n)
    (hb : b.length = S.n) (hc : c.length = S.n) (hd : d.length = S.n) :
    ∃ e : List K, spAffine (fin alpha) S.emb (emb b) (emb c) d S.n = .ok (emb e) ∧ e.length = S.n ∧
      vec S.n e = alpha • (S.den S.n S.n *ᵥ vec S.n b) + vec S.n c := by
  obtain ⟨e, h1, h2, h3⟩ := C05_spAffine_transposed alpha S h b c d (by omega) hc hd
  refine ⟨e, h1, h2, ?_⟩
  rw [hsq, hsym] at h3
  exact h3

/-- the nilpotent matrix `[[0,1],[0,0]]` -/
def exN : CSC ℚ := { m := 2, n := 2, nzmax := 1, p := [0, 0, 1], i := [0], x := [1] }

theorem exN_valid : exN.Valid where
  plen := rfl
  p0 := rfl
  mono := by decide
  nz := by decide
  ilen := by decide
  xlen := by decide
  rows := by decide

/-- C05: for a non-symmetric matrix the documented `alpha*S*b + c` is not what is computed. -/
theorem C05_spAffine_documented_false :
    ∃ (S : CSC ℚ) (b c e : List ℚ), S.Valid ∧ S.m = 2 ∧ S.n = 2 ∧ b.length = 2 ∧ c.length = 2 ∧
      spAffine (fin 1) S.emb (emb b) (emb c) (emb [0, 0]) 2 = .ok (emb e) ∧
      vec 2 e ≠ (1 : ℚ) • (S.den 2 2 *ᵥ vec 2 b) + vec 2 c := by
  refine ⟨exN, [1, 5], [0, 0], [0, 1], exN_valid, rfl, rfl, rfl, rfl, by decide +kernel, ?_⟩
  intro h
  have := congrFun h 0
  revert this
  decide +kernel

/-- C05: dense quadratic form. -/
theorem C05_quadForm (m : Nat) (Q p : List K) (hQ : Q.length = m * m) (hp : p.length = m) :
    quadForm (emb Q) (emb p) m = .ok (fin (vec m p ⬝ᵥ (mat m m Q *ᵥ vec m p))) := by
  rw [quadForm_ok (by simpa) (by simpa)]
  simp only [gt_emb, fin_mul, facc_fin_Fin]
  congr 2
  apply Finset.sum_congr rfl
  intro i _
  rw [mul_comm]
  rfl

/-- C05: sparse quadratic form, no symmetry needed. -/
theorem C05_spQuadForm (S : CSC K) (h : S.Valid) (hsq : S.m = S.n) (p : List K) (hp : p.length = S.n) :
    spQuadForm S.emb (emb p) S.n = .ok (fin (vec S.n p ⬝ᵥ (S.den S.n S.n *ᵥ vec S.n p))) := by
  obtain ⟨m, n, nz, P, I, X⟩ := S
  simp only at hsq
  subst hsq
  simp only at hp ⊢
  have := spQuadForm_ok h.emb (v := emb p) (by simp [hp]) (by simp [hp])
  simp only [CSC.emb_n] at this
  rw [this]
  have h2 : ∀ j < m, gt (emb p) j *. colSum (CSC.emb ⟨m, m, nz, P, I, X⟩) (emb p) j =
      fin (p.getD j 0 * if hj : j < m then
        ∑ r : Fin m, CSC.den ⟨m, m, nz, P, I, X⟩ m m r ⟨j, hj⟩ * p.getD r 0 else 0) := by
    intro j hj
    rw [colSum_exact h p hj, gt_emb, fin_mul, dif_pos hj]
  rw [facc_congr h2, facc_fin_Fin]
  congr 2
  simp only [dotProduct, mulVec, vec, Finset.mul_sum]
  rw [Finset.sum_comm]
  apply Finset.sum_congr rfl
  intro j _
  rw [dif_pos j.2, Finset.mul_sum]
  apply Finset.sum_congr rfl
  intro r _
  ring

example : quadForm (emb [2, 1, 0, (3 : ℚ)]) (emb [1, 2]) 2 = .ok (fin 16) := by decide +kernel
example : spQuadForm exN.emb (emb [3, 5]) 2 = .ok (fin 15) := by decide +kernel

end LCQ
