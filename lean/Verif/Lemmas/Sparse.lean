import Verif.Spec.Sparse
import Verif.Lemmas.Exact

/-! # Closed forms of the sparse kernels -/

set_option linter.unusedSectionVars false

namespace LCQ
open Scalar

theorem loopI_nat {σ : Type} (a b : Nat) (f : Int → σ → M σ) (s : σ) :
    loopI (a : Int) (b : Int) f s = loop (b - a) (fun k => f ((a + k : Nat) : Int)) s := by
  unfold loopI
  have : ((b : Int) - (a : Int)).toNat = b - a := by omega
  rw [this]
  rfl

section valid
variable {α : Type}

theorem CSC.ValidPtr.P_mono_step {S : CSC α} (h : S.ValidPtr) {j : Nat} (hj : j < S.n) :
    S.P j ≤ S.P (j + 1) := Int.toNat_le_toNat (h.mono j hj)

theorem CSC.ValidPtr.P_le {S : CSC α} (h : S.ValidPtr) {j l : Nat} (hjl : j ≤ l) (hl : l ≤ S.n) :
    S.P j ≤ S.P l := by
  induction l, hjl using Nat.le_induction with
  | base => exact le_refl _
  | succ l hjl ih => exact le_trans (ih (by omega)) (h.P_mono_step (by omega))

theorem CSC.ValidPtr.P_zero {S : CSC α} (h : S.ValidPtr) : S.P 0 = 0 := by
  simp only [CSC.P, h.p0]; rfl

theorem CSC.ValidPtr.p_nonneg {S : CSC α} (h : S.ValidPtr) {j : Nat} (hj : j ≤ S.n) :
    0 ≤ S.p.getD j 0 := by
  induction j with
  | zero => rw [h.p0]
  | succ j ih => exact le_trans (ih (by omega)) (h.mono j (by omega))

theorem CSC.ValidPtr.rd_p {S : CSC α} (h : S.ValidPtr) {j : Nat} (hj : j ≤ S.n) :
    rd S.p j = .ok (S.P j : Int) := by
  have hl : j < S.p.length := by rw [h.plen]; omega
  rw [rdi_ok hl]
  congr 1
  have := h.p_nonneg hj
  simp only [CSC.P, gtI]
  omega

theorem CSC.ValidPtr.lt_nnz {S : CSC α} (h : S.ValidPtr) {j k : Nat} (hj : j < S.n)
    (hk : k < S.P (j + 1)) : k < S.P S.n := lt_of_lt_of_le hk (h.P_le (by omega) (le_refl _))

theorem CSC.Valid.rd_i {S : CSC α} (h : S.Valid) {k : Nat} (hk : k < S.P S.n) :
    rdI S.i (k : Int) = .ok (S.I k : Int) := by
  have hl : k < S.i.length := by have := h.nz; have := h.ilen; omega
  rw [rdI_nat, rdi_ok hl]
  congr 1
  have := (h.rows k hk).1
  simp only [CSC.I, gtI]
  omega

theorem CSC.Valid.I_lt {S : CSC α} (h : S.Valid) {k : Nat} (hk : k < S.P S.n) : S.I k < S.m := by
  have := h.rows k hk
  simp only [CSC.I]
  omega

theorem CSC.ValidPtr.x_lt {S : CSC α} (h : S.ValidPtr) {k : Nat} (hk : k < S.P S.n) :
    k < S.x.length := by have := h.nz; have := h.xlen; omega

theorem CSC.ValidPtr.i_lt {S : CSC α} (h : S.ValidPtr) {k : Nat} (hk : k < S.P S.n) :
    k < S.i.length := by have := h.nz; have := h.ilen; omega

end valid

variable {α : Type} [Scalar α]

theorem CSC.ValidPtr.rd_x {S : CSC α} (h : S.ValidPtr) {k : Nat} (hk : k < S.P S.n) :
    rdI S.x (k : Int) = .ok (gt S.x k) := by
  rw [rdI_nat, rd_ok (h.x_lt hk)]

theorem rdI_gt {b : List α} {k : Nat} (h : k < b.length) : rdI b (k : Int) = .ok (gt b k) := by
  rw [rdI_nat, rd_ok h]

theorem spTMul_ok {S : CSC α} (h : S.Valid) {b c : List α} (hb : S.m ≤ b.length)
    (hc : c.length = S.n) :
    spTMul S b c = .ok (tab S.n fun j => facc zero (S.P (j + 1) - S.P j) fun k =>
      gt b (S.I (S.P j + k)) *. gt S.x (S.P j + k)) := by
  unfold spTMul
  apply loop_fill _ _ _ _ hc
  intro j hj
  rw [wr_ok (by simp; omega), ok_bind, h.rd_p (by omega), ok_bind, h.rd_p (by omega), ok_bind,
    loopI_nat]
  apply loop_cell _ _ _ _ _ _ (by simp; omega)
  intro k hk v
  have hkk := h.lt_nnz (k := S.P j + k) hj (by omega)
  rw [rd_ok (by simp; omega), ok_bind, h.rd_i hkk, ok_bind,
    rdI_gt (lt_of_lt_of_le (h.I_lt hkk) hb), ok_bind, h.rd_x hkk, ok_bind, wr_ok (by simp; omega),
    gt_set (by simp; omega), if_pos rfl]

theorem addSpTMul_ok {S : CSC α} (h : S.Valid) {b c : List α} (hb : S.m ≤ b.length)
    (hc : c.length = S.n) :
    addSpTMul S b c = .ok (tab S.n fun j => facc (gt c j) (S.P (j + 1) - S.P j) fun k =>
      gt b (S.I (S.P j + k)) *. gt S.x (S.P j + k)) := by
  unfold addSpTMul
  apply loop_fill _ _ _ _ hc
  intro j hj
  rw [h.rd_p (by omega), ok_bind, h.rd_p (by omega), ok_bind, loopI_nat]
  have hold : ∀ f, gt (pre j f c) j = gt c j := fun f => by
    rw [gt_pre _ _ _ (by omega), if_neg (by omega)]
  conv_lhs => rw [← set_gt_self (b := pre j _ c) (i := j) (by simp; omega), hold]
  apply loop_cell _ _ _ _ _ _ (by simp; omega)
  intro k hk v
  have hkk := h.lt_nnz (k := S.P j + k) hj (by omega)
  rw [rd_ok (by simp; omega), ok_bind, h.rd_i hkk, ok_bind,
    rdI_gt (lt_of_lt_of_le (h.I_lt hkk) hb), ok_bind, h.rd_x hkk, ok_bind, wr_ok (by simp; omega),
    gt_set (by simp; omega), if_pos rfl]

/-- sequential sum over column `j` of `x[k]*v[i[k]]` -/
def colSum (S : CSC α) (v : List α) (j : Nat) : α :=
  facc zero (S.P (j + 1) - S.P j) fun k => gt S.x (S.P j + k) *. gt v (S.I (S.P j + k))

theorem loop_colSum {S : CSC α} (h : S.Valid) {v : List α} (hv : S.m ≤ v.length) {j : Nat}
    (hj : j < S.n) :
    loopI (S.P j : Int) (S.P (j + 1) : Int) (fun k tmp => do
      let a ← rdI S.x k
      let r ← rdI S.i k
      let br ← rdI v r
      .ok (tmp +. a *. br)) (zero : α) = .ok (colSum S v j) := by
  rw [loopI_nat]
  apply loop_facc
  intro k hk s
  have hkk := h.lt_nnz (k := S.P j + k) hj (by omega)
  rw [h.rd_x hkk, ok_bind, h.rd_i hkk, ok_bind, rdI_gt (lt_of_lt_of_le (h.I_lt hkk) hv), ok_bind]

theorem spAffine_ok {alpha : α} {S : CSC α} (h : S.Valid) {b c d : List α} (hb : S.m ≤ b.length)
    (hc : c.length = S.n) (hd : d.length = S.n) :
    spAffine alpha S b c d S.n = .ok (tab S.n fun j => alpha *. colSum S b j +. gt c j) := by
  unfold spAffine
  apply loop_fill _ _ _ _ hd
  intro j hj
  rw [h.rd_p (by omega), ok_bind, h.rd_p (by omega), ok_bind, loop_colSum h hb hj, ok_bind,
    rd_ok (by omega), ok_bind, wr_ok (by simp; omega)]

theorem spQuadForm_ok {S : CSC α} (h : S.Valid) {v : List α} (hb : S.m ≤ v.length)
    (hv : S.n ≤ v.length) :
    spQuadForm S v S.n = .ok (facc zero S.n fun j => gt v j *. colSum S v j) := by
  unfold spQuadForm
  apply loop_facc
  intro j hj s
  rw [h.rd_p (by omega), ok_bind, h.rd_p (by omega), ok_bind, loop_colSum h hb hj, ok_bind,
    rd_ok (by omega), ok_bind]

/-- contents of cell `r` after `cnt` entries of column `j` have been scattered -/
def scatCol (S : CSC α) (b : List α) (r j : Nat) (a : α) : Nat → α
  | 0 => a
  | cnt + 1 =>
    if S.I (S.P j + cnt) = r then scatCol S b r j a cnt +. gt S.x (S.P j + cnt) *. gt b j
    else scatCol S b r j a cnt

/-- contents of cell `r` after `j` columns have been scattered -/
def scat (S : CSC α) (b : List α) (r : Nat) : Nat → α
  | 0 => zero
  | j + 1 => scatCol S b r j (scat S b r j) (S.P (j + 1) - S.P j)

theorem spMul_ok {S : CSC α} (h : S.Valid) {b c : List α} (hb : S.n ≤ b.length)
    (hc : c.length = S.m) :
    spMul S b c = .ok (tab S.m fun r => scat S b r S.n) := by
  unfold spMul
  rw [loop_fill (fun _ => zero) _ _ _ hc (by intro i hi; rw [wr_ok (by simp; omega)]), ok_bind]
  apply loop_eq (fun j => tab S.m fun r => scat S b r j) _ _ _ rfl
  intro j hj
  rw [h.rd_p (by omega), ok_bind, h.rd_p (by omega), ok_bind, loopI_nat]
  apply loop_eq (fun cnt => tab S.m fun r => scatCol S b r j (scat S b r j) cnt) _ _ _ rfl
  intro k hk
  have hkk := h.lt_nnz (k := S.P j + k) hj (by omega)
  have hI := h.I_lt hkk
  rw [h.rd_i hkk, ok_bind, rdI_gt (by simpa using hI), ok_bind, h.rd_x hkk, ok_bind,
    rd_ok (by omega), ok_bind, wrI_nat, wr_ok (by simpa using hI), gt_tab _ hI]
  congr 1
  apply eq_tab_of (by simp)
  intro r hr
  rw [gt_set (by simpa using hI), gt_tab _ hr, scatCol]
  by_cases e : r = S.I (S.P j + k)
  · subst e; simp
  · rw [if_neg e, if_neg (fun h => e h.symm)]

end LCQ
