import Verif.Lemmas.ExactDS
import Verif.Lemmas.MergeQk
import Verif.Spec.Lcqp

/-!
# The merged sparse Hessian denotes `Q + rho C`
-/

set_option linter.unusedSectionVars false

namespace LCQ
open Scalar Ext
open scoped Matrix

variable {K : Type} [Field K] [LinearOrder K] {n : Nat}

/-- finite entries -/
def Ent.emb (e : Ent K) : Ent (Ext K) := ⟨e.row, e.q.map fin, e.c.map fin⟩

/-- exact value of a merged entry -/
def Ent.valK (r : K) (e : Ent K) : K := e.q.getD 0 + r * e.c.getD 0

theorem val_emb (r : K) (e : Ent K) : Ent.val (fin r) e.emb = fin (e.valK r) := by
  obtain ⟨i, q, c⟩ := e
  cases q <;> cases c <;> simp [Ent.val, Ent.emb, Ent.valK]

theorem mergeL_emb (a b : List (Int × K)) : mergeL (embE a) (embE b) = (mergeL a b).map Ent.emb := by
  induction a, b using mergeL.induct with
  | case1 => simp [mergeL, embE]
  | case2 q qs ih =>
    simp only [embE, List.map_cons, List.map_nil] at ih ⊢
    rw [mergeL, mergeL, ih]
    rfl
  | case3 c cs ih =>
    simp only [embE, List.map_cons, List.map_nil] at ih ⊢
    rw [mergeL, mergeL, ih]
    rfl
  | case4 q qs c cs h ih =>
    simp only [embE, List.map_cons] at ih ⊢
    rw [mergeL, mergeL, if_pos h, if_pos h, ih]
    rfl
  | case5 q qs c cs h h' ih =>
    simp only [embE, List.map_cons] at ih ⊢
    rw [mergeL, mergeL, if_neg h, if_neg h, if_pos h', if_pos h', ih]
    rfl
  | case6 q qs c cs h h' ih =>
    simp only [embE] at ih
    simp only [embE, List.map_cons]
    rw [mergeL, mergeL, if_neg h, if_neg h, if_neg h', if_neg h', ih]
    rfl

theorem mergeL_sum (r : K) (i : Nat) (a b : List (Int × K)) :
    ((mergeL a b).map fun e => if e.row.toNat = i then e.valK r else 0).sum =
      (a.map fun e => if e.1.toNat = i then e.2 else 0).sum +
        r * (b.map fun e => if e.1.toNat = i then e.2 else 0).sum := by
  induction a, b using mergeL.induct with
  | case1 => simp [mergeL]
  | case2 q qs ih =>
    rw [mergeL, List.map_cons, List.sum_cons, ih, List.map_cons, List.sum_cons]
    simp [Ent.valK, add_assoc]
  | case3 c cs ih =>
    rw [mergeL, List.map_cons, List.sum_cons, ih, List.map_cons, List.sum_cons]
    simp [Ent.valK, mul_add]
  | case4 q qs c cs h ih =>
    rw [mergeL, if_pos h, List.map_cons, List.sum_cons, ih, List.map_cons (l := qs), List.sum_cons]
    simp [Ent.valK, add_assoc]
  | case5 q qs c cs h h' ih =>
    rw [mergeL, if_neg h, if_pos h', List.map_cons, List.sum_cons, ih, List.map_cons (l := cs), List.sum_cons]
    simp only [Ent.valK, Option.getD_none, Option.getD_some]
    split <;> ring
  | case6 q qs c cs h h' ih =>
    rw [mergeL, if_neg h, if_neg h', List.map_cons, List.sum_cons, ih, List.map_cons, List.sum_cons, List.map_cons,
      List.sum_cons]
    have : c.1 = q.1 := by omega
    simp only [Ent.valK, Option.getD_some, this]
    split <;> ring

/-- the merged matrix over `K` -/
def mcscK (Q C : CSC K) (n : Nat) (r : K) : CSC K :=
  cscOf n n fun j => (mergeL (colK Q j) (colK C j)).map fun e => (e.row, e.valK r)

theorem mcscK_emb (Q C : CSC K) (r : K) : mcsc Q.emb C.emb n (Ent.val (fin r)) = (mcscK Q C n r).emb := by
  rw [mcscK, cscOf_emb, mcsc]
  congr 1
  funext j
  rw [mcol, col_emb, col_emb, mergeL_emb, List.map_map, List.map_map]
  apply List.map_congr_left
  intro e _
  simp only [Function.comp_apply, Ent.pair, val_emb]
  rfl

theorem mcscK_den (Q C : CSC K) (r : K) : (mcscK Q C n r).den n n = Q.den n n + r • C.den n n := by
  ext i j
  rw [mcscK, cscOf_den, List.map_map, Matrix.add_apply, Matrix.smul_apply, den_list, den_list, smul_eq_mul,
    ← mergeL_sum]
  rfl

theorem mcsc_is {Q C : CSC K} (hQ : Q.Valid) (mQ : Q.m = n) (nQ : Q.n = n) (hC : C.Valid) (mC : C.m = n)
    (nC : C.n = n) (r : K) {q : Matrix (Fin n) (Fin n) K} {c : Matrix (Fin n) (Fin n) K} (dq : Q.den n n = q)
    (dc : C.den n n = c) : SpIs (some (mcsc Q.emb C.emb n (Ent.val (fin r)))) n n (q + r • c) := by
  refine ⟨mcscK Q C n r, by rw [mcscK_emb], ?_, rfl, rfl, by rw [mcscK_den, dq, dc]⟩
  apply cscOf_valid
  have hcol : ∀ {S : CSC K}, S.Valid → S.m = n → S.n = n → ∀ c < n, ∀ x ∈ colK S c, 0 ≤ x.1 ∧ x.1 < n := by
    intro S hv hm hn c hc x hx
    simp only [colK, List.mem_map, List.mem_range] at hx
    obtain ⟨k, hk, rfl⟩ := hx
    have := hv.rows _ (hv.lt_nnz (j := c) (k := S.P c + k) (by omega) (by omega))
    rw [hm] at this
    exact this
  intro j hj e he
  simp only [List.mem_map] at he
  obtain ⟨a, ha, rfl⟩ := he
  rcases mergeL_row _ _ a ha with ⟨x, hx, h⟩ | ⟨x, hx, h⟩
  · have := hcol hQ mQ nQ j hj x hx
    rw [h] at this
    exact this
  · have := hcol hC mC nC j hj x hx
    rw [h] at this
    exact this

end LCQ
