import Verif.Model.Checked
import Verif.Lemmas.Loop
import Verif.Lemmas.Run
import Verif.Lemmas.Sparse
import Mathlib.Algebra.Order.Group.Nat
import Mathlib.Tactic.Ring
import Mathlib.Tactic.Linarith

/-!
# Checked and unchecked model agree when sizes fit
-/

namespace LCQ.Chk
open LCQ Scalar

variable {α : Type} [Scalar α]
set_option linter.unusedSectionVars false

theorem chk_ok {v : Nat} (h : v ≤ 2147483647) : chk v = .ok v := by
  rw [chk, if_pos (by unfold intMax; omega)]

theorem chk_err {v : Nat} (h : 2147483647 < v) : chk v = .error .overflow := by
  rw [chk, if_neg (by unfold intMax; omega)]

theorem idx_lt {i w j m : Nat} (hi : i < m) (hj : j < w) : i * w + j < m * w := by
  have : (i + 1) * w ≤ m * w := Nat.mul_le_mul_right w hi
  rw [Nat.succ_mul] at this
  omega

theorem ix_ok {i w j m : Nat} (h : m * w ≤ 2147483647) (hi : i < m) (hj : j < w) : ix i w j = .ok (i * w + j) := by
  have := idx_lt hi hj
  rw [ix, chk_ok (by omega), ok_bind, chk_ok (by omega)]

theorem numA_ok {n : Dims} (h : n.nA ≤ 2147483647) : numA n = .ok n.nA := by
  have e : n.nA = n.nC + 2 * n.nComp := rfl
  rw [numA, chk_ok (by omega), ok_bind, chk_ok (by omega), e]

theorem numDuals_ok {n : Dims} (h : n.nV + n.nA ≤ 2147483647) : numDuals n = .ok (n.nV + n.nC + 2 * n.nComp) := by
  have e : n.nA = n.nC + 2 * n.nComp := rfl
  rw [numDuals, chk_ok (by omega), ok_bind, chk_ok (by omega), ok_bind, chk_ok (by omega)]

theorem bind_congr' {σ τ : Type} {m : M σ} {f g : σ → M τ} (h : ∀ a, m = .ok a → f a = g a) : (m >>= f) = (m >>= g) := by
  cases m with
  | error => rfl
  | ok a => exact h a rfl

theorem loopE_congr {σ ρ : Type} (n : Nat) (f g : Nat → σ → M (σ ⊕ ρ)) (s : σ)
    (h : ∀ i < n, ∀ t, f i t = g i t) : loopE n f s = loopE n g s := by
  induction n with
  | zero => rfl
  | succ n ih =>
    rw [loopE, loopE, ih fun i hi => h i (by omega)]
    refine bind_congr' fun a _ => ?_
    cases a with
    | inl a => exact h n (by omega) a
    | inr => rfl

/-! ## Utilities -/

theorem matMul_eq {A B C : List α} {m n p : Nat} (h1 : m * p ≤ 2147483647) (h2 : m * n ≤ 2147483647)
    (h3 : n * p ≤ 2147483647) : matMul A B C m n p = LCQ.matMul A B C m n p := by
  refine loop_congr _ _ _ _ fun i hi C => loop_congr _ _ _ _ fun j hj C => ?_
  simp only [ix_ok h1 hi hj, ok_bind]
  refine bind_congr' fun C _ => loop_congr _ _ _ _ fun k hk C => ?_
  simp only [ix_ok h2 hi hk, ix_ok h3 hk hj, ok_bind]

theorem matTMul_eq {A B C : List α} {m n p : Nat} (h1 : n * p ≤ 2147483647) (h2 : m * n ≤ 2147483647)
    (h3 : m * p ≤ 2147483647) : matTMul A B C m n p = LCQ.matTMul A B C m n p := by
  refine loop_congr _ _ _ _ fun i hi C => loop_congr _ _ _ _ fun j hj C => ?_
  simp only [ix_ok h1 hi hj, ok_bind]
  refine bind_congr' fun C _ => loop_congr _ _ _ _ fun k hk C => ?_
  simp only [ix_ok h2 hk hi, ix_ok h3 hk hj, ok_bind]

theorem addMatTMul_eq {A B C : List α} {m n p : Nat} (h1 : n * p ≤ 2147483647) (h2 : m * n ≤ 2147483647)
    (h3 : m * p ≤ 2147483647) : addMatTMul A B C m n p = LCQ.addMatTMul A B C m n p := by
  refine loop_congr _ _ _ _ fun i hi C => loop_congr _ _ _ _ fun j hj C => loop_congr _ _ _ _ fun k hk C => ?_
  simp only [ix_ok h1 hi hj, ix_ok h2 hk hi, ix_ok h3 hk hj, ok_bind]

theorem symProd_eq {A B C : List α} {m n : Nat} (h1 : n * n ≤ 2147483647) (h2 : m * n ≤ 2147483647) :
    symProd A B C m n = LCQ.symProd A B C m n := by
  refine loop_congr _ _ _ _ fun i hi C => loop_congr _ _ _ _ fun j hj C => ?_
  have hj : j < n := by omega
  simp only [ix_ok h1 hi hj, ix_ok h1 hj hi, ok_bind]
  refine bind_congr' fun C _ => ?_
  congr 1
  refine loop_congr _ _ _ _ fun k hk C => ?_
  simp only [ix_ok h2 hk hi, ix_ok h2 hk hj, ok_bind]

theorem affine_eq {a : α} {A b c d : List α} {m n : Nat} (h : m * n ≤ 2147483647) :
    affine a A b c d m n = LCQ.affine a A b c d m n := by
  refine loop_congr _ _ _ _ fun i hi d => ?_
  congr 1
  refine loop_congr _ _ _ _ fun k hk t => ?_
  simp only [ix_ok h hi hk, ok_bind]

theorem weightedAdd_eq {a b : α} {A B : Src α} {C : List α} {m n : Nat} (h : m * n ≤ 2147483647) :
    weightedAdd a A b B C m n = LCQ.weightedAdd a A b B C m n := by
  refine loop_congr _ _ _ _ fun i hi C => loop_congr _ _ _ _ fun j hj C => ?_
  simp only [ix_ok h hi hj, ok_bind]

theorem weightedVecAdd_eq {a b : α} {A B : Src α} {C : List α} {m : Nat} (h : m ≤ 2147483647) :
    weightedVecAdd a A b B C m = LCQ.weightedVecAdd a A b B C m := weightedAdd_eq (by omega)

theorem quadForm_eq {Q p : List α} {m : Nat} (h : m * m ≤ 2147483647) : quadForm Q p m = LCQ.quadForm Q p m := by
  refine loop_congr _ _ _ _ fun i hi r => ?_
  congr 1
  refine loop_congr _ _ _ _ fun k hk t => ?_
  simp only [ix_ok h hi hk, ok_bind]

theorem dnsToCsc_eq {A : List α} {m n : Nat} (h : m * n ≤ 2147483647) : dnsToCsc A m n = LCQ.dnsToCsc A m n := by
  unfold dnsToCsc LCQ.dnsToCsc
  congr 1
  refine loop_congr _ _ _ _ fun i hi b => ?_
  congr 1
  refine loop_congr _ _ _ _ fun k hk t => ?_
  simp only [ix_ok h hk hi, ok_bind]

/-- the row indices that are read in the first `n` columns belong to a matrix with `m` rows -/
def RowsIn (S : CSC α) (m n : Nat) : Prop := ∀ j < n, ∀ lo hi, rd S.p j = .ok lo → rd S.p (j + 1) = .ok hi →
  ∀ k r, lo ≤ k → k < hi → rdI S.i k = .ok r → 0 ≤ r ∧ r < (m : Int)

theorem RowsIn.of_valid {S : CSC α} (h : S.Valid) : RowsIn S S.m S.n := by
  intro j hj lo hi hlo hhi k r h1 h2 hr
  rw [h.rd_p (by omega)] at hlo hhi
  injection hlo with hlo
  injection hhi with hhi
  have := h.toValidPtr.P_le (show j + 1 ≤ S.n by omega) (le_refl _)
  obtain ⟨q, rfl⟩ := Int.eq_ofNat_of_zero_le (show 0 ≤ k by omega)
  have hq : q < S.P S.n := by omega
  have hl := h.ilen
  have hn := h.nz
  have hv := h.rows q hq
  simp only [rdI, rd, Int.natCast_nonneg, if_true, Int.toNat_natCast, List.getElem?_eq_getElem (show q < S.i.length by omega)] at hr
  injection hr with hr
  rw [List.getD_eq_getElem?_getD, List.getElem?_eq_getElem (by omega)] at hv
  rw [← hr]
  exact hv

theorem cscToDns_eq {S : CSC α} (h : S.m * S.n ≤ 2147483647) (hr : RowsIn S S.m S.n) :
    cscToDns S = LCQ.cscToDns S := by
  unfold cscToDns LCQ.cscToDns
  rw [chk_ok h, ok_bind]
  congr 1
  refine loopE_congr _ _ _ _ fun j hj f => bind_congr' fun lo hlo => bind_congr' fun hi hhi =>
    loopE_congr _ _ _ _ fun k hk f => ?_
  split
  · rfl
  · refine bind_congr' fun r hr' => ?_
    obtain ⟨r0, r1⟩ := hr j hj lo hi hlo hhi _ r (by omega) (by omega) hr'
    obtain ⟨q, rfl⟩ := Int.eq_ofNat_of_zero_le r0
    have hlt : q * S.n + j < S.m * S.n := idx_lt (by exact_mod_cast r1) hj
    have e1 : ((q : Int) * (S.n : Int)) = ((q * S.n : Nat) : Int) := by push_cast; rfl
    rw [e1, mulInt, e1, if_pos (by unfold intMax; omega), ok_bind, addInt, if_pos (by unfold intMax; omega), ok_bind]
    simp only [Nat.cast_mul]

/-! ## Sizes of a problem -/

/-- the numbers of rows, variables and entries fit into `int`; the dense constraint matrix exists in dense mode only -/
structure Fit (n : Dims) (sparse : Bool) : Prop where
  sq : n.nV * n.nV ≤ 2147483647
  sum : n.nV + n.nA ≤ 2147483647
  mat : sparse = false → n.nA * n.nV ≤ 2147483647

theorem Fit.a {n : Dims} {b : Bool} (h : Fit n b) : n.nA ≤ 2147483647 := by have := h.sum; omega
theorem Fit.v {n : Dims} {b : Bool} (h : Fit n b) : n.nV ≤ 2147483647 := by have := h.sum; omega
theorem Fit.nA {n : Dims} {b : Bool} (_ : Fit n b) : n.nA = n.nC + 2 * n.nComp := rfl

theorem Fit.comp {n : Dims} (h : Fit n false) : n.nComp * n.nV ≤ 2147483647 := by
  have h1 := h.mat rfl
  have : n.nComp * n.nV ≤ n.nA * n.nV := Nat.mul_le_mul_right _ (by have := h.nA; omega)
  omega

theorem Fit.con {n : Dims} (h : Fit n false) : n.nC * n.nV ≤ 2147483647 := by
  have h1 := h.mat rfl
  have : n.nC * n.nV ≤ n.nA * n.nV := Nat.mul_le_mul_right _ (by have := h.nA; omega)
  omega

theorem Fit.sp {n : Dims} {b : Bool} (h : Fit n b) (b' : Bool) (hb : b' = false → b = false) : Fit n b' :=
  ⟨h.sq, h.sum, fun h' => h.mat (hb h')⟩

/-! ## Loading -/

theorem setQ_eq {d : Data α} {Q : Option (List α)} (h : ∀ n, d.dims = some n → n.nV * n.nV ≤ 2147483647) :
    setQ d Q = LCQ.setQ d Q := by
  unfold setQ LCQ.setQ
  cases hd : d.dims with
  | none => rfl
  | some n =>
    simp only [initd_some, ok_bind, chk_ok (h n hd)]

theorem stackDense_eq {e : Env α} {n : Dims} (h : Fit n false) (L R A : Option (List α)) :
    stackDense e n L R A = LCQ.stackDense e n L R A := by
  have h1 := h.mat rfl
  have e1 : n.nA * n.nV = n.nC * n.nV + n.nComp * n.nV + n.nComp * n.nV := by rw [h.nA]; ring
  unfold stackDense LCQ.stackDense
  simp only [numA_ok h.a, ok_bind, chk_ok h1, chk_ok h.con, chk_ok h.comp]
  rw [h.nA]
  refine bind_congr' fun M1 _ => ?_
  have e2 : loop (n.nComp * n.nV) (fun i M => do
      let a ← deref L
      let v ← rd a i
      let q ← chk (i + n.nC * n.nV)
      wr M q v) M1 = loop (n.nComp * n.nV) (fun i M => do
      let a ← deref L; let v ← rd a i; wr M (i + n.nC * n.nV) v) M1 := by
    refine loop_congr _ _ _ _ fun i hi M => ?_
    simp only [chk_ok (show i + n.nC * n.nV ≤ 2147483647 by omega), ok_bind]
  rw [e2]
  refine bind_congr' fun M2 _ => loop_congr _ _ _ _ fun i hi M => ?_
  simp only [chk_ok (show i + n.nC * n.nV ≤ 2147483647 by omega), ok_bind,
    chk_ok (show i + n.nC * n.nV + n.nComp * n.nV ≤ 2147483647 by omega)]

theorem setConstraints_eq {e : Env α} {d : Data α} (h : ∀ n, d.dims = some n → Fit n false)
    (L R A lbA ubA : Option (List α)) : setConstraints e d L R A lbA ubA = LCQ.setConstraints e d L R A lbA ubA := by
  unfold setConstraints LCQ.setConstraints
  cases hd : d.dims with
  | none => rfl
  | some n =>
    have h := h n hd
    simp only [initd_some, ok_bind, stackDense_eq h, numA_ok h.a, chk_ok h.comp, chk_ok h.sq, symProd_eq h.sq h.comp]
    rfl

theorem appendCol_eq {S : CSC α} {j off m n : Nat} {cap : Int} {b : Build α} (hr : RowsIn S m n) (hj : j < n)
    (h : off + m ≤ 2147483647) : appendCol S j off cap b = LCQ.appendCol S j off cap b := by
  unfold appendCol LCQ.appendCol
  refine bind_congr' fun lo hlo => bind_congr' fun hi hhi => loop_congr _ _ _ _ fun k _ b => ?_
  refine bind_congr' fun v _ => bind_congr' fun r hrd => ?_
  obtain ⟨h1, h2⟩ := hr j hj lo hi hlo hhi _ r (by omega) (by omega) hrd
  rw [addInt, if_pos (by unfold intMax; omega), ok_bind]

theorem appendColOpt_eq {A : Option (CSC α)} {j : Nat} {cap : Int} {b : Build α} :
    appendColOpt A j cap b = LCQ.appendColOpt A j cap b := by
  cases A <;> rfl

/-- what the sparse matrices must satisfy: row indices of `L` and `R` in range, numbers of entries that fit -/
structure FitS (n : Dims) (L R : CSC α) (A : Option (CSC α)) : Prop where
  rowL : RowsIn L n.nComp n.nV
  rowR : RowsIn R n.nComp n.nV
  two : ∀ a b, rd L.p n.nV = .ok a → rd R.p n.nV = .ok b → 0 ≤ a ∧ 0 ≤ b ∧ a + b ≤ 2147483647
  three : ∀ a b c, rd L.p n.nV = .ok a → rd R.p n.nV = .ok b → nnzOpt A n.nV = .ok c → 0 ≤ c ∧ a + b + c ≤ 2147483647

theorem stackSparse_eq {e : Env α} {n : Dims} {L R : CSC α} {A : Option (CSC α)} (h : n.nA ≤ 2147483647)
    (hf : FitS n L R A) : stackSparse e n L R A = LCQ.stackSparse e n L R A := by
  have eA : n.nA = n.nC + 2 * n.nComp := rfl
  unfold stackSparse LCQ.stackSparse
  refine bind_congr' fun a ha => bind_congr' fun b hb => ?_
  obtain ⟨h1, h2, h3⟩ := hf.two a b ha hb
  rw [addInt, if_pos (by unfold intMax; omega), ok_bind]
  refine bind_congr' fun c hc => ?_
  obtain ⟨h4, h5⟩ := hf.three a b c ha hb hc
  rw [addInt, if_pos (by unfold intMax; omega), ok_bind]
  simp only [chk_ok (show n.nC + n.nComp ≤ 2147483647 by omega), ok_bind, numA_ok h, appendColOpt_eq]
  rw [show n.nA = n.nC + 2 * n.nComp from rfl]
  congr 1
  refine loop_congr _ _ _ _ fun j hj b => ?_
  simp only [appendCol_eq hf.rowL hj (show n.nC + n.nComp ≤ 2147483647 by omega),
    appendCol_eq hf.rowR hj (show n.nC + n.nComp + n.nComp ≤ 2147483647 by omega)]

theorem setConstraintsSparse_eq {e : Env α} {d : Data α} {L R A : Option (CSC α)} {lbA ubA : Option (List α)}
    (h : ∀ n, d.dims = some n → n.nA ≤ 2147483647 ∧ ∀ l l' r r', L = some l → R = some r → copyCSC l = .ok l' → copyCSC r = .ok r' →
      FitS n l' r' A) :
    setConstraintsSparse e d L R A lbA ubA = LCQ.setConstraintsSparse e d L R A lbA ubA := by
  unfold setConstraintsSparse LCQ.setConstraintsSparse
  cases hd : d.dims with
  | none => rfl
  | some n =>
    obtain ⟨h1, h2⟩ := h n hd
    simp only [initd_some, ok_bind]
    cases L with
    | none => rfl
    | some l =>
      simp only [deref_some, ok_bind]
      refine bind_congr' fun l' hl => ?_
      cases R with
      | none => rfl
      | some r =>
        simp only [deref_some, ok_bind]
        refine bind_congr' fun r' hr => ?_
        rw [stackSparse_eq h1 (h2 l l' r r' rfl rfl hl hr), numA_ok h1]
        simp only [ok_bind]
        rfl

theorem bndLower_eq {off i : Nat} {b : Option (List α)} {s : BndSt α} (h : off + i ≤ 2147483647) :
    bndLower off b i s = LCQ.bndLower off b i s := by
  unfold bndLower LCQ.bndLower
  cases b <;> simp only [chk_ok h, ok_bind]

theorem bndUpper_eq {off i : Nat} {b : Option (List α)} {s : BndSt α} (h : off + i ≤ 2147483647) :
    bndUpper off b i s = LCQ.bndUpper off b i s := by
  unfold bndUpper LCQ.bndUpper
  cases b <;> simp only [chk_ok h, ok_bind]

theorem bndLoop_eq {m off : Nat} {l u : Option (List α)} {s : BndSt α} (h : off + m ≤ 2147483647) :
    bndLoop m off l u s = LCQ.bndLoop m off l u s := by
  refine loopE_congr _ _ _ _ fun i hi s => ?_
  simp only [bndLower_eq (show off + i ≤ 2147483647 by omega), bndUpper_eq (show off + i ≤ 2147483647 by omega)]
  rfl

theorem setCompBounds_eq {e : Env α} {d : Data α} {lbL ubL lbR ubR : Option (List α)}
    (h : ∀ n, d.dims = some n → n.nA ≤ 2147483647) : setCompBounds e d lbL ubL lbR ubR = LCQ.setCompBounds e d lbL ubL lbR ubR := by
  unfold setCompBounds LCQ.setCompBounds
  cases hd : d.dims with
  | none => rfl
  | some n =>
    have h := h n hd
    have eA : n.nA = n.nC + 2 * n.nComp := rfl
    simp only [initd_some, ok_bind, chk_ok (show n.nC + n.nComp ≤ 2147483647 by omega),
      bndLoop_eq (show n.nC + n.nComp ≤ 2147483647 by omega), bndLoop_eq (show n.nC + n.nComp + n.nComp ≤ 2147483647 by omega)]
    rfl

theorem setInitialGuess_eq {e : Env α} {d : Data α} {s : St α} {x0 y0 : Option (List α)}
    (h : ∀ n, d.dims = some n → n.nV + n.nA ≤ 2147483647) : setInitialGuess e d s x0 y0 = LCQ.setInitialGuess e d s x0 y0 := by
  unfold setInitialGuess LCQ.setInitialGuess
  cases hd : d.dims with
  | none => rfl
  | some n =>
    have h := h n hd
    have : ∀ y0, guessYN e n y0 = guessY e y0 (n.nV + n.nC + 2 * n.nComp) := by
      intro y0
      cases y0 with
      | none => rfl
      | some y => rw [guessYN, numDuals_ok h, ok_bind]
    simp only [initd_some, ok_bind, this]

theorem thenData_congr {m m' : M (RV × Data α)} {s : St α} {k k' : Data α → M (RV × Obj α)} (h : m = m')
    (hk : ∀ d, m' = .ok (.successfulReturn, d) → k d = k' d) : thenData m s k = thenData m' s k' := by
  subst h
  unfold thenData
  refine bind_congr' fun r hr => ?_
  split
  · rfl
  · rename_i hc
    have : r.1 = .successfulReturn := not_not.mp hc
    exact hk r.2 (by rw [hr, ← this])

theorem thenSt_congr {m m' : M (RV × St α)} {d : Data α} {k : St α → M (RV × Obj α)} (h : m = m') :
    thenSt m d k = thenSt m' d k := by rw [h]

theorem setQ_dims {d : Data α} {Q : Option (List α)} {r : RV × Data α} (h : LCQ.setQ d Q = .ok r) : r.2.dims = d.dims := by
  simp only [LCQ.setQ, bind_eq_ok] at h
  obtain ⟨n, _, h⟩ := h
  split at h
  · injection h with h; rw [← h]
  · simp only [bind_eq_ok] at h
    obtain ⟨_, _, _, _, h⟩ := h
    injection h with h; rw [← h]

theorem setQs_dims {d : Data α} {Q : Option (CSC α)} {r : RV × Data α} (h : setQs d Q = .ok r) : r.2.dims = d.dims := by
  simp only [setQs, bind_eq_ok] at h
  obtain ⟨n, _, h⟩ := h
  split at h
  · injection h with h; rw [← h]
  · simp only [bind_eq_ok] at h
    obtain ⟨_, _, _, _, h⟩ := h
    injection h with h; rw [← h]

theorem setG_dims {d : Data α} {g : Option (List α)} {r : RV × Data α} (h : setG d g = .ok r) : r.2.dims = d.dims := by
  simp only [setG, bind_eq_ok] at h
  obtain ⟨n, _, h⟩ := h
  split at h
  · injection h with h; rw [← h]
  · split at h
    · injection h with h; rw [← h]
    · simp only [bind_eq_ok] at h
      obtain ⟨_, _, h⟩ := h
      injection h with h; rw [← h]

theorem setTmp_dims {d d' : Data α} {l u : Option (List α)} (h : setTmp d l u = .ok d') : d'.dims = d.dims := by
  simp only [setTmp, bind_eq_ok] at h
  obtain ⟨_, _, _, _, _, _, h⟩ := h
  injection h with h; rw [← h]

theorem setConstraints_dims {e : Env α} {d : Data α} {L R A l u : Option (List α)} {r : RV × Data α}
    (h : LCQ.setConstraints e d L R A l u = .ok r) : r.2.dims = d.dims := by
  simp only [LCQ.setConstraints, bind_eq_ok] at h
  obtain ⟨n, _, h⟩ := h
  split at h
  · injection h with h; rw [← h]
  · split at h
    · injection h with h; rw [← h]
    · simp only [bind_eq_ok] at h
      obtain ⟨_, _, _, _, _, _, h⟩ := h
      split at h
      · simp only [bind_eq_ok] at h
        obtain ⟨_, _, _, _, _, _, h⟩ := h
        injection h with h; rw [← h]
      · injection h with h; rw [← h]

theorem setConstraintsSparse_dims {e : Env α} {d : Data α} {L R A : Option (CSC α)} {l u : Option (List α)} {r : RV × Data α}
    (h : LCQ.setConstraintsSparse e d L R A l u = .ok r) : r.2.dims = d.dims := by
  simp only [LCQ.setConstraintsSparse, bind_eq_ok] at h
  obtain ⟨_, _, _, _, _, _, _, _, _, _, _, _, _, _, _, _, _, _, h⟩ := h
  split at h <;> (injection h with h; rw [← h])

theorem setCompBounds_dims {e : Env α} {d : Data α} {lbL ubL lbR ubR : Option (List α)} {r : RV × Data α}
    (h : LCQ.setCompBounds e d lbL ubL lbR ubR = .ok r) : r.2.dims = d.dims := by
  simp only [LCQ.setCompBounds, bind_eq_ok] at h
  obtain ⟨_, _, _, _, _, _, _, _, h⟩ := h
  split at h
  · injection h with h; rw [← h]
  · simp only [bind_eq_ok] at h
    obtain ⟨_, _, h⟩ := h
    split at h <;> (injection h with h; rw [← h])

theorem loadDense_eq {e : Env α} {o : Obj α} {a : DenseArgs α} (h : ∀ n, o.d.dims = some n → Fit n false) :
    loadDense e o a = LCQ.loadDense e o a := by
  unfold loadDense LCQ.loadDense
  refine bind_congr' fun n hn => ?_
  split
  · rfl
  · refine thenData_congr (setQ_eq fun n hn => (h n hn).sq) fun d1 h1 => thenData_congr rfl fun d2 h2 => ?_
    refine bind_congr' fun d3 h3 => ?_
    have k3 : d3.dims = o.d.dims := (setTmp_dims h3).trans ((setG_dims h2).trans (setQ_dims h1))
    refine thenData_congr (setConstraints_eq (fun n hn => h n (k3 ▸ hn)) _ _ _ _ _) fun d4 h4 => ?_
    have k4 : d4.dims = o.d.dims := (setConstraints_dims h4).trans k3
    refine thenData_congr (setCompBounds_eq fun n hn => (h n (k4 ▸ hn)).a) fun d5 h5 => ?_
    have k5 : d5.dims = o.d.dims := (setCompBounds_dims h5).trans k4
    exact thenSt_congr (setInitialGuess_eq fun n hn => (h n (k5 ▸ hn)).sum)

theorem loadSparse_eq {e : Env α} {o : Obj α} {a : SparseArgs α} (h : ∀ n, o.d.dims = some n → n.nV + n.nA ≤ 2147483647 ∧
      ∀ l l' r r', a.L = some l → a.R = some r → copyCSC l = .ok l' → copyCSC r = .ok r' → FitS n l' r' a.A) :
    loadSparse e o a = LCQ.loadSparse e o a := by
  unfold loadSparse LCQ.loadSparse
  refine thenData_congr rfl fun d1 h1 => thenData_congr rfl fun d2 h2 => ?_
  have k2 : d2.dims = o.d.dims := (setG_dims h2).trans (setQs_dims h1)
  refine thenData_congr (setConstraintsSparse_eq fun n hn => ?_) fun d4 h4 => ?_
  · obtain ⟨g1, g2⟩ := h n (k2 ▸ hn)
    exact ⟨by omega, g2⟩
  have k4 : d4.dims = o.d.dims := (setConstraintsSparse_dims h4).trans k2
  refine thenData_congr (setCompBounds_eq fun n hn => by have := (h n (k4 ▸ hn)).1; omega) fun d5 h5 => ?_
  have k5 : d5.dims = o.d.dims := (setCompBounds_dims h5).trans k4
  exact thenSt_congr (setInitialGuess_eq fun n hn => (h n (k5 ▸ hn)).1)

theorem newObj_eq {op : Options α} {nV nC nComp : Int} (h1 : nV.toNat * nV.toNat ≤ 2147483647)
    (h2 : nC.toNat + 2 * nComp.toNat ≤ 2147483647) : newObj op nV nC nComp = .ok (Obj.new op nV nC nComp) := by
  unfold newObj Obj.new
  dsimp only
  split
  · rfl
  · split
    · rfl
    · split
      · rfl
      · rw [chk_ok h1, ok_bind, numA_ok (by exact h2), ok_bind]
        rfl

/-! ## Switching between dense and sparse -/

theorem switchToSparse_eq {o : Obj α} (h : ∀ n, o.d.dims = some n → Fit n o.d.sparse) :
    switchToSparse o = LCQ.switchToSparse o := by
  unfold switchToSparse LCQ.switchToSparse
  cases hs : o.d.sparse with
  | true => rfl
  | false =>
    cases hd : o.d.dims with
    | none => rfl
    | some n =>
      have h := h n hd
      rw [hs] at h
      simp only [initd_some, ok_bind, dnsToCsc_eq h.sq, numA_ok h.a, dnsToCsc_eq (h.mat rfl), dnsToCsc_eq h.comp]
      rfl

theorem switchToDense_eq {o : Obj α} (h : ∀ S, o.d.Qs = some S ∨ o.d.As = some S ∨ o.d.Ls = some S ∨ o.d.Rs = some S ∨ o.d.Cs = some S →
      S.m * S.n ≤ 2147483647 ∧ RowsIn S S.m S.n) : switchToDense o = LCQ.switchToDense o := by
  have hk : ∀ S, o.d.Qs = some S ∨ o.d.As = some S ∨ o.d.Ls = some S ∨ o.d.Rs = some S ∨ o.d.Cs = some S →
      cscToDns S = LCQ.cscToDns S := fun S hS => cscToDns_eq (h S hS).1 (h S hS).2
  unfold switchToDense LCQ.switchToDense
  split
  · rfl
  · refine bind_congr' fun S hS => ?_
    rw [hk S (Or.inl (deref_eq_ok.1 hS))]
    refine bind_congr' fun _ _ => bind_congr' fun S hS => ?_
    rw [hk S (Or.inr (Or.inl (deref_eq_ok.1 hS)))]
    refine bind_congr' fun _ _ => bind_congr' fun S hS => ?_
    rw [hk S (Or.inr (Or.inr (Or.inl (deref_eq_ok.1 hS))))]
    refine bind_congr' fun _ _ => bind_congr' fun S hS => ?_
    rw [hk S (Or.inr (Or.inr (Or.inr (Or.inl (deref_eq_ok.1 hS)))))]
    refine bind_congr' fun _ _ => bind_congr' fun S hS => ?_
    rw [hk S (Or.inr (Or.inr (Or.inr (Or.inr (deref_eq_ok.1 hS)))))]

/-! ## Running the solver -/

/-- the sizes fit and the multipliers of the constraints begin within or just behind those of the box -/
structure FitD (d : Data α) : Prop where
  fit : ∀ n, d.dims = some n → Fit n d.sparse
  off : ∀ n k, d.dims = some n → d.boxOff = some k → k ≤ n.nV

theorem affineDS_eq {sp : Bool} {B : Option (List α)} {S : Option (CSC α)} {a : α} {b c out : List α} {n : Nat}
    (h : n * n ≤ 2147483647) : affineDS sp B S a b c out n = LCQ.affineDS sp B S a b c out n := by
  unfold affineDS LCQ.affineDS
  simp only [affine_eq h]

theorem quadDS_eq {sp : Bool} {B : Option (List α)} {S : Option (CSC α)} {q : List α} {n : Nat}
    (h : n * n ≤ 2147483647) : quadDS sp B S q n = LCQ.quadDS sp B S q n := by
  unfold quadDS LCQ.quadDS
  simp only [quadForm_eq h]

theorem mulDS_eq {sp : Bool} {B : Option (List α)} {S : Option (CSC α)} {b out : List α} {m n : Nat}
    (h : sp = false → m * n ≤ 2147483647) (hm : m ≤ 2147483647) (hn : n ≤ 2147483647) :
    mulDS sp B S b out m n = LCQ.mulDS sp B S b out m n := by
  unfold mulDS LCQ.mulDS
  cases sp
  · simp only [matMul_eq (show m * 1 ≤ _ by omega) (h rfl) (show n * 1 ≤ _ by omega)]
  · rfl

theorem tmulDS_eq {sp : Bool} {B : Option (List α)} {S : Option (CSC α)} {b out : List α} {m n : Nat}
    (h : sp = false → m * n ≤ 2147483647) (hm : m ≤ 2147483647) (hn : n ≤ 2147483647) :
    tmulDS sp B S b out m n = LCQ.tmulDS sp B S b out m n := by
  unfold tmulDS LCQ.tmulDS
  cases sp
  · simp only [matTMul_eq (show n * 1 ≤ _ by omega) (h rfl) (show m * 1 ≤ _ by omega)]
  · rfl

theorem addTMulDS_eq {sp : Bool} {B : Option (List α)} {S : Option (CSC α)} {b out : List α} {m n : Nat}
    (h : sp = false → m * n ≤ 2147483647) (hm : m ≤ 2147483647) (hn : n ≤ 2147483647) :
    addTMulDS sp B S b out m n = LCQ.addTMulDS sp B S b out m n := by
  unfold addTMulDS LCQ.addTMulDS
  cases sp
  · simp only [addMatTMul_eq (show n * 1 ≤ _ by omega) (h rfl) (show m * 1 ≤ _ by omega)]
  · rfl

theorem Fit.comp' {n : Dims} {b : Bool} (h : Fit n b) (hb : b = false) : n.nComp * n.nV ≤ 2147483647 := by
  subst hb; exact h.comp

theorem Fit.k {n : Dims} {b : Bool} (h : Fit n b) : n.nComp ≤ 2147483647 := by have := h.a; have := h.nA; omega

theorem updateLinearization_eq {d : Data α} {s : St α} (h : FitD d) : updateLinearization d s = LCQ.updateLinearization d s := by
  unfold updateLinearization LCQ.updateLinearization
  cases hd : d.dims with
  | none => rfl
  | some n => simp only [initd_some, ok_bind, affineDS_eq (h.fit n hd).sq]

theorem getObj_eq {d : Data α} {s : St α} (h : FitD d) : getObj d s = LCQ.getObj d s := by
  unfold getObj LCQ.getObj
  cases hd : d.dims with
  | none => rfl
  | some n => simp only [initd_some, ok_bind, quadDS_eq (h.fit n hd).sq]

theorem getPhi_eq {d : Data α} {s : St α} (h : FitD d) : getPhi d s = LCQ.getPhi d s := by
  unfold getPhi LCQ.getPhi
  cases hd : d.dims with
  | none => rfl
  | some n => simp only [initd_some, ok_bind, quadDS_eq (h.fit n hd).sq]

theorem getMerit_eq {d : Data α} {s : St α} (h : FitD d) : getMerit d s = LCQ.getMerit d s := by
  unfold getMerit LCQ.getMerit
  cases hd : d.dims with
  | none => rfl
  | some n => simp only [initd_some, ok_bind, quadDS_eq (h.fit n hd).sq]

theorem complementarityCheck_eq {d : Data α} {s : St α} (h : FitD d) :
    complementarityCheck d s = LCQ.complementarityCheck d s := by
  unfold complementarityCheck LCQ.complementarityCheck
  simp only [getPhi_eq h]

theorem updateStep_eq {d : Data α} {s : St α} (h : FitD d) : updateStep d s = LCQ.updateStep d s := by
  unfold updateStep LCQ.updateStep
  cases hd : d.dims with
  | none => rfl
  | some n => simp only [initd_some, ok_bind, weightedVecAdd_eq (h.fit n hd).v]

theorem boxStat_eq {d : Data α} {s : St α} {n : Nat} {st : List α} (h : n ≤ 2147483647) :
    boxStat d s n st = LCQ.boxStat d s n st := by
  unfold boxStat LCQ.boxStat
  simp only [weightedVecAdd_eq h]

theorem updateStationarity_eq {d : Data α} {s : St α} (h : FitD d) : updateStationarity d s = LCQ.updateStationarity d s := by
  unfold updateStationarity LCQ.updateStationarity
  cases hd : d.dims with
  | none => rfl
  | some n =>
    have h := h.fit n hd
    simp only [initd_some, ok_bind, affineDS_eq h.sq, numA_ok h.a, tmulDS_eq h.mat h.a h.v, weightedVecAdd_eq h.v, boxStat_eq h.v]

theorem setQk_eq {d : Data α} {s : St α} (h : FitD d) : setQk d s = LCQ.setQk d s := by
  unfold setQk LCQ.setQk
  cases hd : d.dims with
  | none => rfl
  | some n => simp only [initd_some, ok_bind, weightedAdd_eq (h.fit n hd).sq]

theorem updateQk_eq {d : Data α} {s : St α} (h : FitD d) : updateQk d s = LCQ.updateQk d s := by
  unfold updateQk LCQ.updateQk
  cases hd : d.dims with
  | none => rfl
  | some n => simp only [initd_some, ok_bind, weightedAdd_eq (h.fit n hd).sq]

theorem updateGTilde_eq {d : Data α} {s : St α} (h : FitD d) : updateGTilde d s = LCQ.updateGTilde d s := by
  unfold updateGTilde LCQ.updateGTilde
  cases hd : d.dims with
  | none => rfl
  | some n =>
    cases d.gPhi with
    | none => rfl
    | some => simp only [initd_some, ok_bind, weightedVecAdd_eq (h.fit n hd).v]

theorem updatePenalty_eq {d : Data α} {s : St α} (h : FitD d) : updatePenalty d s = LCQ.updatePenalty d s := by
  unfold updatePenalty LCQ.updatePenalty
  simp only [updateQk_eq h, updateGTilde_eq h]

theorem bump_eq {d : Data α} {s : St α} (h : FitD d) : bump d s = LCQ.bump d s := by
  unfold bump LCQ.bump
  simp only [updatePenalty_eq h]

theorem leyfferCheckPositive_eq {d : Data α} {s : St α} (h : FitD d) :
    leyfferCheckPositive d s = LCQ.leyfferCheckPositive d s := by
  unfold leyfferCheckPositive LCQ.leyfferCheckPositive
  simp only [getPhi_eq h, complementarityCheck_eq h]

theorem getOptimalStepLength_eq {d : Data α} {s : St α} (h : FitD d) :
    getOptimalStepLength d s = LCQ.getOptimalStepLength d s := by
  unfold getOptimalStepLength LCQ.getOptimalStepLength
  cases hd : d.dims with
  | none => rfl
  | some n => simp only [initd_some, ok_bind, quadDS_eq (h.fit n hd).sq, affineDS_eq (h.fit n hd).sq]

theorem storeSteps_eq {d : Data α} {s : St α} (h : FitD d) : storeSteps d s = LCQ.storeSteps d s := by
  unfold storeSteps LCQ.storeSteps
  simp only [getObj_eq h, getPhi_eq h, getMerit_eq h]

theorem printIteration_eq {d : Data α} {s : St α} (h : FitD d) : printIteration d s = LCQ.printIteration d s := by
  unfold printIteration LCQ.printIteration
  simp only [getPhi_eq h]

theorem shiftDuals_eq {rho : α} {tmp : List α} {off n : Nat} {y : List α} (h : off + n ≤ 2147483647) :
    shiftDuals rho tmp off n y = LCQ.shiftDuals rho tmp off n y := by
  refine loop_congr _ _ _ _ fun i hi y => ?_
  simp only [chk_ok (show off + i ≤ 2147483647 by omega), ok_bind]

theorem transformDuals_eq {e : Env α} {d : Data α} {s : St α} (h : FitD d) :
    transformDuals e d s = LCQ.transformDuals e d s := by
  unfold transformDuals LCQ.transformDuals
  cases hd : d.dims with
  | none => rfl
  | some n =>
    cases hk : d.boxOff with
    | none => rfl
    | some k =>
      have h1 := h.off n k hd hk
      have h := h.fit n hd
      have e1 := h.nA
      have e2 := h.sum
      simp only [initd_some, ok_bind, mulDS_eq h.comp' h.k h.v, chk_ok (show k + n.nC ≤ 2147483647 by omega),
        chk_ok (show k + n.nC + n.nComp ≤ 2147483647 by omega),
        shiftDuals_eq (show k + n.nC + n.nComp ≤ 2147483647 by omega),
        shiftDuals_eq (show k + n.nC + n.nComp + n.nComp ≤ 2147483647 by omega)]

theorem weakComplementarities_eq {e : Env α} {d : Data α} {s : St α} (h : FitD d) :
    weakComplementarities e d s = LCQ.weakComplementarities e d s := by
  unfold weakComplementarities LCQ.weakComplementarities
  cases hd : d.dims with
  | none => rfl
  | some n =>
    have h := h.fit n hd
    simp only [initd_some, ok_bind, mulDS_eq h.comp' h.k h.v]

theorem weak_lt {e : Env α} {d : Data α} {s : St α} {n : Dims} {w : List Nat} (hd : d.dims = some n)
    (h : LCQ.weakComplementarities e d s = .ok w) : ∀ i ∈ w, i < n.nComp := by
  simp only [LCQ.weakComplementarities, hd, initd_some, ok_bind, bind_eq_ok] at h
  obtain ⟨x, _, l, _, r, _, h⟩ := h
  refine loop_partial (fun k (acc : List Nat) => ∀ i ∈ acc, i < k) _ _ _ _ h (by simp) ?_
  intro i hi acc acc' ha hs
  simp only [bind_eq_ok] at hs
  obtain ⟨_, _, hs⟩ := hs
  have low : ∀ j ∈ acc, j < i + 1 := fun j hj => by have := ha j hj; omega
  split at hs
  · simp only [bind_eq_ok] at hs
    obtain ⟨_, _, hs⟩ := hs
    split at hs
    · injection hs with hs
      subst hs
      intro j hj
      rcases List.mem_append.1 hj with hj | hj
      · exact low j hj
      · simp only [List.mem_singleton] at hj; omega
    · injection hs with hs; subst hs; exact low
  · injection hs with hs; subst hs; exact low

theorem classify_eq {tol : α} {ya : List α} {nC nComp : Nat} (h : nC + 2 * nComp ≤ 2147483647) (w : List Nat) :
    ∀ sS mS, (∀ i ∈ w, i < nComp) → classify tol ya nC nComp w sS mS = LCQ.classify tol ya nC nComp w sS mS := by
  induction w with
  | nil => intros; rfl
  | cons i w ih =>
    intro sS mS hw
    have hi := hw i (by simp)
    have ih := fun sS mS => ih sS mS fun j hj => hw j (by simp [hj])
    unfold classify LCQ.classify
    simp only [chk_ok (show nC + i ≤ 2147483647 by omega), chk_ok (show nC + nComp ≤ 2147483647 by omega),
      chk_ok (show nC + nComp + i ≤ 2147483647 by omega), ok_bind, ih]

theorem determineStationarityType_eq {e : Env α} {d : Data α} {s : St α} (h : FitD d) :
    determineStationarityType e d s = LCQ.determineStationarityType e d s := by
  unfold determineStationarityType LCQ.determineStationarityType
  rw [weakComplementarities_eq h]
  cases hd : d.dims with
  | none => rfl
  | some n =>
    simp only [initd_some, ok_bind]
    refine bind_congr' fun w hw => bind_congr' fun ya _ => ?_
    rw [classify_eq (h.fit n hd).a w _ _ (weak_lt hd hw)]

theorem takeSolution_eq {d : Data α} {s : St α} (h : FitD d) : takeSolution d s = LCQ.takeSolution d s := by
  unfold takeSolution LCQ.takeSolution
  cases hd : d.dims with
  | none => rfl
  | some n =>
    cases hk : d.boxOff with
    | none => rfl
    | some k =>
      have h1 := h.off n k hd hk
      have h := h.fit n hd
      have e2 := h.sum
      simp only [initd_some, ok_bind, numA_ok h.a, weightedVecAdd_eq h.v]
      refine bind_congr' fun r _ => bind_congr' fun ya _ => ?_
      congr 1
      refine loop_congr _ _ _ _ fun i hi b => ?_
      simp only [chk_ok (show k + i ≤ 2147483647 by omega), ok_bind]

theorem solveQP_eq {e : Env α} {d : Data α} {s : St α} {init : Bool} (h : FitD d) :
    solveQP e d s init = LCQ.solveQP e d s init := by
  unfold solveQP LCQ.solveQP
  simp only [takeSolution_eq h]

theorem osqpDualGuess_eq {e : Env α} {n : Dims} {y : Option (List α)} (h : n.nV + n.nA ≤ 2147483647) :
    osqpDualGuess e n y = LCQ.osqpDualGuess e n y := by
  cases y with
  | none => rfl
  | some y =>
    unfold osqpDualGuess LCQ.osqpDualGuess
    simp only [numA_ok (show n.nA ≤ 2147483647 by omega), ok_bind]
    congr 1
    refine loop_congr _ _ _ _ fun i hi b => ?_
    simp only [chk_ok (show n.nV + i ≤ 2147483647 by omega), ok_bind]

theorem chooseSolver_eq {e : Env α} {o : Obj α} (h : ∀ n, o.d.dims = some n → Fit n o.d.sparse) :
    chooseSolver e o = LCQ.chooseSolver e o := by
  unfold chooseSolver LCQ.chooseSolver
  cases hd : o.d.dims with
  | none => rfl
  | some n =>
    have h := h n hd
    simp only [initd_some, ok_bind, numA_ok h.a, numDuals_ok h.sum, chk_ok h.sq, osqpDualGuess_eq h.sum]
    cases hs : o.d.sparse
    · simp only [chk_ok (h.mat hs), ok_bind]
    · rfl

theorem initPhi_eq {d : Data α} (h : ∀ n, d.dims = some n → Fit n d.sparse) : initPhi d = LCQ.initPhi d := by
  unfold initPhi LCQ.initPhi
  cases hd : d.dims with
  | none => rfl
  | some n =>
    have h := h n hd
    simp only [initd_some, ok_bind, addTMulDS_eq h.comp' h.k h.v]

theorem initRest_eq {o : Obj α} (h : ∀ n, o.d.dims = some n → Fit n o.d.sparse) : initRest o = LCQ.initRest o := by
  unfold initRest LCQ.initRest
  simp only [initPhi_eq h]

theorem chooseSolver_keep {e : Env α} {o : Obj α} {r : RV × Obj α} (h : LCQ.chooseSolver e o = .ok r) :
    r.2.d.dims = o.d.dims ∧ r.2.d.sparse = o.d.sparse ∧
      (r.1 = .successfulReturn → ∀ n k, o.d.dims = some n → r.2.d.boxOff = some k → k ≤ n.nV) := by
  obtain ⟨nd, bo, l, u, sub, y, w, hr⟩ := chooseSolver_inv h
  refine ⟨by rw [hr], by rw [hr], fun h1 n k hd hk => ?_⟩
  simp only [LCQ.chooseSolver, hd, initd_some, ok_bind] at h
  split at h
  · split at h
    · injection h with h; rw [← h] at h1; cases h1
    · simp only [bind_eq_ok] at h
      obtain ⟨b, hb, h⟩ := h
      obtain ⟨_, _, hb, _⟩ := setBoxes_inv hb
      split at h
      · rename_i hn
        injection h with h; rw [← h] at h1; exact absurd h1 hn
      · simp only [bind_eq_ok] at h
        obtain ⟨_, _, _, _, _, _, _, _, h⟩ := h
        injection h with h
        rw [← h, hb] at hk
        injection hk with hk
        omega
  · split at h
    · split at h
      · injection h with h; rw [← h] at h1; cases h1
      · simp only [bind_eq_ok] at h
        obtain ⟨b, hb, h⟩ := h
        obtain ⟨_, _, hb, _⟩ := setBoxes_inv hb
        split at h
        · rename_i hn
          injection h with h; rw [← h] at h1; exact absurd h1 hn
        · simp only [bind_eq_ok] at h
          obtain ⟨_, _, _, _, _, _, _, _, h⟩ := h
          injection h with h
          rw [← h, hb] at hk
          injection hk with hk
          omega
    · split at h
      · split at h
        · injection h with h; rw [← h] at h1; cases h1
        · simp only [bind_eq_ok] at h
          obtain ⟨_, _, h⟩ := h
          split at h
          · injection h with h; rw [← h] at h1; cases h1
          · split at h
            · injection h with h; rw [← h] at h1; cases h1
            · simp only [bind_eq_ok] at h
              obtain ⟨_, _, _, _, _, _, _, _, _, _, h⟩ := h
              injection h with h
              rw [← h] at hk
              injection hk with hk
              omega
      · injection h with h; rw [← h] at h1; cases h1

theorem initPhi_keep {d d' : Data α} (h : LCQ.initPhi d = .ok d') : d'.dims = d.dims ∧ d'.sparse = d.sparse ∧ d'.boxOff = d.boxOff := by
  unfold LCQ.initPhi at h
  split at h
  · injection h with h; subst h; exact ⟨rfl, rfl, rfl⟩
  · simp only [bind_eq_ok] at h
    obtain ⟨_, _, _, _, _, _, _, _, _, _, _, _, _, _, h⟩ := h
    injection h with h; subst h; exact ⟨rfl, rfl, rfl⟩

theorem initRest_keep {o : Obj α} {r : RV × Obj α} (h : LCQ.initRest o = .ok r) :
    r.2.d.dims = o.d.dims ∧ r.2.d.sparse = o.d.sparse ∧ r.2.d.boxOff = o.d.boxOff := by
  simp only [LCQ.initRest, bind_eq_ok] at h
  obtain ⟨_, _, _, _, _, _, d, hd, h⟩ := h
  have k := initPhi_keep hd
  injection h with h; rw [← h]
  exact k

theorem initializeSolver_eq {e : Env α} {o : Obj α} (h : ∀ n, o.d.dims = some n → Fit n o.d.sparse) :
    initializeSolver e o = LCQ.initializeSolver e o := by
  unfold initializeSolver LCQ.initializeSolver
  rw [chooseSolver_eq h]
  refine bind_congr' fun r hr => ?_
  obtain ⟨k1, k2, _⟩ := chooseSolver_keep hr
  rw [initRest_eq (by rw [k1, k2]; exact h)]

theorem initializeSolver_fit {e : Env α} {o : Obj α} {r : RV × Obj α} (h : ∀ n, o.d.dims = some n → Fit n o.d.sparse)
    (hr : LCQ.initializeSolver e o = .ok r) (hs : r.1 = .successfulReturn) : FitD r.2.d := by
  simp only [LCQ.initializeSolver, bind_eq_ok] at hr
  obtain ⟨q, hq, hr⟩ := hr
  obtain ⟨k1, k2, k3⟩ := chooseSolver_keep hq
  split at hr
  · rename_i hn
    injection hr with hr; subst hr; exact absurd hs hn
  · rename_i hn
    obtain ⟨l1, l2, l3⟩ := initRest_keep hr
    constructor
    · rw [l1, l2, k1, k2]; exact h
    · rw [l1, l3, k1]; exact k3 (not_not.1 hn)

theorem storeIf_eq {d : Data α} {s : St α} (h : FitD d) : storeIf d s = LCQ.storeIf d s := by
  unfold storeIf LCQ.storeIf
  simp only [storeSteps_eq h]

theorem advance_eq {d : Data α} {s : St α} (h : FitD d) : advance d s = LCQ.advance d s := by
  unfold advance LCQ.advance
  simp only [updateStep_eq h, updateStationarity_eq h, printIteration_eq h, storeIf_eq h]

theorem dynamicPenalty_eq {d : Data α} {s : St α} (h : FitD d) : dynamicPenalty d s = LCQ.dynamicPenalty d s := by
  unfold dynamicPenalty LCQ.dynamicPenalty
  simp only [leyfferCheckPositive_eq h, bump_eq h]

theorem accept_eq {e : Env α} {d : Data α} {s : St α} (h : FitD d) : accept e d s = LCQ.accept e d s := by
  unfold accept LCQ.accept
  simp only [transformDuals_eq h, determineStationarityType_eq h]

theorem checkStationarity_eq {e : Env α} {d : Data α} {s : St α} (h : FitD d) :
    checkStationarity e d s = LCQ.checkStationarity e d s := by
  unfold checkStationarity LCQ.checkStationarity
  simp only [complementarityCheck_eq h, accept_eq h, bump_eq h]

theorem nextStep_eq {e : Env α} {d : Data α} {s : St α} (h : FitD d) : nextStep e d s = LCQ.nextStep e d s := by
  unfold nextStep LCQ.nextStep
  simp only [updateLinearization_eq h, solveQP_eq h, getOptimalStepLength_eq h]

theorem pass_eq {e : Env α} {d : Data α} {s : St α} (h : FitD d) : pass e d s = LCQ.pass e d s := by
  unfold pass LCQ.pass
  simp only [advance_eq h, dynamicPenalty_eq h, updateLinearization_eq h, checkStationarity_eq h, nextStep_eq h]

theorem mainLoop_eq {e : Env α} {d : Data α} (h : FitD d) (f : Nat) : ∀ s : St α, mainLoop e d f s = LCQ.mainLoop e d f s := by
  induction f with
  | zero => intro s; rfl
  | succ f ih =>
    intro s
    unfold mainLoop LCQ.mainLoop
    rw [pass_eq h]
    refine bind_congr' fun r _ => ?_
    cases r with
    | inl s => exact ih s
    | inr => rfl

theorem firstGradient_eq {d : Data α} {s : St α} (h : FitD d) : firstGradient d s = LCQ.firstGradient d s := by
  unfold firstGradient LCQ.firstGradient
  simp only [updateLinearization_eq h]

theorem firstStep_eq {e : Env α} {d : Data α} {s : St α} (h : FitD d) : firstStep e d s = LCQ.firstStep e d s := by
  unfold firstStep LCQ.firstStep
  simp only [firstGradient_eq h, solveQP_eq h, setQk_eq h]

theorem runSolver_eq {e : Env α} {fuel : Nat} {o : Obj α} (h : ∀ n, o.d.dims = some n → Fit n o.d.sparse) :
    runSolver e fuel o = LCQ.runSolver e fuel o := by
  unfold runSolver LCQ.runSolver
  rw [initializeSolver_eq h]
  refine bind_congr' fun r hr => ?_
  split
  · rfl
  · rename_i hn
    have hf := initializeSolver_fit h hr (not_not.1 hn)
    rw [firstStep_eq hf]
    refine bind_congr' fun f _ => ?_
    cases f with
    | inl s => simp only [mainLoop_eq hf]
    | inr => rfl

end LCQ.Chk
