import Verif.Lemmas.Checked
import Verif.Lemmas.LoadSparse
import Verif.Lemmas.Interfaces
import Verif.Props.Examples
import Verif.Props.LoadSparse

/-!
# C60: sizes and indices in the type `int`

`LCQ.Chk` is the program with checked `int` arithmetic.  When three numbers fit it is the program of the other theorems;
when they do not, the first use of the object is undefined behaviour.
-/

namespace LCQ
open Scalar

variable {α : Type} [Scalar α] {e : Env α}
set_option linter.unusedSectionVars false

/-- the largest `int` -/
def maxInt : Nat := 2 ^ 31 - 1

/-- The numbers of unknowns and multipliers fit into `int`, and so do the numbers of entries of the dense matrices: the
`nV × nV` matrices always, the stacked constraint matrix in dense mode. -/
structure SmallInt (n : Dims) (dense : Bool) : Prop where
  square : n.nV * n.nV ≤ maxInt
  duals : n.nV + (n.nC + 2 * n.nComp) ≤ maxInt
  stacked : dense = true → (n.nC + 2 * n.nComp) * n.nV ≤ maxInt

theorem SmallInt.fit {n : Dims} {b : Bool} (h : SmallInt n b) : Chk.Fit n (!b) :=
  ⟨h.square, h.duals, fun hb => h.stacked (by simpa using hb)⟩

/-! ## The constructor -/

/-- The constructor computes without overflow exactly if `nV ≤ 46340` and `nC + 2 nComp` fits. -/
theorem C60_new (op : Options α) {nV nC nComp : Int} (h1 : 0 < nV) (h2 : 0 < nComp) (h3 : 0 ≤ nC) :
    (nV ≤ 46340 ∧ nC + 2 * nComp ≤ maxInt ∧ Chk.newObj op nV nC nComp = .ok (Obj.new op nV nC nComp)) ∨
    (¬ (nV ≤ 46340 ∧ nC + 2 * nComp ≤ maxInt) ∧ Chk.newObj op nV nC nComp = .error .overflow) := by
  obtain ⟨v, rfl⟩ := Int.eq_ofNat_of_zero_le h1.le
  obtain ⟨p, rfl⟩ := Int.eq_ofNat_of_zero_le h2.le
  obtain ⟨c, rfl⟩ := Int.eq_ofNat_of_zero_le h3
  have hm : maxInt = 2147483647 := rfl
  by_cases hv : v ≤ 46340
  · have hvv : v * v ≤ 2147483647 := le_trans (Nat.mul_le_mul hv hv) (by norm_num)
    by_cases ha : c + 2 * p ≤ 2147483647
    · exact Or.inl ⟨by omega, by omega, Chk.newObj_eq hvv ha⟩
    · refine Or.inr ⟨by omega, ?_⟩
      unfold Chk.newObj
      dsimp only
      rw [if_neg (by omega), if_neg (by omega), if_neg (by omega), Int.toNat_natCast, Int.toNat_natCast, Int.toNat_natCast,
        Chk.chk_ok hvv, ok_bind, Chk.numA]
      dsimp only
      by_cases hp : 2 * p ≤ 2147483647
      · rw [Chk.chk_ok hp, ok_bind, Chk.chk_err (by omega)]; rfl
      · rw [Chk.chk_err (by omega)]; rfl
  · refine Or.inr ⟨by omega, ?_⟩
    have hvv : 46341 * 46341 ≤ v * v := Nat.mul_le_mul (by omega) (by omega)
    unfold Chk.newObj
    dsimp only
    rw [if_neg (by omega), if_neg (by omega), if_neg (by omega), Int.toNat_natCast, Chk.chk_err (by omega)]
    rfl

/-- the smallest number of variables that cannot be used, with one complementarity pair and in either mode -/
example : Chk.newObj Ex.opts 46341 0 1 = .error .overflow := by
  rcases C60_new Ex.opts (nV := 46341) (nC := 0) (nComp := 1) (by norm_num) (by norm_num) (by norm_num) with h | h
  · exact absurd h.1 (by norm_num)
  · exact h.2

example : Chk.newObj Ex.opts 46340 1000000 1000000 = .ok (Obj.new Ex.opts 46340 1000000 1000000) := by
  rcases C60_new Ex.opts (nV := 46340) (nC := 1000000) (nComp := 1000000) (by norm_num) (by norm_num) (by norm_num) with h | h
  · exact h.2.2
  · exact absurd ⟨by norm_num, by decide⟩ h.1

/-! ## Loading -/

theorem C60_loadDense {o : Obj α} {n : Dims} (a : DenseArgs α) (hn : o.d.dims = some n) (h : SmallInt n true) :
    Chk.loadDense e o a = loadDense e o a :=
  Chk.loadDense_eq fun m hm => by
    rw [hn] at hm
    injection hm with hm
    subst hm
    exact h.fit

/-- numbers of stored entries -/
def nnz (S : Option (CSC α)) : Nat :=
  match S with
  | none => 0
  | some S => (S.p.getD S.n 0).toNat

theorem nnz_some {S : CSC α} : nnz (some S) = S.P S.n := rfl

theorem nnzOpt_nnz {A : Option (CSC α)} {m n : Nat} (h : ∀ S, A = some S → S.Is m n) : nnzOpt A n = .ok (nnz A : Int) := by
  cases A with
  | none => rfl
  | some S =>
    obtain ⟨h1, _, rfl⟩ := h S rfl
    exact h1.rd_p (le_refl _)

theorem C60_loadSparse {o : Obj α} {n : Dims} {a : SparseArgs α} (hn : o.d.dims = some n) (hf : a.Fits n)
    (h : n.nV + (n.nC + 2 * n.nComp) ≤ maxInt) (hz : nnz a.A + nnz a.L + nnz a.R ≤ maxInt) :
    Chk.loadSparse e o a = loadSparse e o a := by
  refine Chk.loadSparse_eq fun m hm => ?_
  rw [hn] at hm
  injection hm with hm
  subst hm
  refine ⟨h, fun l l' r r' hl hr cl cr => ?_⟩
  obtain ⟨L, hL, iL⟩ := hf.L
  obtain ⟨R, hR, iR⟩ := hf.R
  rw [hl] at hL
  rw [hr] at hR
  injection hL with hL
  injection hR with hR
  subst hL
  subst hR
  have c1 : copyCSC l = .ok l.trim := copyCSC_ok iL.1
  have c2 : copyCSC r = .ok r.trim := copyCSC_ok iR.1
  rw [c1] at cl
  rw [c2] at cr
  injection cl with cl
  injection cr with cr
  subst cl
  subst cr
  have eL : rd l.trim.p n.nV = .ok (l.P l.n : Int) := by rw [← iL.2.2]; exact iL.1.rd_p (le_refl _)
  have eR : rd r.trim.p n.nV = .ok (r.P r.n : Int) := by rw [← iR.2.2]; exact iR.1.rd_p (le_refl _)
  rw [hl, hr, nnz_some, nnz_some] at hz
  have hm : maxInt = 2147483647 := rfl
  constructor
  · have := Chk.RowsIn.of_valid iL.trim.1
    rwa [iL.trim.2.1, iL.trim.2.2] at this
  · have := Chk.RowsIn.of_valid iR.trim.1
    rwa [iR.trim.2.1, iR.trim.2.2] at this
  · intro a b ha hb
    rw [eL] at ha; rw [eR] at hb
    injection ha with ha; injection hb with hb
    omega
  · intro a b c ha hb hc
    rw [eL] at ha; rw [eR] at hb; rw [nnzOpt_nnz hf.A] at hc
    injection ha with ha; injection hb with hb; injection hc with hc
    omega

/-- The dense load overflows when the stacked constraint matrix has too many entries. -/
theorem C60_loadDense_overflow {o : Obj α} {n : Dims} {a : DenseArgs α} (hn : o.d.dims = some n) (hV : n.nV ≠ 0) (hC : n.nComp ≠ 0)
    (hf : a.Fits n) (hg : a.g ≠ none) (hA : a.A ≠ none ∨ n.nC = 0) (hs : n.nV * n.nV ≤ maxInt)
    (h : maxInt < (n.nC + 2 * n.nComp) * n.nV) : Chk.loadDense e o a = .error .overflow := by
  obtain ⟨Q, hQ, lQ⟩ := hf.Q
  obtain ⟨L, hL, lL⟩ := hf.L
  obtain ⟨R, hR, lR⟩ := hf.R
  obtain ⟨g, hg⟩ := Option.ne_none_iff_exists'.1 hg
  have hsq : n.nV * n.nV ≤ 2147483647 := hs
  unfold Chk.loadDense
  rw [hn, initd_some, ok_bind, if_neg (by simp [hV, hC])]
  have h1 : Chk.setQ o.d a.Q = .ok (.successfulReturn, { o.d with Q := some (Q.take (n.nV * n.nV)) }) := by
    simp only [Chk.setQ, hn, initd_some, ok_bind, if_neg hV, Chk.chk_ok hsq, hQ, deref_some, copyN_take lQ]
  rw [thenData, h1, ok_bind, if_neg (by simp)]
  dsimp only
  have h2 : setG { o.d with Q := some (Q.take (n.nV * n.nV)) } a.g = .ok (.successfulReturn,
      { o.d with Q := some (Q.take (n.nV * n.nV)), g := some (g.take n.nV) }) := by
    simp only [setG, hn, initd_some, ok_bind, if_neg hV, hg, copyN_take (hf.g g hg)]
  rw [thenData, h2, ok_bind, if_neg (by simp)]
  dsimp only
  have h3 : setTmp { o.d with Q := some (Q.take (n.nV * n.nV)), g := some (g.take n.nV) } a.lb a.ub = .ok
      { o.d with
        Q := some (Q.take (n.nV * n.nV))
        g := some (g.take n.nV)
        lbTmp := (a.lb.map (List.take n.nV)).orElse fun _ => o.d.lbTmp
        ubTmp := (a.ub.map (List.take n.nV)).orElse fun _ => o.d.ubTmp } := by
    simp only [setTmp, hn, initd_some, ok_bind, copyOpt_take hf.lb, copyOpt_take hf.ub]
  rw [h3, ok_bind]
  have h4 : ∀ d : Data α, d.dims = some n → Chk.setConstraints e d a.L a.R a.A a.lbA a.ubA = .error .overflow := by
    intro d hd
    have hs : Chk.stackDense e n a.L a.R a.A = .error .overflow := by
      have hm : maxInt = 2147483647 := rfl
      unfold Chk.stackDense Chk.numA
      by_cases h1 : 2 * n.nComp ≤ 2147483647
      · rw [Chk.chk_ok h1, ok_bind]
        by_cases h2 : n.nC + 2 * n.nComp ≤ 2147483647
        · rw [Chk.chk_ok h2, ok_bind, Chk.chk_err (by omega)]; rfl
        · rw [Chk.chk_err (by omega)]; rfl
      · rw [Chk.chk_err (by omega)]; rfl
    rw [Chk.setConstraints, hd, initd_some, ok_bind, if_neg (by simp [hV, hC]), if_neg, hs]
    · rfl
    · rintro ⟨h1, h2⟩
      rcases hA with h | h
      · exact h h1
      · omega
  rw [thenData, h4 _ (by exact hn)]
  rfl

/-- The sparse load overflows when the stacked matrix has too many stored entries. -/
theorem C60_loadSparse_overflow {o : Obj α} {n : Dims} {a : SparseArgs α} (hn : o.d.dims = some n) (hV : n.nV ≠ 0)
    (hf : a.Fits n) (hg : a.g ≠ none) (h : maxInt < nnz a.A + nnz a.L + nnz a.R) :
    Chk.loadSparse e o a = .error .overflow := by
  obtain ⟨Q, hQ, iQ⟩ := hf.Q
  obtain ⟨L, hL, iL⟩ := hf.L
  obtain ⟨R, hR, iR⟩ := hf.R
  obtain ⟨g, hg⟩ := Option.ne_none_iff_exists'.1 hg
  unfold Chk.loadSparse
  have h1 : setQs o.d a.Q = .ok (.successfulReturn, { o.d with Qs := some Q.trim }) := by
    simp only [setQs, hn, initd_some, ok_bind, if_neg hV, hQ, deref_some, copyCSC_ok iQ.1]
    rfl
  rw [thenData, h1, ok_bind, if_neg (by simp)]
  dsimp only
  have h2 : setG { o.d with Qs := some Q.trim } a.g = .ok (.successfulReturn,
      { o.d with Qs := some Q.trim, g := some (g.take n.nV) }) := by
    simp only [setG, hn, initd_some, ok_bind, if_neg hV, hg, copyN_take (hf.g g hg)]
  rw [thenData, h2, ok_bind, if_neg (by simp)]
  dsimp only
  have h3 : ∀ d : Data α, d.dims = some n → Chk.setConstraintsSparse e d a.L a.R a.A a.lbA a.ubA = .error .overflow := by
    intro d hd
    have c1 : copyCSC L = .ok L.trim := copyCSC_ok iL.1
    have c2 : copyCSC R = .ok R.trim := copyCSC_ok iR.1
    have eL : rd L.trim.p n.nV = .ok (L.P L.n : Int) := by rw [← iL.2.2]; exact iL.1.rd_p (le_refl _)
    have eR : rd R.trim.p n.nV = .ok (R.P R.n : Int) := by rw [← iR.2.2]; exact iR.1.rd_p (le_refl _)
    have hs : Chk.stackSparse e n L.trim R.trim a.A = .error .overflow := by
      rw [hL, hR, nnz_some, nnz_some] at h
      have hm : maxInt = 2147483647 := rfl
      rw [Chk.stackSparse, eL, ok_bind, eR, ok_bind, addInt]
      split
      · rw [ok_bind, nnzOpt_nnz hf.A, ok_bind, addInt, if_neg (by unfold intMax; omega)]
        rfl
      · rfl
    rw [Chk.setConstraintsSparse, hd, initd_some, ok_bind, hL, deref_some, ok_bind, c1, ok_bind, hR, deref_some, ok_bind, c2,
      ok_bind, hs]
    rfl
  rw [thenData, h3 _ (by exact hn)]
  rfl

/-! ## Running -/

theorem C60_run {o : Obj α} {n : Dims} (hn : o.d.dims = some n) (h : SmallInt n (!o.d.sparse)) (fuel : Nat) :
    Chk.runSolver e fuel o = runSolver e fuel o :=
  Chk.runSolver_eq fun m hm => by
    rw [hn] at hm
    injection hm with hm
    subst hm
    simpa using h.fit

theorem C60_switch {o : Obj α} {n : Dims} (hn : o.d.dims = some n) (h : SmallInt n (!o.d.sparse)) :
    Chk.switchToSparse o = switchToSparse o :=
  Chk.switchToSparse_eq fun m hm => by
    rw [hn] at hm
    injection hm with hm
    subst hm
    simpa using h.fit

theorem C60_switchDense {o : Obj α} (h : ∀ S, o.d.Qs = some S ∨ o.d.As = some S ∨ o.d.Ls = some S ∨ o.d.Rs = some S ∨ o.d.Cs = some S →
    S.Valid ∧ S.m * S.n ≤ maxInt) : Chk.switchToDense o = switchToDense o :=
  Chk.switchToDense_eq fun S hS => ⟨(h S hS).2, Chk.RowsIn.of_valid (h S hS).1⟩

/-! ## From the constructor to the end -/

/-- construction, dense load and run -/
def denseRun (e : Env α) (op : Options α) (nV nC nComp : Int) (a : DenseArgs α) (fuel : Nat) : M (Option (RV × Obj α)) := do
  let r ← loadDense e (Obj.new op nV nC nComp) a
  if r.1 = .successfulReturn then runSolver e fuel r.2 else .ok (some r)

/-- the same with checked arithmetic -/
def Chk.denseRun (e : Env α) (op : Options α) (nV nC nComp : Int) (a : DenseArgs α) (fuel : Nat) : M (Option (RV × Obj α)) := do
  let o ← Chk.newObj op nV nC nComp
  let r ← Chk.loadDense e o a
  if r.1 = .successfulReturn then Chk.runSolver e fuel r.2 else .ok (some r)

theorem loadDense_sparse {o o' : Obj α} {a : DenseArgs α} (h : loadDense e o a = .ok (.successfulReturn, o')) :
    o'.d.sparse = false := by
  rw [loadDense, bind_eq_ok] at h
  obtain ⟨n, _, h⟩ := h
  split at h
  · rw [failWith] at h
    injection h with h
    injection h with h
    cases h
  · obtain ⟨d1, h1, h⟩ := thenData_succ h
    obtain ⟨d2, h2, h⟩ := thenData_succ h
    rw [bind_eq_ok] at h
    obtain ⟨d3, h3, h⟩ := h
    obtain ⟨d4, h4, h⟩ := thenData_succ h
    obtain ⟨d5, h5, h⟩ := thenData_succ h
    obtain ⟨s, h6, h⟩ := thenSt_succ h
    injection h with h
    injection h with _ h
    rw [← h]

theorem loadSparse_sparse {o o' : Obj α} {a : SparseArgs α} (h : loadSparse e o a = .ok (.successfulReturn, o')) :
    o'.d.sparse = true := by
  rw [loadSparse] at h
  obtain ⟨d1, h1, h⟩ := thenData_succ h
  obtain ⟨d2, h2, h⟩ := thenData_succ h
  obtain ⟨d4, h4, h⟩ := thenData_succ h
  obtain ⟨d5, h5, h⟩ := thenData_succ h
  obtain ⟨s, h6, h⟩ := thenSt_succ h
  rw [bind_eq_ok] at h
  obtain ⟨d3, h3, h⟩ := h
  injection h with h
  injection h with _ h
  rw [← h]

/-- For problems of moderate size no `int` computation of a dense session overflows, and the unbounded arithmetic of the
model gives the values of the program. -/
theorem C60_dense (op : Options α) {nV nC nComp : Int} (a : DenseArgs α) (fuel : Nat) (h1 : 0 < nV) (h2 : 0 < nComp) (h3 : 0 ≤ nC)
    (h : SmallInt ⟨nV.toNat, nC.toNat, nComp.toNat⟩ true) :
    Chk.denseRun e op nV nC nComp a fuel = denseRun e op nV nC nComp a fuel := by
  have hn := ((C39_dims op nV nC nComp).1 ⟨by omega, by omega, h3⟩).1
  have hs := h.duals
  have hm : maxInt = 2147483647 := rfl
  unfold Chk.denseRun denseRun
  rw [Chk.newObj_eq h.square (by dsimp only at hs; omega), ok_bind, C60_loadDense a hn h]
  refine Chk.bind_congr' fun r hr => ?_
  split
  · rename_i hrs
    obtain ⟨c, o⟩ := r
    dsimp only at hrs
    subst hrs
    have k := (loadDense_keep hr).1
    have hsp := loadDense_sparse hr
    refine C60_run (n := ⟨nV.toNat, nC.toNat, nComp.toNat⟩) ?_ ?_ fuel
    · rw [← hn]; exact k.1
    · rw [hsp]; exact h
  · rfl

/-- construction, sparse load and run -/
def sparseRun (e : Env α) (op : Options α) (nV nC nComp : Int) (a : SparseArgs α) (fuel : Nat) : M (Option (RV × Obj α)) := do
  let r ← loadSparse e (Obj.new op nV nC nComp) a
  if r.1 = .successfulReturn then runSolver e fuel r.2 else .ok (some r)

/-- the same with checked arithmetic -/
def Chk.sparseRun (e : Env α) (op : Options α) (nV nC nComp : Int) (a : SparseArgs α) (fuel : Nat) : M (Option (RV × Obj α)) := do
  let o ← Chk.newObj op nV nC nComp
  let r ← Chk.loadSparse e o a
  if r.1 = .successfulReturn then Chk.runSolver e fuel r.2 else .ok (some r)

/-- The same for a sparse session; the number of rows times the number of columns need not fit. -/
theorem C60_sparse (op : Options α) {nV nC nComp : Int} {a : SparseArgs α} (fuel : Nat) (h1 : 0 < nV) (h2 : 0 < nComp) (h3 : 0 ≤ nC)
    (h : SmallInt ⟨nV.toNat, nC.toNat, nComp.toNat⟩ false) (hf : a.Fits ⟨nV.toNat, nC.toNat, nComp.toNat⟩)
    (hz : nnz a.A + nnz a.L + nnz a.R ≤ maxInt) :
    Chk.sparseRun e op nV nC nComp a fuel = sparseRun e op nV nC nComp a fuel := by
  have hn := ((C39_dims op nV nC nComp).1 ⟨by omega, by omega, h3⟩).1
  have hs := h.duals
  have hm : maxInt = 2147483647 := rfl
  unfold Chk.sparseRun sparseRun
  rw [Chk.newObj_eq h.square (by dsimp only at hs; omega), ok_bind, C60_loadSparse hn hf h.duals hz]
  refine Chk.bind_congr' fun r hr => ?_
  split
  · rename_i hrs
    obtain ⟨c, o⟩ := r
    dsimp only at hrs
    subst hrs
    have k := (loadSparse_keep hr).1
    have hsp := loadSparse_sparse hr
    refine C60_run (n := ⟨nV.toNat, nC.toNat, nComp.toNat⟩) ?_ ?_ fuel
    · rw [← hn]; exact k.1
    · rw [hsp]; exact h
  · rfl

namespace Ex

/-- the example of the source satisfies the hypotheses of both theorems, and the checked runs succeed -/
example : SmallInt ⟨2, 0, 1⟩ true ∧ SmallInt ⟨2, 0, 1⟩ false ∧ nnz sargs.A + nnz sargs.L + nnz sargs.R ≤ maxInt ∧
    (Chk.denseRun env opts 2 0 1 args 1).map (·.map (·.1)) = .ok (some .successfulReturn) ∧
    (Chk.sparseRun env { opts with qpSolver := 1 } 2 0 1 sargs 1).map (·.map (·.1)) = .ok (some .successfulReturn) := by
  refine ⟨⟨by decide, by decide, by decide⟩, ⟨by decide, by decide, by decide⟩, by decide, ?_, ?_⟩ <;> decide +kernel

/-- a dense problem of 46340 variables and 46341 complementarity pairs: the object can be constructed but not loaded -/
example : Chk.loadDense env (Obj.new opts 46340 0 46341) {
    Q := some (List.replicate (46340 * 46340) zero)
    g := some (List.replicate 46340 zero)
    L := some (List.replicate (46341 * 46340) zero)
    R := some (List.replicate (46341 * 46340) zero) } = .error .overflow := by
  refine C60_loadDense_overflow (n := ⟨46340, 0, 46341⟩) ((C39_dims opts 46340 0 46341).1 (by norm_num)).1 (by norm_num) (by norm_num)
    ?_ (Option.some_ne_none _) (Or.inr rfl) (by decide) (by decide)
  constructor
  · exact ⟨_, rfl, by rw [List.length_replicate]⟩
  · exact ⟨_, rfl, by rw [List.length_replicate]⟩
  · exact ⟨_, rfl, by rw [List.length_replicate]⟩
  · rintro v ⟨⟩; rw [List.length_replicate]
  all_goals · rintro v ⟨⟩

/-- The test of `csc_to_dns` for row indices outside of the matrix overflows itself for large ones: the null pointer is
promised, the behaviour is undefined. -/
example : let S : CSC (Ext ℚ) := { m := 1, n := 2, nzmax := 1, p := [0, 1, 1], i := [1073741824], x := [.fin 1] }
    cscToDns S = .ok none ∧ Chk.cscToDns S = .error .overflow := by
  refine ⟨?_, ?_⟩ <;> decide +kernel

end Ex

end LCQ
