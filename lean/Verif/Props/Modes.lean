import Verif.Lemmas.Modes
import Verif.Props.Reload

/-!
# C28: dense and sparse mode
-/

set_option linter.unusedSectionVars false

namespace LCQ
open Scalar Ext
open scoped Matrix

section exact
variable {K : Type} [Field K] [LinearOrder K] [IsStrictOrderedRing K] {n : Dims} {P : Prob K n} {e e' : Env (Ext K)}
  {o o' : Obj (Ext K)} {x0 : Fin n.nV → K} {r0 f : K}

/-- the vectors given to the two load functions are the same -/
structure SameVectors (a : DenseArgs (Ext K)) (b : SparseArgs (Ext K)) : Prop where
  lbA : a.lbA = b.lbA
  ubA : a.ubA = b.ubA
  lbL : a.lbL = b.lbL
  ubL : a.ubL = b.ubL
  lbR : a.lbR = b.lbR
  ubR : a.ubR = b.ubR
  lb : a.lb = b.lb
  ub : a.ub = b.ub
  y0 : a.y0 = b.y0

/-- C28 (exact arithmetic): the runs of two objects which hold the same problem with symmetric `Q` - each one either in
dense mode with the dense solver or in sparse mode with the sparse solver - agree if the QP solver gives the same answers
to requests for the same QP: same faults, same return code, iterate, multipliers, status, statistics (with all stored
steps) and printed text. -/
theorem C28_objects (hS : Setup e o n P x0 r0 f) (hS' : Setup e' o' n P x0 r0 f) (hsym : P.Qᵀ = P.Q) (hm : Matched o)
    (hm' : Matched o') (hR : SameRest o o') (hE : SameAnswers e e' n P.Q P.AA) (fuel : Nat) :
    RelM (Option.Rel SameEnd) (runSolver e fuel o) (runSolver e' fuel o') := by
  refine (setup_rel hS hS' hsym hm hm' hR hE fuel).mono fun a b hab => ?_
  cases hab
  · rename_i hab
    obtain ⟨hc, h⟩ := hab
    exact .some ⟨hc, h.xk, h.yk, h.algo, h.stats, h.out, h.calls, h.rnd⟩
  · exact .none

/-- C28 (exact arithmetic): loading a problem with symmetric `Q` in dense form and running the dense solver has the same
result as loading it in sparse form and running the sparse solver, if both get the same QP answers. -/
theorem C28_same (op : Options (Ext K)) {nV nC nComp : Int} (hn : 1 ≤ nV ∧ 1 ≤ nComp ∧ 0 ≤ nC)
    (hd : n = ⟨nV.toNat, nC.toNat, nComp.toNat⟩) (hr : op.rho0 = fin r0) (hf : op.factor = fin f) (f0 : f ≠ 0)
    {a : DenseArgs (Ext K)} {b : SparseArgs (Ext K)} (ha : a.Are n P x0) (hb : b.Are n P x0) (hv : SameVectors a b)
    (hsym : P.Qᵀ = P.Q) (he : FinAns e) (he' : FinAns e') (hE : SameAnswers e e' n P.Q P.AA)
    (h1 : loadDense e (Obj.new { op with qpSolver := 0 } nV nC nComp) a = .ok (.successfulReturn, o))
    (h2 : loadSparse e' (Obj.new { op with qpSolver := 1 } nV nC nComp) b = .ok (.successfulReturn, o')) (fuel : Nat) :
    RelM (Option.Rel SameEnd) (runSolver e fuel o) (runSolver e' fuel o') := by
  subst hd
  have hnew : ∀ k : Int, (Obj.new { op with qpSolver := k } nV nC nComp).d =
      { (Obj.blank { op with qpSolver := k }).d with dims := some ⟨nV.toNat, nC.toNat, nComp.toNat⟩ } := by
    intro k
    simp only [Obj.new]
    rw [if_neg (by omega), if_neg (by omega), if_neg (by omega)]
  have hst : (Obj.new { op with qpSolver := 0 } nV nC nComp).s = (Obj.new { op with qpSolver := 1 } nV nC nComp).s := by
    simp only [Obj.new]
    rw [if_neg (by omega), if_neg (by omega), if_neg (by omega), if_neg (by omega), if_neg (by omega), if_neg (by omega)]
    rfl
  have B0 := Built.new { op with qpSolver := 0 } hn
  have B1 := Built.new { op with qpSolver := 1 } hn
  have hl : ∀ k : Int, NoLow (Obj.new { op with qpSolver := k } nV nC nComp) := by
    intro k
    refine ⟨?_, ?_, ?_, ?_⟩ <;> rw [hnew]
    · rfl
    · rfl
    · rfl
    · exact zero_fin
  have hopt : ∀ k : Int, (Obj.new { op with qpSolver := k } nV nC nComp).d.opts = { op with qpSolver := k } := by
    intro k; rw [hnew]; rfl
  have hidx : (Obj.new { op with qpSolver := 1 } nV nC nComp).s.idxC = [] := by
    simp only [Obj.new]
    rw [if_neg (by omega), if_neg (by omega), if_neg (by omega)]
    rfl
  obtain ⟨S, sS⟩ := Setup.dense B0 (hl 0) ha h1 (by rw [hopt]; exact hr) (by rw [hopt]; exact hf) f0 he
  obtain ⟨S', sS'⟩ := Setup.sparse B1 hidx (hl 1) hb h2 (by rw [hopt]; exact hr) (by rw [hopt]; exact hf) f0 he'
  have o1 : o.d.opts = { op with qpSolver := 0 } := (B0.load ha.fits (argLow_pair ha.low) h1).2.1.trans (hopt 0)
  have o2 : o'.d.opts = { op with qpSolver := 1 } := (B1.loadSparse hidx hb.fits (argLow_pair hb.low) h2).2.1.trans (hopt 1)
  refine C28_objects S S' hsym (Or.inl ⟨by rw [o1], sS⟩) (Or.inr ⟨by rw [o2], sS'⟩) ?_ hE fuel
  rcases loadDense_ok (e := e) B0.dims B0.nV B0.nComp ha.fits with ⟨_, _, h⟩ | ⟨_, _, _, h⟩ | ⟨_, _, _, _, h⟩ |
    ⟨_, _, _, _, Q, g, L, R, _, _, _, _, _, _, _, _, h⟩
  · rw [h] at h1; injection h1 with h1; injection h1 with h1 _; cases h1
  · rw [h] at h1; injection h1 with h1; injection h1 with h1 _; cases h1
  · rw [h] at h1; injection h1 with h1; injection h1 with h1 _; cases h1
  obtain ⟨Q', L', R', C', _, _, _, _, _, _, _, _, h'⟩ := loadSparse_ok (e := e') B1.dims B1.nV B1.nComp hb.fits
  rcases h' with ⟨_, _, h'⟩ | ⟨_, _, _, h'⟩ | ⟨_, _, _, _, h'⟩ | ⟨_, _, g', c, _, _, _, h'⟩
  · rw [h'] at h2; injection h2 with h2; injection h2 with h2 _; cases h2
  · rw [h'] at h2; injection h2 with h2; injection h2 with h2 _; cases h2
  · rw [h'] at h2; injection h2 with h2; injection h2 with h2 _; cases h2
  rw [h] at h1
  rw [h'] at h2
  injection h1 with h1; injection h1 with _ h1
  injection h2 with h2; injection h2 with _ h2
  refine ⟨⟨0, by rw [o1, o2]⟩, ?_, ?_, ?_, ?_, ?_, ?_, ?_, ?_, ?_, ?_⟩ <;> rw [← h1, ← h2] <;>
    dsimp only [denseObj, sparseObj]
  · rw [hv.lbA, hv.lbL, hv.lbR]
  · rw [hv.ubA, hv.ubL, hv.ubR]
  · rw [hv.lb, hnew, hnew]; rfl
  · rw [hv.ub, hnew, hnew]; rfl
  · rw [hv.lbL, hnew, hnew]; rfl
  · rw [hv.y0]
  all_goals rw [hst]

end exact

namespace Ex

theorem sargs_are : sargs.Are dim (prob [2, 0, 0, 2] [-2, -2] [0] [0]) 0 where
  fits := sargs_fits
  Q := ⟨_, rfl, sQ_den⟩
  g := ⟨_, rfl, by simp, rfl⟩
  A := Or.inr ⟨_, rfl, by ext i; exact i.elim0⟩
  L := ⟨_, rfl, sL_sorted, sL_den⟩
  R := ⟨_, rfl, sR_sorted, sR_den⟩
  low := Or.inl ⟨rfl, rfl, by ext i; fin_cases i; rfl, by ext i; fin_cases i; rfl⟩
  x0 := Or.inl ⟨rfl, rfl⟩
  tiny := by
    have h : ∀ i j : Fin 2, (prob [2, 0, 0, 2] [-2, -2] [0] [0]).C i j = if i = j then 0 else 1 := by
      intro i j; fin_cases i <;> fin_cases j <;> decide +kernel
    intro i j
    rw [h]
    split
    · exact Or.inl rfl
    · right; norm_num

theorem args_are : args.Are dim (prob [2, 0, 0, 2] [-2, -2] [0] [0]) 0 where
  fits := by
    refine ⟨⟨_, rfl, by decide⟩, ⟨_, rfl, by decide⟩, ⟨_, rfl, by decide⟩, ?_, ?_, ?_, ?_, ?_, ?_, ?_, ?_, ?_, ?_, ?_, ?_⟩
    · rintro v ⟨⟩; decide
    all_goals · rintro v ⟨⟩
  Q := ⟨_, rfl, by simp, rfl⟩
  g := ⟨_, rfl, by simp, rfl⟩
  A := Or.inl ⟨rfl, rfl⟩
  L := ⟨_, rfl, by simp, rfl⟩
  R := ⟨_, rfl, by simp, rfl⟩
  low := Or.inl ⟨rfl, rfl, by ext i; fin_cases i; rfl, by ext i; fin_cases i; rfl⟩
  x0 := Or.inl ⟨rfl, rfl⟩

/-- answers that depend on the request only through the linear term -/
theorem solver_same (ans : ℚ → ℚ → List ℚ × List ℚ × List ℚ) (Q : Matrix (Fin 2) (Fin 2) ℚ) (A : Matrix (Fin 2) (Fin 2) ℚ) :
    SameAnswers (solver ans) (solver ans) dim Q A where
  rnd := rfl
  junk := rfl
  qp := by
    intro k s s' init g lA uA x y lb ub q p _ _ h h'
    cases s with
    | osqp U V => exact absurd rfl (h U V)
    | _ => cases s' with
      | osqp U V => exact absurd rfl (h' U V)
      | _ => rfl

/-- load in sparse form and run -/
def goS (e : Env (Ext ℚ)) (op : Options (Ext ℚ)) (a : SparseArgs (Ext ℚ)) (fuel : Nat) : M (Option (RV × Obj (Ext ℚ))) := do
  let r ← loadSparse e (Obj.new op 2 0 1) a
  runSolver e fuel r.2

/-- the hypotheses of `C28_same` are met, and the common result is a successful run -/
example : ∃ o o', loadDense (solver ans1) (Obj.new { opts with qpSolver := 0 } 2 0 1) args = .ok (.successfulReturn, o) ∧
    loadSparse (solver ans1) (Obj.new { opts with qpSolver := 1 } 2 0 1) sargs = .ok (.successfulReturn, o') ∧
    RelM (Option.Rel SameEnd) (runSolver (solver ans1) 20 o) (runSolver (solver ans1) 20 o') := by
  have h1 : (loadDense (solver ans1) (Obj.new { opts with qpSolver := 0 } 2 0 1) args).map (·.1) = .ok .successfulReturn := by
    decide +kernel
  have h2 : (loadSparse (solver ans1) (Obj.new { opts with qpSolver := 1 } 2 0 1) sargs).map (·.1) = .ok .successfulReturn := by
    decide +kernel
  cases r1 : loadDense (solver ans1) (Obj.new { opts with qpSolver := 0 } 2 0 1) args with
  | error f => rw [r1] at h1; cases h1
  | ok p1 =>
    cases r2 : loadSparse (solver ans1) (Obj.new { opts with qpSolver := 1 } 2 0 1) sargs with
    | error f => rw [r2] at h2; cases h2
    | ok p2 =>
      obtain ⟨c1, o1⟩ := p1
      obtain ⟨c2, o2⟩ := p2
      rw [r1] at h1
      rw [r2] at h2
      have e1 : c1 = .successfulReturn := by injection h1
      have e2 : c2 = .successfulReturn := by injection h2
      subst e1 e2
      refine ⟨o1, o2, rfl, rfl, ?_⟩
      refine C28_same (n := dim) (P := prob [2, 0, 0, 2] [-2, -2] [0] [0]) (r0 := 1/100) (f := 2) opts (by decide) rfl
        (by decide +kernel) (by decide +kernel) (by decide) args_are sargs_are ⟨rfl, rfl, rfl, rfl, rfl, rfl, rfl, rfl, rfl⟩ ?_
        (solver_fin _) (solver_fin _) (solver_same _ _ _) r1 r2 20
      ext i j
      fin_cases i <;> fin_cases j <;> decide +kernel

example : look (go env { opts with qpSolver := 0 } args 20) = look (goS env { opts with qpSolver := 1 } sargs 20) ∧
    (look (go env { opts with qpSolver := 0 } args 20)).map (·.rv) = some .successfulReturn := by
  constructor <;> decide +kernel

/-- the matrix with rows (2, 1) and (0, 2) -/
def sQ' : CSC ℚ := { m := 2, n := 2, nzmax := 3, p := [0, 1, 3], i := [0, 0, 1], x := [2, 1, 2] }

/-- C28 needs the symmetry: for `Q` with the rows (2, 1) and (0, 2), in the same world, the dense run succeeds at the first
point and the sparse one does not (sparse mode multiplies by the transpose). -/
theorem C28_asymmetric : sQ'.den 2 2 = mat 2 2 [2, 1, 0, 2] ∧
    code (go env { opts with qpSolver := 0, maxIter := 4 } { args with Q := some (emb [2, 1, 0, 2]) } 20) =
      .ok (some (.successfulReturn, some 0)) ∧
    code (goS env { opts with qpSolver := 1, maxIter := 4 } { sargs with Q := some sQ'.emb } 20) =
      .ok (some (.maxIterationsReached, some 0)) := by
  refine ⟨den_ext (by decide +kernel), ?_, ?_⟩ <;> decide +kernel

/-- a tiny `L` -/
def sLt : CSC ℚ := { m := 1, n := 2, nzmax := 1, p := [0, 1, 1], i := [0], x := [1/10^26] }

/-- C28 needs entries that are not tiny: with `L = (10⁻²⁶, 0)` the dense form loads and runs, the sparse form is refused. -/
theorem C28_tiny : sLt.den 1 2 = mat 1 2 [1/10^26, 0] ∧
    (loadDense env obj0 { args with L := some (emb [1/10^26, 0]) }).map (·.1) = .ok .successfulReturn ∧
    (loadSparse env obj0 { sargs with L := some sLt.emb }).map (·.1) =
      .ok .failedSymComplementarityMatrix := by
  refine ⟨den_ext (by decide +kernel), ?_, ?_⟩ <;> decide +kernel

end Ex
end LCQ
