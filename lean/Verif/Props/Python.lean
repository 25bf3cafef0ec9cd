import Verif.Model.Python
import Verif.Props.Matlab
import Verif.Props.MatlabLoad
import Verif.Props.Again

/-!
# C45: the Python interface
-/

set_option linter.unusedSectionVars false

namespace LCQ
open Scalar
open scoped Matrix

/-- The matrix which one gets by reading the column-major storage of a matrix as row-major storage. -/
def reread {β : Type} {m n : Nat} (A : Matrix (Fin m) (Fin n) β) : Matrix (Fin m) (Fin n) β := fun i j =>
  A ⟨(i.1 * n + j.1) % m, Nat.mod_lt _ (by have := i.2; omega)⟩ ⟨(i.1 * n + j.1) / m, by
    have h := idx_lt i.2 j.2
    exact Nat.div_lt_of_lt_mul h⟩

theorem colMajor_reread {β : Type} {m n : Nat} (A : Matrix (Fin m) (Fin n) β) : colMajor A = rowMajor (reread A) := by
  apply List.ext_getElem
  · simp [Nat.mul_comm]
  · intro k h1 h2
    have hk : k < m * n := by simpa using h2
    have hn : 0 < n := by
      rcases Nat.eq_zero_or_pos n with rfl | h
      · simp at hk
      · exact h
    simp only [colMajor, rowMajor, List.getElem_ofFn, reread, Fin.divNat, Fin.modNat]
    have hkk : k / n * n + k % n = k := Nat.div_add_mod' k n
    congr 1
    · ext; simp [hkk]
    · ext; simp [hkk]

/-- C45: for square matrices, rereading is transposing. -/
theorem C45_square {β : Type} {n : Nat} (A : Matrix (Fin n) (Fin n) β) : reread A = Aᵀ :=
  rowMajor_inj (by rw [← colMajor_reread]; rfl)

/-- C45: a matrix with at most one row or one column is not changed. -/
theorem C45_row {β : Type} {m n : Nat} (A : Matrix (Fin m) (Fin n) β) (h : m ≤ 1 ∨ n ≤ 1) : reread A = A := by
  ext i j
  have hi := i.2
  have hj := j.2
  rw [reread]
  rcases h with h | h
  · obtain rfl : m = 1 := by omega
    congr 1
    · ext; simp [Nat.mod_one]
    · ext; simp
  · obtain rfl : n = 1 := by omega
    congr 1
    · ext
      have : j.1 = 0 := by omega
      simp only [this, Nat.mul_one, Nat.add_zero]
      exact Nat.mod_eq_of_lt hi
    · ext
      have : j.1 = 0 := by omega
      simp only [this, Nat.mul_one, Nat.add_zero]
      exact Nat.div_eq_of_lt hi

/-- C45: these are the only shapes for which no matrix is changed. -/
theorem C45_shapes {β : Type} {m n : Nat} (a b : β) (hab : a ≠ b) :
    (∀ A : Matrix (Fin m) (Fin n) β, reread A = A) ↔ (m ≤ 1 ∨ n ≤ 1) := by
  constructor
  · intro h
    by_contra hne
    have hm : 2 ≤ m := by omega
    have hn : 2 ≤ n := by omega
    have h1 := congrFun (congrFun (h fun i j => if i.1 = 1 ∧ j.1 = 0 then a else b) ⟨0, by omega⟩) ⟨1, by omega⟩
    simp only [reread, Nat.zero_mul, Nat.zero_add] at h1
    rw [if_pos ⟨Nat.mod_eq_of_lt (by omega), Nat.div_eq_of_lt (by omega)⟩, if_neg (by simp)] at h1
    exact hab h1
  · intro h A
    exact C45_row A h

section load
variable {α : Type} [Scalar α] {n : Dims}

/-- `Eigen` copy of a matrix -/
def eigen {β : Type} {m k : Nat} (A : Matrix (Fin m) (Fin k) β) : Eigen β := ⟨m, k, colMajor A⟩

/-- a vector, empty when left out -/
def pyVec {β : Type} {k : Nat} (v : Option (Fin k → β)) : List β := (v.map List.ofFn).getD []

/-- A problem with the documented sizes; optional vectors may be left out. -/
structure PyCall (α : Type) (n : Dims) where
  /-- Q -/
  Q : Matrix (Fin n.nV) (Fin n.nV) α
  /-- g -/
  g : Fin n.nV → α
  /-- L -/
  L : Matrix (Fin n.nComp) (Fin n.nV) α
  /-- R -/
  R : Matrix (Fin n.nComp) (Fin n.nV) α
  /-- lbL -/
  lbL : Option (Fin n.nComp → α) := none
  /-- ubL -/
  ubL : Option (Fin n.nComp → α) := none
  /-- lbR -/
  lbR : Option (Fin n.nComp → α) := none
  /-- ubR -/
  ubR : Option (Fin n.nComp → α) := none
  /-- A -/
  A : Matrix (Fin n.nC) (Fin n.nV) α
  /-- lbA -/
  lbA : Option (Fin n.nC → α) := none
  /-- ubA -/
  ubA : Option (Fin n.nC → α) := none
  /-- lb -/
  lb : Option (Fin n.nV → α) := none
  /-- ub -/
  ub : Option (Fin n.nV → α) := none
  /-- x0 -/
  x0 : Option (Fin n.nV → α) := none
  /-- y0 -/
  y0 : Option (Fin (n.nV + n.nA) → α) := none

/-- what the dense loader should be called with: matrices stored by rows -/
def PyCall.rows (c : PyCall α n) : DenseArgs α where
  Q := some (rowMajor c.Q)
  g := some (List.ofFn c.g)
  L := some (rowMajor c.L)
  R := some (rowMajor c.R)
  lbL := vecArg c.lbL
  ubL := vecArg c.ubL
  lbR := vecArg c.lbR
  ubR := vecArg c.ubR
  A := if n.nC = 0 then none else some (rowMajor c.A)
  lbA := vecArg c.lbA
  ubA := vecArg c.ubA
  lb := vecArg c.lb
  ub := vecArg c.ub
  x0 := vecArg c.x0
  y0 := vecArg c.y0

/-- the call in Python, with the given matrices -/
def PyCall.py (c : PyCall α n) (Q L R A : Eigen α) : PyDense α where
  Q := Q
  g := List.ofFn c.g
  L := L
  R := R
  lbL := pyVec c.lbL
  ubL := pyVec c.ubL
  lbR := pyVec c.lbR
  ubR := pyVec c.ubR
  A := A
  lbA := pyVec c.lbA
  ubA := pyVec c.ubA
  lb := pyVec c.lb
  ub := pyVec c.ub
  x0 := pyVec c.x0
  y0 := pyVec c.y0

/-- the problem with all matrices reread -/
def PyCall.reread (c : PyCall α n) : PyCall α n :=
  { c with Q := LCQ.reread c.Q, L := LCQ.reread c.L, R := LCQ.reread c.R, A := LCQ.reread c.A }

theorem vecPtr_pyVec {k : Nat} (v : Option (Fin k → α)) : vecPtr (pyVec v) = vecArg v := by
  cases v with
  | none => simp [pyVec, vecPtr, vecArg]
  | some v =>
    by_cases h : k = 0
    · subst h; simp [pyVec, vecPtr, vecArg]
    · simp [pyVec, vecPtr, vecArg, h, Nat.pos_of_ne_zero h]

theorem eigen_ptr {m k : Nat} (A : Matrix (Fin m) (Fin k) α) (hm : m ≠ 0) (hk : k ≠ 0) : (eigen A).ptr = some (colMajor A) := by
  rw [Eigen.ptr, if_pos]
  · rfl
  · show 0 < (colMajor A).length
    rw [colMajor_length]
    exact Nat.mul_pos (Nat.pos_of_ne_zero hk) (Nat.pos_of_ne_zero hm)

theorem eigen_rawPtr {m k : Nat} (A : Matrix (Fin m) (Fin k) α) (hk : k ≠ 0) :
    (eigen A).rawPtr = if m = 0 then none else some (colMajor A) := by
  by_cases hm : m = 0
  · subst hm
    rw [Eigen.rawPtr, if_neg, if_pos rfl]
    simp [eigen]
  · rw [Eigen.rawPtr, if_pos, if_neg hm, eigen_ptr A hm hk]
    exact ⟨Nat.pos_of_ne_zero hk, Nat.pos_of_ne_zero hm⟩

/-- C45 (any arithmetic): the dense load from Python is the load of the problem with all matrices reread. -/
theorem C45_load (e : Env α) (o : Obj α) (c : PyCall α n) (hV : n.nV ≠ 0) (hC : n.nComp ≠ 0) :
    pyLoadDense e o (c.py (eigen c.Q) (eigen c.L) (eigen c.R) (eigen c.A)) = loadDense e o c.reread.rows := by
  rw [pyLoadDense]
  congr 1
  have hg : vecPtr (List.ofFn c.g) = some (List.ofFn c.g) := by simp [vecPtr, Nat.pos_of_ne_zero hV]
  simp only [PyDense.args, PyCall.py, PyCall.rows, PyCall.reread, vecPtr_pyVec, eigen_ptr c.Q hV hV, eigen_ptr c.L hC hV, eigen_ptr c.R hC hV,
    eigen_rawPtr c.A hV, colMajor_reread, hg]

/-- C45 (any arithmetic): the loader gets the arguments of the given problem exactly if rereading changes none of the matrices. -/
theorem C45_right (c : PyCall α n) :
    c.reread.rows = c.rows ↔ c.Qᵀ = c.Q ∧ LCQ.reread c.L = c.L ∧ LCQ.reread c.R = c.R ∧ LCQ.reread c.A = c.A := by
  constructor
  · intro h
    have h1 := congrArg DenseArgs.Q h
    have h2 := congrArg DenseArgs.L h
    have h3 := congrArg DenseArgs.R h
    have h4 := congrArg DenseArgs.A h
    simp only [PyCall.rows, PyCall.reread, Option.some.injEq] at h1 h2 h3 h4
    refine ⟨?_, rowMajor_inj h2, rowMajor_inj h3, ?_⟩
    · rw [← C45_square]; exact rowMajor_inj h1
    · by_cases h0 : n.nC = 0
      · ext i
        have := i.2
        omega
      · rw [if_neg h0, if_neg h0] at h4
        injection h4 with h4
        exact rowMajor_inj h4
  · rintro ⟨h1, h2, h3, h4⟩
    rw [← C45_square] at h1
    simp only [PyCall.reread, h1, h2, h3, h4]

/-- C45 (any arithmetic): what the object holds after a successful load. -/
theorem C45_held (e : Env α) (o o' : Obj α) (c : PyCall α n) (hn : o.d.dims = some n) (hV : n.nV ≠ 0) (hC : n.nComp ≠ 0)
    (h : pyLoadDense e o (c.py (eigen c.Q) (eigen c.L) (eigen c.R) (eigen c.A)) = .ok (.successfulReturn, o')) :
    o'.d.Q = some (rowMajor c.Qᵀ) ∧ o'.d.L = some (rowMajor (LCQ.reread c.L)) ∧ o'.d.R = some (rowMajor (LCQ.reread c.R)) ∧
    o'.d.A = some (rowMajor (LCQ.reread c.A) ++ rowMajor (LCQ.reread c.L) ++ rowMajor (LCQ.reread c.R)) := by
  rw [C45_load e o c hV hC] at h
  have hf : c.reread.rows.Fits n := by
    constructor
    · exact ⟨_, rfl, by simp⟩
    · exact ⟨_, rfl, by simp⟩
    · exact ⟨_, rfl, by simp⟩
    · rintro v ⟨⟩; simp
    · intro v hv
      have hv' : (if n.nC = 0 then none else some (rowMajor (LCQ.reread c.A))) = some v := hv
      split at hv'
      · cases hv'
      · injection hv' with hv'
        rw [← hv']
        simp
    all_goals exact vecArg_len _
  have hs := C14_stored e o o' n _ hn hV hC hf h
  obtain ⟨v, hv, hQ⟩ := hs.Q
  injection hv with hv
  subst hv
  obtain ⟨vL, vR, hvL, hvR, hL', hR', hA'⟩ := hs.stacked
  injection hvL with hvL
  injection hvR with hvR
  subst hvL hvR
  have eL : (rowMajor c.reread.L).take (n.nComp * n.nV) = rowMajor (LCQ.reread c.L) := take_rowMajor _
  have eR : (rowMajor c.reread.R).take (n.nComp * n.nV) = rowMajor (LCQ.reread c.R) := take_rowMajor _
  refine ⟨?_, ?_, ?_, ?_⟩
  · rw [hQ, take_rowMajor, ← C45_square]; rfl
  · rw [hL', eL]
  · rw [hR', eR]
  · rw [hA', eL, eR]
    congr 3
    have : c.reread.rows.A = if n.nC = 0 then none else some (rowMajor (LCQ.reread c.A)) := rfl
    rw [this]
    by_cases h0 : n.nC = 0
    · have hz : rowMajor (LCQ.reread c.A) = [] := by rw [← List.length_eq_zero_iff, rowMajor_length, h0, Nat.zero_mul]
      rw [if_pos h0, hz]
      simp
    · rw [if_neg h0, Option.getD_some, take_rowMajor]

/-- C45 (any arithmetic): as sizes are not checked, the given problem is loaded when all transposes are passed instead. -/
theorem C45_transposed (e : Env α) (o : Obj α) (c : PyCall α n) (hV : n.nV ≠ 0) (hC : n.nComp ≠ 0) :
    pyLoadDense e o (c.py (eigen c.Qᵀ) (eigen c.Lᵀ) (eigen c.Rᵀ) (eigen c.Aᵀ)) = loadDense e o c.rows := by
  rw [pyLoadDense]
  congr 1
  have hg : vecPtr (List.ofFn c.g) = some (List.ofFn c.g) := by simp [vecPtr, Nat.pos_of_ne_zero hV]
  have hA : (eigen c.Aᵀ).rawPtr = if n.nC = 0 then none else some (colMajor c.Aᵀ) := by
    by_cases hm : n.nC = 0
    · rw [Eigen.rawPtr, if_neg, if_pos hm]
      simp [eigen, hm]
    · rw [Eigen.rawPtr, if_pos, if_neg hm, eigen_ptr c.Aᵀ hV hm]
      exact ⟨Nat.pos_of_ne_zero hm, Nat.pos_of_ne_zero hV⟩
  simp only [PyDense.args, PyCall.py, PyCall.rows, vecPtr_pyVec, eigen_ptr c.Qᵀ hV hV, eigen_ptr c.Lᵀ hV hC, eigen_ptr c.Rᵀ hV hC,
    hA, colMajor_eq, Matrix.transpose_transpose, hg]

/-- C45 (any arithmetic): the Python getters return the iterate and the multipliers; without multipliers zeros. -/
theorem C45_getters (o : Obj α) (t : AlgStat) (hn : o.d.dims = some n) (hV : n.nV ≠ 0) (ht : o.s.algo = some t)
    {x : List α} (hx : o.s.xk = some x) (lx : x.length = n.nV) {k : Nat} (hk : o.d.nDuals = some k) (hk0 : 0 < k) :
    pyPrimal o = .ok x ∧ (∀ y, o.s.yk = some y → y.length = k → pyDual o = .ok y) ∧
    (o.s.yk = none → pyDual o = .ok (List.replicate k zero)) := by
  have hz : ∀ j, 0 < j → (zeros j : Option (List α)) = some (List.replicate j zero) := by
    intro j hj
    simp [zeros, vecPtr, hj]
  refine ⟨?_, ?_, ?_⟩
  · rw [pyPrimal, getNumberOfPrimals, hn, initd_some, ok_bind, ok_bind, hz _ (Nat.pos_of_ne_zero hV),
      C38_primal o n t x _ hn ht hx (by omega) (by simp)]
    simp [ok_bind, lx]
  · intro y hy ly
    rw [pyDual, getNumberOfDuals, hk, initd_some, ok_bind, hz _ hk0, C38_dual o k t y _ hk ht hy (by omega) (by simp)]
    simp [ok_bind, ly]
  · intro hy
    rw [pyDual, getNumberOfDuals, hk, initd_some, ok_bind, hz _ hk0, (C38_null o t ht).2.2.2 _ hy]
    rfl

end load

namespace Ex

/-- `L` and `R` of `0 ≤ y ⟂ x ≥ 0`, written with a second, void pair -/
def pyL : Matrix (Fin 2) (Fin 2) ℚ := !![0, 1; 0, 0]

/-- see `pyL` -/
def pyR : Matrix (Fin 2) (Fin 2) ℚ := !![1, 0; 0, 0]

/-- minimise the distance to (1, 1) subject to `0 ≤ y ⟂ x ≥ 0` -/
def pyCall : PyCall (Ext ℚ) ⟨2, 0, 2⟩ where
  Q := !![.fin 2, .fin 0; .fin 0, .fin 2]
  g := ![.fin (-2), .fin (-2)]
  L := pyL.map .fin
  R := pyR.map .fin
  A := fun i => i.elim0

/-- load and run -/
def pyRun (c : PyCall (Ext ℚ) ⟨2, 0, 2⟩) (e : Env (Ext ℚ)) : M (Option (RV × Obj (Ext ℚ))) := do
  let r ← pyLoadDense e (Obj.new opts 2 0 2) (c.py (eigen c.Q) (eigen c.L) (eigen c.R) (eigen c.A))
  runSolver e 5 r.2

/-- the solver finds (1, 1) without active constraints, which is the exact solution of all subproblems of the reread problem -/
def env11 : Env (Ext ℚ) := envOf fun _ _ => good [1, 1] [0, 0, 0, 0, 0, 0]

/-- C45: the reread problem has no complementarity at all; the solver reports success at (1, 1), where the two sides of the given first
pair are both 1. -/
theorem C45_fails : (seen (pyRun pyCall env11)).map (fun r => (r.1, r.2.1)) = some (.successfulReturn, some [.fin 1, .fin 1]) ∧
    (pyL *ᵥ ![1, 1]) 0 = 1 ∧ (pyR *ᵥ ![1, 1]) 0 = 1 := by
  refine ⟨?_, ?_, ?_⟩ <;> decide +kernel

/-- the hypotheses of the load theorems can be met, and `pyL` is changed while a single row is not -/
example : (pyLoadDense env (Obj.new opts 2 0 2) (pyCall.py (eigen pyCall.Q) (eigen pyCall.L) (eigen pyCall.R) (eigen pyCall.A))).map
      (fun r => (r.1, r.2.d.L)) = .ok (.successfulReturn, some (emb [0, 0, 1, 0])) ∧
    LCQ.reread pyL ≠ pyL ∧ LCQ.reread !![(1 : ℚ), 2, 3; 4, 5, 6] = !![1, 4, 2; 5, 3, 6] ∧ LCQ.reread !![(1 : ℚ), 2, 3] = !![1, 2, 3] := by
  refine ⟨?_, ?_, ?_, ?_⟩ <;> decide +kernel

/-- getters after a run -/
example : (pyRun pyCall env11).map (Option.map fun r => ((pyPrimal r.2).toOption, (pyDual r.2).toOption)) =
    .ok (some (some (emb [1, 1]), some (emb [0, 0, -1 / 100, 0, 0, -1 / 100]))) := by
  decide +kernel

end Ex
end LCQ
