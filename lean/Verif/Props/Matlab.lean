import Verif.Lemmas.Interfaces
import Verif.Props.Tracking
import Verif.Props.Stats
import Verif.Props.Load
import Verif.Props.Safety
import Verif.Props.Choice
import Mathlib.Data.Fintype.Fin
import Mathlib.LinearAlgebra.Matrix.Notation

/-!
# C44, C50: the MATLAB interface
-/

namespace LCQ
open Scalar
open scoped Matrix

/-- row-major storage of a matrix -/
def rowMajor {β : Type} {m n : Nat} (A : Matrix (Fin m) (Fin n) β) : List β :=
  List.ofFn fun k : Fin (m * n) => A k.divNat k.modNat

/-- column-major storage of a matrix -/
def colMajor {β : Type} {m n : Nat} (A : Matrix (Fin m) (Fin n) β) : List β :=
  List.ofFn fun k : Fin (n * m) => A k.modNat k.divNat

@[simp] theorem rowMajor_length {β : Type} {m n : Nat} (A : Matrix (Fin m) (Fin n) β) : (rowMajor A).length = m * n := by
  simp [rowMajor]

@[simp] theorem colMajor_length {β : Type} {m n : Nat} (A : Matrix (Fin m) (Fin n) β) : (colMajor A).length = n * m := by
  simp [colMajor]

theorem colMajor_eq {β : Type} {m n : Nat} (A : Matrix (Fin m) (Fin n) β) : colMajor A = rowMajor Aᵀ := rfl

theorem rowMajor_get {β : Type} {m n : Nat} (A : Matrix (Fin m) (Fin n) β) (i : Fin m) (j : Fin n) :
    (rowMajor A)[i.1 * n + j.1]? = some (A i j) := by
  have h : i.1 * n + j.1 < m * n := idx_lt i.2 j.2
  rw [rowMajor, List.getElem?_ofFn, dif_pos h]
  congr 2
  · ext; simp [Fin.divNat, idx_div j.2]
  · ext; simp [Fin.modNat, idx_mod j.2]

theorem colMajor_get {β : Type} {m n : Nat} (A : Matrix (Fin m) (Fin n) β) (i : Fin m) (j : Fin n) :
    (colMajor A)[j.1 * m + i.1]? = some (A i j) := rowMajor_get Aᵀ j i

theorem rowMajor_inj {β : Type} {m n : Nat} {A B : Matrix (Fin m) (Fin n) β} (h : rowMajor A = rowMajor B) : A = B := by
  ext i j
  have h1 := rowMajor_get A i j
  rw [h, rowMajor_get B i j] at h1
  injection h1 with h1
  exact h1.symm

section layout
variable {α : Type} [Scalar α]

theorem grid_rowMajor {m n : Nat} {f : Nat → Nat → α} {A : Matrix (Fin m) (Fin n) α} (h : ∀ i j, f i.1 j.1 = A i j) :
    grid m n f = rowMajor A := by
  symm
  apply eq_grid_of (by simp)
  intro i hi j hj
  have := rowMajor_get A ⟨i, hi⟩ ⟨j, hj⟩
  simp only at this
  rw [gt, List.getD_eq_getElem?_getD, this]
  exact (h ⟨i, hi⟩ ⟨j, hj⟩).symm

/-- C44 (any arithmetic): `colMajorToRowMajor` turns the column-major storage of a matrix of any size into its row-major
storage, whatever the target array held before. -/
theorem C44_layout {m n : Nat} (A : Matrix (Fin m) (Fin n) α) (b : List α) (hb : b.length = m * n) :
    colToRow (colMajor A) b m n = .ok (rowMajor A) := by
  rw [colToRow, loop_fill2 (fun i j => gt (colMajor A) (j * m + i)) m n _ b hb]
  · congr 1
    apply grid_rowMajor
    intro i j
    have := colMajor_get A i j
    rw [gt, List.getD_eq_getElem?_getD, this]
    rfl
  · intro i hi j hj c hc _
    have h1 : j * m + i < (colMajor A).length := by rw [colMajor_length]; exact idx_lt hj hi
    rw [rd_ok h1, ok_bind, wr_ok (by rw [hc]; exact idx_lt hi hj)]

/-- the hypotheses can be met: a 2×3 matrix -/
example : colMajor !![(1 : Int), 2, 3; 4, 5, 6] = [1, 4, 2, 5, 3, 6] ∧ rowMajor !![(1 : Int), 2, 3; 4, 5, 6] = [1, 2, 3, 4, 5, 6] := by
  decide +kernel

end layout

/-! ## the statistics -/

section stats
variable {α : Type} [Scalar α]

/-- The contents which the tracked fields should have according to their names. -/
def seriesOf (s : Stats α) : String → List α
  | "innerIters" => s.innerIters.map ofInt
  | "xSteps" => s.xSteps.flatten
  | "accumulatedSubproblemIters" => s.accuIters.map ofInt
  | "stepLength" => s.stepLength
  | "stepSize" => s.stepSize
  | "statVals" => s.statVals
  | "objVals" => s.objVals
  | "phiVals" => s.phiVals
  | "meritVals" => s.meritVals
  | "subproblemIters" => s.subIters.map ofInt
  | _ => []

/-- The contents which the first eight fields should have. -/
def scalarOf (time : α) (ret : RV) (s : Stats α) : String → List α
  | "iters_total" => [ofInt s.iterTotal]
  | "iters_outer" => [ofInt s.iterOuter]
  | "iters_subproblem" => [ofInt s.subproblemIter]
  | "rho_opt" => [s.rhoOpt]
  | "elapsed_time" => [time]
  | "exit_flag" => [ofInt ret.code]
  | "solution_type" => [ofInt s.status.code]
  | "qp_exit_flag" => [ofInt s.exitFlag]
  | _ => []

/-- the field under which the interface stores what belongs to the field `name` -/
def storedUnder : String → String
  | "xSteps" => "qp_exit_flag"
  | "subproblemIters" => "innerIters"
  | "accumulatedSubproblemIters" => "xSteps"
  | "stepLength" => "accumulatedSubproblemIters"
  | "stepSize" => "stepLength"
  | "statVals" => "stepSize"
  | "objVals" => "statVals"
  | "phiVals" => "objVals"
  | "meritVals" => "phiVals"
  | "innerIters" => "meritVals"
  | s => s

theorem seriesArr_eq {β : Type} {t : Nat} {l : List β} (h : l.length = t) (conv : β → α) :
    seriesArr t (some l) conv = .ok (l.map conv) := by
  rw [seriesArr, loop_fill (fun i => (l.map conv).getD i zero) t _ _ (by simp)]
  · congr 1
    symm
    exact eq_tab_of (by simpa using h) fun i hi => rfl
  · intro i hi
    have hi' : i < l.length := by omega
    rw [deref_some, ok_bind, rd, List.getElem?_eq_getElem hi']
    simp only [ok_bind]
    rw [wr_ok (by simp; exact hi)]
    simp [List.getD_eq_getElem?_getD, hi']

theorem getArr_nonempty {β : Type} {l : List β} (h : 0 < l.length) (junk : Nat → β) : Stats.getArr l junk = .ok (some l) := by
  rw [Stats.C31_getters, if_neg (by rintro rfl; simp at h)]

theorem intArr_eq {t : Nat} {l : List Int} (ht : 0 < t) (h : l.length = t) (e : Env α) : intArr t l e = .ok (l.map ofInt) := by
  rw [intArr, getArr_nonempty (by omega), ok_bind, seriesArr_eq h]

theorem dblArr_eq {t : Nat} {l : List α} (ht : 0 < t) (h : l.length = t) (e : Env α) : dblArr t l e = .ok l := by
  rw [dblArr, getArr_nonempty (by omega), ok_bind, seriesArr_eq h, List.map_id]

theorem flatten_get {xs : List (List α)} {n : Nat} (hx : ∀ x ∈ xs, x.length = n) {i j : Nat} (hi : i < xs.length) (hj : j < n) :
    xs.flatten.getD (i * n + j) zero = (xs[i]).getD j zero := by
  induction xs generalizing i with
  | nil => simp at hi
  | cons x xs ih =>
    have h0 : x.length = n := hx x (by simp)
    cases i with
    | zero =>
      simp only [List.flatten_cons, Nat.zero_mul, Nat.zero_add, List.getElem_cons_zero, List.getD_eq_getElem?_getD]
      rw [List.getElem?_append_left (by omega)]
    | succ i =>
      have := ih (fun y hy => hx y (by simp [hy])) (i := i) (by simpa using hi)
      simp only [List.flatten_cons, List.getElem_cons_succ, List.getD_eq_getElem?_getD] at this ⊢
      rw [← this, List.getElem?_append_right (by rw [h0]; nlinarith)]
      congr 2
      rw [h0, Nat.succ_mul]
      omega

theorem flatten_len {xs : List (List α)} {n : Nat} (hx : ∀ x ∈ xs, x.length = n) : xs.flatten.length = xs.length * n := by
  induction xs with
  | nil => simp
  | cons x xs ih =>
    rw [List.flatten_cons, List.length_append, ih (fun y hy => hx y (by simp [hy])), hx x (by simp), List.length_cons]
    ring

theorem stepsArr_eq {t n : Nat} {xs : List (List α)} (ht : xs.length = t) (hx : ∀ x ∈ xs, x.length = n) :
    stepsArr t n xs = .ok xs.flatten := by
  rw [stepsArr, loop_fill2 (fun i j => xs.flatten.getD (i * n + j) zero) t n _ _ (by simp)]
  · congr 1
    symm
    apply eq_grid_of (by rw [flatten_len hx, ht])
    intro i hi j hj
    rfl
  · intro i hi j hj c hc _
    have hi' : i < xs.length := by omega
    have hj' : j < (xs[i]).length := by rw [hx _ (List.getElem_mem hi')]; exact hj
    rw [rd, List.getElem?_eq_getElem hi']
    simp only [ok_bind]
    rw [rd_ok hj', ok_bind, wr_ok (by rw [hc]; exact idx_lt hi hj), flatten_get hx hi' hj]
    rfl

/-- the struct before the tracked series are assigned -/
def plainFields (time : α) (ret : RV) (s : Stats α) : MxStruct α :=
  [("iters_total", [ofInt s.iterTotal]), ("iters_outer", [ofInt s.iterOuter]), ("iters_subproblem", [ofInt s.subproblemIter]),
    ("rho_opt", [s.rhoOpt]), ("elapsed_time", [time]), ("exit_flag", [ofInt ret.code]), ("solution_type", [ofInt s.status.code]),
    ("qp_exit_flag", [ofInt s.exitFlag])]

/-- the struct after the tracked series have been assigned -/
def trackedFields (time : α) (ret : RV) (s : Stats α) : MxStruct α :=
  [("iters_total", [ofInt s.iterTotal]), ("iters_outer", [ofInt s.iterOuter]), ("iters_subproblem", [ofInt s.subproblemIter]),
    ("rho_opt", [s.rhoOpt]), ("elapsed_time", [time]), ("exit_flag", [ofInt ret.code]), ("solution_type", [ofInt s.status.code]),
    ("qp_exit_flag", s.xSteps.flatten), ("innerIters", s.subIters.map ofInt), ("xSteps", s.accuIters.map ofInt),
    ("accumulatedSubproblemIters", s.stepLength), ("stepLength", s.stepSize), ("stepSize", s.statVals), ("statVals", s.objVals),
    ("objVals", s.phiVals), ("phiVals", s.meritVals), ("meritVals", s.innerIters.map ofInt), ("subproblemIters", [])]

theorem plainStruct_eq (time : α) (store : Bool) (ret : RV) (s : Stats α) :
    plainStruct time store ret s = .ok (plainFields time ret s ++ if store then stepNames.map fun n => (n, []) else []) := by
  cases store <;> rfl

/-- C44 (any arithmetic): without stored steps, or when no step has been stored, each of the eight scalar fields holds the value
its name says, and the further fields (with stored steps) are empty. -/
theorem C44_plain (e : Env α) (time : α) (store : Bool) (nV : Nat) (ret : RV) (s : Stats α) (h : store = false ∨ s.iterTotal ≤ 0) :
    ∃ f, statsStruct e time store nV ret s = .ok f ∧
      f.map (·.1) = (if store then statNames ++ stepNames else statNames) ∧
      (∀ name ∈ statNames, f.lookup name = some (scalarOf time ret s name)) ∧
      (store = true → ∀ name ∈ stepNames, f.lookup name = some []) := by
  have hb : ¬ (store = true ∧ 0 < s.iterTotal) := by
    rintro ⟨h1, h2⟩
    rcases h with h | h
    · simp [h] at h1
    · omega
  refine ⟨plainFields time ret s ++ if store then stepNames.map fun n => (n, []) else [], ?_, ?_, ?_, ?_⟩
  · rw [statsStruct, plainStruct_eq, ok_bind, if_neg hb]
  · cases store <;> rfl
  · intro name hn
    simp only [statNames, List.mem_cons, List.not_mem_nil, or_false] at hn
    rcases hn with rfl | rfl | rfl | rfl | rfl | rfl | rfl | rfl <;> rfl
  · rintro rfl name hn
    simp only [stepNames, List.mem_cons, List.not_mem_nil, or_false] at hn
    rcases hn with rfl | rfl | rfl | rfl | rfl | rfl | rfl | rfl | rfl | rfl <;> rfl

/-- C44 (any arithmetic): with stored steps the first seven fields hold the right values, but every tracked series is stored under
the name `storedUnder` gives: the iterates overwrite `qp_exit_flag`, the series of QP iterations is stored as `innerIters`, the
accumulated ones as `xSteps`, and so on; the field `subproblemIters` stays empty. -/
theorem C44_stats (e : Env α) (time : α) (nV : Nat) (ret : RV) (s : Stats α) (t : Nat) (ht : s.iterTotal = t) (h0 : 0 < t) (hl : s.Len t)
    (hx : ∀ x ∈ s.xSteps, x.length = nV) :
    ∃ f, statsStruct e time true nV ret s = .ok f ∧ f.map (·.1) = statNames ++ stepNames ∧
      (∀ name ∈ statNames, name ≠ "qp_exit_flag" → f.lookup name = some (scalarOf time ret s name)) ∧
      (∀ name ∈ stepNames, f.lookup (storedUnder name) = some (seriesOf s name)) ∧
      f.lookup "subproblemIters" = some [] := by
  refine ⟨trackedFields time ret s, ?_, rfl, ?_, ?_, rfl⟩
  · rw [statsStruct, plainStruct_eq, ok_bind, if_pos ⟨rfl, by omega⟩, setSeries, ht, Int.toNat_natCast, stepsArr_eq hl.x hx, ok_bind,
      intArr_eq h0 hl.inner, ok_bind, intArr_eq h0 hl.sub, ok_bind, intArr_eq h0 hl.accu, ok_bind, dblArr_eq h0 hl.len, ok_bind,
      dblArr_eq h0 hl.size, ok_bind, dblArr_eq h0 hl.stat, ok_bind, dblArr_eq h0 hl.obj, ok_bind, dblArr_eq h0 hl.phi, ok_bind,
      dblArr_eq h0 hl.merit, ok_bind]
    rfl
  · intro name hn hq
    simp only [statNames, List.mem_cons, List.not_mem_nil, or_false] at hn
    rcases hn with rfl | rfl | rfl | rfl | rfl | rfl | rfl | rfl
    on_goal 8 => exact absurd rfl hq
    all_goals rfl
  · intro name hn
    simp only [stepNames, List.mem_cons, List.not_mem_nil, or_false] at hn
    rcases hn with rfl | rfl | rfl | rfl | rfl | rfl | rfl | rfl | rfl | rfl <;> rfl

/-- no tracked series is stored under its own name -/
theorem C44_misnamed : ∀ name ∈ stepNames, storedUnder name ≠ name := by decide

/-- C44 (any arithmetic): what a whole call with three outputs returns.  `x` is the last iterate.  The statistics are those of the run:
with stored steps and at least one iteration, under the wrong names. -/
theorem C44_call {E : MexEnv α} (hpos : ∀ k r, 0 ≤ (E.e.qp k r).iter) {fuel : Nat} {prhs : List (Mx α)} {out : MexOut α}
    (h : mexFunction E fuel 3 prhs = .ok (some out)) :
    ∃ n p o r f, mexLoad E prhs = .ok (n, p, o) ∧ runSolver E.e fuel o = .ok (some r) ∧ out.stats = some f ∧
      (∀ x, r.2.s.xk = some x → x.length = n.nV → out.x = x) ∧
      (p.storeSteps = true → 0 < r.2.s.stats.iterTotal →
        (∀ name ∈ stepNames, f.lookup (storedUnder name) = some (seriesOf r.2.s.stats name)) ∧
        (∀ name ∈ statNames, name ≠ "qp_exit_flag" → f.lookup name = some (scalarOf E.time r.1 r.2.s.stats name)) ∧
        f.lookup "subproblemIters" = some []) ∧
      ((p.storeSteps = false ∨ r.2.s.stats.iterTotal ≤ 0) →
        ∀ name ∈ statNames, f.lookup name = some (scalarOf E.time r.1 r.2.s.stats name)) := by
  rw [mexFunction, if_neg (by omega), mx_bind_ok] at h
  obtain ⟨⟨n, p, o⟩, hl, h⟩ := h
  simp only [mx_bind_ok, lift_eq_ok] at h
  obtain ⟨r, hr, h⟩ := h
  cases r with
  | none => cases h
  | some r =>
    simp only [mx_bind_ok] at h
    obtain ⟨out', ho, h⟩ := h
    injection h with h
    injection h with h
    subst h
    rw [mexResults, mx_bind_ok] at ho
    obtain ⟨x, hx, ho⟩ := ho
    rw [mx_bind_ok] at ho
    obtain ⟨x', hx', ho⟩ := ho
    rw [if_neg (by omega), mx_bind_ok] at ho
    obtain ⟨y, hy, ho⟩ := ho
    rw [if_neg (by omega), mx_bind_ok] at ho
    obtain ⟨f, hf, ho⟩ := ho
    injection ho with ho
    subst ho
    rw [lift_eq_ok] at hx hx' hf
    obtain ⟨hV, hC, hd, hp, ha, hs⟩ := mexLoad_inv hl
    have hst : getOutputStatistics r.2 Stats.fresh = r.2.s.stats := rfl
    rw [hst] at hf
    obtain ⟨t, ht⟩ : ∃ t, r.2.s.algo = some t := by
      rw [getPrimalSolution, bind_eq_ok] at hx
      obtain ⟨b, _, hx⟩ := hx
      cases hg : r.2.s.algo with
      | none => rw [hg] at hx; cases hx
      | some t => exact ⟨t, rfl⟩
    obtain ⟨i, hi, hcase⟩ := runSolver_inv hr
    have hi1 : i.1 = .successfulReturn := by
      rcases hcase with ⟨hne, rfl⟩ | ⟨h1, _⟩
      · exfalso
        rw [initializeSolver, bind_eq_ok] at hi
        obtain ⟨c, hc, hi⟩ := hi
        split at hi
        · injection hi with hi
          subst hi
          obtain ⟨nd, bo, l, u, sub, y, w, hc2⟩ := chooseSolver_inv hc
          rw [hc2] at ht
          have : o.s.algo = some t := ht
          rw [ha] at this
          cases this
        · simp only [initRest, bind_eq_ok] at hi
          obtain ⟨_, _, _, _, _, _, _, _, hi⟩ := hi
          injection hi with hi
          rw [← hi] at hne
          exact hne rfl
      · exact h1
    have hdim : r.2.d.dims = some n := by
      rcases hcase with ⟨hne, _⟩ | ⟨_, h2, _⟩
      · exact absurd hi1 hne
      · rw [h2, initializeSolver_dims hi, hd]
    obtain ⟨⟨t', ht', hlen⟩, hwide, _⟩ := C30_tracking hpos hr hi hi1
    refine ⟨n, p, o, r, f, hl, hr, rfl, ?_, ?_, ?_⟩
    · intro x0 hx0 hlx
      have := C38_primal r.2 n t x0 (List.replicate n.nV zero) hdim ht hx0 (by omega) (by simp)
      rw [this] at hx
      injection hx with hx
      subst hx
      simp only [deref_some, Except.ok.injEq] at hx'
      rw [← hx', List.take_of_length_le (by omega)]
      simp
    · intro hstore hpos'
      rw [hp, hstore, if_pos rfl] at hlen
      rw [hstore] at hf
      obtain ⟨f', h1, _, h2, h3, h4⟩ := C44_stats E.e E.time n.nV r.1 r.2.s.stats t' ht' (by omega) hlen (hwide n hdim)
      rw [h1] at hf
      injection hf with hf
      subst hf
      exact ⟨h3, h2, h4⟩
    · intro hno
      obtain ⟨f', h1, _, h2, _⟩ := C44_plain E.e E.time p.storeSteps n.nV r.1 r.2.s.stats hno
      rw [h1] at hf
      injection hf with hf
      subst hf
      exact h2

end stats
end LCQ
