import Verif.Lemmas.PythonScriptsCircle
import Verif.Lemmas.PythonScriptsOsqp
import Verif.Lemmas.CircleRun

/-!
# C80: the example scripts of the Python interface, any arithmetic
-/

namespace LCQ.PyScript
open Scalar

variable {α : Type} [Scalar α]

/-- C80: the matrices, vectors and options of the warm-up scripts are those of the C++ programs.  The scripts write matrices by rows and
pybind11 stores them by columns; the scripts therefore hand over `L` and `R` transposed. -/
theorem C80_data (qd sd : Nat) (u v : α) :
    (baseArgs : PyDense α).args = WarmUp.base ∧ (guessedArgs : PyDense α).args = WarmUp.guessed ∧
    (withAArgs : PyDense α).args = (WarmUp.withA qd sd).args ∧
    (binaryArgs [u, v]).args = { (WarmUp.binary qd sd).args with x0 := some [u, v] } ∧
    (quiet qd sd : PY (Options α)) = .ok (WarmUp.withA qd sd).opts ∧
    (options qd sd "QPOASES_DENSE" : PY (Options α)) = .ok (WarmUp.opts qd sd 0) ∧
    (options qd sd "QPOASES_SPARSE" : PY (Options α)) = .ok (WarmUp.opts qd sd 1) ∧
    (options qd sd "OSQP_SPARSE" : PY (Options α)) = .ok (WarmUp.opts qd sd 2) ∧
    (maxOptions qd sd : PY (Options α)) = .ok (WarmUp.maxPenalty qd sd).opts ∧
    (circleOptions qd sd : PY (Options α)) = .ok (Circle.options qd sd) ∧
    (stepsOptions qd sd : PY (Options α)) = .ok ((WarmUp.opts qd sd 1).setStoreSteps true).2 :=
  ⟨rfl, rfl, rfl, rfl, rfl, rfl, rfl, rfl, rfl, rfl, rfl⟩

/-- the number of rows and columns of a matrix argument -/
def shape (A : Eigen α) : Nat × Nat := (A.m, A.n)

/-- C80: the matrices of the warm-up scripts have the shapes which the numbers of variables, constraints and pairs ask for. -/
theorem C80_shapes (x0 : List α) :
    shape (baseArgs : PyDense α).Q = (2, 2) ∧ shape (baseArgs : PyDense α).L = (1, 2) ∧ shape (baseArgs : PyDense α).R = (1, 2) ∧
    shape (withAArgs : PyDense α).A = (1, 2) ∧ shape (binaryArgs x0).L = (2, 2) ∧ shape (binaryArgs x0).R = (2, 2) :=
  ⟨rfl, rfl, rfl, rfl, rfl, rfl⟩

/-- the message about a failing run -/
def failed (r : RV) : List String := if r = .successfulReturn then [] else ["Failed to solve LCQP."]

/-- the four printed statistics -/
def shown (s : Stats α) : List (PyStat α) := [.int s.iterTotal, .int s.iterOuter, .num s.rhoOpt, .int s.subproblemIter]

theorem warmUp_eq (e : Env α) (qd sd fuel : Nat) : warmUp e qd sd fuel =
    finish e fuel (problem qd sd 2 0 1 (WarmUp.opts qd sd 0)) (fun o => pyLoadDense e o guessedArgs) four := by
  rw [warmUp, dense_opts, py_bind]

theorem withA_eq (e : Env α) (qd sd fuel : Nat) : withA e qd sd fuel =
    finish e fuel (problem qd sd 2 1 1 (WarmUp.withA qd sd).opts) (fun o => pyLoadDense e o withAArgs) [] := by
  rw [withA, quiet_eq, py_bind]

/-- C80 (any arithmetic, any QP answers): warm_up.py has no undefined behaviour and raises no exception.  Loading succeeds and gives the
object of warm_up.cpp.  The script prints the last iterate, the multipliers and the statistics of the run, and a message exactly if the
run did not return success.  `M` bounds the iteration counts reported by the QP solver. -/
theorem C80_warm_up (e : Env α) (M : Int) (he : AnsBnd e M) (hM : 1001 * M ≤ intMax) (qd sd fuel : Nat) :
    ∃ o q, pyLoadDense e (problem qd sd 2 0 1 (WarmUp.opts qd sd 0)) guessedArgs = .ok (.successfulReturn, o) ∧
      WarmUp.prepare e qd sd (WarmUp.warmUp qd sd) = .ok (some o) ∧ runSolver e fuel o = .ok q ∧
      (q = none → warmUp e qd sd fuel = .ok none) ∧
      ∀ rr r, q = some (rr, r) → ∃ x y, r.s.xk = some x ∧ r.s.yk = some y ∧ x.length = 2 ∧ y.length = 4 ∧
        warmUp e qd sd fuel = .ok (some ⟨failed rr, x, y, shown r.s.stats⟩) := by
  obtain ⟨o, q, h1, hopt, h2, hr, h3, h4⟩ := script e he hM (qd := qd) (sd := sd) (WarmUp.warmUp_ok qd sd) rfl rfl (by nofun)
    (fun _ => rfl) (by rintro ⟨_, h, _⟩; exact nomatch h) (by rintro ⟨_, h, _⟩; exact nomatch h) (a := guessedArgs) rfl four fuel
  refine ⟨o, q, h1, h2, hr.run, fun h => by rw [warmUp_eq]; exact h3 h, ?_⟩
  rintro rr r rfl
  obtain ⟨x, y, hx, hy, lx, ly, hf⟩ := hr.out _ rfl
  refine ⟨x, y, hx, hy, lx, by rw [ly, hopt]; rfl, ?_⟩
  have h5 := h4 _ rfl
  rw [hf _ _ _ (ask_four _), py_bind] at h5
  rw [warmUp_eq]
  exact h5

/-- C80 (any arithmetic, any QP answers): the same for warm_up_w_A.py, which prints no statistics. -/
theorem C80_w_A (e : Env α) (M : Int) (he : AnsBnd e M) (hM : 1001 * M ≤ intMax) (qd sd fuel : Nat) :
    ∃ o q, pyLoadDense e (problem qd sd 2 1 1 (WarmUp.withA qd sd).opts) withAArgs = .ok (.successfulReturn, o) ∧
      WarmUp.prepare e qd sd (WarmUp.withA qd sd) = .ok (some o) ∧ runSolver e fuel o = .ok q ∧
      (q = none → withA e qd sd fuel = .ok none) ∧
      ∀ rr r, q = some (rr, r) → ∃ x y, r.s.xk = some x ∧ r.s.yk = some y ∧ x.length = 2 ∧ y.length = 5 ∧
        withA e qd sd fuel = .ok (some ⟨failed rr, x, y, []⟩) := by
  obtain ⟨o, q, h1, hopt, h2, hr, h3, h4⟩ := script e he hM (qd := qd) (sd := sd) (WarmUp.withA_ok qd sd) rfl rfl (by nofun)
    (by nofun) (by rintro ⟨_, h, _⟩; exact nomatch h) (by rintro ⟨_, h, _⟩; exact nomatch h) (a := withAArgs) rfl [] fuel
  refine ⟨o, q, h1, h2, hr.run, fun h => by rw [withA_eq]; exact h3 h, ?_⟩
  rintro rr r rfl
  obtain ⟨x, y, hx, hy, lx, ly, hf⟩ := hr.out _ rfl
  refine ⟨x, y, hx, hy, lx, by rw [ly, hopt]; rfl, ?_⟩
  have h5 := h4 _ rfl
  rw [hf _ _ _ rfl, py_bind] at h5
  rw [withA_eq]
  exact h5

/-- C80 (any arithmetic, any QP answers): test_max_penalty.py has no undefined behaviour and raises no exception.  Loading succeeds and
gives the object of test_max_penalty.cpp; the message about the success of the test is printed exactly if the run returned
`MAX_PENALTY_REACHED`, and nothing else is printed. -/
theorem C80_max (e : Env α) (M : Int) (he : AnsBnd e M) (hM : 1001 * M ≤ intMax) (qd sd fuel : Nat) :
    ∃ o q, pyLoadDense e (problem qd sd 2 0 1 (WarmUp.maxPenalty qd sd).opts) guessedArgs = .ok (.successfulReturn, o) ∧
      WarmUp.prepare e qd sd (WarmUp.maxPenalty qd sd) = .ok (some o) ∧ runSolver e fuel o = .ok q ∧
      maxPenalty e qd sd fuel = .ok (q.map fun r =>
        if r.1 = .maxPenaltyReached then ["Succeeded test (failed to solve LCQP due to maximal penalty)."] else []) := by
  have ht := WarmUp.maxPenalty_loads (α := α) qd sd
  obtain ⟨o, h1, h2, hp, hopt, hs⟩ := load_same e qd sd ht rfl (WarmUp.maxPenalty_opts qd sd).2 (by
    intro r o1 h
    obtain ⟨hu0, _⟩ := (WarmUp.start_prepared e qd sd ht.comp).untouched
    obtain ⟨rv', o', h', hr⟩ := C15_codes e _ _ (WarmUp.maxPenalty qd sd : WarmUp.Task α).args hu0.dims hu0.nV hu0.nComp ht.fits
    rw [h] at h'
    injection h' with h'
    injection h' with h' _
    rw [h', hr]
    simp [WarmUp.maxPenalty, WarmUp.guessed, WarmUp.base, HasMinusInf])
  obtain ⟨hu, hr⟩ := hp.untouched
  have hoq : o.d.opts.qpSolver = 0 := by rw [hopt]; exact (WarmUp.maxPenalty_opts qd sd).2
  obtain ⟨q, hran⟩ := ran e (hr rfl) hu.nComp he (small_opts (by rw [hopt]; exact ht.iter) hM)
    (by rw [hoq, choiceCode_zero, hs]; rfl) (fun h => by rw [hoq] at h; exact absurd h (by decide)) fuel
  have h1' : pyLoadDense e (problem qd sd 2 0 1 (WarmUp.maxPenalty qd sd).opts) guessedArgs = .ok (.successfulReturn, o) := h1
  refine ⟨o, q, h1', h2, hran.run, ?_⟩
  unfold maxPenalty
  rw [maxOptions_eq, py_bind, h1']
  simp only [lift, py_bind, complain_eq, hran.run]
  cases q with
  | none => rfl
  | some r => rfl

/-- C80 (any arithmetic in which 0 and -0.5 are above minus infinity, any QP answers): warm_up_binary.py has no undefined behaviour and
raises no exception.  It solves two problems with one object; both loads succeed.  The options of the second run start with penalty
parameter 10 instead of a run without penalty.  One message is printed for each run that did not return success; the printed values are
those of the second run. -/
theorem C80_binary (e : Env α) (M : Int) (he : AnsBnd e M) (hM : 1001 * M ≤ intMax) (h0 : ((ofInt 0 : α) <=. (-. inf)) = false)
    (h1 : ((-. lit 5 1 : α) <=. (-. inf)) = false) (qd sd fuel : Nat) :
    ∃ o q, pyLoadDense e (problem qd sd 2 0 2 (WarmUp.opts qd sd 0)) (binaryArgs [ofInt 0, ofInt 0]) = .ok (.successfulReturn, o) ∧
      runSolver e fuel o = .ok q ∧ (q = none → binary e qd sd fuel = .ok none) ∧
      ∀ r1 o', q = some (r1, o') → ∃ o2 q2,
        pyLoadDense e (setOptions o' ({ (WarmUp.opts qd sd 0 : Options α) with zeroFirst := false }.setRho0 (ofInt 10)).2)
          (binaryArgs [ofInt 0, ofInt 3000]) = .ok (.successfulReturn, o2) ∧
        runSolver e fuel o2 = .ok q2 ∧ (q2 = none → binary e qd sd fuel = .ok none) ∧
        ∀ r2 o3, q2 = some (r2, o3) → ∃ x y, o3.s.xk = some x ∧ o3.s.yk = some y ∧ x.length = 2 ∧ y.length = 6 ∧
          binary e qd sd fuel = .ok (some ⟨failed r1 ++ failed r2, x, y, shown o3.s.stats⟩) := by
  obtain ⟨o, q, l1, hr, hn, hs⟩ := binary_run e he hM h0 h1 qd sd fuel
  refine ⟨o, q, l1, hr, hn, fun r1 o' hq => ?_⟩
  obtain ⟨opts, o2, q2, ho, _, _, _, l2, _, hr2, hn2, hs2⟩ := hs r1 o' hq
  obtain ⟨opts', ho', _, _, heq⟩ := binaryOptions_ok (α := α) qd sd
  rw [ho] at ho'
  injection ho' with ho'
  rw [← ho'] at heq
  rw [← heq]
  exact ⟨o2, q2, l2, hr2, hn2, hs2⟩

/-- C80 (any arithmetic in which 0 + 1 * 1 counts as nonzero, any QP answers with which the set-up of OSQP succeeds): warm_up_osqp.py
has no undefined behaviour and raises no exception.  Loading succeeds; the printed values are those of the run, with two multipliers. -/
theorem C80_osqp (e : Env α) (M : Int) (he : AnsBnd e M) (hM : 1001 * M ≤ intMax) (hz : isZero (zero +. ofInt 1 *. ofInt 1 : α) = false)
    (hs : ∀ r, (e.qp 0 r).setup = true ∧ (e.qp 0 r).warmX = true ∧ (e.qp 0 r).warmY = true) (qd sd fuel : Nat) :
    ∃ a o q, osqpArgs = .ok a ∧ pyLoadSparse e (problem qd sd 2 0 1 (WarmUp.opts qd sd 2)) a = .ok (.successfulReturn, o) ∧
      runSolver e fuel o = .ok q ∧ (q = none → osqp e qd sd fuel = .ok none) ∧
      ∀ rr r, q = some (rr, r) → ∃ x y, r.s.xk = some x ∧ r.s.yk = some y ∧ x.length = 2 ∧ y.length = 2 ∧
        osqp e qd sd fuel = .ok (some ⟨failed rr, x, y, shown r.s.stats⟩) := by
  obtain ⟨_, o, q, l1, _, hr, hn, hs⟩ := osqp_run e he hM hz hs qd sd fuel
  exact ⟨_, o, q, osqpArgs_eq, l1, hr, hn, hs⟩

/-! ## scripts that never get to a solution -/

/-- C80 (any arithmetic, any QP answers): warm_up_sparse.py loads dense arrays and asks for the sparse QP solver; the Python interface
has no method that switches the storage.  Loading succeeds, the run is refused before any QP is solved, the message is printed, and
`getPrimalSolution` then reads a status that was never set: undefined behaviour, in every execution. -/
theorem C80_sparse_never (e : Env α) (qd sd fuel : Nat) :
    ∃ o o', pyLoadDense e (problem qd sd 2 0 1 (WarmUp.opts qd sd 1)) baseArgs = .ok (.successfulReturn, o) ∧
      runSolver e fuel o = .ok (some (.denseSparseMissmatch, o')) ∧ o'.s.calls = 0 ∧
      solve e fuel (problem qd sd 2 0 1 (WarmUp.opts qd sd 1)) (fun o => pyLoadDense e o baseArgs) =
        .ok (some (["Failed to solve LCQP."], o')) ∧
      sparse e qd sd fuel = .error (.fault .uninit) := by
  obtain ⟨o, o', h1, h2, h3, h4, h5⟩ := never e qd sd (nV := 2) (nC := 0) (nComp := 1) (opts := WarmUp.opts qd sd 1) (by decide) (by decide)
    (Or.inl rfl) (a := baseArgs) (WarmUp.base_fits rfl rfl) (by nofun) (Or.inr rfl) rfl rfl rfl rfl rfl four fuel
  exact ⟨o, o', h1, h2, h3, h4, by rw [sparse, sparse_opts, py_bind, h5]⟩

/-- C80 (any arithmetic): all assignments of OptimizeOnCircle.py (and OptimizeOnCircleStoreSteps.py) are within the arrays for every
number `N` of directions.  The data are those of OptimizeOnCircle.cpp, except that the linear term is rounded in a different way. -/
theorem C80_circle_data {N : Nat} (hN : 1 ≤ N) (dir : Nat → α × α) :
    ∃ a b, circleArrays N dir = .ok a ∧ Circle.build N dir = .ok b ∧ a.args.args = { b.args with g := some a.g } ∧
      a.g.length = 2 + 2 * N ∧ a.g[0]? = some (-. (lit 17 0 *. lit 5 1 +. lit (-15) 0 *. (-. lit 6 1))) ∧
      a.g[1]? = some (-. (lit (-15) 0 *. lit 5 1 +. lit 17 0 *. (-. lit 6 1))) ∧ ∀ i, 2 ≤ i → i < 2 + 2 * N → a.g[i]? = some zero := by
  obtain ⟨a, b, ha, hb, _, h, hg⟩ := circle_same hN dir
  refine ⟨a, b, ha, hb, h, hg.1, hg.2 0 (by omega), hg.2 1 (by omega), fun i h2 hi => ?_⟩
  rw [hg.2 i hi, lin, if_neg (by omega), if_neg (by omega)]

/-- C80 (any arithmetic, any QP answers): the same for OptimizeOnCircle.py and OptimizeOnCircleStoreSteps.py, for every number of
directions. -/
theorem C80_circle_never (e : Env α) {N : Nat} (hN : 1 ≤ N) (dir : Nat → α × α) (qd sd fuel : Nat) :
    ∃ a, circleArrays N dir = .ok a ∧
      (∃ o o', pyLoadDense e (problem qd sd (2 + 2 * N) (N + 1) N (Circle.options qd sd)) a.args = .ok (.successfulReturn, o) ∧
        runSolver e fuel o = .ok (some (.denseSparseMissmatch, o')) ∧ o'.s.calls = 0 ∧
        solve e fuel (problem qd sd (2 + 2 * N) (N + 1) N (Circle.options qd sd)) (fun o => pyLoadDense e o a.args) =
          .ok (some (["Failed to solve LCQP."], o')) ∧
        circle e N dir qd sd fuel = .error (.fault .uninit)) ∧
      ∃ o o', pyLoadDense e (problem qd sd (2 + 2 * N) (N + 1) N ((WarmUp.opts qd sd 1).setStoreSteps true).2) a.args =
          .ok (.successfulReturn, o) ∧
        runSolver e fuel o = .ok (some (.denseSparseMissmatch, o')) ∧ o'.s.calls = 0 ∧
        solve e fuel (problem qd sd (2 + 2 * N) (N + 1) N ((WarmUp.opts qd sd 1).setStoreSteps true).2) (fun o => pyLoadDense e o a.args) =
          .ok (some (["Failed to solve LCQP."], o')) ∧
        circleSteps e N dir qd sd fuel = .error (.fault .uninit) := by
  obtain ⟨a, b, ha, _, hB, h, hg⟩ := circle_same hN dir
  have hf : a.args.args.Fits ⟨2 + 2 * N, N + 1, N⟩ := by
    rw [h]
    refine { hB.fits with g := ?_ }
    rintro v ⟨⟩
    exact hg.1.ge
  have key := fun opts hq names => never e qd sd (nV := 2 + 2 * N) (nC := N + 1) (nComp := N) (opts := opts) (by omega) hN hq hf
    (by rw [h]; nofun) (Or.inl (by rw [h]; nofun)) (by rw [h]; rfl) (by rw [h]; rfl) (by rw [h]; rfl) (by rw [h]; rfl) (by rw [h]; rfl) names fuel
  refine ⟨a, ha, ?_, ?_⟩
  · obtain ⟨o, o', h1, h2, h3, h4, h5⟩ := key (Circle.options qd sd) (Or.inr (Circle.options_eq qd sd).1) four
    exact ⟨o, o', h1, h2, h3, h4, by rw [circle, circleOptions_eq, py_bind, ha, py_bind, h5]⟩
  · obtain ⟨o, o', h1, h2, h3, h4, h5⟩ := key ((WarmUp.opts qd sd 1).setStoreSteps true).2 (Or.inl rfl) _
    exact ⟨o, o', h1, h2, h3, h4, by rw [circleSteps, stepsOptions_eq, py_bind, ha, py_bind, h5]⟩

end LCQ.PyScript
