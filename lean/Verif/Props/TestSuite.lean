import Verif.Lemmas.UnitTests
import Verif.Props.Doubles
import Verif.Props.WarmUpEx

/-!
# C81: the unit tests that depend on random numbers or on the QP solver
-/

namespace LCQ.TestSuite
open Scalar

/-! ## SparseDenseBackAndForth -/

section roundTrip

theorem small9_ext {K : Type} [Field K] [LinearOrder K] [IsStrictOrderedRing K] : Small9 (Ext K) := by
  have i : ∀ k : Nat, (ofInt (k : Nat) : Ext K) = .fin (k : K) := fun k => by simp [ofInt, WarmUp.lit_fin]
  have z : (Scalar.zero : Ext K) = .fin 0 := by simp [Scalar.zero, WarmUp.lit_fin]
  refine ⟨fun k _ => ?_, fun k _ => ?_⟩
  · rw [i]; simp
  · rw [i, z]
    intro h1 h2
    simp at h1 h2 ⊢
    subst h1
    simp

theorem small9_dbl : Small9 Dbl := by
  refine ⟨by decide +kernel, by decide +kernel⟩

/-- C81 (exact arithmetic): whatever `std::rand()` returns, SparseDenseBackAndForth succeeds. -/
theorem C81_roundTrip {K : Type} [Field K] [LinearOrder K] [IsStrictOrderedRing K] (rand : Nat → Nat) :
    backAndForth (α := Ext K) rand = .ok .pass := by
  have h : ∀ left, backFrom (α := Ext K) rand left = .ok .pass := fun left => by
    induction left with
    | zero => rfl
    | succ left ih => rw [backFrom, backOnce_ok small9_ext, ok_bind, if_pos rfl, ih]
  exact h 100

/-- C81 (IEEE doubles): whatever `std::rand()` returns, SparseDenseBackAndForth succeeds. -/
theorem C81_roundTrip_double (rand : Nat → Nat) : backAndForth (α := Dbl) rand = .ok .pass := by
  have h : ∀ left, backFrom (α := Dbl) rand left = .ok .pass := fun left => by
    induction left with
    | zero => rfl
    | succ left ih => rw [backFrom, backOnce_ok small9_dbl, ok_bind, if_pos rfl, ih]
  exact h 100

/-- the first matrix of the test for one sequence of random numbers -/
example : (match (fill (fun j => 4 * j) 0 : M (List Dbl)) with
    | .ok v => v.map Dbl.val
    | .error _ => []) = [0, 4, 8, 3, 7, 2, 6, 1, 5, 0].map some := by decide +kernel

end roundTrip

/-! ## DenseToSparse -/

section anyArith
variable {α : Type} [Scalar α]

theorem start_mixed (e : Env α) (N : Int) (qd sd nC : Nat) : MixedUse e N ⟨2, nC, 1⟩ false false (start qd sd nC) :=
  .options _ (.new (Options.default qd sd) 2 nC 1 (by omega) (by simp) (Or.inl rfl)) (Or.inl rfl)

/-- C81: the tests run with the default options, except that output is switched off -/
theorem C81_options (qd sd : Nat) : (opts qd sd : Options α) = { Options.default qd sd with printLevel := 0 } := rfl

/-- C81 (any arithmetic, any QP answers): DenseToSparse has no undefined behaviour.  The problem is loaded, and all mode switches
succeed; the first and the third leave the object as it is, and before each run the storage fits the solver.  So the test can fail only
because one of its two runs returns `MAX_ITERATIONS_REACHED`, `MAX_PENALTY_REACHED` or `SUBPROBLEM_SOLVER_ERROR`.  `N` bounds the
iteration counts reported by the QP solver. -/
theorem C81_switch (e : Env α) (N : Int) (he : AnsBnd e N) (hN : 1001 * N ≤ intMax) (qd sd fuel : Nat) :
    ∃ v o1 o2 q1, denseToSparse e qd sd fuel = .ok v ∧
      loadDense e (start qd sd 0) WarmUp.base = .ok (.successfulReturn, o1) ∧
      switchToDense o1 = .ok (.successfulReturn, o1) ∧ switchToSparse o1 = .ok (.successfulReturn, o2) ∧
      switchToSparse o2 = .ok (.successfulReturn, o2) ∧ o2.d.sparse = true ∧
      runSolver e fuel (setOptions o2 { (opts qd sd : Options α) with qpSolver := 1 }) = .ok q1 ∧
      match q1 with
      | none => v = none
      | some (c, r) =>
        (c ≠ .successfulReturn → c ∈ [.maxIterationsReached, .maxPenaltyReached, .subproblemSolverError] ∧ v = some (.run c)) ∧
        (c = .successfulReturn → ∃ o3 q2, switchToDense r = .ok (.successfulReturn, o3) ∧ o3.d.sparse = false ∧
          runSolver e fuel (setOptions o3 (opts qd sd)) = .ok q2 ∧
          match q2 with
          | none => v = none
          | some (c, _) =>
            (c ≠ .successfulReturn → c ∈ [.maxIterationsReached, .maxPenaltyReached, .subproblemSolverError] ∧ v = some (.run c)) ∧
            (c = .successfulReturn → v = some .pass)) := by
  have h0 := start_mixed e N qd sd 0
  obtain ⟨o1, h1⟩ := load_base e (h0.inv he).1
  have m1 := h0.dense WarmUp.base (WarmUp.base_fits rfl rfl) base_pair h1
  have hs1 : o1.d.sparse = false := ((h0.inv he).1.loadKept (WarmUp.base_fits rfl rfl) base_pair h1).2.2.1
  have d1 : switchToDense o1 = .ok (.successfulReturn, o1) := by simp [switchToDense, hs1]
  obtain ⟨_, _, hm⟩ := C36_mixed e N he _ _ _ _ m1
  obtain ⟨⟨o2, h2, hs2⟩, _⟩ := hm rfl
  have m2 := m1.toSparse h2
  have d2 : switchToSparse o2 = .ok (.successfulReturn, o2) := by simp [switchToSparse, hs2]
  have m3 := m2.options { (opts qd sd : Options α) with qpSolver := 1 } (Or.inr rfl)
  obtain ⟨_, _, hm⟩ := C36_mixed e N he _ _ _ _ m3
  obtain ⟨q1, h3, _⟩ := (hm rfl).2.2 (small hN rfl) (by simp) fuel
  have hrun : denseToSparse e qd sd fuel = (do
      match ← runSolver e fuel (setOptions o2 { (opts qd sd : Options α) with qpSolver := 1 }) with
      | none => .ok none
      | some r =>
        if r.1 ≠ .successfulReturn then .ok (some (.run r.1))
        else
          let r ← switchToDense r.2
          if r.1 ≠ .successfulReturn then .ok (some (.switch r.1))
          else
            match ← runSolver e fuel (setOptions r.2 (opts qd sd)) with
            | none => .ok none
            | some r => if r.1 ≠ .successfulReturn then .ok (some (.run r.1)) else .ok (some .pass)) := by
    unfold denseToSparse
    rw [h1, ok_bind, if_neg (by simp), d1, ok_bind, if_neg (by simp), h2, ok_bind, if_neg (by simp), d2, ok_bind, if_neg (by simp)]
    rfl
  rw [hrun, h3, ok_bind]
  cases q1 with
  | none => exact ⟨none, o1, o2, none, rfl, h1, d1, h2, d2, hs2, h3, rfl⟩
  | some r =>
    obtain ⟨c, r⟩ := r
    dsimp only
    by_cases hc : c = .successfulReturn
    · subst hc
      have m4 := m3.run fuel _ (small hN rfl) (by simp) h3
      obtain ⟨_, _, hm⟩ := C36_mixed e N he _ _ _ _ m4
      obtain ⟨_, ⟨o3, h4, hs3⟩, _⟩ := hm rfl
      have m5 := (m4.toDense h4).options (opts qd sd : Options α) (Or.inl rfl)
      obtain ⟨_, _, hm⟩ := C36_mixed e N he _ _ _ _ m5
      have ho3 : (setOptions o3 (opts qd sd)).d.opts.qpSolver = 0 := rfl
      obtain ⟨q2, h5, _⟩ := (hm rfl).2.2 (small hN rfl) (fun _ _ => ho3) fuel
      rw [if_neg (by simp), h4, ok_bind, if_neg (by simp), h5, ok_bind]
      cases q2 with
      | none => exact ⟨_, o1, o2, _, rfl, h1, d1, h2, d2, hs2, h3, by simp, fun _ => ⟨o3, _, h4, hs3, h5, rfl⟩⟩
      | some r2 =>
        obtain ⟨c, r2⟩ := r2
        dsimp only
        by_cases hc : c = .successfulReturn
        · subst hc
          exact ⟨_, o1, o2, _, rfl, h1, d1, h2, d2, hs2, h3, by simp, fun _ => ⟨o3, _, h4, hs3, h5, by simp, by simp⟩⟩
        · rw [if_pos hc]
          refine ⟨_, o1, o2, _, rfl, h1, d1, h2, d2, hs2, h3, by simp, fun _ => ⟨o3, _, h4, hs3, h5, fun _ => ⟨?_, rfl⟩, fun h => absurd h hc⟩⟩
          rcases run_codes (m5.inv he).1.dims (by simp) (Or.inl ⟨ho3, hs3⟩) h5 with h | h
          · exact absurd h hc
          · exact h.1
    · rw [if_pos hc]
      refine ⟨_, o1, o2, _, rfl, h1, d1, h2, d2, hs2, h3, fun _ => ⟨?_, rfl⟩, fun h => absurd h hc⟩
      rcases run_codes (m3.inv he).1.dims (by simp) (Or.inr ⟨rfl, hs2⟩) h3 with h | h
      · exact absurd h hc
      · exact h.1

/-! ## CheckQPReturnFlag -/

theorem flag_run (e : Env α) {N : Int} (he : AnsBnd e N) (hN : 1001 * N ≤ intMax) (qd sd fuel : Nat) :
    ∃ o1 q, loadDense e (start qd sd 1) infeasible = .ok (.successfulReturn, o1) ∧ Ready o1 ⟨2, 1, 1⟩ ∧
      o1.d.opts = opts qd sd ∧ o1.d.sparse = false ∧ runSolver e fuel o1 = .ok q := by
  have hb : Built (start qd sd 1 : Obj α) ⟨2, 1, 1⟩ := ((start_mixed e N qd sd 1).inv he).1
  obtain ⟨o1, h1⟩ := load_infeasible e hb
  obtain ⟨hR, h2, h3⟩ := hb.load infeasible_fits Iff.rfl h1
  have h2 : o1.d.opts = opts qd sd := h2
  obtain ⟨q, h4, _⟩ := run_dense hR (by rw [h2]; rfl) h3 he (small hN (by rw [h2]; rfl)) fuel
  exact ⟨o1, q, h1, hR, h2, h3, h4⟩

/-- C81 (any arithmetic, any QP answers): CheckQPReturnFlag has no undefined behaviour.  The problem is loaded.  If the run returns
`SUBPROBLEM_SOLVER_ERROR`, the test succeeds: the reported exit flag is not zero.  Otherwise it fails, and the run has returned
success or has reached one of its limits. -/
theorem C81_flag (e : Env α) (N : Int) (he : AnsBnd e N) (hN : 1001 * N ≤ intMax) (qd sd fuel : Nat) :
    ∃ v o1 q, checkFlag e qd sd fuel = .ok v ∧ loadDense e (start qd sd 1) infeasible = .ok (.successfulReturn, o1) ∧
      runSolver e fuel o1 = .ok q ∧
      match q with
      | none => v = none
      | some (c, r) =>
        (c = .subproblemSolverError → r.s.stats.exitFlag ≠ 0 ∧ v = some .pass) ∧
        (c ≠ .subproblemSolverError → c ∈ [.successfulReturn, .maxIterationsReached, .maxPenaltyReached] ∧ v = some (.run c)) := by
  obtain ⟨o1, q, h1, hR, h2, h3, h4⟩ := flag_run e he hN qd sd fuel
  rw [checkFlag, h1, ok_bind, if_neg (by simp), h4, ok_bind]
  cases q with
  | none => exact ⟨_, o1, _, rfl, rfl, h4, rfl⟩
  | some r =>
    obtain ⟨c, r⟩ := r
    have hc := run_codes hR.dims hR.nV (Or.inl ⟨by rw [h2]; rfl, h3⟩) h4
    dsimp only at hc ⊢
    by_cases h5 : c = .subproblemSolverError
    · subst h5
      have hf : r.s.stats.exitFlag ≠ 0 := by
        rcases hc with hc | hc
        · cases hc
        · exact hc.2 rfl
      rw [if_neg (by simp), if_pos (show (getOutputStatistics r (Stats.fresh : Stats α)).exitFlag ≠ 0 from hf)]
      exact ⟨_, o1, _, rfl, rfl, h4, fun _ => ⟨hf, rfl⟩, fun h => absurd rfl h⟩
    · rw [if_pos h5]
      refine ⟨_, o1, _, rfl, rfl, h4, fun h => absurd h h5, fun _ => ⟨?_, rfl⟩⟩
      rcases hc with hc | ⟨hc, _⟩
      · simp [hc]
      · simp [runCodes] at hc
        rcases hc with hc | hc | hc
        · simp [hc]
        · simp [hc]
        · exact absurd hc h5

/-- success is reported only if the bounds of every constraint leave room for a value (spec) -/
def RowsSound (e : Env α) : Prop :=
  ∀ k (q : Req α), (e.qp k q).ret = 0 → ∀ (i : Nat) (lo hi : α), q.lbA[i]? = some lo → q.ubA[i]? = some hi →
    ∃ v : α, (lo <=. v) = true ∧ (v <=. hi) = true

/-- C81 (any arithmetic in which no number lies above 0 and below -1): CheckQPReturnFlag succeeds with every QP solver that reports
success only if the bounds of every constraint leave room for a value. -/
theorem C81_flag_sound (ha : ∀ v : α, ((ofInt 0 : α) <=. v) = true → (v <=. ofInt (-1)) = true → False) (e : Env α) (N : Int)
    (he : AnsBnd e N) (hN : 1001 * N ≤ intMax) (hs : RowsSound e) (qd sd fuel : Nat) :
    checkFlag e qd sd fuel = .ok (some .pass) := by
  obtain ⟨v, o1, q, h, h1, h2, h3⟩ := C81_flag e N he hN qd sd fuel
  obtain ⟨o1', _, h1', hR, ho, hd, _⟩ := flag_run e he hN qd sd fuel
  rw [h1] at h1'
  injection h1' with h1'
  injection h1' with _ h1'
  subst h1'
  have hb : Built (start qd sd 1 : Obj α) ⟨2, 1, 1⟩ := ((start_mixed e N qd sd 1).inv he).1
  have hst := C14_stored e _ o1 _ _ hb.dims hb.nV hb.nComp infeasible_fits h1
  obtain ⟨r, hr⟩ := first_fails hR (by rw [ho]; rfl) hd he (small hN (by rw [ho]; rfl)) hst.lbA hst.ubA (fun q _ hl hu h0 => by
    obtain ⟨v, hv1, hv2⟩ := hs _ q h0 0 (ofInt 0) (ofInt (-1)) (by rw [hl]; rfl) (by rw [hu]; rfl)
    exact ha v hv1 hv2) fuel
  rw [h2] at hr
  injection hr with hr
  subst hr
  rw [h, (h3.1 rfl).2]

/-- both arithmetics satisfy the hypothesis of `C81_flag_sound` -/
theorem C81_flag_order : (∀ (K : Type) [Field K] [LinearOrder K] [IsStrictOrderedRing K] (v : Ext K),
      ((ofInt 0 : Ext K) <=. v) = true → (v <=. ofInt (-1)) = true → False) ∧
    ∀ v : Dbl, ((ofInt 0 : Dbl) <=. v) = true → (v <=. ofInt (-1)) = true → False := by
  constructor
  · intro K _ _ _ v h1 h2
    have e0 : (ofInt 0 : Ext K) = .fin 0 := by simp [ofInt, WarmUp.lit_fin]
    have e1 : (ofInt (-1) : Ext K) = .fin (-1) := by simp [ofInt, WarmUp.lit_fin]
    rw [e0] at h1
    rw [e1] at h2
    cases v with
    | fin v =>
      simp at h1 h2
      linarith
    | pinf => cases h2
    | ninf => cases h1
    | nan => cases h1
  · intro v h1 h2
    obtain ⟨_, _, e0⟩ := Dbl.eq_num (show Dbl.val (ofInt 0) = some 0 by decide +kernel)
    obtain ⟨_, _, e1⟩ := Dbl.eq_num (show Dbl.val (ofInt (-1)) = some (-1) by decide +kernel)
    rw [e0] at h1
    rw [e1] at h2
    cases v with
    | num q _ _ =>
      change decide (0 ≤ q) = true at h1
      change decide (q ≤ -1) = true at h2
      simp only [decide_eq_true_eq] at h1 h2
      linarith
    | pinf => cases h2
    | ninf => cases h1
    | nan => cases h1

/-! ## RunWarmUp -/

/-- C81 (any arithmetic, any QP answers): RunWarmUp has no undefined behaviour, and all its loads succeed.  Unless it succeeds or the
solver is still running, it ends because a run returns `MAX_ITERATIONS_REACHED`, `MAX_PENALTY_REACHED` or `SUBPROBLEM_SOLVER_ERROR`,
or because the point or the multipliers of a successful run, which the getters have copied, do not pass the checks. -/
theorem C81_warmUp_safe (e : Env α) (N : Int) (he : AnsBnd e N) (hN : 1001 * N ≤ intMax) (qd sd fuel : Nat) :
    ∃ v, runWarmUp e qd sd fuel = .ok v ∧
      (v = none ∨ v = some .pass ∨ (∃ c ∈ [RV.maxIterationsReached, .maxPenaltyReached, .subproblemSolverError], v = some (.run c)) ∨
        ∃ (o r : Obj α) (x0 x1 y0 y1 y2 y3 : α), runSolver e fuel o = .ok (some (.successfulReturn, r)) ∧
          r.s.xk = some [x0, x1] ∧ r.s.yk = some [y0, y1, y2, y3] ∧
          ((v = some (.point [x0, x1]) ∧ found (opts qd sd : Options α).statTol x0 x1 = false) ∨
           (v = some (.stat [x0, x1] [y0, y1, y2, y3]) ∧ found (opts qd sd : Options α).statTol x0 x1 = true ∧
             (stat (opts qd sd : Options α).statTol x0 y0 y2 && stat (opts qd sd : Options α).statTol x1 y1 y3) = false))) := by
  have key : ∀ (left : Nat) (o : Obj α) (xs ys : List α), Built o ⟨2, 0, 1⟩ → o.d.opts = opts qd sd → xs.length = 2 → ys.length = 4 →
      ∃ v, warmFrom e qd sd fuel left o xs ys = .ok v ∧
      (v = none ∨ v = some .pass ∨ (∃ c ∈ [RV.maxIterationsReached, .maxPenaltyReached, .subproblemSolverError], v = some (.run c)) ∨
        ∃ (o r : Obj α) (x0 x1 y0 y1 y2 y3 : α), runSolver e fuel o = .ok (some (.successfulReturn, r)) ∧
          r.s.xk = some [x0, x1] ∧ r.s.yk = some [y0, y1, y2, y3] ∧
          ((v = some (.point [x0, x1]) ∧ found (opts qd sd : Options α).statTol x0 x1 = false) ∨
           (v = some (.stat [x0, x1] [y0, y1, y2, y3]) ∧ found (opts qd sd : Options α).statTol x0 x1 = true ∧
             (stat (opts qd sd : Options α).statTol x0 y0 y2 && stat (opts qd sd : Options α).statTol x1 y1 y3) = false))) := by
    intro left
    induction left with
    | zero => exact fun o xs ys _ _ _ _ => ⟨_, rfl, Or.inr (Or.inl rfl)⟩
    | succ left ih =>
      intro o xs ys hb ho lx ly
      obtain ⟨o1, q, h1, hR, h2, h3, h4, h5⟩ := warm_pass e he hN fuel hb ho
      cases q with
      | none =>
        rw [warmFrom, h1, ok_bind, if_neg (by simp), h4, ok_bind]
        exact ⟨_, rfl, Or.inl rfl⟩
      | some r =>
        obtain ⟨c, r⟩ := r
        obtain ⟨hb', ho', hc, t, x0, x1, y0, y1, y2, y3, ht, hx, hy, hn, hd⟩ := h5 _ rfl
        dsimp only at hb' ho' hc ht hx hy hn hd
        by_cases hcs : c = .successfulReturn
        · subst hcs
          rw [warm_get e h1 h4 ht hx hy hn hd lx ly]
          cases hf : found (opts qd sd : Options α).statTol x0 x1 with
          | false => exact ⟨_, rfl, Or.inr (Or.inr (Or.inr ⟨o1, r, x0, x1, y0, y1, y2, y3, h4, hx, hy, Or.inl ⟨rfl, hf⟩⟩))⟩
          | true =>
            rw [if_neg (by simp)]
            cases hst : (stat (opts qd sd : Options α).statTol x0 y0 y2 && stat (opts qd sd : Options α).statTol x1 y1 y3) with
            | false => exact ⟨_, rfl, Or.inr (Or.inr (Or.inr ⟨o1, r, x0, x1, y0, y1, y2, y3, h4, hx, hy, Or.inr ⟨rfl, hf, hst⟩⟩))⟩
            | true =>
              rw [if_neg (by simp)]
              exact ih r _ _ hb' ho' rfl rfl
        · rw [warmFrom, h1, ok_bind, if_neg (by simp), h4, ok_bind]
          dsimp only
          rw [if_pos hcs]
          refine ⟨_, rfl, Or.inr (Or.inr (Or.inl ⟨c, ?_, rfl⟩))⟩
          rcases hc with hc | hc
          · exact absurd hc hcs
          · exact hc
  have ln : ∀ k m, (e.alloc k m).length = m := fun k m => by simp [Env.alloc]
  exact key 100 _ _ _ ((start_mixed e N qd sd 0).inv he).1 rfl (ln _ _) (ln _ _)

end anyArith

/-! ## RunWarmUp in exact arithmetic -/

section exact
open Ext WarmUp
open scoped Matrix
variable {K : Type} [Field K] [LinearOrder K] [IsStrictOrderedRing K] {e : Env (Ext K)}

theorem abs_fin (a : K) : Scalar.abs (fin a : Ext K) = fin |a| := by
  show fin (if 0 ≤ a then a else -a) = fin |a|
  split
  · rw [abs_of_nonneg (by assumption)]
  · rw [abs_of_neg (by linarith)]

omit [LinearOrder K] [IsStrictOrderedRing K] in
theorem prob_res (x : Fin 2 → K) (y : Fin 4 → K) : Prob.residual (off := 2) (prob 0) x y (0 : Fin 2) = 2 * x 0 - 2 - y 0 - y 2 ∧
    Prob.residual (off := 2) (prob 0) x y (1 : Fin 2) = 2 * x 1 - 2 - y 1 - y 3 := by
  have key : ∀ i : Fin 2, Prob.residual (off := 2) (prob (0 : K)) x y i =
      (∑ j, (prob (0 : K)).Q i j * x j) + (prob (0 : K)).g i - (∑ j : Fin 0, (prob (0 : K)).Aᵀ i j * 0) - (∑ j : Fin 1, (prob (0 : K)).Lᵀ i j * y 2) -
        (∑ j : Fin 1, (prob (0 : K)).Rᵀ i j * y 3) - yBox (n := ⟨2, 0, 1⟩) (off := 2) y i := fun i => by
    have e2 : ∀ j : Fin 1, yL (n := ⟨2, 0, 1⟩) (yLin (off := 2) y) j = y 2 := fun j => by fin_cases j; rfl
    have e3 : ∀ j : Fin 1, yR (n := ⟨2, 0, 1⟩) (yLin (off := 2) y) j = y 3 := fun j => by fin_cases j; rfl
    show (∑ j, (prob (0 : K)).Q i j * x j) + (prob (0 : K)).g i - (∑ j : Fin 0, (prob (0 : K)).Aᵀ i j * yA (n := ⟨2, 0, 1⟩) (yLin (off := 2) y) j) -
      (∑ j : Fin 1, (prob (0 : K)).Lᵀ i j * yL (n := ⟨2, 0, 1⟩) (yLin (off := 2) y) j) -
        (∑ j : Fin 1, (prob (0 : K)).Rᵀ i j * yR (n := ⟨2, 0, 1⟩) (yLin (off := 2) y) j) - yBox (n := ⟨2, 0, 1⟩) (off := 2) y i = _
    simp only [e2, e3, Finset.univ_eq_empty, Finset.sum_empty]
  have b0 : yBox (n := ⟨2, 0, 1⟩) (off := 2) y (0 : Fin 2) = y 0 := rfl
  have b1 : yBox (n := ⟨2, 0, 1⟩) (off := 2) y (1 : Fin 2) = y 1 := rfl
  rw [key, key, b0, b1]
  constructor
  · simp [prob, Fin.sum_univ_two]
    ring
  · simp [prob, Fin.sum_univ_two]
    ring

/-- the arguments of the test stand for the warm-up problem, started at the origin -/
theorem base_are : (base : DenseArgs (Ext K)).Are two2 (prob 0) 0 := by
  have z : (zero : Ext K) = fin 0 := zero_fin
  have i0 : (ofInt 0 : Ext K) = fin 0 := by simp [ofInt, lit_fin]
  have i1 : (ofInt 1 : Ext K) = fin 1 := by simp [ofInt, lit_fin]
  have i2 : (ofInt 2 : Ext K) = fin 2 := by simp [ofInt, lit_fin]
  have i3 : (ofInt (-2) : Ext K) = fin (-2) := by simp [ofInt, lit_fin]
  refine ⟨base_fits rfl rfl, ⟨[2, 0, 0, 2], ?_, by simp, ?_⟩, ⟨[-2, -2], ?_, by simp, ?_⟩, Or.inl ⟨rfl, rfl⟩, ⟨[1, 0], ?_, by simp, ?_⟩,
    ⟨[0, 1], ?_, by simp, ?_⟩, Or.inl ⟨rfl, rfl, rfl, rfl⟩, Or.inl ⟨rfl, rfl⟩⟩
  · simp [base, emb, i0, i1, i2, i3]
  · ext i j
    fin_cases i <;> fin_cases j <;> rfl
  · simp [base, emb, i0, i1, i2, i3]
  · ext i
    fin_cases i <;> simp [vec, prob]
  · simp [base, emb, i0, i1, i2, i3]
  · ext i j
    fin_cases i <;> fin_cases j <;> rfl
  · simp [base, emb, i0, i1, i2, i3]
  · ext i j
    fin_cases i <;> fin_cases j <;> rfl

/-- the object is prepared in every pass as in warm_up.cpp -/
theorem pass_good {o o1 : Obj (Ext K)} {qd sd : Nat} (hb : Built o two2) (hc : Clean o) (ho : o.d.opts = opts qd sd) (he : FinAns e)
    (hE : ExactOn e two2 (IsSub (prob 0) (fun _ => fin 0) (fun _ => pinf) (fun _ => ninf) (fun _ => pinf)))
    (h : loadDense e o base = .ok (.successfulReturn, o1)) (h2 : o1.d.opts = opts qd sd) :
    Good e o1 0 (10 ^ 8) 0 ∧ o1.d.sparse = false := by
  have hr : (lit 1 2 : Ext K) = fin (1 / 100) := by rw [lit_fin]; norm_num
  have hf : (two : Ext K) = fin 2 := by rw [two, lit_fin]; norm_num
  obtain ⟨hS, hsp⟩ := Setup.dense (P := prob 0) (x0 := 0) (r0 := 1 / 100) (f := 2) hb ⟨hc.lbL, hc.lbR, hc.gPhi, hc.phiConst.trans zero_fin⟩ base_are h
    (by rw [ho]; exact hr) (by rw [ho]; exact hf) two_ne_zero he
  have hSt := Stored.dense hb hc.lbTmp hc.ubTmp (base_fits rfl rfl) h
  refine ⟨⟨hS, ?_, hE, ?_, ?_, ?_, ?_, ?_, ?_, ?_⟩, hsp⟩
  · refine ⟨?_, ?_, ?_, ?_⟩
    · rw [hSt.lbA]
      simp [DenseArgs.bnds, orFill, base, Dims.nA]
    · rw [hSt.ubA]
      simp [DenseArgs.bnds, orFill, base, Dims.nA]
    · rw [hSt.lb]
      simp [DenseArgs.bnds, orFill, base]
    · rw [hSt.ub]
      simp [DenseArgs.bnds, orFill, base]
  · rw [h2]; rfl
  · rw [h2]; show (lit _ _ : Ext K) = _; rw [lit_fin]; norm_num
  · rw [h2]; show lit _ _ *. eps = _; simp [lit_fin, eps]; norm_num
  · rw [h2]; show lit _ _ *. eps = _; simp [lit_fin, eps]; norm_num
  · rw [h2]; rfl
  · positivity
  · exact le_refl _

/-- the multipliers of a successful run pass the stationarity checks of the test -/
theorem stat_ok {o1 r : Obj (Ext K)} {qd sd fuel : Nat} (hG : Good e o1 0 (10 ^ 8) 0) (hs : o1.d.sparse = false)
    (h2 : o1.d.opts = opts qd sd) (h : runSolver e fuel o1 = .ok (some (.successfulReturn, r))) {x0 x1 y0 y1 y2 y3 : Ext K}
    (hx : r.s.xk = some [x0, x1]) (hy : r.s.yk = some [y0, y1, y2, y3]) :
    (stat (opts qd sd : Options (Ext K)).statTol x0 y0 y2 && stat (opts qd sd : Options (Ext K)).statTol x1 y1 y3) = true := by
  have hp : (prob (0 : K)).gPhi = 0 := by
    rw [prob_gPhi]
    ext i
    fin_cases i <;> simp
  obtain ⟨off, x, y, _, hx', hy', hst⟩ := C21_stationary hG.setup hG.statTol hG.complTol (fun h => by rw [hs] at h; cases h) h (Or.inl hp)
  rw [hx] at hx'
  rw [hy] at hy'
  injection hx' with hx'
  injection hy' with hy'
  have hoff : off = 2 := by
    have := congrArg List.length hy'
    rw [ev_length] at this
    simp only [List.length_cons, List.length_nil] at this
    have hA : two2.nA = 2 := rfl
    omega
  subst hoff
  have hx2 : [x0, x1] = [fin (x 0), fin (x 1)] := hx'
  have hy2 : [y0, y1, y2, y3] = [fin (y (0 : Fin 4)), fin (y (1 : Fin 4)), fin (y (2 : Fin 4)), fin (y (3 : Fin 4))] := hy'
  injection hx2 with a0 hx2
  injection hx2 with a1 _
  injection hy2 with b0 hy2
  injection hy2 with b1 hy2
  injection hy2 with b2 hy2
  injection hy2 with b3 _
  obtain ⟨p0, p1⟩ := prob_res x y
  have q0 := hst (0 : Fin 2)
  have q1 := hst (1 : Fin 2)
  rw [p0] at q0
  rw [p1] at q1
  have ht := hG.statTol
  rw [h2] at ht
  have hf : (two : Ext K) = fin 2 := by rw [two, lit_fin]; norm_num
  rw [ht, a0, a1, b0, b1, b2, b3]
  simp only [stat, hf, Bool.and_eq_true]
  simp only [fin_mul, fin_sub, abs_fin, fin_le, decide_eq_true_eq]
  exact ⟨q0.le, q1.le⟩

/-- C81 (exact arithmetic, exact QP solver): the stationarity checks of RunWarmUp never fail, in none of its 100 runs of the same object.
Unless a run reaches a limit or the QP solver fails, only the check of the point can fail, and then the point is within 0.00003 of (1, 0)
or of (0, 1), or within 0.00003 of the origin with a penalty parameter of at least a million. -/
theorem C81_warmUp_exact (e : Env (Ext K)) (N : Int) (he : AnsBnd e N) (hN : 1001 * N ≤ intMax) (hF : FinAns e)
    (hE : ExactOn e two2 (IsSub (prob 0) (fun _ => fin 0) (fun _ => pinf) (fun _ => ninf) (fun _ => pinf))) (qd sd fuel : Nat) :
    ∃ v, runWarmUp e qd sd fuel = .ok v ∧
      (v = none ∨ v = some .pass ∨ (∃ c ∈ [RV.maxIterationsReached, .maxPenaltyReached, .subproblemSolverError], v = some (.run c)) ∨
        ∃ x0 x1 r : K, v = some (.point [fin x0, fin x1]) ∧ Near2 r x0 x1 ∧
          ¬(|x0 - 1| ≤ 2221 / 10 ^ 13 ∧ |x1| ≤ 2221 / 10 ^ 13) ∧ ¬(|x1 - 1| ≤ 2221 / 10 ^ 13 ∧ |x0| ≤ 2221 / 10 ^ 13)) := by
  have key : ∀ (left : Nat) (o : Obj (Ext K)) (xs ys : List (Ext K)), Built o two2 → Clean o → o.d.opts = opts qd sd → xs.length = 2 → ys.length = 4 →
      ∃ v, warmFrom e qd sd fuel left o xs ys = .ok v ∧
      (v = none ∨ v = some .pass ∨ (∃ c ∈ [RV.maxIterationsReached, .maxPenaltyReached, .subproblemSolverError], v = some (.run c)) ∨
        ∃ x0 x1 r : K, v = some (.point [fin x0, fin x1]) ∧ Near2 r x0 x1 ∧
          ¬(|x0 - 1| ≤ 2221 / 10 ^ 13 ∧ |x1| ≤ 2221 / 10 ^ 13) ∧ ¬(|x1 - 1| ≤ 2221 / 10 ^ 13 ∧ |x0| ≤ 2221 / 10 ^ 13)) := by
    intro left
    induction left with
    | zero => exact fun o xs ys _ _ _ _ _ => ⟨_, rfl, Or.inr (Or.inl rfl)⟩
    | succ left ih =>
      intro o xs ys hb hcl ho lx ly
      obtain ⟨o1, q, h1, hR, h2, h3, h4, h5⟩ := warm_pass e he hN fuel hb ho
      cases q with
      | none =>
        rw [warmFrom, h1, ok_bind, if_neg (by simp), h4, ok_bind]
        exact ⟨_, rfl, Or.inl rfl⟩
      | some r =>
        obtain ⟨c, r⟩ := r
        obtain ⟨hb', ho', hc, t, x0, x1, y0, y1, y2, y3, ht, hx, hy, hn, hd⟩ := h5 _ rfl
        dsimp only at hb' ho' hc ht hx hy hn hd
        by_cases hcs : c = .successfulReturn
        · subst hcs
          obtain ⟨hG, hs⟩ := pass_good hb hcl ho hF hE h1 h2
          have hcl' : Clean r := (hcl.load hb (base_fits rfl rfl) rfl rfl rfl rfl h1).run hR (by rw [h2]; rfl) h3 h4
          rw [warm_get e h1 h4 ht hx hy hn hd lx ly, stat_ok hG hs h2 h4 hx hy]
          cases hf : found (opts qd sd : Options (Ext K)).statTol x0 x1 with
          | false =>
            refine ⟨_, rfl, Or.inr (Or.inr (Or.inr ?_))⟩
            obtain ⟨x, rr, _, hx', _, _, hnear, _⟩ := hG.result zero_le_one h4
            rw [hx] at hx'
            injection hx' with hx'
            have hx2 : [x0, x1] = [fin (x 0), fin (x 1)] := hx'
            injection hx2 with a0 hx2
            injection hx2 with a1 _
            have hst := hG.statTol
            rw [h2] at hst
            have ho : (one : Ext K) = fin 1 := one_fin
            rw [sub_zero, sub_zero] at hnear
            rw [hst, a0, a1] at hf
            have hf : (decide (|x 0 - 1| ≤ 2221 / 10 ^ 13) && decide (|x 1| ≤ 2221 / 10 ^ 13) ||
              decide (|x 1 - 1| ≤ 2221 / 10 ^ 13) && decide (|x 0| ≤ 2221 / 10 ^ 13)) = false := by
              rw [← hf, found, ho]; simp only [fin_sub, abs_fin, fin_le]
            simp only [Bool.or_eq_false_iff, Bool.and_eq_false_iff, decide_eq_false_iff_not] at hf
            refine ⟨x 0, x 1, rr, by rw [a0, a1], hnear, ?_, ?_⟩
            · rintro ⟨q1, q2⟩; rcases hf.1 with h | h
              · exact h q1
              · exact h q2
            · rintro ⟨q1, q2⟩; rcases hf.2 with h | h
              · exact h q1
              · exact h q2
          | true =>
            rw [if_neg (by simp), if_neg (by simp)]
            exact ih r _ _ hb' hcl' ho' rfl rfl
        · rw [warmFrom, h1, ok_bind, if_neg (by simp), h4, ok_bind]
          dsimp only
          rw [if_pos hcs]
          refine ⟨_, rfl, Or.inr (Or.inr (Or.inl ⟨c, ?_, rfl⟩))⟩
          rcases hc with hc | hc
          · exact absurd hc hcs
          · exact hc
  have ln : ∀ k m, (e.alloc k m).length = m := fun k m => by simp [Env.alloc]
  exact key 100 _ _ _ ((start_mixed e N qd sd 0).inv he).1 (start_clean qd sd 0) rfl (ln _ _) (ln _ _)

end exact

/-! ## examples -/

section examples
open Ext WarmUp

/-- the verdict, if there is one -/
def verdict {α : Type} (r : M (Option (Verdict α))) : Option (Verdict α) :=
  match r with
  | .ok v => v
  | .error _ => none

/-- C81: RunWarmUp can fail with an exact QP solver.  If `rand()` never breaks the symmetry between the two variables, the first run returns
success at a point close to the origin, which the test does not accept. -/
theorem C81_warmUp_origin : ∃ e : Env (Ext ℚ), (∃ N, AnsBnd e N ∧ 1001 * N ≤ intMax) ∧ FinAns e ∧
    ExactOn e two2 (IsSub (prob 0) (fun _ => fin 0) (fun _ => pinf) (fun _ => ninf) (fun _ => pinf)) ∧
    ∃ x : ℚ, runWarmUp e 0 0 60 = .ok (some (.point [fin x, fin x])) ∧ |x| ≤ 1 / 10 ^ 6 := by
  refine ⟨solver2 0 fun _ => 1, ⟨3, fun k r => ?_, by decide⟩, solver2_fin 0 _, solver2_exact 0 _, 25 / 67108889, ?_, ?_⟩
  · simp only [solver2, Ex.envOf]
    split <;> simp [Ex.good]
  · have h : verdict (runWarmUp (solver2 0 fun _ => 1) 0 0 60) = some (.point [fin (25 / 67108889), fin (25 / 67108889)]) := by decide +kernel
    unfold verdict at h
    split at h
    · rename_i hv
      rw [hv, h]
    · cases h
  · rw [abs_of_pos (by norm_num)]; norm_num

/-- a QP solver that always answers with the point (1, 0) and with multipliers that make it stationary, unless the bounds of a
constraint leave no room -/
def solverC : Env (Ext ℚ) :=
  Ex.envOf fun _ q =>
    if (q.lbA.zip q.ubA).all fun b => b.1 <=. b.2 then
      Ex.good [1, 0] [0, 0, 2 + Ex.val q.g 0, Ex.val q.g 1]
    else { Ex.good [0, 0] [] with ret := 37 }

/-- all three tests succeed with this solver -/
example : verdict (runWarmUp solverC 0 0 9) = some .pass ∧ verdict (denseToSparse solverC 0 0 9) = some .pass ∧
    verdict (checkFlag solverC 0 0 9) = some .pass := by decide +kernel

/-- CheckQPReturnFlag fails if the solver accepts the QP -/
example : verdict (checkFlag (Ex.envOf fun _ q => Ex.good [1, 0] [0, 0, 0, 2 + Ex.val q.g 0, Ex.val q.g 1]) 0 0 9) =
    some (.run .successfulReturn) := by decide +kernel

/-- RunWarmUp and DenseToSparse fail if the QP solver does -/
example : verdict (runWarmUp (Ex.envOf fun _ _ => { Ex.good [1, 0] [] with ret := 4 }) 0 0 9) = some (.run .subproblemSolverError) ∧
    verdict (denseToSparse (Ex.envOf fun _ _ => { Ex.good [1, 0] [] with ret := 4 }) 0 0 9) = some (.run .subproblemSolverError) := by
  decide +kernel

/-- the hypotheses of `C81_flag_sound` can be met -/
example : (∃ N, AnsBnd solverC N ∧ 1001 * N ≤ intMax) ∧ RowsSound solverC := by
  refine ⟨⟨3, fun k r => ?_, by decide⟩, fun k q h i lo hi h1 h2 => ⟨lo, ?_, ?_⟩⟩
  · simp only [solverC, Ex.envOf]
    split <;> simp [Ex.good]
  all_goals
    simp only [solverC, Ex.envOf] at h
    split at h
    · rename_i hb
      rw [List.all_eq_true] at hb
      have hz : (q.lbA.zip q.ubA)[i]? = some (lo, hi) := by rw [List.getElem?_zip_eq_some]; exact ⟨h1, h2⟩
      have := hb _ (List.mem_of_getElem? hz)
      first
        | exact this
        | (cases lo with
          | fin a => simp
          | pinf => rfl
          | ninf => rfl
          | nan => cases this)
    · cases h

end examples

end LCQ.TestSuite
