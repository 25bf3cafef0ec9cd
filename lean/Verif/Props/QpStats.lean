import Verif.Lemmas.QpStats
import Verif.Props.Run
import Verif.Props.Again

/-!
# C93: what the statistics say about the QP solver

The documentation of the MATLAB interface (/repo/interfaces/matlab/LCQPow.m:61-68) describes `iters_subproblem` as the total number of
iterations taken by the QP solver, `qp_exit_flag` as its most recent status, and `rho_opt` on a failed call as the most recent value of
the penalty parameter.  The first two are right unless OSQP could not be started: then the numbers of the last QP of an earlier run are
counted and reported, and if there was none the program reads uninitialised memory.  The last one is wrong if the first QP fails.
-/

namespace LCQ
open Scalar

variable {α : Type} [Scalar α] {e : Env α} {o : Obj α} {i : RV × Obj α}

/-- the state at the head of the main loop -/
theorem count_head (hi : initializeSolver e o = .ok i) (hok : i.1 = .successfulReturn) {sub : Sub α} (hs : i.2.d.sub = some sub)
    {s0 s : St α} (hf : firstStep e i.2.d i.2.s = .ok (.inl s0)) (h : Reach e i.2.d s0 s) :
    (∀ Q A, sub = .osqp Q A → s.work = .live) ∧ ∃ l, l ≠ [] ∧ QpCount e sub o.s.calls l s := by
  have hb : ∀ Q A, sub = .osqp Q A → i.2.d.lb = none ∧ i.2.d.ub = none := by
    rintro Q A rfl
    exact init_osqp hi hok hs
  obtain ⟨_, hc, _, _, _, _, hst⟩ := Live.start hi hok
  induction h with
  | start =>
    obtain ⟨gk, q, hq, ⟨_, h'⟩ | ⟨h1, a, b, c, rho, _, h'⟩⟩ := firstStep_inv hf
    · cases h'
    · injection h' with h'
      obtain ⟨it, ex, _, _, q3, q4, q5, q6, ⟨hn, _⟩ | ⟨hn, req, r1, r2, r3, r4⟩⟩ := solve_count hq hs hb
      · rw [h1] at hn
        simp [NotStarted] at hn
      subst r3 r4
      have hF := QpCount.first r1 r2 (show i.2.s.stats.subproblemIter = 0 by rw [hst]; rfl) q3 q4 q5
      simp only [hc] at hF
      obtain ⟨bb, hbb⟩ := updateRhoOpt_stats q.2.stats rho
      refine ⟨fun Q A he => by rw [h']; exact q6 Q A he hn, [req], by simp, hF.same ?_⟩
      rw [h']
      exact ⟨rfl, rfl, rfl, rfl, by simp only; rw [hbb], by simp only; rw [hbb]⟩
  | @pass s s' _ hp ih =>
    obtain ⟨hw, l, hl, hC⟩ := ih
    obtain ⟨s1, s2, s3, h1, h2, h3, ⟨_, _, q', hq', ⟨⟩⟩ | ⟨s4, t', rho, h4, _, _, h5⟩⟩ := pass_inv hp
    have a3 := ((SameQp.advance h1).trans (SameQp.dynamic h2)).trans (SameQp.lin h3)
    have hsame : SameQp s s4 := by
      rcases h4 with ⟨_, rfl⟩ | ⟨_, _, h4⟩
      · exact a3
      · exact a3.trans (SameQp.bump h4)
    rcases h5 with ⟨_, ⟨⟩⟩ | ⟨_, _, ⟨⟩⟩ | ⟨_, _, h5⟩
    obtain ⟨gk, q', hq', ⟨_, ⟨⟩⟩ | ⟨h6, _, _, _, _, h7⟩⟩ := nextStep_inv h5
    injection h7 with h7
    have hC4 : QpCount e sub o.s.calls l { s4 with gk := some gk } := hC.same ⟨hsame.calls, hsame.iter, hsame.exit, hsame.work, hsame.sum, hsame.flag⟩
    obtain ⟨it, ex, _, _, q3, q4, q5, q6, ⟨hn, _⟩ | ⟨hn, req, r1, r2, r3, r4⟩⟩ := solve_count hq' hs hb
    · rw [h6] at hn
      simp [NotStarted] at hn
    refine ⟨fun Q A he => by rw [h7]; exact q6 Q A he hn, l ++ [req], by simp, ?_⟩
    subst r3 r4
    have := hC4.more hl r1 r2 q3 q4 q5
    rw [h7]
    exact ⟨this.calls, this.sum, this.flag, this.asks⟩

/-- how an initialised run ends, as far as the QP solver is concerned -/
theorem count_end {fuel : Nat} {r : RV × Obj α} (h : runSolver e fuel o = .ok (some r)) (hi : initializeSolver e o = .ok i)
    (hok : i.1 = .successfulReturn) {sub : Sub α} (hs : i.2.d.sub = some sub) :
    r.2.d = i.2.d ∧
    ((¬ NotStarted r.1 ∧ ∃ l, l ≠ [] ∧ QpCount e sub o.s.calls l r.2.s) ∨
     (NotStarted r.1 ∧ firstStep e i.2.d i.2.s = .ok (.inr (r.1, r.2.s)) ∧ ∃ it ex, o.s.qpIter = some it ∧ o.s.qpExit = some ex ∧
        r.2.s.calls = o.s.calls + 1 ∧ r.2.s.stats.subproblemIter = max 0 it ∧ r.2.s.stats.exitFlag = ex)) := by
  have hb : ∀ Q A, sub = .osqp Q A → i.2.d.lb = none ∧ i.2.d.ub = none := by
    rintro Q A rfl
    exact init_osqp hi hok hs
  obtain ⟨_, hc, _, _, _, _, hst⟩ := Live.start hi hok
  have hold : i.2.s.qpIter = o.s.qpIter ∧ i.2.s.qpExit = o.s.qpExit := by
    obtain ⟨_, _, _, _, _, _, _, _, _, _, hio⟩ := initializeSolver_ok hi hok
    rw [hio]
    exact ⟨rfl, rfl⟩
  obtain ⟨j, hj, hcase⟩ := runSolver_inv h
  rw [hi] at hj
  injection hj with hj
  subst hj
  rcases hcase with ⟨hne, _⟩ | ⟨_, hd, hf | ⟨s0, hf, hm⟩⟩
  · exact absurd hok hne
  · refine ⟨hd, ?_⟩
    obtain ⟨gk, q, hq, ⟨h1, h'⟩ | ⟨_, _, _, _, _, _, ⟨⟩⟩⟩ := firstStep_inv hf
    injection h' with h'
    injection h' with e1 e2
    obtain ⟨it, ex, _, _, q3, q4, q5, q6, ⟨hn, r1, r2, _⟩ | ⟨hn, req, r1, r2, r3, r4⟩⟩ := solve_count hq hs hb
    · right
      rw [e1, e2]
      refine ⟨hn, by rw [hf, e1, e2], it, ex, hold.1 ▸ r1, hold.2 ▸ r2, by rw [← hc]; exact q3, ?_, q5⟩
      show q.2.stats.subproblemIter = _
      rw [q4]
      show i.2.s.stats.subproblemIter + _ = _
      rw [hst]
      simp [Stats.reset]
    · left
      subst r3 r4
      have hF := QpCount.first r1 r2 (show i.2.s.stats.subproblemIter = 0 by rw [hst]; rfl) q3 q4 q5
      simp only [hc] at hF
      rw [e1, e2]
      exact ⟨hn, [req], by simp, hF.same ⟨rfl, rfl, rfl, rfl, rfl, rfl⟩⟩
  · refine ⟨hd, Or.inl ?_⟩
    obtain ⟨s, hr, hp⟩ := mainLoop_reach hm
    obtain ⟨hw, l, hl, hC⟩ := count_head hi hok hs hf hr
    obtain ⟨s1, s2, s3, h1, h2, h3, hcase⟩ := pass_inv hp
    have a3 := ((SameQp.advance h1).trans (SameQp.dynamic h2)).trans (SameQp.lin h3)
    rcases hcase with ⟨_, _, q', hq', hqq⟩ | ⟨s4, t', rho, h4, _, _, h5⟩
    · injection hqq with hqq
      have h7 := (accept_inv hq').choose_spec.choose_spec.2.1
      rw [← hqq] at h7
      refine ⟨by rw [show r.1 = .successfulReturn from h7]; simp [NotStarted], l, hl, ?_⟩
      have := hC.same (a3.trans (SameQp.accept hq'))
      rw [← hqq] at this
      exact this
    have hsame : SameQp s s4 := by
      rcases h4 with ⟨_, rfl⟩ | ⟨_, _, h4⟩
      · exact a3
      · exact a3.trans (SameQp.bump h4)
    rcases h5 with ⟨_, h5⟩ | ⟨_, _, h5⟩ | ⟨_, _, h5⟩
    · injection h5 with h5
      injection h5 with e1 e2
      rw [e1, e2]
      exact ⟨by simp [NotStarted], l, hl, hC.same hsame⟩
    · injection h5 with h5
      injection h5 with e1 e2
      rw [e1, e2]
      exact ⟨by simp [NotStarted], l, hl, hC.same hsame⟩
    obtain ⟨gk, q', hq', ⟨_, h7⟩ | ⟨_, _, _, _, _, ⟨⟩⟩⟩ := nextStep_inv h5
    injection h7 with h7
    injection h7 with e1 e2
    have hC4 : QpCount e sub o.s.calls l { s4 with gk := some gk } :=
      hC.same ⟨hsame.calls, hsame.iter, hsame.exit, hsame.work, hsame.sum, hsame.flag⟩
    obtain ⟨it, ex, _, _, q3, q4, q5, q6, ⟨_, _, _, ⟨Q, A, he⟩, hnl⟩ | ⟨hn, req, r1, r2, r3, r4⟩⟩ := solve_count hq' hs hb
    · exact absurd (hsame.work.trans (hw Q A he)) (hnl rfl)
    · subst r3 r4
      have := hC4.more hl r1 r2 q3 q4 q5
      rw [e1, e2]
      exact ⟨hn, l ++ [req], by simp, ⟨this.calls, this.sum, this.flag, this.asks⟩⟩

/-- C93: in every initialised run whose QP solver has been started, for any arithmetic and all answers: the requests `l` made during the
run (the first one for a set-up, the others for a hot start) are answered one by one; `iters_subproblem` is the sum of the iteration
numbers of all answers (negative ones count as zero), and `qp_exit_flag` is the flag of the last answer.  In particular a run that
ends with a failed QP counts the iterations of that QP. -/
theorem C93_count {fuel : Nat} {r : RV × Obj α} (h : runSolver e fuel o = .ok (some r)) (hi : initializeSolver e o = .ok i)
    (hok : i.1 = .successfulReturn) (hn : ¬ NotStarted r.1) :
    ∃ sub l, r.2.d.sub = some sub ∧ l ≠ [] ∧ QpCount e sub o.s.calls l r.2.s := by
  obtain ⟨sub, hs⟩ : ∃ sub, i.2.d.sub = some sub := by
    obtain ⟨j, hj, ⟨hne, _⟩ | ⟨_, _, hf | ⟨_, hf, _⟩⟩⟩ := runSolver_inv h
    · rw [hi] at hj
      injection hj with hj
      subst hj
      exact absurd hok hne
    all_goals
      rw [hi] at hj
      injection hj with hj
      subst hj
      obtain ⟨_, _, hq, _⟩ := firstStep_inv hf
      obtain ⟨_, hr, _⟩ := solveQP_inv hq
      obtain ⟨sub, hs, _⟩ := subSolve_ret hr
      exact ⟨sub, hs⟩
  obtain ⟨hd, ⟨_, l, hl, hC⟩ | ⟨hn', _⟩⟩ := count_end h hi hok hs
  · exact ⟨sub, l, by rw [hd]; exact hs, hl, hC⟩
  · exact absurd hn' hn

/-- C93: if OSQP could not be started (its set-up or a warm start was refused), this has happened at the first QP of the run, and the
statistics show the iterations and the exit flag of the last QP of an earlier run of the same object. -/
theorem C93_stale {fuel : Nat} {r : RV × Obj α} (h : runSolver e fuel o = .ok (some r)) (hn : NotStarted r.1) :
    ∃ it ex, o.s.qpIter = some it ∧ o.s.qpExit = some ex ∧ r.2.s.calls = o.s.calls + 1 ∧
      r.2.s.stats.subproblemIter = max 0 it ∧ r.2.s.stats.exitFlag = ex ∧ r.2.s.stats.iterTotal = 0 := by
  obtain ⟨i, hi, hcase⟩ := runSolver_inv h
  rcases hcase with ⟨hne, hr⟩ | ⟨hok, _, hcase⟩
  · obtain ⟨_, hcode⟩ := initializeSolver_fail hi hne
    have : r.1 = i.1 := by rw [hr]
    rw [← this] at hcode
    rcases hn with hn | hn | hn <;> rw [hn] at hcode <;> simp at hcode
  · have hsub : ∃ sub, i.2.d.sub = some sub := by
      rcases hcase with hf | ⟨_, hf, _⟩ <;>
      · obtain ⟨_, _, hq, _⟩ := firstStep_inv hf
        obtain ⟨_, hr, _⟩ := solveQP_inv hq
        obtain ⟨sub, hs, _⟩ := subSolve_ret hr
        exact ⟨sub, hs⟩
    obtain ⟨sub, hs⟩ := hsub
    obtain ⟨_, ⟨hn', _⟩ | ⟨_, hf, it, ex, h1, h2, h3, h4, h5⟩⟩ := count_end h hi hok hs
    · exact absurd hn hn'
    · refine ⟨it, ex, h1, h2, h3, h4, h5, ?_⟩
      rcases Live.first hi hok hf with ⟨_, ⟨⟩, _⟩ | ⟨q, hq, _, _, _, _, _, _, h6, _⟩
      injection hq with hq
      rw [← hq] at h6
      exact h6

/-- C93: on an object that has not solved a QP yet no run returns one of these three codes: where the source means to return them, it
first reads the two numbers that nobody has written. -/
theorem C93_never {fuel : Nat} {r : RV × Obj α} (h : runSolver e fuel o = .ok (some r)) (h0 : o.s.qpIter = none) :
    ¬ NotStarted r.1 := by
  intro hn
  obtain ⟨_, _, h1, _⟩ := C93_stale h hn
  rw [h0] at h1
  cases h1

/-- C93: if the first QP fails, `rho_opt` is zero although the penalty parameter has its initial value. -/
theorem C93_rho {fuel : Nat} {r : RV × Obj α} (h : runSolver e fuel o = .ok (some r)) (hi : initializeSolver e o = .ok i)
    (hok : i.1 = .successfulReturn) (h0 : ¬ ∃ d s0, Enters e o d s0) :
    r.2.s.stats.rhoOpt = zero ∧ r.2.s.rho = some o.d.opts.rho0 ∧ r.2.s.stats.iterTotal = 0 := by
  obtain ⟨j, hj, ⟨hne, _⟩ | ⟨_, _, hf | ⟨s0, hf, _⟩⟩⟩ := runSolver_inv h
  · rw [hi] at hj
    injection hj with hj
    subst hj
    exact absurd hok hne
  · rw [hi] at hj
    injection hj with hj
    subst hj
    rcases Live.first hi hok hf with ⟨_, ⟨⟩, _⟩ | ⟨q, hq, _, _, _, h4, _, _, h6, _, _⟩
    obtain ⟨gk, q', hq', ⟨_, h'⟩ | ⟨_, _, _, _, _, _, ⟨⟩⟩⟩ := firstStep_inv hf
    injection hq with hq
    injection h' with h'
    rw [← hq] at h4 h6
    refine ⟨?_, h4, h6⟩
    obtain ⟨it, ex, _, hst⟩ := solve_stats hq'
    obtain ⟨_, _, _, _, _, _, hs0⟩ := Live.start hi hok
    injection h' with _ h'
    rw [h']
    show q'.2.stats.rhoOpt = _
    rw [hst]
    show i.2.s.stats.rhoOpt = _
    rw [hs0]
    rfl
  · rw [hi] at hj
    injection hj with hj
    subst hj
    exact absurd ⟨_, s0, i, hi, hok, rfl, hf⟩ h0

/-! ## runs of these kinds -/

namespace Ex

/-- return code, QP iterations, exit flag, penalty parameter of the statistics -/
def qpSeen (r : M (Option (RV × Obj (Ext ℚ)))) : Except Fault (Option (RV × Int × Int × Ext ℚ)) :=
  r.map fun q => q.map fun q => (q.1, q.2.s.stats.subproblemIter, q.2.s.stats.exitFlag, q.2.s.stats.rhoOpt)

/-- OSQP refuses its input -/
def envNoSetup : Env (Ext ℚ) := envOf fun _ _ => { good [1, 0] [0, 199/100] with setup := false }

/-- OSQP refuses the initial guess -/
def envNoWarm : Env (Ext ℚ) := envOf fun _ _ => { good [1, 0] [0, 199/100] with warmX := false }

/-- the QP solver fails after seven iterations -/
def envFail7 : Env (Ext ℚ) := envOf fun _ _ => { good [1, 0] [0, 199/100] with ret := 33, iter := 7 }

end Ex

/-- C93, witnesses: a run with one QP of three iterations; a first QP that fails after seven iterations; OSQP refusing its input
on a fresh object, which is a read of uninitialised memory; and OSQP refusing the initial guess in a second run after another load, which reports the
three iterations and the flag 1 of the first run. -/
theorem C93_witness :
    Ex.qpSeen (Ex.srun Ex.envO 2 20) = .ok (some (.successfulReturn, 3, 1, .fin (1 / 100))) ∧
    Ex.qpSeen (Ex.srun Ex.envFail7 1 20) = .ok (some (.subproblemSolverError, 7, 33, .fin 0)) ∧
    Ex.qpSeen (Ex.srun Ex.envNoSetup 2 20) = .error .uninit ∧
    Ex.qpSeen (Ex.srunLoad Ex.envO Ex.envNoWarm) = .ok (some (.osqpInitialPrimalGuessFailed, 3, 1, .fin 0)) := by
  refine ⟨?_, ?_, ?_, ?_⟩ <;> decide +kernel

/-- runs with several QPs: the first one is followed by one per pass; in the second run the last QP fails and is counted -/
example : Ex.qpSeen (Ex.run Ex.envPen (fun o => { o with maxRho := .fin 1 }) 1001) =
    .ok (some (.maxPenaltyReached, 21, 0, .fin (32 / 25))) := by decide +kernel
example : Ex.qpSeen (Ex.run Ex.envFail id 1001) = .ok (some (.subproblemSolverError, 6, 33, .fin (1 / 100))) := by
  decide +kernel

end LCQ
