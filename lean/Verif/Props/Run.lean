import Verif.Lemmas.Live
import Verif.Props.Examples

/-!
# Control flow of `runSolver` (C18, C19, C22, C23)

All theorems hold for every arithmetic, every behaviour of the QP solver and every object, loaded or
not.
-/

set_option linter.unusedSectionVars false

namespace LCQ
open Scalar

variable {α : Type} [Scalar α]

/-! ## C18 termination -/

theorem mainLoop_ne_none {e : Env α} {d : Data α} {f t k : Nat} {s : St α} (hl : Live d.opts s t k)
    (hk : (t = 0 ∧ k = 0) ∨ (d.opts.maxRho <. penalty d.opts k) = false)
    (hf : 0 < f) (h : d.opts.maxIter < t + f) : mainLoop e d f s ≠ .ok none := by
  induction f generalizing s t k with
  | zero => omega
  | succ f ih =>
    intro hm
    simp only [mainLoop, bind_eq_ok] at hm
    obtain ⟨r, hr, hm⟩ := hm
    rcases hl.pass hk hr with ⟨s', k', rfl, l', _, _, _, m', r'⟩ | ⟨q, k', rfl, _⟩
    · exact ih l' (Or.inr r') (by omega) (by omega) hm
    · simp at hm

/-- The loop of `runSolver` ends within `maxIterations + 1` passes: the outcome "still running" is
impossible once that many passes are allowed. -/
theorem C18_terminates (e : Env α) (o : Obj α) (fuel : Nat)
    (h : o.d.opts.maxIter.toNat + 1 ≤ fuel) : runSolver e fuel o ≠ .ok none := by
  intro hrun
  simp only [runSolver, bind_eq_ok] at hrun
  obtain ⟨i, hi, hrun⟩ := hrun
  split at hrun
  · simp at hrun
  · rename_i hne
    have hok := not_not.mp hne
    simp only [bind_eq_ok] at hrun
    obtain ⟨f, hf, hrun⟩ := hrun
    rcases Live.first hi hok hf with ⟨s, rfl, hl, _⟩ | ⟨q, rfl, _⟩
    · simp only [bind_eq_ok] at hrun
      obtain ⟨q, hq, hrun⟩ := hrun
      cases q with
      | none =>
        rw [← (Live.start hi hok).1] at hl h
        exact mainLoop_ne_none hl (Or.inl ⟨rfl, rfl⟩) (by omega) (by omega) hq
      | some q => simp at hrun
    · simp at hrun

/-- More passes allowed do not change the outcome, so `runSolver` with enough passes is the
behaviour of the C++ function. -/
theorem C18_fuel (e : Env α) (o : Obj α) (f g : Nat) (hf : o.d.opts.maxIter.toNat + 1 ≤ f)
    (hfg : f ≤ g) : runSolver e g o = runSolver e f o := by
  have hne := C18_terminates e o f hf
  obtain ⟨k, rfl⟩ := Nat.exists_eq_add_of_le hfg
  unfold runSolver at hne ⊢
  cases hi : initializeSolver e o with
  | error x => rfl
  | ok i =>
    rw [hi] at hne
    simp only [ok_bind] at hne ⊢
    split
    · rfl
    · rename_i hok
      rw [if_neg hok] at hne
      cases hs : firstStep e i.2.d i.2.s with
      | error x => rfl
      | ok r =>
        rw [hs] at hne
        simp only [ok_bind] at hne ⊢
        cases r with
        | inr q => rfl
        | inl s =>
          simp only at hne ⊢
          cases hm : mainLoop e i.2.d f s with
          | error x => rw [mainLoop_err hm]
          | ok q =>
            cases q with
            | none => rw [hm] at hne; simp at hne
            | some q => rw [mainLoop_mono hm]

/-- At most `maxIterations + 1` QP calls are made and at most `maxIterations + 1` iterations are
counted and reported (negative limits count as zero). -/
theorem C18_bounds {e : Env α} {o : Obj α} {fuel : Nat} {r : RV × Obj α} {i : RV × Obj α}
    (h : runSolver e fuel o = .ok (some r)) (hi : initializeSolver e o = .ok i)
    (hok : i.1 = .successfulReturn) :
    r.2.s.calls ≤ o.s.calls + (o.d.opts.maxIter.toNat + 1) ∧
    0 ≤ r.2.s.stats.iterTotal ∧ r.2.s.stats.iterTotal ≤ o.d.opts.maxIter.toNat + 1 := by
  obtain ⟨_, _, hc, hcase⟩ := run_ended h hi hok
  refine ⟨by omega, ?_⟩
  rcases hcase with ⟨_, _, _, _, _, _, h0, _⟩ | ⟨t, k, _, ht, hend⟩
  · omega
  · have : r.2.s.stats.iterTotal = t := hend.counts.2.1
    omega

/-- A failed initialisation makes no QP call. -/
theorem C18_init_fails {e : Env α} {o : Obj α} {fuel : Nat} {r : RV × Obj α} {i : RV × Obj α}
    (h : runSolver e fuel o = .ok (some r)) (hi : initializeSolver e o = .ok i)
    (hne : i.1 ≠ .successfulReturn) : r.2.s.calls = o.s.calls := by
  obtain ⟨i', hi', hc⟩ := runSolver_inv h
  rw [hi] at hi'
  injection hi' with hi'
  subst hi'
  rcases hc with ⟨_, hr⟩ | ⟨hok, _⟩
  · obtain ⟨hch, _⟩ := initializeSolver_fail hi hne
    obtain ⟨_, _, _, _, _, _, _, hch⟩ := chooseSolver_inv hch
    rw [hr, hch]
    rfl
  · exact absurd hok hne

/-- the bounds are attained: with the limit 5, six iterations are made and counted and six QPs are
solved -/
example : (Ex.seen (Ex.run Ex.envBad (fun o => { o with maxIter := 5 }) 6)).map
    (fun r => (r.1, r.2.2.2.iterTotal)) = some (.maxIterationsReached, 6) := by decide +kernel
example : (match Ex.run Ex.envBad (fun o => { o with maxIter := 5 }) 6 with
    | .ok (some r) => r.2.s.calls
    | _ => 0) = 6 := by decide +kernel
/-- with one pass less the loop is still running -/
example : (match Ex.run Ex.envBad (fun o => { o with maxIter := 5 }) 5 with
    | .ok none => true
    | _ => false) = true := by decide +kernel

/-! ## C19 return codes -/

/-- a failure of the QP solver, as far as it can be seen after the run: `o` is the final object -/
inductive SubFailed (e : Env α) (o : Obj α) : RV → Prop
  /-- the last answer of the QP solver was not a success, and its exit flag is reported -/
  | answer (sub : Sub α) (req : Req α) (hs : o.d.sub = some sub) (hreq : req.sub = sub)
      (hc : 0 < o.s.calls) (hbad : ¬ QpOk sub (e.qp (o.s.calls - 1) req))
      (hx : o.s.stats.exitFlag = exitOf sub (e.qp (o.s.calls - 1) req)) :
      SubFailed e o .subproblemSolverError
  /-- OSQP could not be started -/
  | osqp (rv : RV) (Q A : CSC α) (hs : o.d.sub = some (.osqp Q A))
      (hrv : rv = .osqpInitialPrimalGuessFailed ∨ rv = .osqpInitialDualGuessFailed ∨
        rv = .osqpWorkspaceNotSetUp) : SubFailed e o rv

theorem subFailed_of_solve {e : Env α} {d : Data α} {u v : St α} {init : Bool} {rv : RV}
    (h : solveQP e d u init = .ok (rv, v)) (hne : rv ≠ .successfulReturn)
    (hbox : ∀ Q A, d.sub = some (.osqp Q A) → d.lb = none ∧ d.ub = none) :
    SubFailed e ⟨d, v.say (.msg rv)⟩ rv := by
  obtain ⟨q, hq, hrv, it, ex, st, hit, hex, hst, w, c, k, x, y, a, b, p, hk, hk', _, _, hv⟩ := solveQP_inv h
  simp only at hrv hv
  obtain ⟨sub, hsub, ⟨h1, ⟨Q, A, rfl⟩, hb, _⟩ | ⟨req, ans, hans, hreq, hin, hcase⟩⟩ := subSolve_ret hq
  · obtain ⟨b1, b2⟩ := hbox Q A hsub
    simp [b1, b2] at hb
  · rcases hcase with ⟨h1, ⟨Q, A, rfl⟩, _⟩ | ⟨h1, ⟨Q, A, rfl⟩, _⟩ | ⟨h1, ⟨Q, A, rfl⟩, _⟩ |
      ⟨⟨h1, _⟩ | ⟨h1, hbad⟩, w', hq2⟩
    · exact .osqp _ Q A hsub (by rw [hrv, h1]; simp)
    · exact .osqp _ Q A hsub (by rw [hrv, h1]; simp)
    · exact .osqp _ Q A hsub (by rw [hrv, h1]; simp)
    · exact absurd (hrv.trans h1) hne
    · have hr : rv = .subproblemSolverError := hrv.trans h1
      subst hr
      have hcalls : v.calls = u.calls + 1 := by rw [hv]; show k = _; rw [hk', hq2]
      have hflag : v.stats.exitFlag = exitOf sub ans := by
        rw [hq2] at hex
        injection hex with hex
        rw [hv, ← hex]
        rfl
      refine .answer sub req hsub hreq ?_ ?_ ?_
      · show 0 < v.calls; omega
      · show ¬ QpOk sub (e.qp (v.calls - 1) req)
        rw [hcalls]; simpa [hans] using hbad
      · show v.stats.exitFlag = exitOf sub (e.qp (v.calls - 1) req)
        rw [hflag, hcalls]; simp [hans]

/-- Every result of `runSolver`: an initialisation failure with one of four codes, or success with a
definite solution status, or one of the three failures, each of which can be seen in the final
object; in the failure cases of an initialised run the status is `PROBLEM_NOT_SOLVED`. -/
theorem C19_codes {e : Env α} {o : Obj α} {fuel : Nat} {r : RV × Obj α}
    (h : runSolver e fuel o = .ok (some r)) :
    (∃ i, initializeSolver e o = .ok i ∧ i.1 ≠ .successfulReturn ∧ r.1 = i.1 ∧
      r.1 ∈ [.denseSparseMissmatch, .invalidOsqpBoxConstraints, .notYetImplemented,
        .lcqpobjectNotSetup]) ∨
    (∃ i, initializeSolver e o = .ok i ∧ i.1 = .successfulReturn ∧
      r.2.s.algo = some r.2.s.stats.status ∧
      ((r.1 = .successfulReturn ∧ r.2.s.stats.status ≠ .notSolved) ∨
       (r.1 = .maxIterationsReached ∧ r.2.s.stats.status = .notSolved ∧
          o.d.opts.maxIter < r.2.s.stats.iterTotal) ∨
       (r.1 = .maxPenaltyReached ∧ r.2.s.stats.status = .notSolved ∧
          ∃ rho, r.2.s.rho = some rho ∧ (o.d.opts.maxRho <. rho) = true) ∨
       (SubFailed e r.2 r.1 ∧ r.2.s.stats.status = .notSolved))) := by
  obtain ⟨i, hi, hc⟩ := runSolver_inv h
  by_cases hok : i.1 = .successfulReturn
  · right
    refine ⟨i, hi, hok, ?_⟩
    obtain ⟨hd, hopts, _, hcase⟩ := run_ended h hi hok
    have hbox : ∀ Q A, r.2.d.sub = some (.osqp Q A) → r.2.d.lb = none ∧ r.2.d.ub = none := by
      intro Q A hs
      rw [hd] at hs ⊢
      exact init_osqp hi hok hs
    rcases hcase with ⟨hne, _, _, _, ha, hst, _, _, u, v, hv, hrv⟩ | ⟨t, k, _, _, hend⟩
    · refine ⟨by rw [ha, hst], Or.inr (Or.inr (Or.inr ⟨?_, hst⟩))⟩
      have := subFailed_of_solve hv hne hbox
      rw [← hrv] at this
      exact this
    · obtain ⟨rv, o'⟩ := r
      obtain ⟨d', s'⟩ := o'
      cases hend with
      | success s a ha hs hst hl _ =>
        exact ⟨by rw [hs, hst], Or.inl ⟨rfl, by rw [hst]; exact ha⟩⟩
      | iters s hl ht =>
        refine ⟨by rw [hl.algo, hl.status], Or.inr (Or.inl ⟨rfl, hl.status, ?_⟩)⟩
        simp only at hopts ⊢
        rw [hl.iterTotal, ← hopts]
        exact ht
      | rho s hl ht hr =>
        refine ⟨by rw [hl.algo, hl.status], Or.inr (Or.inr (Or.inl ⟨rfl, hl.status, _, hl.rho, ?_⟩))⟩
        simp only at hopts ⊢
        rw [← hopts]
        exact hr
      | sub rv s hl hne hr _ =>
        obtain ⟨u, v, init, hv, hs⟩ := hr
        refine ⟨by rw [hl.algo, hl.status], Or.inr (Or.inr (Or.inr ⟨?_, hl.status⟩))⟩
        have := subFailed_of_solve hv hne hbox
        rw [← hs] at this
        exact this
  · left
    rcases hc with ⟨_, hr⟩ | ⟨hok', _⟩
    · obtain ⟨_, hcode⟩ := initializeSolver_fail hi hok
      refine ⟨i, hi, hok, by rw [hr], ?_⟩
      rw [hr]
      simp only [List.mem_cons, List.not_mem_nil, or_false]
      exact hcode
    · exact absurd hok' hok

/-- For an initialised run the reported status is `PROBLEM_NOT_SOLVED` exactly if the run was not
successful. -/
theorem C19_status {e : Env α} {o : Obj α} {fuel : Nat} {r : RV × Obj α} {i : RV × Obj α}
    (h : runSolver e fuel o = .ok (some r)) (hi : initializeSolver e o = .ok i)
    (hok : i.1 = .successfulReturn) :
    r.2.s.stats.status = .notSolved ↔ r.1 ≠ .successfulReturn := by
  rcases C19_codes h with ⟨i', hi', hne, _⟩ | ⟨i', hi', _, _, hc⟩
  · rw [hi] at hi'
    injection hi' with hi'
    subst hi'
    exact absurd hok hne
  · rcases hc with ⟨h1, h2⟩ | ⟨h1, h2, _⟩ | ⟨h1, h2, _⟩ | ⟨h1, h2⟩
    · simp [h1, h2]
    · simp [h1, h2]
    · simp [h1, h2]
    · rw [h2]
      simp only [ne_eq, true_iff]
      intro hs
      rw [hs] at h1
      cases h1 with
      | osqp _ _ _ _ hrv => simp at hrv

/-- In a failed initialisation the status of an earlier run stays in place: the object keeps the
statistics it had. -/
theorem C19_stale {e : Env α} {o : Obj α} {fuel : Nat} {r : RV × Obj α} {i : RV × Obj α}
    (h : runSolver e fuel o = .ok (some r)) (hi : initializeSolver e o = .ok i)
    (hne : i.1 ≠ .successfulReturn) :
    r.2.s.stats = o.s.stats ∧ r.2.s.algo = o.s.algo ∧ r.2.s.xk = o.s.xk := by
  obtain ⟨i', hi', hc⟩ := runSolver_inv h
  rw [hi] at hi'
  injection hi' with hi'
  subst hi'
  rcases hc with ⟨_, hr⟩ | ⟨hok, _⟩
  · obtain ⟨hch, _⟩ := initializeSolver_fail hi hne
    obtain ⟨_, _, _, _, _, _, _, hch⟩ := chooseSolver_inv hch
    rw [hr, hch]
    exact ⟨rfl, rfl, rfl⟩
  · exact absurd hok hne

/-- all four outcomes of an initialised run occur -/
example : (Ex.seen (Ex.run Ex.env id 1001)).map (fun r => (r.1, r.2.2.2.status)) =
    some (.successfulReturn, .sStat) := by decide +kernel
example : (Ex.seen (Ex.run Ex.envBad (fun o => { o with maxIter := 0 }) 1)).map
    (fun r => (r.1, r.2.2.2.status)) = some (.maxIterationsReached, .notSolved) := by decide +kernel
example : (Ex.seen (Ex.run Ex.envPen (fun o => { o with maxRho := .fin 1 }) 1001)).map
    (fun r => (r.1, r.2.2.2.status)) = some (.maxPenaltyReached, .notSolved) := by decide +kernel
example : (Ex.seen (Ex.run Ex.envFail id 1001)).map
    (fun r => (r.1, r.2.2.2.status, r.2.2.2.exitFlag)) =
    some (.subproblemSolverError, .notSolved, 33) := by decide +kernel
example : (Ex.seen (Ex.run Ex.env (fun o => { o with qpSolver := 1 }) 1001)).map Prod.fst =
    some .denseSparseMissmatch := by decide +kernel

/-! ## C22 penalty schedule -/

/-- After an initialised run the penalty parameter is the initial one multiplied `k` times by the
update factor, where `k` is the reported number of outer iterations, and (if all these values are
positive) it is the reported penalty parameter. -/
theorem C22_schedule {e : Env α} {o : Obj α} {fuel : Nat} {r : RV × Obj α} {i : RV × Obj α}
    (h : runSolver e fuel o = .ok (some r)) (hi : initializeSolver e o = .ok i)
    (hok : i.1 = .successfulReturn) :
    ∃ k : Nat, r.2.s.stats.iterOuter = k ∧ r.2.s.outer = some (k : Int) ∧
      r.2.s.rho = some (penalty o.d.opts k) ∧
      (0 < r.2.s.stats.iterTotal → (∀ j ≤ k, (penalty o.d.opts j <=. zero) = false) →
        r.2.s.stats.rhoOpt = penalty o.d.opts k) := by
  obtain ⟨_, hopts, _, hcase⟩ := run_ended h hi hok
  rcases hcase with ⟨_, _, ho, hr, _, _, h0, h1, _⟩ | ⟨t, k, _, _, hend⟩
  · exact ⟨0, by simpa using h1, by simpa using ho, hr, by omega⟩
  · obtain ⟨_, _, h3, h4, h5, h6⟩ := hend.counts
    rw [← hopts]
    exact ⟨k, h4, h3, h5, fun _ => h6⟩

end LCQ
