import Verif.Lemmas.WarmUpMax
import Verif.Lemmas.Modes
import Verif.Props.Run
import Verif.Props.WarmUp
import Verif.Props.WarmUpEx

/-!
# C77: test_max_penalty.cpp reaches the maximal penalty
-/

namespace LCQ.WarmUp
open Scalar Ext

variable {K : Type} [Field K] [LinearOrder K] [IsStrictOrderedRing K] {e : Env (Ext K)}

/-- C77: with exact QP answers, none of which reports a failure, test_max_penalty.cpp always ends with exit code 0: whatever the
pseudo-random perturbations are, its run ends with `MAX_PENALTY_REACHED`, after at most 260 passes of the main loop.
`M` bounds the iteration counts reported by the QP solver. -/
theorem C77_max {M : Int} (hB : AnsBnd e M) (hM : 1001 * M ≤ intMax) (he : FinAns e)
    (hE : ExactOn e two2 (IsSub (prob 0) (fun _ => fin 0) (fun _ => pinf) (fun _ => ninf) (fun _ => pinf)))
    (hret : ∀ k q, (e.qp k q).ret = 0) (qd sd : Nat) {fuel : Nat} (hf : 1001 ≤ fuel) :
    mainMax e qd sd fuel = .ok (some 0) ∧
    ∃ o o', prepare e qd sd (maxPenalty qd sd) = .ok (some o) ∧ runSolver e fuel o = .ok (some (.maxPenaltyReached, o')) ∧
      o'.s.stats.iterTotal ≤ 260 := by
  obtain ⟨o, h1, q, hp, hopt, hprep, hrun, hmain⟩ := C77_max_safe e M hB hM qd sd fuel
  obtain ⟨hD, hR⟩ := maxPenalty_data (K := K) qd sd
  obtain ⟨x0, hG, _, _⟩ := hD.good (maxPenalty_loads qd sd) hR (Or.inl rfl) he hE hprep
  obtain ⟨hu0, _⟩ := (start_prepared e qd sd (t := maxPenalty qd sd) (maxPenalty_loads qd sd).comp).untouched
  obtain ⟨_, _, hsp⟩ := hu0.toBuilt.load (maxPenalty_loads qd sd).fits (Iff.rfl) h1
  have hq0 : o.d.opts.qpSolver = 0 := by rw [hopt]; exact (maxPenalty_opts qd sd).2
  obtain ⟨i, sub, hsub, hi, hi1, _, his, _⟩ := initializeSolver_qpo (e := e) hG.setup.ready (Or.inl ⟨hq0, hsp⟩)
  cases q with
  | none =>
    exfalso
    refine C18_terminates e o fuel ?_ hrun
    rw [hG.maxIter]
    exact hf
  | some r =>
    obtain ⟨rv, o'⟩ := r
    have key : rv = .maxPenaltyReached ∧ o'.s.stats.iterTotal ≤ 260 := by
      obtain ⟨hd, _, _, hcase⟩ := run_ended hrun hi hi1
      have nofail : ¬ SubFailed e o' rv := by
        intro hf
        cases hf with
        | answer sub' req hs hreq hc hbad hx =>
          have : sub' = sub := by
            rw [hd, his] at hs
            injection hs with hs
            exact hs.symm
          subst this
          apply hbad
          cases hsub <;> exact hret _ _
        | osqp _ Q A hs _ =>
          rw [hd, his] at hs
          injection hs with hs
          subst hs
          cases hsub
      rcases C19_codes hrun with ⟨i', hi', hne, _⟩ | ⟨_, _, _, _, hc⟩
      · rw [hi] at hi'
        injection hi' with hi'
        subst hi'
        exact absurd hi1 hne
      · obtain ⟨i', hi', ⟨hne, _⟩ | ⟨hs, hd', hf | ⟨s0, hf, hm⟩⟩⟩ := runSolver_inv hrun
        · rw [hi] at hi'
          injection hi' with hi'
          subst hi'
          exact absurd hi1 hne
        · exfalso
          obtain ⟨gk, q, hq, ⟨hne, hr⟩ | ⟨_, _, _, _, _, _, ⟨⟩⟩⟩ := firstStep_inv hf
          injection hr with hr
          injection hr with hr1 hr2
          obtain ⟨d', s'⟩ := o'
          dsimp only at hd' hr1 hr2
          subst hd' hr1 hr2
          exact nofail (subFailed_of_solve hq hne fun Q A hs' => init_osqp hi' hs hs')
        · obtain ⟨s, hre, hps⟩ := mainLoop_reach hm
          have h0 : Enters e o i'.2.d s0 := ⟨i', hi', hs, rfl, hf⟩
          obtain ⟨k, hk⟩ := Reach.passes hre
          obtain ⟨_, _, _, _, _, _, _, j, ii, _, _, _, _, _, _, _, _, _, _, _, _, hj6, hi36, hkb, _⟩ := hG.count h0 hk
          obtain ⟨j', hl, hj', _⟩ := hk.live h0
          have hend : ∃ k', Ended e i'.2.d (k + 1) k' (rv, o'.s) := by
            rcases hl.pass hj' hps with ⟨_, _, h, _⟩ | ⟨q, k', h, hE, _⟩
            · cases h
            · injection h with h
              subst h
              exact ⟨k', hE⟩
          obtain ⟨k', hend⟩ := hend
          obtain ⟨_, hit, _⟩ := hend.counts
          dsimp only at hit
          refine ⟨?_, by rw [hit]; omega⟩
          rcases hc with ⟨hsucc, _⟩ | ⟨_, _, hmi⟩ | ⟨hmp, _⟩ | ⟨hfail, _⟩
          · exact absurd hsucc (hG.far h0 hk hps)
          · rw [hG.maxIter, hit] at hmi
            omega
          · exact hmp
          · exact absurd hfail nofail
    obtain ⟨rfl, hk⟩ := key
    exact ⟨by rw [hmain]; rfl, o, o', hprep, hrun, hk⟩

/-- the hypotheses of `C77_max` can be met -/
example : (∃ M, AnsBnd (solver2 0 fun _ => 2) M ∧ 1001 * M ≤ intMax) ∧ FinAns (solver2 0 fun _ => 2) ∧
    ExactOn (solver2 0 fun _ => 2) two2 (IsSub (prob 0) (fun _ => fin 0) (fun _ => pinf) (fun _ => ninf) (fun _ => pinf)) ∧
    ∀ k q, ((solver2 0 fun _ => 2).qp k q).ret = 0 := by
  refine ⟨⟨3, fun k r => ?_, by decide⟩, solver2_fin 0 _, solver2_exact 0 _, fun k q => ?_⟩
  · simp only [solver2, Ex.envOf]
    split <;> exact ⟨show (-3 : Int) ≤ 3 by decide, show (3 : Int) ≤ 3 by decide⟩
  · simp only [solver2, Ex.envOf]
    split <;> rfl

end LCQ.WarmUp
