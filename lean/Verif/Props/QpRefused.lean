import Verif.Lemmas.QpRefused
import Verif.Props.QpStats
import Verif.Props.Circle

/-!
# C93: OSQP cannot be started on a fresh object

`SubsolverOSQP::solve` returns early when the set-up of OSQP or its warm start has failed (/repo/src/SubsolverOSQP.cpp:154-170), without
having written the number of iterations and the exit flag.  `solveQPSubproblem` (/repo/src/LCQProblem.cpp:1115-1137) reads both
numbers before it looks at the return value, and no constructor has initialised them.
-/

namespace LCQ
open Scalar

variable {α : Type} [Scalar α] {e : Env α} {o : Obj α} {n : Dims}

/-- C93: for any arithmetic, all loaded objects that have not solved a QP yet and pass initialisation for OSQP: if OSQP refuses its
input or the primal guess at the first QP, the run reads uninitialised memory, however long it is observed. -/
theorem C93_uninit (h : Ready o n) (h0 : o.s.qpIter = none) {i : RV × Obj α} (hi : initializeSolver e o = .ok i)
    (hok : i.1 = .successfulReturn) (hq : o.d.opts.qpSolver = 2)
    (hr : ∀ r, (e.qp o.s.calls r).setup = false ∨ (e.qp o.s.calls r).warmX = false) (fuel : Nat) :
    runSolver e fuel o = .error .uninit := by
  obtain ⟨j, hj, hall⟩ := initializeSolver_total (e := e) h
  rw [hi] at hj
  injection hj with hj
  subst hj
  obtain ⟨off, hd, hs, hy, _, _, _, hc, _, _, hw, _⟩ := hall hok
  have hn := (initializeSolver_duals h.dims h.nV hi hok).1
  rw [if_pos hq, hd.nDuals] at hn
  injection hn with hn
  have hoff : off = 0 := by simp only [Dims.nA] at hn; omega
  have hsub : ∃ Q A, i.2.d.sub = some (.osqp Q A) := by
    rcases hd.sub with ⟨Q, A, _, ho⟩ | ⟨Q, A, _, ho⟩ | ⟨Q, A, hsub, _⟩
    · exact absurd (ho.symm.trans hoff) h.nV
    · exact absurd (ho.symm.trans hoff) h.nV
    · exact ⟨Q, A, hsub⟩
  have hk : i.2.s.qpIter = none := by
    obtain ⟨_, _, _, _, _, _, _, _, _, _, hio⟩ := initializeSolver_ok hi hok
    rw [hio]
    exact h0
  obtain ⟨_, hnull, _⟩ := hw hsub
  obtain ⟨Q, A, hsub⟩ := hsub
  rw [runSolver, hi, ok_bind, if_neg (by simp [hok]), firstStep_refused hd hs hy hsub hnull hk (by rw [hc]; exact hr)]
  rfl

/-- C93: the same for every object obtained by any sequence of setting options, successful loads and mode switches. -/
theorem C93_fresh (h : Prepared e n true o) (hq : o.d.opts.qpSolver = 2) (hsp : o.d.sparse = true) (hl : o.d.lb = none) (hu : o.d.ub = none)
    (hl' : o.d.lbTmp = none) (hu' : o.d.ubTmp = none) (hr : ∀ r, (e.qp 0 r).setup = false ∨ (e.qp 0 r).warmX = false) (fuel : Nat) :
    runSolver e fuel o = .error .uninit := by
  obtain ⟨hU, hR⟩ := h.untouched
  obtain ⟨i, hi, hok⟩ := init_osqp_ok (e := e) (hR rfl) hq hsp hl hu hl' hu'
  exact C93_uninit (hR rfl) h.qpIter hi hok hq (by rw [hU.calls]; exact hr) fuel

/-- C93: the example program OptimizeOnCircle, for every number of directions and all directions: if OSQP refuses the problem or the
initial guess, the program reads uninitialised memory. -/
theorem C93_circle (e : Env α) {N : Nat} (hN : 1 ≤ N) (dir : Nat → α × α) (qd sd fuel : Nat)
    (hr : ∀ r, (e.qp 0 r).setup = false ∨ (e.qp 0 r).warmX = false) : Circle.main e N dir qd sd fuel = .error .uninit := by
  obtain ⟨a, o1, o2, _, hA, h1, h2, hsp, hopt, hp, hm⟩ := Circle.main_start e hN dir qd sd fuel
  have hf := hA.fits
  have hp0 : Prepared e (Circle.dims N) false
      (setOptions (Obj.new (Options.default qd sd) (2 + 2 * N : Nat) (N + 1 : Nat) (N : Nat)) (Circle.options qd sd)) := by
    refine .options _ (.new _ _ _ _ ⟨by omega, by omega, by omega⟩ ?_)
    simp only [Int.toNat_natCast, Circle.dims]
  have hb : (setOptions (Obj.new (Options.default qd sd : Options α) (2 + 2 * N : Nat) (N + 1 : Nat) (N : Nat)) (Circle.options qd sd)).d.lb = none ∧
      (setOptions (Obj.new (Options.default qd sd : Options α) (2 + 2 * N : Nat) (N + 1 : Nat) (N : Nat)) (Circle.options qd sd)).d.ub = none ∧
      (setOptions (Obj.new (Options.default qd sd : Options α) (2 + 2 * N : Nat) (N + 1 : Nat) (N : Nat)) (Circle.options qd sd)).d.lbTmp = none ∧
      (setOptions (Obj.new (Options.default qd sd : Options α) (2 + 2 * N : Nat) (N + 1 : Nat) (N : Nat)) (Circle.options qd sd)).d.ubTmp = none := by
    unfold setOptions Obj.new
    dsimp only
    rw [if_neg (by omega), if_neg (by omega), if_neg (by omega)]
    exact ⟨rfl, rfl, rfl, rfl⟩
  obtain ⟨hu, _⟩ := hp0.untouched
  have ho1 : o1.d.lb = none ∧ o1.d.ub = none ∧ o1.d.lbTmp = none ∧ o1.d.ubTmp = none := by
    obtain ⟨b1, b2, b3, b4⟩ := hb
    rcases loadDense_ok (e := e) hu.dims hu.nV hu.nComp hf with ⟨_, o', h⟩ | ⟨_, _, o', h⟩ | ⟨_, _, _, o', h⟩ |
      ⟨_, _, _, _, _, _, _, _, _, _, _, _, _, _, _, _, h⟩
    · rw [h1] at h; cases h
    · rw [h1] at h; cases h
    · rw [h1] at h; cases h
    · rw [h1] at h
      injection h with h
      injection h with _ h
      rw [h]
      exact ⟨b1, b2, b3, b4⟩
  obtain ⟨_, k1, k2, k3, k4⟩ := switchToSparse_keep h2
  rw [hm, C93_fresh hp (by rw [hopt]; exact (Circle.options_eq qd sd).1) hsp (k1.trans ho1.1) (k2.trans ho1.2.1) (k3.trans ho1.2.2.1)
    (k4.trans ho1.2.2.2) hr fuel]
  rfl

/-- the hypothesis can hold, and the run of the statement exists -/
example : Circle.main Ex.envNoSetup 3 (fun _ => (.fin 1, .fin 0)) 0 0 5 = .error .uninit :=
  C93_circle _ (by decide) _ _ _ _ fun _ => Or.inl rfl

end LCQ
