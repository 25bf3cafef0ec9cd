import Verif.Lemmas.OneSetup
import Verif.Props.Classify

/-!
# C88: one factorization

The README promises a constant Hessian throughout all iterates and a single factorization of the KKT matrix.  What the
library can do for this: it hands the matrices to the QP solver once, at the first request of a run, and asks for hot
starts with new linear terms from then on, whatever the numbers and the answers are.
-/

set_option linter.unusedSectionVars false

namespace LCQ
open Scalar

variable {α : Type} [Scalar α] {e : Env α} {o : Obj α}

/-- C88: all requests of a run have the same matrices, which are those of the objective and the constraints, the same
bounds and the same settings; the first one sets the QP solver up and all others are hot starts without guess.  For any
other request the QP solver may be replaced by anything: the run does not notice. -/
theorem C88_requests {i : RV × Obj α} (hi : initializeSolver e o = .ok i) (hs : i.1 = .successfulReturn) :
    ∃ p : QpForm α, p.From o ∧ ∀ qp' : Nat → Req α → Resp α,
      (∀ k q, p.Allows o.s.calls k q → qp' k q = e.qp k q) →
      ∀ fuel, runSolver { e with qp := qp' } fuel o = runSolver e fuel o :=
  ⟨qpFormOf i.2.d, init_from hi hs, fun _ h fuel => runSolver_asks hi h fuel⟩

/-- C88: a run that fails in its initialisation sends no request at all. -/
theorem C88_none (hi : ∀ i, initializeSolver e o = .ok i → i.1 ≠ .successfulReturn) (qp' : Nat → Req α → Resp α)
    (fuel : Nat) : runSolver { e with qp := qp' } fuel o = runSolver e fuel o := by
  unfold runSolver
  change (initializeSolver e o >>= _) = (initializeSolver e o >>= _)
  refine bind_congr_ok fun i h => ?_
  rw [if_pos (hi i h), if_pos (hi i h)]

/-- C88: the requests are numbered without gaps: a pass that goes on has sent exactly one. -/
theorem C88_one {d : Data α} {s s' : St α} (h : pass e d s = .ok (.inl s')) : s'.calls = s.calls + 1 := pass_calls h

/-- number of requests of a run, for the examples -/
def Ex.asked (r : M (Option (RV × Obj (Ext ℚ)))) : Option Nat := match r with
  | .ok (some p) => some p.2.s.calls
  | _ => none

/-- a run with a penalty update sends five requests -/
example : Ex.asked (Ex.go (Ex.solver Ex.ans2) Ex.opts2 Ex.args2 20) = some 5 := by decide +kernel

/-- the run does not notice a QP solver that refuses every set-up after the first request -/
example : Ex.asked (Ex.go { Ex.solver Ex.ans2 with
    qp := fun k q => if q.init = true ∧ 0 < k then { (Ex.solver Ex.ans2).qp k q with ret := 1 } else (Ex.solver Ex.ans2).qp k q }
    Ex.opts2 Ex.args2 20) = some 5 := by decide +kernel

/-- it does notice one that refuses hot starts -/
example : Ex.asked (Ex.go { Ex.solver Ex.ans2 with
    qp := fun k q => if q.init = false then { (Ex.solver Ex.ans2).qp k q with ret := 1 } else (Ex.solver Ex.ans2).qp k q }
    Ex.opts2 Ex.args2 20) = some 2 := by decide +kernel

/-- the hypotheses of `C88_requests` hold in an example -/
example : ∃ (o : Obj (Ext ℚ)) (i : RV × Obj (Ext ℚ)), initializeSolver (Ex.solver Ex.ans1) o = .ok i ∧
    i.1 = .successfulReturn := by
  obtain ⟨o, o', _, _, _, _, hr, _⟩ := Ex.wit1
  obtain ⟨i, hi, hc⟩ := runSolver_inv hr
  refine ⟨o, i, hi, ?_⟩
  rcases hc with ⟨hne, h⟩ | ⟨hok, _⟩
  · injection h with h _
    exact absurd h.symm hne
  · exact hok

/-- the hypothesis of `C88_none` holds for an object without problem -/
example (o : Obj (Ext ℚ)) (h : o.d.dims = none) : ∀ i, initializeSolver (Ex.solver Ex.ans1) o = .ok i →
    i.1 ≠ .successfulReturn := by
  intro i hi
  simp only [initializeSolver, chooseSolver, h] at hi
  cases hi

end LCQ
