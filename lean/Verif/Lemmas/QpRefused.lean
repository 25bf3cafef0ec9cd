import Verif.Lemmas.QpStats
import Verif.Lemmas.Ready
import Verif.Lemmas.Interfaces
import Verif.Props.SafetyModes

/-!
# OSQP on a fresh object: initialisation, and what happens when it cannot be started
-/

namespace LCQ
open Scalar

variable {α : Type} [Scalar α] {e : Env α} {o : Obj α} {n : Dims}

/-- an object without box constraints can be initialised for OSQP -/
theorem init_osqp_ok (h : Ready o n) (hq : o.d.opts.qpSolver = 2) (hsp : o.d.sparse = true) (hl : o.d.lb = none) (hu : o.d.ub = none)
    (hl' : o.d.lbTmp = none) (hu' : o.d.ubTmp = none) : ∃ i, initializeSolver e o = .ok i ∧ i.1 = .successfulReturn := by
  obtain ⟨i, hi, _⟩ := initializeSolver_total (e := e) h
  refine ⟨i, hi, ?_⟩
  by_contra hne
  obtain ⟨hc, _⟩ := initializeSolver_fail hi hne
  rw [chooseSolver, h.dims, initd_some, ok_bind, if_neg (by rw [hq]; decide), if_neg (by rw [hq]; decide), if_pos hq,
    if_neg (by simp [hl, hu]), bind_eq_ok] at hc
  obtain ⟨y, _, hc⟩ := hc
  dsimp only at hc
  rw [if_neg (by simp [hsp]), if_neg (by simp [hl', hu'])] at hc
  simp only [bind_eq_ok] at hc
  obtain ⟨_, _, _, _, _, _, _, _, _, _, hc⟩ := hc
  injection hc with hc
  rw [← hc] at hne
  exact hne rfl

/-- a workspace that is not there: nothing is solved and the two numbers of the last QP are not written -/
theorem osqpFinish_null (s : St α) (r : Resp α) : ∃ rv, osqpFinish s true .null r = .ok (rv, { s with work := .null, calls := s.calls + 1 }) := by
  unfold osqpFinish
  simp only [reduceCtorEq, if_false]
  split
  · exact ⟨_, rfl⟩
  split
  · exact ⟨_, rfl⟩
  rw [if_pos trivial]
  exact ⟨_, rfl⟩

/-- a refused primal guess, likewise -/
theorem osqpFinish_guess {s : St α} {w : Work} {r : Resp α} (hw : w ≠ .dangling) (hx : s.xk ≠ none) (hr : r.warmX = false) :
    ∃ rv, osqpFinish s true w r = .ok (rv, { s with work := w, calls := s.calls + 1 }) := by
  unfold osqpFinish
  rw [if_neg hw]
  simp only [true_and]
  rw [if_pos ⟨hx, Or.inr hr⟩]
  exact ⟨_, rfl⟩

/-- the first QP on a fresh object if OSQP does not accept its input -/
theorem firstStep_refused {d : Data α} {s : St α} {off : Nat} (hd : DataOK d n off) (hs : ArrOK n s) (hy : HasOpt s.yk (off + n.nA))
    {Q A : CSC α} (hsub : d.sub = some (.osqp Q A)) (hw : s.work = .null) (h0 : s.qpIter = none)
    (hr : ∀ r, (e.qp s.calls r).setup = false ∨ (e.qp s.calls r).warmX = false) : firstStep e d s = .error .uninit := by
  obtain ⟨g, lg, h2⟩ := firstGradient_ok hd hs
  obtain ⟨lA, hlA, llA⟩ := hd.lbA
  obtain ⟨uA, huA, luA⟩ := hd.ubA
  obtain ⟨x, hx, lx⟩ := hs.xk
  rcases hd.sub with ⟨Q', A', hsub', ho⟩ | ⟨Q', A', hsub', ho⟩ | ⟨Q', A', hsub', hQn, hAm, ho, hlb, hub⟩
  · rw [hsub] at hsub'; cases hsub'
  · rw [hsub] at hsub'; cases hsub'
  rw [hsub] at hsub'
  cases hsub'
  subst ho
  rw [Nat.zero_add] at hy
  rw [firstStep, h2, ok_bind, solveQP, subSolve, hsub, initd_some, ok_bind]
  dsimp only
  have key : ∃ rv w, osqpSolve e d { s with gk := some g } true (.osqp Q A) Q.n A.m =
      .ok (rv, { s with gk := some g, work := w, calls := s.calls + 1 }) := by
    rw [osqpSolve, if_neg (by simp [hlb, hub]), deref_some, ok_bind, hQn, copyN_ok lg, ok_bind, hlA, deref_some, ok_bind, hAm,
      copyN_ok llA, ok_bind, huA, deref_some, ok_bind, copyN_ok luA, ok_bind, if_pos rfl, copyOpt_ok (Or.inr ⟨x, hx, lx⟩), ok_bind,
      if_pos rfl, copyOpt_ok hy, ok_bind]
    dsimp only
    rcases hr ⟨.osqp Q A, true, g, lA, uA, s.xk, s.yk, none, none, d.opts.qpoases, d.opts.osqp⟩ with h | h
    · rw [h, Bool.and_false, if_neg (by decide), hw]
      obtain ⟨rv, h⟩ := osqpFinish_null { s with gk := some g } _
      exact ⟨rv, _, h⟩
    · have hne : (if (true && (e.qp s.calls ⟨.osqp Q A, true, g, lA, uA, s.xk, s.yk, none, none, d.opts.qpoases, d.opts.osqp⟩).setup) = true
          then Work.live else s.work) ≠ .dangling := by
        rw [hw]
        split <;> simp
      obtain ⟨rv, h⟩ := osqpFinish_guess (s := { s with gk := some g }) hne (by simp [hx]) h
      exact ⟨rv, _, h⟩
  obtain ⟨rv, w, key⟩ := key
  rw [key, ok_bind, afterSolve]
  simp only [h0]
  rfl

theorem switchToSparse_keep {r : RV × Obj α} (h : switchToSparse o = .ok r) : r.2.s = o.s ∧ r.2.d.lb = o.d.lb ∧ r.2.d.ub = o.d.ub ∧
    r.2.d.lbTmp = o.d.lbTmp ∧ r.2.d.ubTmp = o.d.ubTmp := by
  unfold switchToSparse at h
  split at h
  · injection h with h
    rw [← h]
    exact ⟨rfl, rfl, rfl, rfl, rfl⟩
  · simp only [bind_eq_ok] at h
    obtain ⟨_, _, _, _, _, _, _, _, _, _, _, _, _, _, _, _, _, _, _, _, _, _, h⟩ := h
    injection h with h
    rw [← h]
    exact ⟨rfl, rfl, rfl, rfl, rfl⟩

theorem switchToDense_keep {r : RV × Obj α} (h : switchToDense o = .ok r) : r.2.s = o.s := by
  unfold switchToDense at h
  split at h
  · injection h with h
    rw [← h]
  · simp only [bind_eq_ok] at h
    obtain ⟨_, _, _, _, _, _, _, _, _, _, _, _, _, _, _, _, _, _, _, _, h⟩ := h
    split at h
    · injection h with h
      rw [← h]
    · injection h with h
      rw [← h]

/-- nothing before the first run writes the numbers of the last QP -/
theorem Prepared.qpIter {l : Bool} (h : Prepared e n l o) : o.s.qpIter = none := by
  induction h with
  | new opts nV nC nComp h hn =>
    unfold Obj.new
    dsimp only
    rw [if_neg (by omega), if_neg (by omega), if_neg (by omega)]
    rfl
  | options opts _ ih => exact ih
  | dense a _ hf hp hl ih =>
    obtain ⟨_, u, v, hs⟩ := loadDense_keep hl
    rw [hs]
    exact ih
  | sparse a _ hf hp hl ih =>
    obtain ⟨_, u, v, hs⟩ := loadSparse_keep hl
    rw [hs]
    exact ih
  | toSparse _ hs ih => rw [(switchToSparse_keep hs).1]; exact ih
  | toDense _ hs ih => rw [switchToDense_keep hs]; exact ih

end LCQ
