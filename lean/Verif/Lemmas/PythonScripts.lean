import Verif.Model.PythonScripts
import Verif.Lemmas.WarmUp
import Verif.Lemmas.PythonBind
import Verif.Lemmas.Interfaces
import Verif.Props.Python

/-!
# Helper lemmas for C80: the Python example scripts in any arithmetic
-/

namespace LCQ.PyScript
open Scalar

variable {α : Type} [Scalar α]

theorem py_bind {β γ : Type} (v : β) (k : β → PY γ) : ((.ok v : PY β) >>= k) = k v := rfl

/-- a message about a failure -/
def note (r : RV) (text : String) : List String := if r = .successfulReturn then [] else [text]

theorem complain_eq (r : RV) (text : String) : complain r text = .ok (note r text) := by
  by_cases h : r = .successfulReturn
  · subst h; rfl
  · have : note r text = [text] := if_neg h
    rw [this]
    show (Except.ok (if r ≠ .successfulReturn then [text] else []) : PY _) = _
    rw [if_pos h]

/-- the messages of the two calls -/
def notes (r1 r2 : RV) : List String := note r1 "Failed to load LCQP." ++ note r2 "Failed to solve LCQP."

theorem solve_eq {e : Env α} {fuel : Nat} {o o1 : Obj α} {load : Obj α → M (RV × Obj α)} {r1 : RV} {q : Option (RV × Obj α)}
    (hl : load o = .ok (r1, o1)) (hq : runSolver e fuel o1 = .ok q) :
    solve e fuel o load = .ok (q.map fun r => (notes r1 r.1, r.2)) := by
  cases q with
  | none => simp only [solve, hl, lift, complain_eq, hq, py_bind]; rfl
  | some r => simp only [solve, hl, lift, complain_eq, hq, py_bind]; rfl

theorem finish_eq {e : Env α} {fuel : Nat} {o o1 : Obj α} {load : Obj α → M (RV × Obj α)} {r1 : RV} {q : Option (RV × Obj α)}
    (names : List String) (hl : load o = .ok (r1, o1)) (hq : runSolver e fuel o1 = .ok q) :
    (q = none → finish e fuel o load names = .ok none) ∧
    ∀ r, q = some r → finish e fuel o load names = fetch r.2 (notes r1 r.1) names >>= fun out => .ok (some out) := by
  rw [finish, solve_eq hl hq]
  exact ⟨by rintro rfl; rfl, by rintro r rfl; rfl⟩

/-! ## runs that are refused -/

/-- dense arrays for a sparse QP solver -/
theorem refused (e : Env α) (fuel : Nat) {o : Obj α} {n : Dims} (hn : o.d.dims = some n) (hs : o.d.sparse = false)
    (hq : o.d.opts.qpSolver = 1 ∨ (o.d.opts.qpSolver = 2 ∧ o.d.lb = none ∧ o.d.ub = none ∧ o.s.yk = none)) :
    ∃ o', runSolver e fuel o = .ok (some (.denseSparseMissmatch, o')) ∧ o'.s = o.s.say (.msg .denseSparseMissmatch) := by
  obtain ⟨o1, hc, h1⟩ : ∃ o1, chooseSolver e o = .ok (.denseSparseMissmatch, o1) ∧ o1.s = o.s := by
    rcases hq with hq | ⟨hq, hl, hu, hy⟩
    · refine ⟨{ o with d := { o.d with nDuals := some (n.nV + n.nC + 2 * n.nComp), boxOff := some n.nV } }, ?_, rfl⟩
      rw [chooseSolver, hn, initd_some, ok_bind, if_neg (by rw [hq]; decide), if_pos hq]
      dsimp only
      rw [if_pos (by rw [hs]; rfl)]
    · refine ⟨⟨{ o.d with nDuals := some n.nA, boxOff := some 0 }, { o.s with yk := none }⟩, ?_, ?_⟩
      · rw [chooseSolver, hn, initd_some, ok_bind, if_neg (by rw [hq]; decide), if_neg (by rw [hq]; decide), if_pos hq,
          if_neg (by simp [hl, hu]), hy]
        show (if !o.d.sparse then (.ok _ : M _) else _) = _
        rw [if_pos (by rw [hs]; rfl)]
      · show ({ o.s with yk := none } : St α) = o.s
        rw [← hy]
  have hi : initializeSolver e o = .ok (.denseSparseMissmatch, o1) := by
    rw [initializeSolver, hc, ok_bind, if_pos (by simp)]
  refine ⟨{ o1 with s := o1.s.say (.msg .denseSparseMissmatch) }, ?_, by rw [← h1]⟩
  rw [runSolver, hi, ok_bind, if_pos (by simp)]

/-- the getters of the scripts read a member that was never set -/
theorem fetch_uninit {o : Obj α} {n : Dims} (hn : o.d.dims = some n) (hV : n.nV ≠ 0) (ha : o.s.algo = none)
    (hx : ∀ x, o.s.xk = some x → n.nV ≤ x.length) (said names : List String) : fetch o said names = .error (.fault .uninit) := by
  have h : pyPrimal o = .error .uninit := by
    rw [pyPrimal, getNumberOfPrimals, hn, initd_some, ok_bind, ok_bind, zeros, vecPtr, if_pos (by simp; omega), getPrimalSolution]
    have : ∃ b, copyOut o.s.xk (o.d.dims.map Dims.nV) (some (List.replicate n.nV zero)) = .ok b := by
      cases hk : o.s.xk with
      | none => exact ⟨_, rfl⟩
      | some x => exact ⟨_, by simp only [copyOut, hn, Option.map_some, initd_some, ok_bind, copyTo_ok (hx x hk) (by simp : n.nV ≤ (List.replicate n.nV (zero : α)).length)]; rfl⟩
    obtain ⟨b, hb⟩ := this
    rw [hb, ok_bind, ha, initd_none]
    rfl
  rw [fetch, h]
  rfl

/-! ## the runs of the other scripts -/

/-- number of multipliers -/
def duals (n : Dims) (q : Int) : Nat := if q = 2 then n.nC + 2 * n.nComp else n.nV + n.nC + 2 * n.nComp

/-- The call `finish` with this object ends with the last iterate, the multipliers and the statistics of the run `q`. -/
structure Ran (e : Env α) (fuel : Nat) (o : Obj α) (n : Dims) (q : Option (RV × Obj α)) : Prop where
  run : runSolver e fuel o = .ok q
  out : ∀ r, q = some r → ∃ x y, r.2.s.xk = some x ∧ r.2.s.yk = some y ∧ x.length = n.nV ∧ y.length = duals n o.d.opts.qpSolver ∧
    ∀ said names vals, ask r.2.s.stats names = .ok vals → fetch r.2 said names = .ok ⟨said, x, y, vals⟩
  again : o.d.opts.qpSolver = 0 → ∀ r, q = some r → Ready r.2 n ∧ r.2.d.opts = o.d.opts ∧ r.2.d.lbTmp = none ∧ r.2.d.ubTmp = none

theorem ran (e : Env α) {o : Obj α} {n : Dims} (hr : Ready o n) (hC : n.nComp ≠ 0) {N : Int} (he : AnsBnd e N) (hsm : Small o.d.opts N)
    (hc : choiceCode o.d.opts.qpSolver o.d.sparse o.oldBox o.newBox = .successfulReturn)
    (ho : o.d.opts.qpSolver = 2 → ∀ r, (e.qp o.s.calls r).setup = true ∧ (e.qp o.s.calls r).warmX = true ∧ (e.qp o.s.calls r).warmY = true)
    (fuel : Nat) : ∃ q, Ran e fuel o n q := by
  obtain ⟨q, hq, hq'⟩ := runSolver_total (e := e) hr he hsm (fun h _ => ho h) fuel
  have key : ∀ r, q = some r → ∃ i, initializeSolver e o = .ok i ∧ (i.1 = .successfulReturn ∧ Has r.2.s.xk n.nV ∧
        (∃ off, r.2.d.nDuals = some (off + n.nA) ∧ Has r.2.s.yk (off + n.nA)) ∧ r.2.d.dims = some n ∧
          (o.d.opts.qpSolver = 0 → Ready r.2 n ∧ r.2.d.opts = o.d.opts ∧ r.2.d.lbTmp = none ∧ r.2.d.ubTmp = none)) := by
    intro r hqr
    obtain ⟨i, hi, h⟩ := hq' r hqr
    refine ⟨i, hi, h.resolve_left ?_⟩
    rintro ⟨hne, _⟩
    exact hne ((C33_code hr.dims hr.nV hi).trans hc)
  refine ⟨q, hq, ?_, ?_⟩
  · rintro r rfl
    obtain ⟨i, hi, hok, ⟨x, hx, lx⟩, ⟨off, hnd, y, hy, ly⟩, hdim, _⟩ := key r rfl
    obtain ⟨s, hs⟩ := run_algo hq hi hok
    have hd := (run_ended hq hi hok).1
    have hn := (initializeSolver_duals hr.dims hr.nV hi hok).1
    rw [← hd, hnd] at hn
    injection hn with hn
    have hpos : 0 < off + n.nA := by
      rw [hn]
      have := hr.nV
      split <;> omega
    obtain ⟨g1, g2, _⟩ := C45_getters r.2 s hdim hr.nV hs hx lx hnd hpos
    refine ⟨x, y, hx, hy, lx, ly.trans hn, ?_⟩
    intro said names vals hv
    rw [fetch, g1]
    show (lift (pyDual r.2) >>= _) = _
    rw [g2 y hy ly]
    show (ask r.2.s.stats names >>= _) = _
    rw [hv]
    rfl
  · intro h0 r hqr
    obtain ⟨_, _, _, _, _, _, h⟩ := key r hqr
    exact h h0

end LCQ.PyScript
