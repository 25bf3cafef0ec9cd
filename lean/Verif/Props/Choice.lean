import Verif.Lemmas.Ready
import Verif.Props.SafetySparse

/-!
# C33 solver choice, C40 the wrappers of the QP solvers

Both hold for every arithmetic.
-/

set_option linter.unusedSectionVars false

namespace LCQ
open Scalar

variable {α : Type} [Scalar α]

/-! ## C33 -/

/-- the code `initializeSolver` should give (spec): `solver` is the chosen QP solver, `sparse` the mode
of the object, `old` whether box bounds are left from an earlier initialisation, `box` whether box
bounds were given since -/
def choiceCode (solver : Int) (sparse old box : Bool) : RV :=
  match solver, sparse, old, box with
  | 0, false, _, _ => .successfulReturn
  | 0, true, _, _ => .denseSparseMissmatch
  | 1, true, _, _ => .successfulReturn
  | 1, false, _, _ => .denseSparseMissmatch
  | 2, _, true, _ => .invalidOsqpBoxConstraints
  | 2, false, false, _ => .denseSparseMissmatch
  | 2, true, false, true => .invalidOsqpBoxConstraints
  | 2, true, false, false => .successfulReturn
  | _, _, _, _ => .notYetImplemented

theorem choiceCode_zero (sp old box : Bool) : choiceCode 0 sp old box =
    if sp then .denseSparseMissmatch else .successfulReturn := by cases sp <;> rfl

theorem choiceCode_one (sp old box : Bool) : choiceCode 1 sp old box =
    if sp then .successfulReturn else .denseSparseMissmatch := by cases sp <;> rfl

theorem choiceCode_two (sp old box : Bool) : choiceCode 2 sp old box =
    if old then .invalidOsqpBoxConstraints else if !sp then .denseSparseMissmatch else
      if box then .invalidOsqpBoxConstraints else .successfulReturn := by
  cases sp <;> cases old <;> cases box <;> rfl

theorem choiceCode_other {q : Int} (h0 : q ≠ 0) (h1 : q ≠ 1) (h2 : q ≠ 2) (sp old box : Bool) :
    choiceCode q sp old box = .notYetImplemented := by
  unfold choiceCode
  split <;> first | rfl | contradiction

/-- box bounds left from an earlier initialisation -/
def Obj.oldBox (o : Obj α) : Bool := o.d.lb.isSome || o.d.ub.isSome

/-- box bounds given since -/
def Obj.newBox (o : Obj α) : Bool := o.d.lbTmp.isSome || o.d.ubTmp.isSome

theorem setBoxes_code {d : Data α} {b : RV × Data α} {n : Dims} (hn : d.dims = some n) (hV : n.nV ≠ 0)
    (h : setBoxes d = .ok b) : b.1 = .successfulReturn := by
  have hb : ∀ v df q, setBox d v df = .ok q → q.1 = .successfulReturn := by
    intro v df q h
    rw [setBox, hn, initd_some, ok_bind, if_neg hV] at h
    split at h
    · simp only [bind_eq_ok] at h
      obtain ⟨_, _, h⟩ := h
      injection h with h; rw [← h]
    · injection h with h; rw [← h]
  simp only [setBoxes, bind_eq_ok] at h
  obtain ⟨l, hl, h⟩ := h
  rw [if_neg (by simp [hb _ _ _ hl])] at h
  simp only [bind_eq_ok] at h
  obtain ⟨u, hu, h⟩ := h
  rw [if_neg (by simp [hb _ _ _ hu])] at h
  injection h with h
  rw [← h]

/-- outcome of the choice of the solver -/
theorem chooseSolver_table {e : Env α} {o : Obj α} {r : RV × Obj α} {n : Dims} (hn : o.d.dims = some n)
    (hV : n.nV ≠ 0) (h : chooseSolver e o = .ok r) :
    r.1 = choiceCode o.d.opts.qpSolver o.d.sparse o.oldBox o.newBox ∧
    (r.1 = .successfulReturn →
      r.2.d.nDuals = some (if o.d.opts.qpSolver = 2 then n.nC + 2 * n.nComp else n.nV + n.nC + 2 * n.nComp) ∧
      r.2.d.boxOff = some (if o.d.opts.qpSolver = 2 then 0 else n.nV) ∧
      (r.2.d.lb ≠ none ↔ o.d.opts.qpSolver ≠ 2) ∧ (r.2.d.ub ≠ none ↔ o.d.opts.qpSolver ≠ 2) ∧
      (r.2.s.yk = o.s.yk ∨ o.d.opts.qpSolver = 2)) := by
  simp only [chooseSolver, hn, initd_some, ok_bind] at h
  split at h
  · rename_i h0
    rw [h0, choiceCode_zero]
    split at h
    · rename_i hs
      injection h with h
      rw [← h, if_pos hs]; simp
    · rename_i hs
      simp only [bind_eq_ok] at h
      obtain ⟨b, hb, h⟩ := h
      obtain ⟨l, u, hbl, hlu, _⟩ := setBoxes_inv hb
      have h1 := setBoxes_code (n := n) rfl hV hb
      rw [if_neg (by simp [h1])] at h
      simp only [bind_eq_ok] at h
      obtain ⟨_, _, _, _, _, _, _, _, h⟩ := h
      injection h with h
      rw [← h, if_neg hs, hbl]
      simpa using hlu h1
  · split at h
    · rename_i h1
      rw [h1, choiceCode_one]
      split at h
      · rename_i hs
        injection h with h
        rw [← h, if_neg (by simpa using hs)]; simp
      · rename_i hs
        simp only [bind_eq_ok] at h
        obtain ⟨b, hb, h⟩ := h
        obtain ⟨l, u, hbl, hlu, _⟩ := setBoxes_inv hb
        have h1 := setBoxes_code (n := n) rfl hV hb
        rw [if_neg (by simp [h1])] at h
        simp only [bind_eq_ok] at h
        obtain ⟨_, _, _, _, _, _, _, _, h⟩ := h
        injection h with h
        rw [← h, if_pos (by simpa using hs), hbl]
        simpa using hlu h1
    · split at h
      · rename_i h2
        rw [h2, choiceCode_two]
        split at h
        · rename_i hb
          injection h with h
          rw [← h, if_pos (by simpa [Obj.oldBox, Option.isSome_iff_ne_none] using hb)]; simp
        · rename_i hb
          have hb' : o.oldBox = false := by
            push Not at hb
            simp [Obj.oldBox, hb.1, hb.2]
          rw [if_neg (by simp [hb'])]
          simp only [bind_eq_ok] at h
          obtain ⟨y, _, h⟩ := h
          split at h
          · rename_i hs
            injection h with h
            rw [← h, if_pos hs]; simp
          · rename_i hs
            rw [if_neg hs]
            split at h
            · rename_i hx
              injection h with h
              rw [← h, if_pos (by simpa [Obj.newBox, Option.isSome_iff_ne_none] using hx)]; simp
            · rename_i hx
              rw [if_neg (by simpa [Obj.newBox, Option.isSome_iff_ne_none] using hx)]
              simp only [bind_eq_ok] at h
              obtain ⟨_, _, _, _, _, _, _, _, _, _, h⟩ := h
              injection h with h
              push Not at hb
              rw [← h]
              simp [hb.1, hb.2, Dims.nA]
      · rename_i h0 h1 h2
        injection h with h
        rw [choiceCode_other h0 h1 h2, ← h]
        simp

/-- C33: the code of `initializeSolver` follows the decision table, for every object with dimensions,
also after earlier runs. -/
theorem C33_code {e : Env α} {o : Obj α} {r : RV × Obj α} {n : Dims} (hn : o.d.dims = some n)
    (hV : n.nV ≠ 0) (h : initializeSolver e o = .ok r) :
    r.1 = choiceCode o.d.opts.qpSolver o.d.sparse o.oldBox o.newBox := by
  simp only [initializeSolver, bind_eq_ok] at h
  obtain ⟨c, hc, h⟩ := h
  have ht := (chooseSolver_table hn hV hc).1
  split at h
  · injection h with h; rw [← h, ht]
  · rename_i hne
    simp only [initRest, bind_eq_ok] at h
    obtain ⟨_, _, _, _, _, _, _, _, h⟩ := h
    injection h with h
    rw [← h, ← ht]
    exact (not_not.mp hne).symm

theorem initializeSolver_duals {e : Env α} {o : Obj α} {r : RV × Obj α} {n : Dims} (hn : o.d.dims = some n)
    (hV : n.nV ≠ 0) (h : initializeSolver e o = .ok r) (hr : r.1 = .successfulReturn) :
    r.2.d.nDuals = some (if o.d.opts.qpSolver = 2 then n.nC + 2 * n.nComp else n.nV + n.nC + 2 * n.nComp) ∧
    (r.2.d.lb ≠ none ↔ o.d.opts.qpSolver ≠ 2) ∧ (r.2.d.ub ≠ none ↔ o.d.opts.qpSolver ≠ 2) := by
  simp only [initializeSolver, bind_eq_ok] at h
  obtain ⟨c, hc, h⟩ := h
  have ht := (chooseSolver_table hn hV hc).2
  split at h
  · rename_i hne
    injection h with h
    rw [← h] at hr
    exact absurd hr hne
  · rename_i hne
    simp only [initRest, bind_eq_ok] at h
    obtain ⟨_, _, _, _, _, _, d', hd, h⟩ := h
    injection h with h
    obtain ⟨h1, _, h2, h3, _⟩ := ht (not_not.mp hne)
    rw [← h]
    rcases initPhi_inv hd with ⟨_, _, rfl⟩ | ⟨_, _, _, _, _, _, rfl⟩ <;> exact ⟨h1, h2, h3⟩

/-- C33: the number of duals after an accepted choice. -/
theorem C33_duals {e : Env α} {o : Obj α} {r : RV × Obj α} {n : Dims} (hn : o.d.dims = some n)
    (hV : n.nV ≠ 0) (h : initializeSolver e o = .ok r) (hr : r.1 = .successfulReturn) :
    getNumberOfDuals r.2 =
      .ok (if o.d.opts.qpSolver = 2 then n.nC + 2 * n.nComp else n.nV + n.nC + 2 * n.nComp) := by
  rw [getNumberOfDuals, (initializeSolver_duals hn hV h hr).1, initd_some]

/-- C33: `runSolver` passes the code of a rejected choice on. -/
theorem C33_run {e : Env α} {fuel : Nat} {o : Obj α} {r : RV × Obj α} {n : Dims} (hn : o.d.dims = some n)
    (hV : n.nV ≠ 0) (h : runSolver e fuel o = .ok (some r))
    (hc : choiceCode o.d.opts.qpSolver o.d.sparse o.oldBox o.newBox ≠ .successfulReturn) :
    r.1 = choiceCode o.d.opts.qpSolver o.d.sparse o.oldBox o.newBox ∧
      r.2.s.out = o.s.out ++ [.msg r.1] ∧ r.2.s.calls = o.s.calls := by
  obtain ⟨i, hi, ⟨hne, rfl⟩ | ⟨hs, _⟩⟩ := runSolver_inv h
  · have h1 := C33_code hn hV hi
    obtain ⟨hc, _⟩ := initializeSolver_fail hi hne
    obtain ⟨nd, bo, l, u, sub, y, w, hi2⟩ := chooseSolver_inv hc
    exact ⟨h1, by simp [St.say, hi2], by simp [St.say, hi2]⟩
  · rw [C33_code hn hV hi] at hs
    exact absurd hs hc

/-- C33: on a loaded object the initialisation does not fault, and it gives the code of the table. -/
theorem C33_total {e : Env α} {o : Obj α} {n : Dims} (h : Ready o n) : ∃ r, initializeSolver e o = .ok r ∧
    r.1 = choiceCode o.d.opts.qpSolver o.d.sparse o.oldBox o.newBox := by
  obtain ⟨i, hi, _⟩ := initializeSolver_total (e := e) h
  exact ⟨i, hi, C33_code h.dims h.nV hi⟩

theorem initializeSolver_dims {e : Env α} {o : Obj α} {r : RV × Obj α} (h : initializeSolver e o = .ok r) :
    r.2.d.dims = o.d.dims := by
  by_cases hr : r.1 = .successfulReturn
  · obtain ⟨nd, bo, l, u, sub, y, w, gt, pc, gp, h⟩ := initializeSolver_ok h hr
    rw [h]
  · obtain ⟨nd, bo, l, u, sub, y, w, h⟩ := chooseSolver_inv (initializeSolver_fail h hr).1
    rw [h]

/-- C33, after an earlier run: once a run got past the initialisation with a qpOASES solver, OSQP is
refused for ever with the box constraint code, although the problem has no box constraints (the
default bounds of the first run are still there). -/
theorem C33_osqp_refused {e e' : Env α} {fuel fuel' : Nat} {o : Obj α} {r r' : RV × Obj α} {n : Dims}
    (hn : o.d.dims = some n) (hV : n.nV ≠ 0) (hq : o.d.opts.qpSolver = 0 ∨ o.d.opts.qpSolver = 1)
    (hc : (o.d.sparse = true ↔ o.d.opts.qpSolver = 1)) (h : runSolver e fuel o = .ok (some r))
    {opts : Options α} (ho : opts.qpSolver = 2)
    (h' : runSolver e' fuel' (setOptions r.2 opts) = .ok (some r')) :
    r'.1 = .invalidOsqpBoxConstraints := by
  obtain ⟨i, hi, hx⟩ := runSolver_inv h
  have hcode := C33_code hn hV hi
  have hok : i.1 = .successfulReturn := by
    rw [hcode]
    rcases hq with hq | hq <;> rw [hq] at hc ⊢
    · rw [choiceCode_zero, if_neg (by rw [hc]; decide)]
    · rw [choiceCode_one, if_pos (hc.mpr rfl)]
  rcases hx with ⟨hne, _⟩ | ⟨_, hd, _⟩
  · exact absurd hok hne
  · have hl := (initializeSolver_duals hn hV hi hok).2.1.mpr (by omega)
    have hn' : (setOptions r.2 opts).d.dims = some n := by
      change r.2.d.dims = _
      rw [hd, initializeSolver_dims hi, hn]
    have hold : (setOptions r.2 opts).oldBox = true := by
      have : r.2.d.lb ≠ none := by rw [hd]; exact hl
      have : r.2.d.lb.isSome = true := by simpa [Option.isSome_iff_ne_none] using this
      simp [Obj.oldBox, setOptions, this]
    have hcc : choiceCode (setOptions r.2 opts).d.opts.qpSolver (setOptions r.2 opts).d.sparse
        (setOptions r.2 opts).oldBox (setOptions r.2 opts).newBox = .invalidOsqpBoxConstraints := by
      have : (setOptions r.2 opts).d.opts.qpSolver = 2 := ho
      rw [this, hold, choiceCode_two]; rfl
    have := (C33_run hn' hV h' (by rw [hcc]; decide)).1
    rw [this, hcc]

/-! Non-vacuity: the sparse example with the solvers 0, 1, 2 and 3; qpOASES first and then OSQP. -/

/-- change the answers -/
def Ex.envWith (f : Resp (Ext ℚ) → Resp (Ext ℚ)) : Env (Ext ℚ) :=
  Ex.envOf fun _ _ => f (Ex.good [1, 0] [0, 199/100])

example : [0, 1, 3].map (fun k => (Ex.seen (Ex.srun Ex.env k 20)).map (fun r => r.1)) =
    [some .denseSparseMissmatch, some .successfulReturn, some .notYetImplemented] ∧
    (Ex.seen (Ex.srun (Ex.envWith id) 2 20)).map (fun r => r.1) = some .successfulReturn := by
  refine ⟨?_, ?_⟩ <;> decide +kernel

example : (Ex.seen (do
    let r ← Ex.srun Ex.env 1 20
    match r with
    | none => .ok none
    | some r => runSolver Ex.env 20 (setOptions r.2 (Ex.sopts 2)))).map (fun r => r.1) =
    some .invalidOsqpBoxConstraints := by decide +kernel

/-! ## C40 -/

/-- the QP solver behind a request is qpOASES (spec) -/
def Sub.isQpoases : Sub α → Bool
  | .osqp _ _ => false
  | _ => true

/-- C40: the qpOASES wrapper succeeds iff qpOASES returns 0, and hands on the iteration count and the
exit flag in every case. -/
theorem C40_qpoases {e : Env α} {d : Data α} {s : St α} {init : Bool} {r : RV × St α} {sub : Sub α}
    (hsub : d.sub = some sub) (hq : sub.isQpoases = true) (h : subSolve e d s init = .ok r) :
    ∃ q, q.sub = sub ∧ q.init = init ∧
      r.1 = (if (e.qp s.calls q).ret = 0 then .successfulReturn else .subproblemSolverError) ∧
      r.2.qpIter = some (e.qp s.calls q).iter ∧ r.2.qpExit = some (e.qp s.calls q).ret ∧
      r.2.ans = some (e.qp s.calls q) := by
  obtain ⟨sub', hs', h⟩ := subSolve_ret h
  have : sub' = sub := by rw [hsub] at hs'; injection hs' with h; exact h.symm
  subst this
  have hno : ∀ Q A, sub' ≠ .osqp Q A := by
    rintro Q A rfl
    simp [Sub.isQpoases] at hq
  rcases h with ⟨_, ⟨Q, A, rfl⟩, _⟩ | ⟨q, a, rfl, hs, hi, ⟨_, ⟨Q, A, rfl⟩, _⟩ | ⟨_, ⟨Q, A, rfl⟩, _⟩ |
    ⟨_, ⟨Q, A, rfl⟩, _⟩ | ⟨hx, w, h2⟩⟩
  · exact absurd rfl (hno Q A)
  · exact absurd rfl (hno Q A)
  · exact absurd rfl (hno Q A)
  · exact absurd rfl (hno Q A)
  · have hok : QpOk sub' (e.qp s.calls q) ↔ (e.qp s.calls q).ret = 0 := by
      cases sub' with
      | osqp Q A => exact absurd rfl (hno Q A)
      | dense => rfl
      | sparse => rfl
    have hex : exitOf sub' (e.qp s.calls q) = (e.qp s.calls q).ret := by
      cases sub' with
      | osqp Q A => exact absurd rfl (hno Q A)
      | dense => rfl
      | sparse => rfl
    refine ⟨q, hs, hi, ?_, by rw [h2], by rw [h2, hex], by rw [h2]⟩
    rcases hx with ⟨hx, hk⟩ | ⟨hx, hk⟩
    · rw [hx, if_pos (hok.mp hk)]
    · rw [hx, if_neg (fun h => hk (hok.mpr h))]

/-- the code the OSQP wrapper should give (spec): `box` whether there are box bounds, `live` whether
there is a workspace, `x0`, `y0` whether a guess is passed on and accepted -/
def osqpCode (box live : Bool) (x0 y0 : Option Bool) (ret status : Int) : RV :=
  if box then .invalidOsqpBoxConstraints
  else if x0 = some false ∨ (x0.isSome ∧ live = false) then .osqpInitialPrimalGuessFailed
  else if y0 = some false ∨ (y0.isSome ∧ live = false) then .osqpInitialDualGuessFailed
  else if live = false then .osqpWorkspaceNotSetUp
  else if ret = 0 ∧ 0 < status then .successfulReturn
  else .subproblemSolverError

/-- a guess is handed over in the first call only -/
def warm (init : Bool) (v : Option (List α)) (ok : Bool) : Option Bool :=
  if init then v.map fun _ => ok else none

/-- the solver itself is run -/
def osqpRuns (box live : Bool) (x0 y0 : Option Bool) : Prop :=
  box = false ∧ live = true ∧ x0 ≠ some false ∧ y0 ≠ some false

/-- C40: the OSQP wrapper.  `live` is the workspace after the possible set-up. -/
theorem C40_osqp {e : Env α} {d : Data α} {s : St α} {init : Bool} {r : RV × St α} {Q A : CSC α}
    (hsub : d.sub = some (.osqp Q A)) (h : subSolve e d s init = .ok r) :
    ∃ q : Req α, ∃ live : Bool,
      (live = true ↔ (init = true ∧ (e.qp s.calls q).setup = true) ∨ s.work = .live) ∧
      r.1 = osqpCode (d.lb.isSome || d.ub.isSome) live (warm init s.xk (e.qp s.calls q).warmX)
        (warm init s.yk (e.qp s.calls q).warmY) (e.qp s.calls q).ret (e.qp s.calls q).status ∧
      (osqpRuns (d.lb.isSome || d.ub.isSome) live (warm init s.xk (e.qp s.calls q).warmX)
          (warm init s.yk (e.qp s.calls q).warmY) →
        q.sub = .osqp Q A ∧ q.init = init ∧
        r.2.qpIter = some (e.qp s.calls q).iter ∧ r.2.qpExit = some (e.qp s.calls q).status ∧
        r.2.ans = some (e.qp s.calls q)) ∧
      (¬ osqpRuns (d.lb.isSome || d.ub.isSome) live (warm init s.xk (e.qp s.calls q).warmX)
          (warm init s.yk (e.qp s.calls q).warmY) →
        r.2.qpIter = s.qpIter ∧ r.2.qpExit = s.qpExit ∧ r.2.ans = s.ans) := by
  simp only [subSolve, hsub, initd_some, ok_bind] at h
  unfold osqpSolve at h
  split at h
  · rename_i hb
    injection h with h
    have hb' : (d.lb.isSome || d.ub.isSome) = true := by
      simpa [Option.isSome_iff_ne_none] using hb
    refine ⟨⟨.osqp Q A, init, [], [], [], none, none, none, none, 0, none⟩, decide ((init = true ∧ (e.qp s.calls
      ⟨.osqp Q A, init, [], [], [], none, none, none, none, 0, none⟩).setup = true) ∨ s.work = .live), by simp, ?_, ?_, ?_⟩
    · rw [← h, hb', osqpCode, if_pos rfl]
    · rw [hb']; rintro ⟨h, _⟩; cases h
    · rw [← h]; exact fun _ => ⟨rfl, rfl, rfl⟩
  · rename_i hb
    have hb' : (d.lb.isSome || d.ub.isSome) = false := by
      push Not at hb
      simp [hb.1, hb.2]
    simp only [bind_eq_ok] at h
    obtain ⟨_, _, g, _, _, _, lA, _, _, _, uA, _, x0, _, y0, _, h⟩ := h
    rw [hb']
    generalize hq : (⟨.osqp Q A, init, g, lA, uA, x0, y0, none, none, d.opts.qpoases, d.opts.osqp⟩ : Req α) = q at h
    generalize hw : (if (init && (e.qp s.calls q).setup) = true then Work.live else s.work) = w at h
    have hlive : (w = .live ↔ (init = true ∧ (e.qp s.calls q).setup = true) ∨ s.work = .live) := by
      rw [← hw]
      split
      · rename_i hc; simp at hc; simp [hc]
      · rename_i hc; simp at hc; simp; intro h1 h2; rw [hc h1] at h2; cases h2
    obtain ⟨hd, hfin⟩ := osqpFinish_inv h
    refine ⟨q, decide (w = .live), by simpa using hlive, ?_⟩
    have hnull : w ≠ .live → w = .null := by cases w <;> simp_all
    have hres : ∀ {c : RV} {s' : St α}, r = (c, s') → r.1 = c ∧ r.2 = s' := by
      rintro c s' rfl; exact ⟨rfl, rfl⟩
    unfold osqpFinish at h
    rw [if_neg hd] at h
    simp only at h
    have hqs : q.sub = .osqp Q A ∧ q.init = init := by rw [← hq]; exact ⟨rfl, rfl⟩
    generalize e.qp s.calls q = a at *
    have hwl : (decide (w = .live)) = true ∧ w = .live ∨ (decide (w = .live)) = false ∧ w = .null := by
      by_cases hl : w = .live
      · exact Or.inl ⟨by simpa using hl, hl⟩
      · exact Or.inr ⟨by simpa using hl, hnull hl⟩
    have hW : ∀ (v : Option (List α)) (b : Bool), (warm init v b = some false ∨ ((warm init v b).isSome = true ∧
        decide (w = .live) = false)) ↔ (init = true ∧ v ≠ none ∧ (w = .null ∨ b = false)) := by
      intro v b
      unfold warm
      rcases hwl with ⟨_, rfl⟩ | ⟨_, rfl⟩ <;> cases init <;> cases v <;> cases b <;> simp
    have hW' : ∀ (v : Option (List α)) (b : Bool), warm init v b = some false ↔ (init = true ∧ v ≠ none ∧ b = false) := by
      intro v b
      unfold warm
      cases init <;> cases v <;> cases b <;> simp
    unfold osqpCode osqpRuns
    simp only [if_false, Bool.false_eq_true, true_and]
    split at h
    · rename_i hc
      injection h with h
      rw [if_pos ((hW _ _).mpr hc), ← h]
      refine ⟨rfl, ?_, fun _ => ⟨rfl, rfl, rfl⟩⟩
      rintro ⟨hl, hx, _⟩
      have hl : w = .live := by simpa using hl
      rw [hl] at hc
      exact (hx ((hW' _ _).mpr ⟨hc.1, hc.2.1, by simpa using hc.2.2⟩)).elim
    · rename_i hc
      rw [if_neg (fun h => hc ((hW _ _).mp h))]
      split at h
      · rename_i hc2
        injection h with h
        rw [if_pos ((hW _ _).mpr hc2), ← h]
        refine ⟨rfl, ?_, fun _ => ⟨rfl, rfl, rfl⟩⟩
        rintro ⟨hl, _, hx⟩
        have hl : w = .live := by simpa using hl
        rw [hl] at hc2
        exact (hx ((hW' _ _).mpr ⟨hc2.1, hc2.2.1, by simpa using hc2.2.2⟩)).elim
      · rename_i hc2
        rw [if_neg (fun h => hc2 ((hW _ _).mp h))]
        split at h
        · rename_i hc3
          injection h with h
          rw [if_pos (by simp [hc3]), ← h]
          refine ⟨rfl, ?_, fun _ => ⟨rfl, rfl, rfl⟩⟩
          rintro ⟨hl, _⟩
          have hl : w = .live := by simpa using hl
          rw [hl] at hc3
          cases hc3
        · rename_i hc3
          injection h with h
          have hl : w = .live := by
            by_contra hl; exact hc3 (hnull hl)
          rw [if_neg (by simp [hl]), ← h]
          refine ⟨?_, fun _ => ⟨hqs.1, hqs.2, rfl, rfl, rfl⟩, ?_⟩
          · change (if a.ret ≠ 0 ∨ a.status ≤ 0 then RV.subproblemSolverError else .successfulReturn) = _
            by_cases h1 : a.ret = 0 <;> by_cases h2 : 0 < a.status
            · rw [if_neg (by omega), if_pos ⟨h1, h2⟩]
            · rw [if_pos (by omega), if_neg (by omega)]
            · rw [if_pos (by omega), if_neg (by omega)]
            · rw [if_pos (by omega), if_neg (by omega)]
          · intro hno
            exfalso
            apply hno
            refine ⟨by simp [hl], ?_, ?_⟩
            · rintro hx; obtain ⟨h1, h2, h3⟩ := (hW' _ _).mp hx; exact hc ⟨h1, h2, Or.inr h3⟩
            · rintro hx; obtain ⟨h1, h2, h3⟩ := (hW' _ _).mp hx; exact hc2 ⟨h1, h2, Or.inr h3⟩

/-- C40: the multipliers handed back by the OSQP wrapper are the negated ones of OSQP, the qpOASES
wrapper hands them on unchanged. -/
theorem C40_solution {d : Data α} {s : St α} {r : List α × List α} {sub : Sub α} {a : Resp α}
    (hsub : d.sub = some sub) (ha : s.ans = some a) (h : getSolution d s = .ok r) :
    match sub with
    | .osqp Q A => (∀ i, i < Q.n → r.1[i]? = some (a.x i)) ∧ ∀ i, i < A.m → r.2[i]? = some (-. a.y i)
    | .dense nV nC _ _ => (∀ i, i < nV → r.1[i]? = some (a.x i)) ∧ ∀ i, i < nV + nC → r.2[i]? = some (a.y i)
    | .sparse nV nC _ _ => (∀ i, i < nV → r.1[i]? = some (a.x i)) ∧ ∀ i, i < nV + nC → r.2[i]? = some (a.y i) := by
  have hf : ∀ (f : Nat → α) (k : Nat) (b c : List α), fillAns f k b = .ok c → ∀ i, i < k → c[i]? = some (f i) := by
    intro f k b c h
    unfold fillAns at h
    have := loop_partial (fun j (c : List α) => ∀ i, i < j → c[i]? = some (f i)) k _ b c h (by simp) ?_
    · exact this
    · intro j _ c c' hc hw i hi
      unfold wr at hw
      split at hw
      · rename_i hl
        injection hw with hw
        rw [← hw]
        by_cases hij : i = j
        · subst hij; simp [hl]
        · rw [List.getElem?_set_ne (by omega)]; exact hc i (by omega)
      · cases hw
  simp only [getSolution, hsub, ha, initd_some, deref_some, ok_bind, bind_eq_ok] at h
  obtain ⟨x, _, y, _, h⟩ := h
  cases sub <;>
  · simp only [bind_eq_ok] at h
    obtain ⟨x', hx, y', hy, h⟩ := h
    injection h with h
    rw [← h]
    exact ⟨hf _ _ _ _ hx, hf _ _ _ _ hy⟩

/-! Non-vacuity: OSQP answers of every kind. -/

/-- load and initialise the sparse example with OSQP, then call the wrapper -/
def Ex.wrapper (e : Env (Ext ℚ)) (k : Int) : Option (RV × Option Int × Option Int) :=
  match (do
    let r ← loadSparse e Ex.obj0 Ex.sargs
    let i ← initializeSolver e (setOptions r.2 (Ex.sopts k))
    subSolve e i.2.d i.2.s true) with
  | .ok r => some (r.1, r.2.qpIter, r.2.qpExit)
  | .error _ => none

example : Ex.wrapper (Ex.envWith id) 2 = some (.successfulReturn, some 3, some 1) ∧
    Ex.wrapper (Ex.envWith fun a => { a with setup := false }) 2 = some (.osqpInitialPrimalGuessFailed, none, none) ∧
    Ex.wrapper (Ex.envWith fun a => { a with warmX := false }) 2 = some (.osqpInitialPrimalGuessFailed, none, none) ∧
    Ex.wrapper (Ex.envWith fun a => { a with status := -3 }) 2 = some (.subproblemSolverError, some 3, some (-3)) ∧
    Ex.wrapper (Ex.envWith fun a => { a with status := 2 }) 2 = some (.successfulReturn, some 3, some 2) ∧
    Ex.wrapper (Ex.envWith fun a => { a with ret := 1 }) 2 = some (.subproblemSolverError, some 3, some 1) ∧
    Ex.wrapper (Ex.envWith id) 1 = some (.successfulReturn, some 3, some 0) ∧
    Ex.wrapper (Ex.envWith fun a => { a with ret := 37 }) 1 = some (.subproblemSolverError, some 3, some 37) := by
  refine ⟨?_, ?_, ?_, ?_, ?_, ?_, ?_, ?_⟩ <;> decide +kernel

end LCQ
