import Verif.Lemmas.Ready
import Verif.Props.Load

/-!
# C36, C38: no undefined behaviour on the documented path; the solution getters
-/

set_option linter.unusedSectionVars false

namespace LCQ
open Scalar

section anyArith
variable {α : Type} [Scalar α]

/-! ## C38 -/

theorem copyTo_ok {x b : List α} {n : Nat} (hx : n ≤ x.length) (hb : n ≤ b.length) :
    copyTo x n b = .ok (x.take n ++ b.drop n) := by
  rw [copyTo, loop_ow x b 0 n hx (by omega) _ (by
    intro i hi v hv c hc
    rw [rd_some hv, ok_bind, wr_ok (by omega), Nat.zero_add])]
  simp [ow]

/-- C38 (any arithmetic): `getPrimalSolution` overwrites exactly the first `nV` entries of the caller's
buffer by the current iterate and returns the current status. -/
theorem C38_primal (o : Obj α) (n : Dims) (t : AlgStat) (x b : List α) (hn : o.d.dims = some n)
    (ht : o.s.algo = some t) (hx : o.s.xk = some x) (lx : n.nV ≤ x.length) (lb : n.nV ≤ b.length) :
    getPrimalSolution o (some b) = .ok (t, some (x.take n.nV ++ b.drop n.nV)) := by
  simp only [getPrimalSolution, copyOut, hx, hn, Option.map_some, initd_some, ok_bind, copyTo_ok lx lb, ht]

/-- C38 (any arithmetic): `getDualSolution` overwrites exactly the first `nDuals` entries. -/
theorem C38_dual (o : Obj α) (n : Nat) (t : AlgStat) (y b : List α) (hn : o.d.nDuals = some n)
    (ht : o.s.algo = some t) (hy : o.s.yk = some y) (ly : n ≤ y.length) (lb : n ≤ b.length) :
    getDualSolution o (some b) = .ok (t, some (y.take n ++ b.drop n)) := by
  simp only [getDualSolution, copyOut, hy, hn, initd_some, ok_bind, copyTo_ok ly lb, ht]

/-- C38 (any arithmetic): null pointers are tolerated on both sides, nothing is written. -/
theorem C38_null (o : Obj α) (t : AlgStat) (ht : o.s.algo = some t) :
    getPrimalSolution o none = .ok (t, none) ∧ getDualSolution o none = .ok (t, none) ∧
    (∀ b, o.s.xk = none → getPrimalSolution o b = .ok (t, b)) ∧
    (∀ b, o.s.yk = none → getDualSolution o b = .ok (t, b)) := by
  refine ⟨?_, ?_, ?_, ?_⟩
  · simp [getPrimalSolution, copyOut, ht]
  · simp [getDualSolution, copyOut, ht]
  · intro b hb
    cases b <;> simp [getPrimalSolution, copyOut, ht, hb]
  · intro b hb
    cases b <;> simp [getDualSolution, copyOut, ht, hb]

/-- C38: before the first successful initialisation the status is indeterminate. -/
theorem C38_uninit (o : Obj α) (h : o.s.algo = none) : getPrimalSolution o none = .error .uninit := by
  simp [getPrimalSolution, copyOut, h, initd_none]

/-! ## C36 -/

/-- The objects of the documented path with the dense solver: constructed with valid dimensions, and
then in any order loaded (successfully) with arguments of the documented sizes, given options, and
run.  `N` bounds the iteration counts reported by the QP solver. -/
inductive DenseUse (e : Env α) (N : Int) (n : Dims) : Bool → Obj α → Prop
  | new (opts : Options α) (nV nC nComp : Int) (h : 1 ≤ nV ∧ 1 ≤ nComp ∧ 0 ≤ nC)
      (hn : n = ⟨nV.toNat, nC.toNat, nComp.toNat⟩) (hq : opts.qpSolver = 0) :
      DenseUse e N n false (Obj.new opts nV nC nComp)
  | options (o : Obj α) (l : Bool) (opts : Options α) (h : DenseUse e N n l o) (hq : opts.qpSolver = 0) :
      DenseUse e N n l (setOptions o opts)
  | load (o o' : Obj α) (l : Bool) (a : DenseArgs α) (h : DenseUse e N n l o) (hf : a.Fits n)
      (hp : a.lbL = none ↔ a.lbR = none) (hl : loadDense e o a = .ok (.successfulReturn, o')) :
      DenseUse e N n true o'
  | run (o : Obj α) (fuel : Nat) (r : RV × Obj α) (h : DenseUse e N n true o) (hs : Small o.d.opts N)
      (hr : runSolver e fuel o = .ok (some r)) : DenseUse e N n true r.2

theorem DenseUse.inv {e : Env α} {N : Int} {n : Dims} {l : Bool} {o : Obj α} (he : AnsBnd e N)
    (h : DenseUse e N n l o) : Built o n ∧ o.d.opts.qpSolver = 0 ∧
      (l = true → Ready o n ∧ o.d.sparse = false) := by
  induction h with
  | new opts nV nC nComp h hn hq =>
    subst hn
    refine ⟨Built.new opts h, ?_, by simp⟩
    unfold Obj.new
    dsimp only
    rw [if_neg (by omega), if_neg (by omega), if_neg (by omega)]
    exact hq
  | options o l opts h hq ih =>
    obtain ⟨h1, h2, h3⟩ := ih
    refine ⟨{ h1 with work := ?_ }, hq, fun hl => ⟨{ (h3 hl).1 with work := ?_ }, (h3 hl).2⟩⟩
    all_goals
      intro h'
      exact absurd (hq.symm.trans h') (by decide)
  | load o o' l a h hf hp hl ih =>
    obtain ⟨h1, h2, _⟩ := ih
    obtain ⟨h3, h4, h5⟩ := h1.load hf hp hl
    exact ⟨h3.built h5 h1.nComp, by rw [h4]; exact h2, fun _ => ⟨h3, h5⟩⟩
  | run o fuel r h hs hr ih =>
    obtain ⟨h1, h2, h3⟩ := ih
    obtain ⟨h3, h4⟩ := h3 rfl
    obtain ⟨q, hq, hq'⟩ := run_dense h3 h2 h4 he hs fuel
    rw [hr] at hq
    injection hq with hq
    obtain ⟨h5, h6, h7, _⟩ := hq' r hq.symm
    exact ⟨h5.built h7 h1.nComp, by rw [h6]; exact h2, fun _ => ⟨h5, h7⟩⟩

/-- C36 (any arithmetic, any QP behaviour): on the documented path with the dense solver nothing is
undefined.  Every load of arguments of the documented sizes returns a code, every run of a loaded
object returns (or is still running after `fuel` passes), and after a run both solutions can be
copied into buffers of `nV` and `nV + nC + 2 nComp` entries. -/
theorem C36_dense (e : Env α) (N : Int) (n : Dims) (l : Bool) (o : Obj α) (he : AnsBnd e N)
    (h : DenseUse e N n l o) :
    (∀ a : DenseArgs α, a.Fits n → ∃ r, loadDense e o a = .ok r) ∧
    (l = true → Small o.d.opts N → ∀ fuel, ∃ q, runSolver e fuel o = .ok q ∧
      ∀ r, q = some r → ∃ t,
        (∀ b : List α, n.nV ≤ b.length → ∃ b', getPrimalSolution r.2 (some b) = .ok (t, some b')) ∧
        (∀ b : List α, n.nV + n.nC + 2 * n.nComp ≤ b.length →
          ∃ b', getDualSolution r.2 (some b) = .ok (t, some b'))) := by
  obtain ⟨hb, hq, hr⟩ := h.inv he
  refine ⟨?_, ?_⟩
  · intro a hf
    obtain ⟨r, o', h1, _⟩ := C15_codes e o n a hb.dims hb.nV hb.nComp hf
    exact ⟨_, h1⟩
  · intro hl hsm fuel
    obtain ⟨hrdy, hsp⟩ := hr hl
    obtain ⟨q, hq1, hq2⟩ := run_dense hrdy hq hsp he hsm fuel
    refine ⟨q, hq1, ?_⟩
    intro r hqr
    obtain ⟨h1, h2, h3, h4, ⟨y, hy, ly⟩, t, ht⟩ := hq2 r hqr
    obtain ⟨x, hx, lx⟩ := h1.xk
    have hnA : n.nV + n.nA = n.nV + n.nC + 2 * n.nComp := by simp [Dims.nA]; omega
    refine ⟨t, ?_, ?_⟩
    · intro b hb
      exact ⟨_, C38_primal r.2 n t x b h1.dims ht hx (by omega) hb⟩
    · intro b hb
      exact ⟨_, C38_dual r.2 _ t y b h4 ht hy (by omega) (by omega)⟩

/-- C36: with the default limits (`maxIterations = 1000`) the counters stay in range if no QP call
reports more than two million iterations. -/
theorem C36_small (o : Options α) (h : o.maxIter = 1000) : Small o 2000000 := by
  refine ⟨by omega, ?_, ?_⟩ <;> rw [h] <;> decide

/-- C36, the excluded case: exactly one of `lbL`, `lbR`.  Every run that gets past the choice of the
solver dereferences a null pointer. -/
theorem C36_one_bound (e : Env α) (o : Obj α) (n : Dims) (r : RV × Obj α) (fuel : Nat)
    (hn : o.d.dims = some n) (hg : ∃ g, o.d.g = some g ∧ n.nV ≤ g.length)
    (hx : (o.d.lbL = none ∧ o.d.lbR ≠ none) ∨ (o.d.lbL ≠ none ∧ o.d.lbR = none))
    (hc : chooseSolver e o = .ok r) (hr : r.1 = .successfulReturn) :
    runSolver e fuel o = .error .null := by
  obtain ⟨nd, bo, l, u, sub, y, w, h2⟩ := chooseSolver_inv hc
  obtain ⟨g, hg, lg⟩ := hg
  have hd : r.2.d.dims = some n := by rw [h2]; exact hn
  have hg' : r.2.d.g = some g := by rw [h2]; exact hg
  have hl : r.2.d.lbL = o.d.lbL := by rw [h2]
  have hrr : r.2.d.lbR = o.d.lbR := by rw [h2]
  have hp : initPhi r.2.d = .error .null := by
    unfold initPhi
    rw [hl, hrr, hd]
    rcases hx with ⟨h1, h3⟩ | ⟨h1, h3⟩
    · rw [if_neg (by simp [h3]), initd_some, ok_bind, h1]
      rfl
    · rw [if_neg (by simp [h1]), initd_some, ok_bind, h3]
      cases h4 : o.d.lbL with
      | none => exact absurd h4 h1
      | some v => rfl
  rw [runSolver, initializeSolver, hc, ok_bind, if_neg (by simp [hr]), initRest, hd, initd_some, ok_bind, hg',
    deref_some, ok_bind, copyN_take lg, ok_bind, hp]
  rfl

end anyArith

/-! Non-vacuity, and counterexamples for the hypotheses. -/

theorem Ex.ansBnd (x y : List ℚ) : AnsBnd (Ex.envOf fun _ _ => Ex.good x y) 3 := by
  intro k r
  show (-3 : Int) ≤ 3 ∧ (3 : Int) ≤ 3
  decide

example : ∃ o, DenseUse Ex.env 3 ⟨2, 0, 1⟩ true o ∧ Small o.d.opts 3 := by
  obtain ⟨o', h⟩ := C39_usable Ex.env Ex.opts 2 0 1 (by decide) Ex.args Ex.args_fits (by simp [Ex.args])
    (fun _ => rfl) (by rintro ⟨v, ⟨⟩, _⟩) (by rintro ⟨v, ⟨⟩, _⟩)
  have h1 := DenseUse.new (e := Ex.env) (N := 3) (n := ⟨2, 0, 1⟩) Ex.opts 2 0 1 (by decide) rfl rfl
  refine ⟨setOptions o' Ex.opts, .options _ _ _ (.load _ _ _ Ex.args h1 Ex.args_fits (by simp [Ex.args]) h) rfl, ?_⟩
  show Small Ex.opts 3
  exact ⟨by decide, by decide, by decide⟩

/-- only one lower bound: null pointer -/
example : (do
    let r ← loadDense Ex.env Ex.obj0 { Ex.args with lbL := some [.fin 0] }
    runSolver Ex.env 5 r.2).map (fun _ => ()) = .error .null := by decide +kernel

/-- C36 without the bound on the reported iteration counts is false: the sum of the iteration counts
overflows. -/
theorem C36_overflow : ∃ e : Env (Ext ℚ), (∀ k r, 0 ≤ (e.qp k r).iter ∧ (e.qp k r).iter ≤ intMax) ∧
    (do
      let r ← loadDense e Ex.obj0 Ex.args
      runSolver e 5 r.2).map (fun _ => ()) = .error .overflow := by
  refine ⟨Ex.envOf fun _ _ => { Ex.good [1, 0] [0, 0, 0, 0] with iter := 2147483647 }, ?_, ?_⟩
  · intro k r
    show (0 : Int) ≤ 2147483647 ∧ (2147483647 : Int) ≤ intMax
    decide
  · decide +kernel

end LCQ
