import Verif.Props.Safety
import Verif.Props.LoadSparse

/-!
# C36, sparse solvers
-/

set_option linter.unusedSectionVars false

namespace LCQ
open Scalar

section anyArith
variable {α : Type} [Scalar α]

/-- after a successful sparse load of an object that was not run before, the object can be run -/
theorem Built.loadSparse {e : Env α} {n : Dims} {o o' : Obj α} {a : SparseArgs α} (hb : Built o n) (hi : o.s.idxC = [])
    (hf : a.Fits n) (hp : a.lbL = none ↔ a.lbR = none) (h : loadSparse e o a = .ok (.successfulReturn, o')) :
    Ready o' n ∧ o'.d.opts = o.d.opts ∧ o'.d.sparse = true ∧ o'.s.calls = o.s.calls := by
  obtain ⟨Q, L, R, C, hQ, hL, hR, iQ, iL, iR, hCs, hCi, h'⟩ := loadSparse_ok (e := e) hb.dims hb.nV hb.nComp hf
  rcases h' with ⟨_, _, h'⟩ | ⟨_, _, _, h'⟩ | ⟨_, _, _, _, h'⟩ | ⟨_, _, g, c, hg, lg, hc, h'⟩
  · rw [h'] at h; injection h with h; injection h with h _; cases h
  · rw [h'] at h; injection h with h; injection h with h _; cases h
  · rw [h'] at h; injection h with h; injection h with h _; cases h
  · rw [h'] at h
    injection h with h
    injection h with _ h
    subst h
    refine ⟨?_, rfl, rfl, rfl⟩
    exact { hb with
      g := ⟨_, rfl, by simpa using lg⟩
      Q := ⟨_, rfl, iQ.trim⟩
      C := ⟨_, rfl, (hCi c hc).1⟩
      A := ⟨_, rfl, stackSparse_is iL.trim iR.trim hf.A⟩
      L := ⟨_, rfl, iL.trim⟩
      R := ⟨_, rfl, iR.trim⟩
      lbA := ⟨_, rfl, by simp [orFill_length hf.lbA, orFill_length hf.lbL, orFill_length hf.lbR, Dims.nA]; omega⟩
      ubA := ⟨_, rfl, by simp [orFill_length hf.ubA, orFill_length hf.ubL, orFill_length hf.ubR, Dims.nA]; omega⟩
      lbTmp := hasOpt_orElse (hasOpt_take hf.lb) hb.lbTmp
      ubTmp := hasOpt_orElse (hasOpt_take hf.ub) hb.ubTmp
      pair := bndMem_pair hf.lbL hf.lbR hp hb.pair
      xk := ⟨_, rfl, orFill_length hf.x0⟩
      yk := hasOpt_take hf.y0
      Qk := by intro h; exact absurd h (by simp [sparseObj])
      idx := fun _ => hi }

/-- a run of a loaded object returns (or is still running after `fuel` passes); either the initialisation was refused with one
of three codes, or the solutions can be copied out afterwards -/
theorem Ready.outcome {e : Env α} {N : Int} {n : Dims} {o : Obj α} (hr : Ready o n) (he : AnsBnd e N) (hsm : Small o.d.opts N)
    (hos : o.d.opts.qpSolver = 2 → o.d.sparse = true → ∀ r, (e.qp o.s.calls r).setup = true ∧
      (e.qp o.s.calls r).warmX = true ∧ (e.qp o.s.calls r).warmY = true) (fuel : Nat) :
    ∃ q, runSolver e fuel o = .ok q ∧ ∀ r, q = some r →
      r.1 = .denseSparseMissmatch ∨ r.1 = .invalidOsqpBoxConstraints ∨ r.1 = .notYetImplemented ∨
      ∃ t k, r.2.d.nDuals = some k ∧
        (∀ b : List α, n.nV ≤ b.length → ∃ b', getPrimalSolution r.2 (some b) = .ok (t, some b')) ∧
        (∀ b : List α, k ≤ b.length → ∃ b', getDualSolution r.2 (some b) = .ok (t, some b')) := by
  obtain ⟨q, hq, hq'⟩ := runSolver_total (e := e) hr he hsm hos fuel
  refine ⟨q, hq, ?_⟩
  intro r hqr
  subst hqr
  obtain ⟨i, hi, hc⟩ := hq' r rfl
  rcases hc with ⟨hne, hri⟩ | ⟨hok, ⟨x, hx, lx⟩, ⟨off, hnd, y, hy, ly⟩, hdim, _⟩
  · obtain ⟨hch, hcode⟩ := initializeSolver_fail hi hne
    rw [hri]
    rcases hcode with h' | h' | h' | h'
    · exact .inl h'
    · exact .inr (.inl h')
    · exact .inr (.inr (.inl h'))
    · exfalso
      -- the boxes are always set for a loaded object
      have hbx : ∀ d : Data α, d.dims = some n → HasOpt d.lbTmp n.nV → HasOpt d.ubTmp n.nV →
          ∃ b, setBoxes d = .ok b ∧ b.1 = .successfulReturn := by
        intro d h1 h2 h3
        obtain ⟨l, u, hb, _⟩ := setBoxes_ok h1 hr.nV h2 h3
        exact ⟨_, hb, rfl⟩
      rw [chooseSolver, hr.dims, initd_some, ok_bind] at hch
      split at hch
      · dsimp only at hch
        split at hch
        · injection hch with hch
          rw [← hch] at h'
          cases h'
        · obtain ⟨b, hb1, hb2⟩ := hbx { o.d with
            nDuals := some (n.nV + n.nC + 2 * n.nComp), boxOff := some n.nV } hr.dims hr.lbTmp hr.ubTmp
          rw [hb1, ok_bind, if_neg (by simp [hb2])] at hch
          simp only [bind_eq_ok] at hch
          obtain ⟨_, _, _, _, _, _, _, _, hch⟩ := hch
          injection hch with hch
          rw [← hch] at h'
          cases h'
      · split at hch
        · dsimp only at hch
          split at hch
          · injection hch with hch
            rw [← hch] at h'
            cases h'
          · obtain ⟨b, hb1, hb2⟩ := hbx { o.d with
              nDuals := some (n.nV + n.nC + 2 * n.nComp), boxOff := some n.nV } hr.dims hr.lbTmp hr.ubTmp
            rw [hb1, ok_bind, if_neg (by simp [hb2])] at hch
            simp only [bind_eq_ok] at hch
            obtain ⟨_, _, _, _, _, _, _, _, hch⟩ := hch
            injection hch with hch
            rw [← hch] at h'
            cases h'
        · split at hch
          · split at hch
            · injection hch with hch
              rw [← hch] at h'
              cases h'
            · simp only [bind_eq_ok] at hch
              obtain ⟨_, _, hch⟩ := hch
              split at hch
              · injection hch with hch
                rw [← hch] at h'
                cases h'
              · split at hch
                · injection hch with hch
                  rw [← hch] at h'
                  cases h'
                · simp only [bind_eq_ok] at hch
                  obtain ⟨_, _, _, _, _, _, _, _, _, _, hch⟩ := hch
                  injection hch with hch
                  rw [← hch] at h'
                  cases h'
          · injection hch with hch
            rw [← hch] at h'
            cases h'
  · right; right; right
    obtain ⟨t, ht⟩ := run_algo hq hi hok
    refine ⟨t, _, hnd, ?_, ?_⟩
    · intro b hb
      exact ⟨_, C38_primal r.2 n t x b hdim ht hx (by omega) hb⟩
    · intro b hb
      exact ⟨_, C38_dual r.2 _ t y b hnd ht hy (by omega) hb⟩

/-- C36 (any arithmetic, any QP behaviour), sparse data: constructed with valid dimensions, options set,
arguments of the documented sizes loaded, one run.  Every load returns a code; the run returns (or is
still running after `fuel` passes); either the initialisation was refused with one of three codes, or the
solutions can be copied out afterwards.  For OSQP the set-up and warm start calls have to succeed (they
fail only on invalid data or lack of memory). -/
theorem C36_sparse (e : Env α) (N : Int) (he : AnsBnd e N) (opts opts' : Options α) (nV nC nComp : Int)
    (hd : 1 ≤ nV ∧ 1 ≤ nComp ∧ 0 ≤ nC) (n : Dims) (hn : n = ⟨nV.toNat, nC.toNat, nComp.toNat⟩)
    (a : SparseArgs α) (hf : a.Fits n) (hp : a.lbL = none ↔ a.lbR = none) :
    (∃ r, loadSparse e (Obj.new opts nV nC nComp) a = .ok r) ∧
    ∀ o', loadSparse e (Obj.new opts nV nC nComp) a = .ok (.successfulReturn, o') → Small opts' N →
      (opts'.qpSolver = 2 → ∀ r, (e.qp 0 r).setup = true ∧ (e.qp 0 r).warmX = true ∧ (e.qp 0 r).warmY = true) →
      ∀ fuel, ∃ q, runSolver e fuel (setOptions o' opts') = .ok q ∧ ∀ r, q = some r →
        r.1 = .denseSparseMissmatch ∨ r.1 = .invalidOsqpBoxConstraints ∨ r.1 = .notYetImplemented ∨
        ∃ t k, r.2.d.nDuals = some k ∧
          (∀ b : List α, n.nV ≤ b.length → ∃ b', getPrimalSolution r.2 (some b) = .ok (t, some b')) ∧
          (∀ b : List α, k ≤ b.length → ∃ b', getDualSolution r.2 (some b) = .ok (t, some b')) := by
  have hb := Built.new opts hd
  rw [← hn] at hb
  have hnew : (Obj.new opts nV nC nComp).s.idxC = [] ∧ (Obj.new opts nV nC nComp).s.calls = 0 ∧
      (Obj.new opts nV nC nComp).s.work = .null := by
    unfold Obj.new
    dsimp only
    rw [if_neg (by omega), if_neg (by omega), if_neg (by omega)]
    exact ⟨rfl, rfl, rfl⟩
  refine ⟨?_, ?_⟩
  · obtain ⟨r, o', _, _, _, _, _, _, _, _, _, _, h, _⟩ := C16_codes e _ n a hb.dims hb.nV hb.nComp hf
    exact ⟨_, h⟩
  · intro o' h hsm hos fuel
    obtain ⟨hr, _, hsp, hcalls⟩ := hb.loadSparse hnew.1 hf hp h
    have hw : o'.s.work = .null := by
      obtain ⟨Q, L, R, C, hQ, hL, hR, iQ, iL, iR, hCs, hCi, h'⟩ := loadSparse_ok (e := e) hb.dims hb.nV hb.nComp hf
      rcases h' with ⟨_, _, h'⟩ | ⟨_, _, _, h'⟩ | ⟨_, _, _, _, h'⟩ | ⟨_, _, g, c, hg, lg, hc, h'⟩
      · rw [h'] at h; injection h with h; injection h with h _; cases h
      · rw [h'] at h; injection h with h; injection h with h _; cases h
      · rw [h'] at h; injection h with h; injection h with h _; cases h
      · rw [h'] at h
        injection h with h
        injection h with _ h
        subst h
        exact hnew.2.2
    have hr' : Ready (setOptions o' opts') n := { hr with work := fun _ => hw }
    refine hr'.outcome he hsm ?_ fuel
    intro h2 _
    have hc : (setOptions o' opts').s.calls = 0 := hcalls.trans hnew.2.1
    rw [hc]
    exact hos h2

end anyArith

/-! Non-vacuity: the warm-up example in compressed-column form, with both sparse solvers. -/

/-- options for the sparse solvers -/
def Ex.sopts (k : Int) : Options (Ext ℚ) := { Ex.opts with qpSolver := k }

/-- run the sparse example -/
def Ex.srun (e : Env (Ext ℚ)) (k : Int) (fuel : Nat) : M (Option (RV × Obj (Ext ℚ))) := do
  let r ← loadSparse e Ex.obj0 Ex.sargs
  runSolver e fuel (setOptions r.2 (Ex.sopts k))

example : (Ex.seen (Ex.srun Ex.env 1 20)).map (fun r => (r.1, r.2.1)) =
    some (.successfulReturn, some [.fin 1, .fin 0]) := by decide +kernel

example : Small (Ex.sopts 1) 3 := ⟨by decide, by decide, by decide⟩

end LCQ
