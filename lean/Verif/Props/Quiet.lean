import Verif.Lemmas.Quiet
import Verif.Props.SafetyModes
import Verif.Props.CertifyEx

/-!
# C74 printing and storing do not influence the computation
-/

namespace LCQ
open Scalar

section
variable {α : Type} [Scalar α] {e : Env α} {fuel : Nat}

/-- C74 (any arithmetic, any QP behaviour): whenever a run with output is defined, so is the run without output, and they do
the same up to the output. -/
theorem C74_silent {o : Obj α} {r : Option (RV × Obj α)} (h : runSolver e fuel o = .ok r) :
    ∃ q, runSolver e fuel (setOptions o (o.d.opts.loud 0 false)) = .ok q ∧
      q.map (fun p => (p.1, p.2.bare)) = r.map (fun p => (p.1, p.2.bare)) := by
  have h1 := bare_runSolver h
  have h2 : runSolver e fuel o.bare = _ := silent_runSolver (e := e) (f := fuel) (d := o.d) (s := o.s)
  rw [h1] at h2
  cases hq : runSolver e fuel ⟨o.d.bare, o.s⟩ with
  | error => rw [hq] at h2; cases h2
  | ok q =>
    rw [hq] at h2
    injection h2 with h2
    exact ⟨q, hq, h2.symm⟩

/-- C74 (any arithmetic, any QP behaviour): two runs whose options differ only in the print level and in storing the iterates
do the same up to the output. -/
theorem C74_output {o : Obj α} {l l' : Int} {s s' : Bool} {r r' : Option (RV × Obj α)}
    (h : runSolver e fuel (setOptions o (o.d.opts.loud l s)) = .ok r)
    (h' : runSolver e fuel (setOptions o (o.d.opts.loud l' s')) = .ok r') :
    r.map (fun p => (p.1, p.2.bare)) = r'.map (fun p => (p.1, p.2.bare)) := by
  have h1 := bare_runSolver h
  have h2 := bare_runSolver h'
  rw [show (setOptions o (o.d.opts.loud l s)).bare = (setOptions o (o.d.opts.loud l' s')).bare from rfl, h2] at h1
  injection h1 with h1
  exact h1.symm

/-- what equality up to the output means -/
theorem bare_eq {o o' : Obj α} (h : o.bare = o'.bare) :
    o.s.xk = o'.s.xk ∧ o.s.yk = o'.s.yk ∧ o.s.ykA = o'.s.ykA ∧ o.s.rho = o'.s.rho ∧ o.s.algo = o'.s.algo ∧
    o.s.stats.status = o'.s.stats.status ∧ o.s.stats.iterTotal = o'.s.stats.iterTotal ∧
    o.s.stats.iterOuter = o'.s.stats.iterOuter ∧ o.s.stats.subproblemIter = o'.s.stats.subproblemIter ∧
    o.s.stats.rhoOpt = o'.s.stats.rhoOpt ∧ o.s.stats.exitFlag = o'.s.stats.exitFlag ∧
    o.s.calls = o'.s.calls ∧ o.s.out.filter Ev.isMsg = o'.s.out.filter Ev.isMsg ∧
    (∀ b, getPrimalSolution o b = getPrimalSolution o' b) ∧ (∀ b, getDualSolution o b = getDualSolution o' b) ∧
    getNumberOfPrimals o = getNumberOfPrimals o' ∧ getNumberOfDuals o = getNumberOfDuals o' := by
  have hs : o.s.bare = o'.s.bare := (congrArg Obj.s h :)
  have hd : o.d.bare = o'.d.bare := (congrArg Obj.d h :)
  have hx : o.s.xk = o'.s.xk := (congrArg St.xk hs :)
  have hy : o.s.yk = o'.s.yk := (congrArg St.yk hs :)
  have ha : o.s.algo = o'.s.algo := (congrArg St.algo hs :)
  have hn : o.d.dims = o'.d.dims := (congrArg Data.dims hd :)
  have hk : o.d.nDuals = o'.d.nDuals := (congrArg Data.nDuals hd :)
  have ht : o.s.stats.bare = o'.s.stats.bare := (congrArg St.stats hs :)
  refine ⟨hx, hy, (congrArg St.ykA hs :), (congrArg St.rho hs :), ha, (congrArg Stats.status ht :), (congrArg Stats.iterTotal ht :),
    (congrArg Stats.iterOuter ht :), (congrArg Stats.subproblemIter ht :), (congrArg Stats.rhoOpt ht :), (congrArg Stats.exitFlag ht :),
    (congrArg St.calls hs :), (congrArg St.out hs :), ?_, ?_, ?_, ?_⟩
  · intro b
    simp only [getPrimalSolution, hx, ha, hn]
  · intro b
    simp only [getDualSolution, hy, ha, hk]
  · simp only [getNumberOfPrimals, hn]
  · simp only [getNumberOfDuals, hk]

/-- C74 (any arithmetic, any QP behaviour), spelled out: return code, iterate, multipliers, penalty parameter, status, counters,
number of QP solves, error messages and everything the getters return are the same whatever is printed and stored. -/
theorem C74_results {o : Obj α} {l l' : Int} {s s' : Bool} {r r' : RV × Obj α}
    (h : runSolver e fuel (setOptions o (o.d.opts.loud l s)) = .ok (some r))
    (h' : runSolver e fuel (setOptions o (o.d.opts.loud l' s')) = .ok (some r')) :
    r.1 = r'.1 ∧
    r.2.s.xk = r'.2.s.xk ∧ r.2.s.yk = r'.2.s.yk ∧ r.2.s.ykA = r'.2.s.ykA ∧ r.2.s.rho = r'.2.s.rho ∧
    r.2.s.algo = r'.2.s.algo ∧ r.2.s.stats.status = r'.2.s.stats.status ∧
    r.2.s.stats.iterTotal = r'.2.s.stats.iterTotal ∧ r.2.s.stats.iterOuter = r'.2.s.stats.iterOuter ∧
    r.2.s.stats.subproblemIter = r'.2.s.stats.subproblemIter ∧ r.2.s.stats.rhoOpt = r'.2.s.stats.rhoOpt ∧
    r.2.s.stats.exitFlag = r'.2.s.stats.exitFlag ∧ r.2.s.calls = r'.2.s.calls ∧
    r.2.s.out.filter Ev.isMsg = r'.2.s.out.filter Ev.isMsg ∧
    (∀ b, getPrimalSolution r.2 b = getPrimalSolution r'.2 b) ∧ (∀ b, getDualSolution r.2 b = getDualSolution r'.2 b) ∧
    getNumberOfPrimals r.2 = getNumberOfPrimals r'.2 ∧ getNumberOfDuals r.2 = getNumberOfDuals r'.2 := by
  have h1 := C74_output h h'
  simp only [Option.map_some, Option.some.injEq, Prod.mk.injEq] at h1
  exact ⟨h1.1, bare_eq h1.2⟩

/-- C74 (any arithmetic, any QP behaviour), whole programs: two sequences of loads, option settings, mode switches and runs
that differ only in print levels and in storing the iterates return the same codes and leave the same object up to the
output. -/
theorem C74_program {cs cs' : List (Cmd α)} {o o' : Obj α} {r r' : Option (List RV × Obj α)}
    (hc : cs.map Cmd.bare = cs'.map Cmd.bare) (ho : o.bare = o'.bare)
    (h : execAll e fuel cs o = .ok r) (h' : execAll e fuel cs' o' = .ok r') :
    r.map (fun p => (p.1, p.2.bare)) = r'.map (fun p => (p.1, p.2.bare)) := by
  have h1 := bare_execAll h
  have h2 := bare_execAll h'
  rw [hc, ho, h2] at h1
  injection h1 with h1
  exact h1.symm

/-- C74 on the documented path with the dense solver: both runs are defined, so nothing is assumed about them. -/
theorem C74_dense (N : Int) (n : Dims) (o : Obj α) (he : AnsBnd e N) (h : DenseUse e N n true o) (hs : Small o.d.opts N)
    (l l' : Int) (s s' : Bool) :
    ∃ r r', runSolver e fuel (setOptions o (o.d.opts.loud l s)) = .ok r ∧
      runSolver e fuel (setOptions o (o.d.opts.loud l' s')) = .ok r' ∧
      r.map (fun p => (p.1, p.2.bare)) = r'.map (fun p => (p.1, p.2.bare)) := by
  obtain ⟨_, hq, _⟩ := h.inv he
  obtain ⟨r, hr, _⟩ := (C36_dense e N n true _ he (DenseUse.options _ _ (o.d.opts.loud l s) h hq)).2 rfl ⟨hs.1, hs.2, hs.3⟩ fuel
  obtain ⟨r', hr', _⟩ := (C36_dense e N n true _ he (DenseUse.options _ _ (o.d.opts.loud l' s') h hq)).2 rfl ⟨hs.1, hs.2, hs.3⟩ fuel
  exact ⟨r, r', hr, hr', C74_output (o := o) hr hr'⟩

/-- C74 for sparse data (either sparse solver): constructed, loaded and run with two choices of output. -/
theorem C74_sparse (N : Int) (he : AnsBnd e N) (opts opts' : Options α) (nV nC nComp : Int)
    (hd : 1 ≤ nV ∧ 1 ≤ nComp ∧ 0 ≤ nC) (n : Dims) (hn : n = ⟨nV.toNat, nC.toNat, nComp.toNat⟩)
    (a : SparseArgs α) (hf : a.Fits n) (hp : a.lbL = none ↔ a.lbR = none) {o' : Obj α}
    (h : loadSparse e (Obj.new opts nV nC nComp) a = .ok (.successfulReturn, o')) (hs : Small opts' N)
    (hq : opts'.qpSolver = 2 → ∀ r, (e.qp 0 r).setup = true ∧ (e.qp 0 r).warmX = true ∧ (e.qp 0 r).warmY = true)
    (l l' : Int) (s s' : Bool) :
    ∃ r r', runSolver e fuel (setOptions o' (opts'.loud l s)) = .ok r ∧
      runSolver e fuel (setOptions o' (opts'.loud l' s')) = .ok r' ∧
      r.map (fun p => (p.1, p.2.bare)) = r'.map (fun p => (p.1, p.2.bare)) := by
  have k := (C36_sparse e N he opts (opts'.loud l s) nV nC nComp hd n hn a hf hp).2 o' h ⟨hs.1, hs.2, hs.3⟩ hq fuel
  have k' := (C36_sparse e N he opts (opts'.loud l' s') nV nC nComp hd n hn a hf hp).2 o' h ⟨hs.1, hs.2, hs.3⟩ hq fuel
  obtain ⟨r, hr, _⟩ := k
  obtain ⟨r', hr', _⟩ := k'
  exact ⟨r, r', hr, hr', C74_output (o := setOptions o' opts') hr hr'⟩

/-- C74 for any object prepared by loads and mode switches in any order. -/
theorem C74_modes (N : Int) (he : AnsBnd e N) (n : Dims) (o : Obj α) (h : Prepared e n true o) (hs : Small o.d.opts N)
    (hq : o.d.opts.qpSolver = 2 → ∀ r, (e.qp 0 r).setup = true ∧ (e.qp 0 r).warmX = true ∧ (e.qp 0 r).warmY = true)
    (l l' : Int) (s s' : Bool) :
    ∃ r r', runSolver e fuel (setOptions o (o.d.opts.loud l s)) = .ok r ∧
      runSolver e fuel (setOptions o (o.d.opts.loud l' s')) = .ok r' ∧
      r.map (fun p => (p.1, p.2.bare)) = r'.map (fun p => (p.1, p.2.bare)) := by
  obtain ⟨r, hr, _⟩ := ((C36_modes e N he n true _ (.options (o.d.opts.loud l s) h)).2.2 rfl).2.2 ⟨hs.1, hs.2, hs.3⟩ hq fuel
  obtain ⟨r', hr', _⟩ := ((C36_modes e N he n true _ (.options (o.d.opts.loud l' s') h)).2.2 rfl).2.2 ⟨hs.1, hs.2, hs.3⟩ hq fuel
  exact ⟨r, r', hr, hr', C74_output (o := o) hr hr'⟩

end

/-! ## examples -/

namespace Ex

/-- two runs of the same program with different output -/
def loudQ (l : Int) (s : Bool) : M (Option (List RV × Obj (Ext ℚ))) :=
  execAll env 5 [.dense args, .options (opts.loud l s), .run] obj0

example : (loudQ 2 true).map (fun r => r.map fun q => (q.1, q.2.s.out.length, q.2.s.stats.xSteps.length)) =
    .ok (some ([.successfulReturn, .successfulReturn, .successfulReturn], 4, 1)) := by decide +kernel

example : (loudQ 0 false).map (fun r => r.map fun q => (q.1, q.2.s.out.length, q.2.s.stats.xSteps.length)) =
    .ok (some ([.successfulReturn, .successfulReturn, .successfulReturn], 0, 0)) := by decide +kernel

example : (loudQ 2 true).map (fun r => r.map fun q => (q.2.s.xk, q.2.s.calls)) =
    (loudQ 0 false).map (fun r => r.map fun q => (q.2.s.xk, q.2.s.calls)) := by decide +kernel

end Ex
end LCQ
