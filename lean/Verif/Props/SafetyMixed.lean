import Verif.Lemmas.Mixed
import Verif.Props.SafetyModes

/-!
# C36, loads, mode switches, option changes and runs in any order
-/

namespace LCQ
open Scalar

section anyArith
variable {α : Type} [Scalar α]

/-- An object used with the qpOASES solvers: constructed with valid dimensions, and then, in any order, given options, loaded
(dense or sparse data of the documented sizes), switched between the modes, and run.  The first flag tells whether something
was loaded, the second whether a run in sparse mode was made (one with the sparse solver; with the dense one it is refused).
A second run in sparse mode is not allowed. -/
inductive MixedUse (e : Env α) (N : Int) (n : Dims) : Bool → Bool → Obj α → Prop
  | new (opts : Options α) (nV nC nComp : Int) (h : 1 ≤ nV ∧ 1 ≤ nComp ∧ 0 ≤ nC)
      (hn : n = ⟨nV.toNat, nC.toNat, nComp.toNat⟩) (hq : opts.qpSolver = 0 ∨ opts.qpSolver = 1) :
      MixedUse e N n false false (Obj.new opts nV nC nComp)
  | options {o : Obj α} {l s : Bool} (opts : Options α) (h : MixedUse e N n l s o)
      (hq : opts.qpSolver = 0 ∨ opts.qpSolver = 1) : MixedUse e N n l s (setOptions o opts)
  | dense {o o' : Obj α} {l s : Bool} (a : DenseArgs α) (h : MixedUse e N n l s o) (hf : a.Fits n)
      (hp : a.lbL = none ↔ a.lbR = none) (hl : loadDense e o a = .ok (.successfulReturn, o')) : MixedUse e N n true s o'
  | sparse {o o' : Obj α} {l s : Bool} (a : SparseArgs α) (h : MixedUse e N n l s o) (hf : a.Fits n)
      (hp : a.lbL = none ↔ a.lbR = none) (hl : loadSparse e o a = .ok (.successfulReturn, o')) : MixedUse e N n true s o'
  | toSparse {o : Obj α} {s : Bool} {r : RV × Obj α} (h : MixedUse e N n true s o) (hs : switchToSparse o = .ok r) :
      MixedUse e N n true s r.2
  | toDense {o : Obj α} {s : Bool} {r : RV × Obj α} (h : MixedUse e N n true s o) (hs : switchToDense o = .ok r) :
      MixedUse e N n true s r.2
  | run {o : Obj α} {s : Bool} (fuel : Nat) (r : RV × Obj α) (h : MixedUse e N n true s o) (hs : Small o.d.opts N)
      (hm : s = true → o.d.sparse = true → o.d.opts.qpSolver = 0) (hr : runSolver e fuel o = .ok (some r)) :
      MixedUse e N n true (s || (o.d.sparse && decide (o.d.opts.qpSolver = 1))) r.2

theorem MixedUse.inv {e : Env α} {N : Int} {n : Dims} {l s : Bool} {o : Obj α} (he : AnsBnd e N)
    (h : MixedUse e N n l s o) : Built o n ∧ (o.d.opts.qpSolver = 0 ∨ o.d.opts.qpSolver = 1) ∧
      (l = true → Kept o n) ∧ (s = false → o.s.idxC = []) := by
  induction h with
  | new opts nV nC nComp h hn hq =>
    subst hn
    have hu := Untouched.new opts h
    refine ⟨hu.toBuilt, ?_, by simp, fun _ => hu.idxC⟩
    unfold Obj.new
    dsimp only
    rw [if_neg (by omega), if_neg (by omega), if_neg (by omega)]
    exact hq
  | options opts _ hq ih =>
    obtain ⟨h1, h2, h3, h4⟩ := ih
    have hw : opts.qpSolver ≠ 2 := by omega
    exact ⟨{ h1 with work := fun h => absurd h hw }, hq, fun hl => { h3 hl with work := fun h => absurd h hw }, h4⟩
  | dense a _ hf hp hl ih =>
    obtain ⟨h1, h2, _, h4⟩ := ih
    obtain ⟨h5, h6, _, h7⟩ := h1.loadKept hf hp hl
    exact ⟨h5.toBuilt, by rw [h6]; exact h2, fun _ => h5, fun hs => h7.trans (h4 hs)⟩
  | sparse a _ hf hp hl ih =>
    obtain ⟨h1, h2, _, h4⟩ := ih
    obtain ⟨h5, h6, _, h7⟩ := h1.loadSparseKept hf hp hl
    exact ⟨h5.toBuilt, by rw [h6]; exact h2, fun _ => h5, fun hs => h7.trans (h4 hs)⟩
  | toSparse _ hs ih =>
    obtain ⟨_, h2, h3, h4⟩ := ih
    obtain ⟨o', h1, h5, _, h6, h7⟩ := (h3 rfl).toSparse
    rw [hs] at h1
    injection h1 with h1
    subst h1
    exact ⟨h5.toBuilt, by rw [h6]; exact h2, fun _ => h5, fun hs => by rw [h7]; exact h4 hs⟩
  | toDense _ hs ih =>
    obtain ⟨_, h2, h3, h4⟩ := ih
    obtain ⟨o', h1, h5, _, h6, h7⟩ := (h3 rfl).toDense
    rw [hs] at h1
    injection h1 with h1
    subst h1
    exact ⟨h5.toBuilt, by rw [h6]; exact h2, fun _ => h5, fun hs => by rw [h7]; exact h4 hs⟩
  | @run o s fuel r _ hs hm hr ih =>
    obtain ⟨_, h2, h3, h4⟩ := ih
    obtain ⟨q, hq, hq'⟩ := (h3 rfl).run (e := e) (fun a b => by
      refine h4 ?_
      cases s with
      | false => rfl
      | true => have := hm rfl a; omega) h2 he hs fuel
    rw [hr] at hq
    injection hq with hq
    obtain ⟨h5, h6, _, h7, _⟩ := hq' r hq.symm
    refine ⟨h5.toBuilt, by rw [h6]; exact h2, fun _ => h5, fun hs => ?_⟩
    simp only [Bool.or_eq_false_iff, Bool.and_eq_false_iff, decide_eq_false_iff_not] at hs
    rw [h7 fun hsp => by
      rcases hs.2 with h | h
      · rw [hsp] at h; cases h
      · omega]
    exact h4 hs.1

/-- C36 (any arithmetic, any QP behaviour): an object used with the qpOASES solvers, where loads, mode switches, changes of the
options and runs come in any order, as long as there is at most one run in sparse mode.  Every load returns a code; once
something was loaded, switching to either mode succeeds and ends in that mode; every run returns (or is still running after
`fuel` passes): it is refused exactly when solver and mode do not fit, otherwise both solutions can be copied into buffers of
`nV` and `nV + nC + 2 nComp` entries. -/
theorem C36_mixed (e : Env α) (N : Int) (he : AnsBnd e N) (n : Dims) (l s : Bool) (o : Obj α) (h : MixedUse e N n l s o) :
    (∀ a : DenseArgs α, a.Fits n → ∃ r, loadDense e o a = .ok r) ∧
    (∀ a : SparseArgs α, a.Fits n → ∃ r, loadSparse e o a = .ok r) ∧
    (l = true → (∃ o', switchToSparse o = .ok (.successfulReturn, o') ∧ o'.d.sparse = true) ∧
      (∃ o', switchToDense o = .ok (.successfulReturn, o') ∧ o'.d.sparse = false) ∧
      (Small o.d.opts N → (s = true → o.d.sparse = true → o.d.opts.qpSolver = 0) →
        ∀ fuel, ∃ q, runSolver e fuel o = .ok q ∧ ∀ r, q = some r →
          (o.d.sparse = decide (o.d.opts.qpSolver = 0) ∧ r.1 = .denseSparseMissmatch) ∨
          (o.d.sparse = decide (o.d.opts.qpSolver = 1) ∧ ∃ t,
            (∀ b : List α, n.nV ≤ b.length → ∃ b', getPrimalSolution r.2 (some b) = .ok (t, some b')) ∧
            (∀ b : List α, n.nV + n.nC + 2 * n.nComp ≤ b.length →
              ∃ b', getDualSolution r.2 (some b) = .ok (t, some b'))))) := by
  obtain ⟨hb, hq, hk, hx⟩ := h.inv he
  refine ⟨?_, ?_, fun hl => ⟨?_, ?_, ?_⟩⟩
  · intro a ha
    obtain ⟨r, o', h1, _⟩ := C15_codes e o n a hb.dims hb.nV hb.nComp ha
    exact ⟨_, h1⟩
  · intro a ha
    obtain ⟨r, o', _, _, _, _, _, _, _, _, _, _, h1, _⟩ := C16_codes e o n a hb.dims hb.nV hb.nComp ha
    exact ⟨_, h1⟩
  · obtain ⟨o', h1, _, h2, _⟩ := (hk hl).toSparse
    exact ⟨o', h1, h2⟩
  · obtain ⟨o', h1, _, h2, _⟩ := (hk hl).toDense
    exact ⟨o', h1, h2⟩
  · intro hs hm fuel
    obtain ⟨q, h1, h2⟩ := (hk hl).run (e := e) (fun a b => hx (by
      cases s with
      | false => rfl
      | true => have := hm rfl a; omega)) hq he hs fuel
    refine ⟨q, h1, fun r hr => ?_⟩
    obtain ⟨h3, _, _, _, ⟨hc, h4⟩ | ⟨h4, hnd, ⟨y, hy, ly⟩, t, ht⟩⟩ := h2 r hr
    · exact Or.inl ⟨h4, hc⟩
    · obtain ⟨x, hx, lx⟩ := h3.xk
      have hnA : n.nV + n.nA = n.nV + n.nC + 2 * n.nComp := by simp [Dims.nA]; omega
      refine Or.inr ⟨h4, t, ?_, ?_⟩
      · intro b hb
        exact ⟨_, C38_primal r.2 n t x b h3.dims ht hx (by omega) hb⟩
      · intro b hb
        exact ⟨_, C38_dual r.2 _ t y b hnd ht hy (by omega) (by omega)⟩

end anyArith

/-! Non-vacuity, and the necessity of the exclusion. -/

/-- dense load, dense run, switch, sparse run, switch back, dense run -/
example : ((do
    let r ← loadDense Ex.env Ex.obj0 Ex.args
    let q ← runSolver Ex.env 20 r.2
    let o := (q.map Prod.snd).getD r.2
    let r ← switchToSparse (setOptions o { Ex.opts with qpSolver := 1 })
    let q ← runSolver Ex.env 20 r.2
    let o := (q.map Prod.snd).getD r.2
    let r ← switchToDense (setOptions o Ex.opts)
    let q ← runSolver Ex.env 20 r.2
    .ok (q.map fun r => (r.1, r.2.s.xk))) : M _) =
    .ok (some (.successfulReturn, some [.fin 1, .fin 0])) := by decide +kernel

/-- the second run in sparse mode, even after a dense one in between, accesses arrays out of bounds when it updates the penalty
parameter -/
example : ((do
    let r ← loadDense Ex.env Ex.obj0 Ex.args
    let r ← switchToSparse (setOptions r.2 { Ex.opts with qpSolver := 1 })
    let q ← runSolver Ex.env 20 r.2
    let o := (q.map Prod.snd).getD r.2
    let r ← switchToDense (setOptions o Ex.opts)
    let q ← runSolver Ex.env 20 r.2
    let o := (q.map Prod.snd).getD r.2
    let r ← switchToSparse (setOptions o { Ex.opts with qpSolver := 1 })
    let q ← runSolver Ex.envPen 20 r.2
    .ok (q.map fun r => r.1)) : M _) = .error .oob := by decide +kernel

/-- an object that was loaded with dense data, switched to sparse mode, and run -/
example : ∃ o, MixedUse Ex.env 3 ⟨2, 0, 1⟩ true true o := by
  obtain ⟨o', h⟩ := C39_usable Ex.env Ex.opts 2 0 1 (by decide) Ex.args Ex.args_fits (by simp [Ex.args])
    (fun _ => rfl) (by rintro ⟨v, ⟨⟩, _⟩) (by rintro ⟨v, ⟨⟩, _⟩)
  have h1 := MixedUse.new (e := Ex.env) (N := 3) (n := ⟨2, 0, 1⟩) Ex.opts 2 0 1 (by decide) rfl (Or.inl rfl)
  have h2 := MixedUse.dense Ex.args h1 Ex.args_fits (by simp [Ex.args]) h
  have hb := Ex.ansBnd [1, 0] [0, 0, 0, 199/100]
  have h3 := MixedUse.options { Ex.opts with qpSolver := 1 } h2 (Or.inr rfl)
  obtain ⟨_, _, h4⟩ := C36_mixed Ex.env 3 hb _ _ _ _ h3
  obtain ⟨⟨o1, h5, h6⟩, _⟩ := h4 rfl
  have h7 := MixedUse.toSparse h3 h5
  have hr : ((do
      let r ← loadDense Ex.env (Obj.new Ex.opts 2 0 1) Ex.args
      let r ← switchToSparse (setOptions r.2 { Ex.opts with qpSolver := 1 })
      let q ← runSolver Ex.env 20 r.2
      .ok (q.isSome, r.2.d.sparse, r.2.d.opts.qpSolver, r.2.d.opts.maxIter)) : M _) = .ok (true, true, 1, 1000) := by
    decide +kernel
  rw [h, ok_bind, h5, ok_bind] at hr
  cases hq : runSolver Ex.env 20 o1 with
  | error x => simp [hq, Bind.bind, Except.bind] at hr
  | ok q =>
    rw [hq, ok_bind] at hr
    injection hr with hr
    simp only [Prod.mk.injEq] at hr
    obtain ⟨hr, hs, hk, hm⟩ := hr
    obtain ⟨r, rfl⟩ := Option.isSome_iff_exists.mp hr
    have h8 := MixedUse.run 20 r h7 ⟨by rw [hm]; decide, by rw [hm]; decide, by rw [hm]; decide⟩ (by simp) hq
    rw [show (false || (o1.d.sparse && decide (o1.d.opts.qpSolver = 1))) = true by rw [hs, hk]; rfl] at h8
    exact ⟨_, h8⟩

end LCQ
