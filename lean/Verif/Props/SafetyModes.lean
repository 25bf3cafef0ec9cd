import Verif.Lemmas.ModeSwitch

/-!
# C36, loads and mode switches in any order before a run
-/

namespace LCQ
open Scalar

section anyArith
variable {α : Type} [Scalar α]

/-- an object before its first run: constructed with valid dimensions, options set, arguments of the documented sizes loaded
successfully, modes switched, in any order; the flag tells whether something was loaded -/
inductive Prepared (e : Env α) (n : Dims) : Bool → Obj α → Prop
  | new (opts : Options α) (nV nC nComp : Int) (h : 1 ≤ nV ∧ 1 ≤ nComp ∧ 0 ≤ nC)
      (hn : n = ⟨nV.toNat, nC.toNat, nComp.toNat⟩) : Prepared e n false (Obj.new opts nV nC nComp)
  | options {o : Obj α} {l : Bool} (opts : Options α) (h : Prepared e n l o) : Prepared e n l (setOptions o opts)
  | dense {o o' : Obj α} {l : Bool} (a : DenseArgs α) (h : Prepared e n l o) (hf : a.Fits n)
      (hp : a.lbL = none ↔ a.lbR = none) (hl : loadDense e o a = .ok (.successfulReturn, o')) : Prepared e n true o'
  | sparse {o o' : Obj α} {l : Bool} (a : SparseArgs α) (h : Prepared e n l o) (hf : a.Fits n)
      (hp : a.lbL = none ↔ a.lbR = none) (hl : loadSparse e o a = .ok (.successfulReturn, o')) : Prepared e n true o'
  | toSparse {o : Obj α} {r : RV × Obj α} (h : Prepared e n true o) (hs : switchToSparse o = .ok r) : Prepared e n true r.2
  | toDense {o : Obj α} {r : RV × Obj α} (h : Prepared e n true o) (hs : switchToDense o = .ok r) : Prepared e n true r.2

theorem Prepared.untouched {e : Env α} {n : Dims} {l : Bool} {o : Obj α} (h : Prepared e n l o) :
    Untouched o n ∧ (l = true → Ready o n) := by
  induction h with
  | new opts nV nC nComp h hn =>
    subst hn
    exact ⟨Untouched.new opts h, by simp⟩
  | options opts _ ih => exact ⟨ih.1.options opts, fun hl => { ih.2 hl with work := fun _ => ih.1.null }⟩
  | dense a _ hf hp hl ih =>
    have := ih.1.loadDense hf hp hl
    exact ⟨this.1, fun _ => this.2⟩
  | sparse a _ hf hp hl ih =>
    have := ih.1.loadSparse hf hp hl
    exact ⟨this.1, fun _ => this.2⟩
  | toSparse _ hs ih =>
    obtain ⟨o', h1, h2, h3, _⟩ := ih.1.toSparse (ih.2 rfl)
    rw [hs] at h1
    injection h1 with h1
    subst h1
    exact ⟨h2, fun _ => h3⟩
  | toDense _ hs ih =>
    obtain ⟨o', h1, h2, h3, _⟩ := ih.1.toDense (ih.2 rfl)
    rw [hs] at h1
    injection h1 with h1
    subst h1
    exact ⟨h2, fun _ => h3⟩

/-- C36 (any arithmetic, any QP behaviour): loads, option settings and mode switches in any order, then a run.  Every load
returns a code; once something was loaded, switching to either mode succeeds and ends in that mode; the run returns (or is
still running after `fuel` passes), and either the initialisation was refused with one of three codes, or the solutions can be
copied out afterwards.  For OSQP the set-up and warm start calls have to succeed. -/
theorem C36_modes (e : Env α) (N : Int) (he : AnsBnd e N) (n : Dims) (l : Bool) (o : Obj α) (h : Prepared e n l o) :
    (∀ a : DenseArgs α, a.Fits n → ∃ r, loadDense e o a = .ok r) ∧
    (∀ a : SparseArgs α, a.Fits n → ∃ r, loadSparse e o a = .ok r) ∧
    (l = true → (∃ o', switchToSparse o = .ok (.successfulReturn, o') ∧ o'.d.sparse = true) ∧
      (∃ o', switchToDense o = .ok (.successfulReturn, o') ∧ o'.d.sparse = false) ∧
      (Small o.d.opts N →
        (o.d.opts.qpSolver = 2 → ∀ r, (e.qp 0 r).setup = true ∧ (e.qp 0 r).warmX = true ∧ (e.qp 0 r).warmY = true) →
        ∀ fuel, ∃ q, runSolver e fuel o = .ok q ∧ ∀ r, q = some r →
          r.1 = .denseSparseMissmatch ∨ r.1 = .invalidOsqpBoxConstraints ∨ r.1 = .notYetImplemented ∨
          ∃ t k, r.2.d.nDuals = some k ∧
            (∀ b : List α, n.nV ≤ b.length → ∃ b', getPrimalSolution r.2 (some b) = .ok (t, some b')) ∧
            (∀ b : List α, k ≤ b.length → ∃ b', getDualSolution r.2 (some b) = .ok (t, some b')))) := by
  obtain ⟨hf, hr⟩ := h.untouched
  refine ⟨?_, ?_, fun hl => ⟨?_, ?_, ?_⟩⟩
  · intro a ha
    obtain ⟨r, o', h1, _⟩ := C15_codes e o n a hf.dims hf.nV hf.nComp ha
    exact ⟨_, h1⟩
  · intro a ha
    obtain ⟨r, o', _, _, _, _, _, _, _, _, _, _, h1, _⟩ := C16_codes e o n a hf.dims hf.nV hf.nComp ha
    exact ⟨_, h1⟩
  · obtain ⟨o', h1, _, _, h2, _⟩ := hf.toSparse (hr hl)
    exact ⟨o', h1, h2⟩
  · obtain ⟨o', h1, _, _, h2, _⟩ := hf.toDense (hr hl)
    exact ⟨o', h1, h2⟩
  · intro hs hq fuel
    refine (hr hl).outcome he hs ?_ fuel
    intro h2 _
    rw [hf.calls]
    exact hq h2

end anyArith

/-- dense data, sparse mode, back, dense run -/
example : ((do
    let r ← loadDense Ex.env Ex.obj0 Ex.args
    let r ← switchToSparse r.2
    let r ← switchToDense r.2
    runSolver Ex.env 20 r.2) : M (Option (RV × Obj (Ext ℚ)))).map (fun q => q.map fun r => (r.1, r.2.s.xk)) =
    .ok (some (.successfulReturn, some [.fin 1, .fin 0])) := by decide +kernel

end LCQ
