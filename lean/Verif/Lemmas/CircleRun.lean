import Verif.Lemmas.Circle
import Verif.Spec.CircleProb
import Verif.Props.SafetyModes

/-!
# OptimizeOnCircle: loading, switching, running
-/

namespace LCQ.Circle
open Scalar

variable {α : Type} [Scalar α]

theorem Arrays.Are.fits {N : Nat} {dir : Nat → α × α} {a : Arrays α} (h : a.Are N dir) : a.args.Fits (dims N) := by
  refine ⟨⟨_, rfl, h.Q.1.ge⟩, ⟨_, rfl, h.L.1.ge⟩, ⟨_, rfl, h.R.1.ge⟩, ?_, ?_, ?_, ?_, ?_, ?_, ?_, ?_, ?_, ?_, ?_, ?_⟩
  · rintro v ⟨⟩; exact h.g.1.ge
  · rintro v ⟨⟩; exact h.A.1.ge
  · rintro v ⟨⟩; exact h.lbA.1.ge
  · rintro v ⟨⟩; exact h.ubA.1.ge
  · rintro v ⟨⟩
  · rintro v ⟨⟩
  · rintro v ⟨⟩
  · rintro v ⟨⟩
  · rintro v ⟨⟩
  · rintro v ⟨⟩
  · rintro v ⟨⟩; exact h.x0.1.ge
  · rintro v ⟨⟩

theorem options_eq (qd sd : Nat) : (options qd sd : Options α).qpSolver = 2 ∧ (options qd sd : Options α).maxIter = 1000 ∧
    (options qd sd : Options α).complTol = lit 1000 0 *. eps ∧ (options qd sd : Options α).rho0 = lit 1 2 ∧
    (options qd sd : Options α).factor = two ∧
    (options qd sd : Options α).statTol = if (lit 10 3 : α) <=. eps then lit 1000000 0 *. eps else lit 10 3 := by
  unfold options Options.setStatTol
  dsimp only [Options.setPrintLevelEnum, Options.setQPSolverEnum]
  split <;> exact ⟨rfl, rfl, rfl, rfl, rfl, rfl⟩

/-- the part of `main` after the run -/
def tail (e : Env α) (N : Nat) : Option (RV × Obj α) → M (Option (Out α))
  | none => .ok none
  | some r =>
    if r.1 ≠ .successfulReturn then .ok (some ⟨1, none⟩)
    else do
      let x ← getPrimalSolution r.2 (some (e.alloc 0 (2 + 2 * N)))
      let y ← getDualSolution r.2 (some (e.alloc 1 (2 + 2 * N + (N + 1) + 2 * N)))
      let xs ← deref x.2
      let _ ← rd xs 0
      let _ ← rd xs 1
      .ok (some ⟨0, some (x.2, y.2, getOutputStatistics r.2 Stats.fresh)⟩)

/-- loading and switching succeed -/
theorem main_start (e : Env α) {N : Nat} (hN : 1 ≤ N) (dir : Nat → α × α) (qd sd fuel : Nat) :
    ∃ a o1 o2, build N dir = .ok a ∧ a.Are N dir ∧
      loadDense e (setOptions (Obj.new (Options.default qd sd) (2 + 2 * N : Nat) (N + 1 : Nat) (N : Nat)) (options qd sd)) a.args =
        .ok (.successfulReturn, o1) ∧
      switchToSparse o1 = .ok (.successfulReturn, o2) ∧ o2.d.sparse = true ∧ o2.d.opts = options qd sd ∧
      Prepared e (dims N) true o2 ∧ main e N dir qd sd fuel = runSolver e fuel o2 >>= tail e N := by
  obtain ⟨a, ha, hA⟩ := build_ok N dir
  have hp : Prepared e (dims N) false
      (setOptions (Obj.new (Options.default qd sd) (2 + 2 * N : Nat) (N + 1 : Nat) (N : Nat)) (options qd sd)) := by
    refine .options _ (.new _ _ _ _ ⟨by omega, by omega, by omega⟩ ?_)
    simp only [Int.toNat_natCast, dims]
  have hf := hA.fits
  obtain ⟨hu, _⟩ := hp.untouched
  obtain ⟨r, o1, h1, hr⟩ := C15_codes e _ (dims N) a.args hu.dims hu.nV hu.nComp hf
  have hr : r = .successfulReturn := by
    rw [hr, if_neg (by simp [Arrays.args]), if_neg (by simp [Arrays.args]), if_neg]
    rintro (⟨v, h, _⟩ | ⟨v, h, _⟩) <;> cases h
  subst hr
  have hp1 : Prepared e (dims N) true o1 := .dense a.args hp hf (by simp [Arrays.args]) h1
  have hopt : o1.d.opts = options qd sd := (hu.toBuilt.load hf (by simp [Arrays.args]) h1).2.1
  obtain ⟨hu1, hr1⟩ := hp1.untouched
  obtain ⟨o2, h2, _, _, hs, ho⟩ := hu1.toSparse (hr1 rfl)
  refine ⟨a, o1, o2, ha, hA, h1, h2, hs, ho.trans hopt, hp1.toSparse h2, ?_⟩
  have hq : (options qd sd : Options α).qpSolver ≥ 1 := by rw [(options_eq qd sd).1]; decide
  simp only [main, ha, ok_bind, h1, h2, if_pos hq, ne_eq, not_true, if_false]
  congr 1

end LCQ.Circle
