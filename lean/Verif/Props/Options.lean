import Verif.Model.OptionsHeap
import Verif.Lemmas.Exact
import Mathlib.Data.Rat.Floor

/-!
# C11, C12, C13, C42: options and messages
-/

set_option linter.unusedSectionVars false

namespace LCQ
open Scalar Ext

/-- all return values -/
def RV.all : List RV :=
  [.notYetImplemented, .successfulReturn, .invalidArgument, .invalidPenaltyUpdateValue,
   .invalidComplementarityTolerance, .invalidInitialPenaltyValue, .invalidMaxIterationsValue,
   .invalidStationarityTolerance, .invalidNumberOfOptimVars, .invalidNumberOfCompVars,
   .invalidNumberOfConstraintVars, .invalidQpsolver, .invalidOsqpBoxConstraints,
   .invalidTotalIterCount, .invalidTotalOuterIter, .ivalidSubproblemIter, .invalidRhoOpt,
   .invalidPrintLevelValue, .invalidObjectiveLinearTerm, .invalidConstraintMatrix,
   .invalidComplementarityMatrix, .invalidEtaValue, .invalidLowerComplementarityBound,
   .invalidMaxRhoValue, .maxIterationsReached, .maxPenaltyReached, .initialSubproblemFailed,
   .subproblemSolverError, .failedSymComplementarityMatrix, .failedSwitchToSparse,
   .failedSwitchToDense, .osqpWorkspaceNotSetUp, .osqpInitialPrimalGuessFailed,
   .osqpInitialDualGuessFailed, .lcqpobjectNotSetup, .indexOutOfBounds, .unableToReadFile,
   .invalidIndexPointer, .invalidIndexArray, .denseSparseMissmatch]

theorem RV.mem_all (r : RV) : r ∈ RV.all := by cases r <;> decide

/-! ## C42 -/

/-- C42: `PrintMessage` returns the value it was given. -/
theorem C42_printMessage (r : RV) (t : MsgType) : (printMessage r t).1 = r := rfl

/-- C42: `PrintSolution` returns the status it was given. -/
theorem C42_printSolution (s : AlgStat) : (printSolution s).1 = s := rfl

/-- C42: every value but success has its own non-empty message; success prints only the prefix. -/
theorem C42_messages_distinct (r r' : RV) (t : MsgType) :
    ((printMessage r t).2 = (printMessage r' t).2 ↔ r = r') ∧
    ((printMessage r .message).2 = "" ↔ r = .successfulReturn) := by
  constructor
  · constructor
    · intro h
      have h2 : msgText r = msgText r' := by
        have := congrArg String.toList h
        simp only [printMessage, String.toList_append, List.append_cancel_left_eq] at this
        exact String.toList_inj.mp this
      have key : ∀ a ∈ RV.all, ∀ b ∈ RV.all, msgText a = msgText b → a = b := by decide +kernel
      exact key r r.mem_all r' r'.mem_all h2
    · rintro rfl; rfl
  · have key : ∀ a ∈ RV.all, (printMessage a .message).2 = "" ↔ a = .successfulReturn := by
      decide +kernel
    exact key r r.mem_all

/-- The numeric codes of the return values are pairwise different. -/
theorem C42_codes_distinct (r r' : RV) (h : r.code = r'.code) : r = r' := by
  have key : ∀ a ∈ RV.all, ∀ b ∈ RV.all, a.code = b.code → a = b := by decide +kernel
  exact key r r.mem_all r' r'.mem_all h

/-! ## C12 -/
section c12
variable {α : Type} [Scalar α]

/-- C12 (any arithmetic): each setter either stores the argument in its own field and reports
success, or leaves the object unchanged and reports its error code; which of the two happens is
decided by the documented range test. -/
theorem C12_setters (o : Options α) :
    (∀ v, (v <=. eps) = false ∧ o.setStatTol v = (.successfulReturn, { o with statTol := v }) ∨
      (v <=. eps) = true ∧ o.setStatTol v = (.invalidStationarityTolerance, o)) ∧
    (∀ v, (v <=. eps) = false ∧ o.setComplTol v = (.successfulReturn, { o with complTol := v }) ∨
      (v <=. eps) = true ∧ o.setComplTol v = (.invalidComplementarityTolerance, o)) ∧
    (∀ v, (v <=. zeroTol) = false ∧ o.setRho0 v = (.successfulReturn, { o with rho0 := v }) ∨
      (v <=. zeroTol) = true ∧ o.setRho0 v = (.invalidInitialPenaltyValue, o)) ∧
    (∀ v, (v <=. one) = false ∧ o.setFactor v = (.successfulReturn, { o with factor := v }) ∨
      (v <=. one) = true ∧ o.setFactor v = (.invalidPenaltyUpdateValue, o)) ∧
    (∀ v, o.setZeroFirst v = (.successfulReturn, { o with zeroFirst := v })) ∧
    (∀ v, o.setPerturb v = (.successfulReturn, { o with perturb := v })) ∧
    (∀ v : Int, 0 < v ∧ o.setMaxIter v = (.successfulReturn, { o with maxIter := v }) ∨
      v ≤ 0 ∧ o.setMaxIter v = (.invalidMaxIterationsValue, o)) ∧
    (∀ v, (v <=. zero) = false ∧ o.setMaxRho v = (.successfulReturn, { o with maxRho := v }) ∨
      (v <=. zero) = true ∧ o.setMaxRho v = (.invalidMaxRhoValue, o)) ∧
    (∀ v, o.setNDyn v = (.successfulReturn, { o with nDyn := v })) ∧
    (∀ v, ((v <=. eps) = false ∧ (one <=. v) = false) ∧
        o.setEta v = (.successfulReturn, { o with eta := v }) ∨
      ((v <=. eps) = true ∨ (one <=. v) = true) ∧ o.setEta v = (.invalidEtaValue, o)) ∧
    (∀ v : Int, (0 ≤ v ∧ v ≤ 2) ∧
        o.setPrintLevel v = (.successfulReturn, { o with printLevel := v }) ∨
      ¬ (0 ≤ v ∧ v ≤ 2) ∧ o.setPrintLevel v = (.invalidPrintLevelValue, o)) ∧
    (∀ v, o.setPrintLevelEnum v = (.successfulReturn, { o with printLevel := v })) ∧
    (∀ v, o.setStoreSteps v = (.successfulReturn, { o with storeSteps := v })) ∧
    (∀ v : Int, (0 ≤ v ∧ v ≤ 2) ∧
        o.setQPSolver v = (.successfulReturn, { o with qpSolver := v }) ∨
      ¬ (0 ≤ v ∧ v ≤ 2) ∧ o.setQPSolver v = (.invalidQpsolver, o)) ∧
    (∀ v, o.setQPSolverEnum v = (.successfulReturn, { o with qpSolver := v })) ∧
    (∀ v, o.setQpoases v = (.successfulReturn, { o with qpoases := v })) := by
  refine ⟨?_, ?_, ?_, ?_, fun _ => rfl, fun _ => rfl, ?_, ?_, fun _ => rfl, ?_, ?_, fun _ => rfl,
    fun _ => rfl, ?_, fun _ => rfl, fun _ => rfl⟩
  · intro v; cases h : (v <=. (eps : α)) <;> simp [Options.setStatTol, h, printMessage]
  · intro v; cases h : (v <=. (eps : α)) <;> simp [Options.setComplTol, h, printMessage]
  · intro v; cases h : (v <=. (zeroTol : α)) <;> simp [Options.setRho0, h, printMessage]
  · intro v; cases h : (v <=. (one : α)) <;> simp [Options.setFactor, h, printMessage]
  · intro v; by_cases h : v ≤ 0
    · right; simp [Options.setMaxIter, h, printMessage]
    · left; simp [Options.setMaxIter, h]; omega
  · intro v; cases h : (v <=. (zero : α)) <;> simp [Options.setMaxRho, h, printMessage]
  · intro v
    cases h : (v <=. (eps : α)) <;> cases h' : ((one : α) <=. v) <;>
      simp [Options.setEta, h, h', printMessage]
  · intro v; by_cases h : 0 ≤ v ∧ v ≤ 2
    · left; refine ⟨h, ?_⟩; rw [Options.setPrintLevel, if_neg (by omega)]
    · right; refine ⟨h, ?_⟩; rw [Options.setPrintLevel, if_pos (by omega)]; rfl
  · intro v; by_cases h : 0 ≤ v ∧ v ≤ 2
    · left; refine ⟨h, ?_⟩; rw [Options.setQPSolver, if_neg (by omega)]
    · right; refine ⟨h, ?_⟩; rw [Options.setQPSolver, if_pos (by omega)]; rfl

end c12

section exact
variable {K : Type} [Field K] [LinearOrder K]

/-- C12: every `double` setter accepts NaN. -/
theorem C12_nan (o : Options (Ext K)) :
    (o.setStatTol .nan).1 = .successfulReturn ∧ (o.setComplTol .nan).1 = .successfulReturn ∧
    (o.setRho0 .nan).1 = .successfulReturn ∧ (o.setFactor .nan).1 = .successfulReturn ∧
    (o.setMaxRho .nan).1 = .successfulReturn ∧ (o.setEta .nan).1 = .successfulReturn ∧
    (o.setStatTol .nan).2.statTol = .nan ∧ (o.setComplTol .nan).2.complTol = .nan ∧
    (o.setRho0 .nan).2.rho0 = .nan ∧ (o.setFactor .nan).2.factor = .nan ∧
    (o.setMaxRho .nan).2.maxRho = .nan ∧ (o.setEta .nan).2.eta = .nan :=
  ⟨rfl, rfl, rfl, rfl, rfl, rfl, rfl, rfl, rfl, rfl, rfl, rfl⟩

/-! ## C11 -/

/-- The documented ranges. -/
structure Options.Good (o : Options (Ext K)) : Prop where
  statTol : (fin (2221 / 10 ^ 19) <. o.statTol) = true
  complTol : (fin (2221 / 10 ^ 19) <. o.complTol) = true
  rho0 : (fin (1 / 10 ^ 25) <. o.rho0) = true
  factor : (fin 1 <. o.factor) = true
  maxIter : 1 ≤ o.maxIter
  maxRho : (fin 0 <. o.maxRho) = true
  eta : (fin (2221 / 10 ^ 19) <. o.eta) = true ∧ (o.eta <. fin 1) = true
  printLevel : 0 ≤ o.printLevel ∧ o.printLevel ≤ 2
  qpSolver : 0 ≤ o.qpSolver ∧ o.qpSolver ≤ 2

/-- setter call with a non-NaN argument and without the unchecked enum overloads -/
def Options.Call.Plain : Options.Call (Ext K) → Prop
  | .statTol v | .complTol v | .rho0 v | .factor v | .maxRho v | .eta v => v ≠ .nan
  | .printLevelEnum v | .qpSolverEnum v => 0 ≤ v ∧ v ≤ 2
  | _ => True

theorem lt_of_not_le (a b : Ext K) (hb : b ≠ .nan) (c : K) (hc : a = fin c)
    (h : (b <=. a) = false) : (a <. b) = true := by
  subst hc
  cases b with
  | nan => exact absurd rfl hb
  | fin d =>
    simp only [fin_le, decide_eq_false_iff_not, not_le] at h
    simpa using h
  | pinf => rfl
  | ninf => exact absurd h (by simp [Scalar.le, Ext.le])

theorem gt_of_not_ge (a b : Ext K) (hb : b ≠ .nan) (c : K) (hc : a = fin c)
    (h : (a <=. b) = false) : (b <. a) = true := by
  subst hc
  cases b with
  | nan => exact absurd rfl hb
  | fin d =>
    simp only [fin_le, decide_eq_false_iff_not, not_le] at h
    simpa using h
  | pinf => exact absurd h (by simp [Scalar.le, Ext.le])
  | ninf => rfl

theorem eps_fin : (eps : Ext K) = fin (2221 / 10 ^ 19) := by
  rw [eps, lit_fin]; norm_num

theorem zeroTol_fin : (zeroTol : Ext K) = fin (1 / 10 ^ 25) := by
  rw [zeroTol, lit_fin]; norm_num

/-- one setter call keeps the ranges -/
theorem Options.Good.call {o : Options (Ext K)} (h : o.Good) (c : Options.Call (Ext K))
    (hc : c.Plain) : (o.call c).2.Good := by
  obtain ⟨s1, s2, s3, s4, _, _, s5, s6, _, s7, s8, _, _, s9, _, _⟩ := C12_setters o
  cases c with
  | statTol v =>
    rcases s1 v with ⟨h1, h2⟩ | ⟨h1, h2⟩ <;> simp only [Options.call, h2]
    · exact { h with statTol := by rw [← eps_fin]; exact lt_of_not_le _ v hc _ eps_fin h1 }
    · exact h
  | complTol v =>
    rcases s2 v with ⟨h1, h2⟩ | ⟨h1, h2⟩ <;> simp only [Options.call, h2]
    · exact { h with complTol := by rw [← eps_fin]; exact lt_of_not_le _ v hc _ eps_fin h1 }
    · exact h
  | rho0 v =>
    rcases s3 v with ⟨h1, h2⟩ | ⟨h1, h2⟩ <;> simp only [Options.call, h2]
    · exact { h with rho0 := by rw [← zeroTol_fin]; exact lt_of_not_le _ v hc _ zeroTol_fin h1 }
    · exact h
  | factor v =>
    rcases s4 v with ⟨h1, h2⟩ | ⟨h1, h2⟩ <;> simp only [Options.call, h2]
    · exact { h with factor := by rw [← one_fin]; exact lt_of_not_le _ v hc _ one_fin h1 }
    · exact h
  | zeroFirst v => exact { h with }
  | perturb v => exact { h with }
  | maxIter v =>
    rcases s5 v with ⟨h1, h2⟩ | ⟨h1, h2⟩ <;> simp only [Options.call, h2]
    · exact { h with maxIter := h1 }
    · exact h
  | maxRho v =>
    rcases s6 v with ⟨h1, h2⟩ | ⟨h1, h2⟩ <;> simp only [Options.call, h2]
    · exact { h with maxRho := by rw [← zero_fin]; exact lt_of_not_le _ v hc _ zero_fin h1 }
    · exact h
  | nDyn v => exact { h with }
  | eta v =>
    rcases s7 v with ⟨h1, h2⟩ | ⟨h1, h2⟩ <;> simp only [Options.call, h2]
    · exact { h with eta := ⟨by rw [← eps_fin]; exact lt_of_not_le _ v hc _ eps_fin h1.1,
        by rw [← one_fin]; exact gt_of_not_ge _ v hc _ one_fin h1.2⟩ }
    · exact h
  | printLevel v =>
    rcases s8 v with ⟨h1, h2⟩ | ⟨h1, h2⟩ <;> simp only [Options.call, h2]
    · exact { h with printLevel := h1 }
    · exact h
  | printLevelEnum v => exact { h with printLevel := hc }
  | storeSteps v => exact { h with }
  | qpSolver v =>
    rcases s9 v with ⟨h1, h2⟩ | ⟨h1, h2⟩ <;> simp only [Options.call, h2]
    · exact { h with qpSolver := h1 }
    · exact h
  | qpSolverEnum v => exact { h with qpSolver := hc }
  | qpoases v => exact { h with }

/-- the default options are in range -/
theorem default_good [IsStrictOrderedRing K] (qd sd : Nat) :
    (Options.default qd sd : Options (Ext K)).Good where
  statTol := by
    show decide ((2221 / 10 ^ 19 : K) < _ * _) = true
    rw [decide_eq_true_eq]; push_cast; norm_num
  complTol := by
    show decide ((2221 / 10 ^ 19 : K) < _ * _) = true
    rw [decide_eq_true_eq]; push_cast; norm_num
  rho0 := by
    show decide ((1 / 10 ^ 25 : K) < _) = true
    rw [decide_eq_true_eq]; push_cast; norm_num
  factor := by
    show decide ((1 : K) < _) = true
    rw [decide_eq_true_eq]; push_cast; norm_num
  maxIter := by simp [Options.default]
  maxRho := by
    show decide ((0 : K) < _) = true
    rw [decide_eq_true_eq]; push_cast; norm_num
  eta := ⟨by
    show decide ((2221 / 10 ^ 19 : K) < _) = true
    rw [decide_eq_true_eq]; push_cast; norm_num, by
    show decide (_ < (1 : K)) = true
    rw [decide_eq_true_eq]; push_cast; norm_num⟩
  printLevel := by simp [Options.default]
  qpSolver := by simp [Options.default]

/-- C11: after any sequence of setter calls with non-NaN arguments (and, for the enum overloads,
real enumerators) on default options, all values are in the documented ranges. -/
theorem C11_always_valid [IsStrictOrderedRing K] (qd sd : Nat) (cs : List (Options.Call (Ext K)))
    (h : ∀ c ∈ cs, c.Plain) : ((Options.default qd sd : Options (Ext K)).calls cs).Good := by
  have key : ∀ (cs : List (Options.Call (Ext K))) (o : Options (Ext K)), o.Good →
      (∀ c ∈ cs, c.Plain) → (o.calls cs).Good := by
    intro cs
    induction cs with
    | nil => intro o ho _; exact ho
    | cons c cs ih =>
      intro o ho hc
      exact ih _ (ho.call c (hc c (by simp))) (fun c' h' => hc c' (by simp [h']))
  exact key cs _ (default_good qd sd) h

/-- C11: with NaN arguments or unchecked enum values the ranges can be left. -/
theorem C11_nan_breaks (qd sd : Nat) :
    ¬ ((Options.default qd sd : Options (Ext K)).calls [.factor .nan]).Good ∧
    ¬ ((Options.default qd sd : Options (Ext K)).calls [.printLevelEnum 7]).Good := by
  constructor
  · intro h
    have h2 : (fin 1 <. (.nan : Ext K)) = true := h.factor
    exact absurd h2 (by simp [Scalar.lt, Ext.lt])
  · intro h
    have h2 : (7 : Int) ≤ 2 := h.printLevel.2
    omega

end exact

/-- C11 (any arithmetic, NaN included): no setter sequence makes a stored value satisfy the
rejected comparison. -/
structure Options.NotRejected {α : Type} [Scalar α] (o : Options α) : Prop where
  statTol : (o.statTol <=. eps) = false
  complTol : (o.complTol <=. eps) = false
  rho0 : (o.rho0 <=. zeroTol) = false
  factor : (o.factor <=. one) = false
  maxIter : 1 ≤ o.maxIter
  maxRho : (o.maxRho <=. zero) = false
  eta : (o.eta <=. eps) = false ∧ (one <=. o.eta) = false

theorem C11_any_arithmetic {α : Type} [Scalar α] (o : Options α) (h : o.NotRejected)
    (cs : List (Options.Call α)) : (o.calls cs).NotRejected := by
  induction cs generalizing o with
  | nil => exact h
  | cons c cs ih =>
    apply ih
    obtain ⟨s1, s2, s3, s4, _, _, s5, s6, _, s7, s8, _, _, s9, _, _⟩ := C12_setters o
    cases c with
    | statTol v =>
      rcases s1 v with ⟨h1, h2⟩ | ⟨h1, h2⟩ <;> simp only [Options.call, h2]
      · exact { h with statTol := h1 }
      · exact h
    | complTol v =>
      rcases s2 v with ⟨h1, h2⟩ | ⟨h1, h2⟩ <;> simp only [Options.call, h2]
      · exact { h with complTol := h1 }
      · exact h
    | rho0 v =>
      rcases s3 v with ⟨h1, h2⟩ | ⟨h1, h2⟩ <;> simp only [Options.call, h2]
      · exact { h with rho0 := h1 }
      · exact h
    | factor v =>
      rcases s4 v with ⟨h1, h2⟩ | ⟨h1, h2⟩ <;> simp only [Options.call, h2]
      · exact { h with factor := h1 }
      · exact h
    | zeroFirst v => exact { h with }
    | perturb v => exact { h with }
    | maxIter v =>
      rcases s5 v with ⟨h1, h2⟩ | ⟨h1, h2⟩ <;> simp only [Options.call, h2]
      · exact { h with maxIter := h1 }
      · exact h
    | maxRho v =>
      rcases s6 v with ⟨h1, h2⟩ | ⟨h1, h2⟩ <;> simp only [Options.call, h2]
      · exact { h with maxRho := h1 }
      · exact h
    | nDyn v => exact { h with }
    | eta v =>
      rcases s7 v with ⟨h1, h2⟩ | ⟨h1, h2⟩ <;> simp only [Options.call, h2]
      · exact { h with eta := h1 }
      · exact h
    | printLevel v =>
      rcases s8 v with ⟨h1, h2⟩ | ⟨h1, h2⟩ <;> simp only [Options.call, h2]
      · exact { h with }
      · exact h
    | printLevelEnum v => exact { h with }
    | storeSteps v => exact { h with }
    | qpSolver v =>
      rcases s9 v with ⟨h1, h2⟩ | ⟨h1, h2⟩ <;> simp only [Options.call, h2]
      · exact { h with }
      · exact h
    | qpSolverEnum v => exact { h with }
    | qpoases v => exact { h with }

/-! Non-vacuity -/
example : ((Options.default 0 0 : Options (Ext ℚ)).calls
    [.statTol (fin (1 / 1000)), .factor (fin 3), .maxIter 7, .maxIter (-1), .eta (fin 2)]).maxIter = 7 := by
  decide +kernel
example : (Options.default 0 0 : Options (Ext ℚ)).setFactor (fin 1) =
    (.invalidPenaltyUpdateValue, Options.default 0 0) := by decide +kernel
example : ((Options.default 0 0 : Options (Ext ℚ)).setFactor (fin (11 / 10))).1 =
    .successfulReturn := by decide +kernel

/-! ## C13 -/
namespace OptWorld
variable {α : Type} [Scalar α]

/-- Value semantics of a client program: objects are plain values. -/
def absStep (qd sd : Nat) (v : Nat → Option (Options α)) : Op α → Nat → Option (Options α)
  | .new x => match v x with
    | some _ => v
    | none => upd v x (some (Options.default qd sd))
  | .newCopy x y => match v x, v y with
    | none, some oy => upd v x (some oy)
    | _, _ => v
  | .assign x y => match v x, v y with
    | some _, some oy => upd v x (some oy)
    | _, _ => v
  | .reset x => match v x with
    | some _ => upd v x (some (Options.default qd sd))
    | none => v
  | .set x c => match v x with
    | some ox => upd v x (some (ox.call c).2)
    | none => v
  | .setOSQP x c => match v x with
    | some ox => upd v x (some { ox with osqp := c })
    | none => v
  | .setOSQPFrom x y => match v x, v y with
    | some ox, some oy => upd v x (some { ox with osqp := oy.osqp })
    | _, _ => v
  | .poke x c => match v x with
    | some ox => if ox.osqp = none then v else upd v x (some { ox with osqp := some c })
    | none => v
  | .destroy x => match v x with
    | some _ => upd v x none
    | none => v

/-- the value of an object: its members with the settings read from the heap -/
def view (w : OptWorld α) (x : Nat) : Option (Options α) :=
  (w.objs x).map fun o => { o with osqp := o.osqp.bind fun a => (w.heap[a]?).join }

/-- ownership invariant: every settings pointer is live and unshared, every live block is owned -/
structure Inv (w : OptWorld α) : Prop where
  live : ∀ x o a, w.objs x = some o → o.osqp = some a → ∃ c, w.heap[a]? = some (some c)
  uniq : ∀ x y ox oy a, w.objs x = some ox → w.objs y = some oy → ox.osqp = some a →
    oy.osqp = some a → x = y
  owned : ∀ a c, w.heap[a]? = some (some c) → ∃ x o, w.objs x = some o ∧ o.osqp = some a

@[simp] theorem upd_same {β : Type} (f : Nat → Option β) (x : Nat) (o : Option β) :
    upd f x o x = o := by simp [upd]
theorem upd_ne {β : Type} (f : Nat → Option β) {x y : Nat} (o : Option β) (h : y ≠ x) :
    upd f x o y = f y := by simp [upd, h]
@[simp] theorem upd_upd {β : Type} (f : Nat → Option β) (x : Nat) (o o' : Option β) :
    upd (upd f x o) x o' = upd f x o' := by
  funext y; by_cases h : y = x <;> simp [upd, h]
theorem upd_self {β : Type} (f : Nat → Option β) (x : Nat) (o : Option β) (h : f x = o) :
    upd f x o = f := by
  funext y; by_cases h' : y = x
  · subst h'; simp [h]
  · simp [upd, h']

theorem call_osqp (o : Options α) (c : Options.Call α) (p : Option Nat) :
    (({ o with osqp := p } : Options α).call c).2 = { (o.call c).2 with osqp := p } ∧
      (o.call c).2.osqp = o.osqp := by
  cases c <;> simp only [Options.call, Options.setStatTol, Options.setComplTol, Options.setRho0,
    Options.setFactor, Options.setZeroFirst, Options.setPerturb, Options.setMaxIter,
    Options.setMaxRho, Options.setNDyn, Options.setEta, Options.setPrintLevel,
    Options.setPrintLevelEnum, Options.setStoreSteps, Options.setQPSolver, Options.setQPSolverEnum,
    Options.setQpoases] <;> (try split) <;> simp

/-- freeing the block of `x` and forgetting `x` -/
theorem inv_free {w : OptWorld α} (h : w.Inv) {x : Nat} {ox : Options α} (hx : w.objs x = some ox) :
    ∃ h1, freeIf w.heap ox.osqp = .ok h1 ∧
      Inv { heap := h1, objs := upd w.objs x none } ∧
      view { heap := h1, objs := upd w.objs x none } = upd w.view x none := by
  cases hp : ox.osqp with
  | none =>
    refine ⟨w.heap, rfl, ⟨?_, ?_, ?_⟩, ?_⟩
    · intro y o a hy
      by_cases hyx : y = x
      · subst hyx; simp at hy
      · simp only [upd_ne _ _ hyx] at hy; exact h.live y o a hy
    · intro y z oy oz a hy hz
      by_cases hyx : y = x
      · subst hyx; simp at hy
      · by_cases hzx : z = x
        · subst hzx; simp at hz
        · simp only [upd_ne _ _ hyx] at hy; simp only [upd_ne _ _ hzx] at hz
          exact h.uniq y z oy oz a hy hz
    · intro a c hac
      obtain ⟨y, o, hy, ho⟩ := h.owned a c hac
      have hyx : y ≠ x := by rintro rfl; rw [hx] at hy; injection hy with hy; rw [← hy, hp] at ho; simp at ho
      exact ⟨y, o, by simpa only [upd_ne _ _ hyx] using hy, ho⟩
    · funext y
      by_cases hyx : y = x
      · subst hyx; simp [view]
      · simp [view, upd_ne _ _ hyx]
  | some a =>
    obtain ⟨c, hc⟩ := h.live x ox a hx hp
    have hal : a < w.heap.length := (List.getElem?_eq_some_iff.mp hc).1
    refine ⟨w.heap.set a none, by simp [freeIf, free, hc], ⟨?_, ?_, ?_⟩, ?_⟩
    · intro y o b hy hb
      by_cases hyx : y = x
      · subst hyx; simp at hy
      · simp only [upd_ne _ _ hyx] at hy
        have hab : a ≠ b := by
          rintro rfl
          exact hyx (h.uniq y x o ox a hy hx hb hp)
        obtain ⟨d, hd⟩ := h.live y o b hy hb
        exact ⟨d, by rw [List.getElem?_set_ne hab]; exact hd⟩
    · intro y z oy oz b hy hz
      by_cases hyx : y = x
      · subst hyx; simp at hy
      · by_cases hzx : z = x
        · subst hzx; simp at hz
        · simp only [upd_ne _ _ hyx] at hy; simp only [upd_ne _ _ hzx] at hz
          exact h.uniq y z oy oz b hy hz
    · intro b d hb
      have hab : a ≠ b := by
        rintro rfl
        simp [List.getElem?_set_self hal] at hb
      simp only [List.getElem?_set_ne hab] at hb
      obtain ⟨y, o, hy, ho⟩ := h.owned b d hb
      have hyx : y ≠ x := by
        rintro rfl; rw [hx] at hy; injection hy with hy
        rw [← hy, hp] at ho; injection ho with ho; exact hab ho
      exact ⟨y, o, by simpa only [upd_ne _ _ hyx] using hy, ho⟩
    · funext y
      by_cases hyx : y = x
      · subst hyx; simp [view]
      · simp only [view, upd_ne _ _ hyx]
        cases hy : w.objs y with
        | none => rfl
        | some oy =>
          simp only [Option.map_some]
          congr 2
          cases hb : oy.osqp with
          | none => rfl
          | some b =>
            have hab : a ≠ b := by
              rintro rfl
              exact hyx (h.uniq y x oy ox a hy hx hb hp)
            simp [List.getElem?_set_ne hab]

/-- giving `x` a new block -/
theorem inv_alloc {w : OptWorld α} (h : w.Inv) {x : Nat} (hx : w.objs x = none) (o : Options α)
    (c : Nat) :
    Inv { heap := w.heap ++ [some c], objs := upd w.objs x (some { o with osqp := some w.heap.length }) } ∧
    view { heap := w.heap ++ [some c],
           objs := upd w.objs x (some { o with osqp := some w.heap.length }) } =
      upd w.view x (some { o with osqp := some c }) := by
  have hold : ∀ y oy a, w.objs y = some oy → oy.osqp = some a → a < w.heap.length := by
    intro y oy a hy ha
    obtain ⟨d, hd⟩ := h.live y oy a hy ha
    exact (List.getElem?_eq_some_iff.mp hd).1
  refine ⟨⟨?_, ?_, ?_⟩, ?_⟩
  · intro y oy a hy ha
    by_cases hyx : y = x
    · subst hyx
      simp only [upd_same, Option.some.injEq] at hy
      subst hy
      simp only [Option.some.injEq] at ha
      subst ha
      exact ⟨c, by simp⟩
    · simp only [upd_ne _ _ hyx] at hy
      obtain ⟨d, hd⟩ := h.live y oy a hy ha
      exact ⟨d, by simp only [List.getElem?_append_left (hold y oy a hy ha)]; exact hd⟩
  · intro y z oy oz a hy hz hya hza
    by_cases hyx : y = x <;> by_cases hzx : z = x
    · rw [hyx, hzx]
    · subst hyx
      simp only [upd_same, Option.some.injEq] at hy
      simp only [upd_ne _ _ hzx] at hz
      have := hold z oz a hz hza
      subst hy
      simp only [Option.some.injEq] at hya
      omega
    · subst hzx
      simp only [upd_same, Option.some.injEq] at hz
      simp only [upd_ne _ _ hyx] at hy
      have := hold y oy a hy hya
      subst hz
      simp only [Option.some.injEq] at hza
      omega
    · simp only [upd_ne _ _ hyx] at hy
      simp only [upd_ne _ _ hzx] at hz
      exact h.uniq y z oy oz a hy hz hya hza
  · intro a d ha
    by_cases hal : a < w.heap.length
    · simp only [List.getElem?_append_left hal] at ha
      obtain ⟨y, oy, hy, hya⟩ := h.owned a d ha
      have hyx : y ≠ x := by rintro rfl; rw [hx] at hy; simp at hy
      exact ⟨y, oy, by simpa only [upd_ne _ _ hyx] using hy, hya⟩
    · have hae : a = w.heap.length := by
        have := (List.getElem?_eq_some_iff.mp ha).1
        simp at this
        omega
      exact ⟨x, { o with osqp := some w.heap.length }, by simp only [upd_same], by rw [hae]⟩
  · funext y
    by_cases hyx : y = x
    · subst hyx
      simp [view]
    · simp only [view, upd_ne _ _ hyx]
      cases hy : w.objs y with
      | none => rfl
      | some oy =>
        simp only [Option.map_some]
        congr 2
        cases hb : oy.osqp with
        | none => rfl
        | some b =>
          simp [List.getElem?_append_left (hold y oy b hy hb)]

/-- giving `x` the null pointer -/
theorem inv_null {w : OptWorld α} (h : w.Inv) {x : Nat} (hx : w.objs x = none) (o : Options α) :
    Inv { heap := w.heap, objs := upd w.objs x (some { o with osqp := none }) } ∧
    view { heap := w.heap, objs := upd w.objs x (some { o with osqp := none }) } =
      upd w.view x (some { o with osqp := none }) := by
  refine ⟨⟨?_, ?_, ?_⟩, ?_⟩
  · intro y oy a hy ha
    by_cases hyx : y = x
    · subst hyx
      simp only [upd_same, Option.some.injEq] at hy
      subst hy
      simp at ha
    · simp only [upd_ne _ _ hyx] at hy
      exact h.live y oy a hy ha
  · intro y z oy oz a hy hz hya hza
    by_cases hyx : y = x
    · subst hyx
      simp only [upd_same, Option.some.injEq] at hy
      subst hy
      simp at hya
    · by_cases hzx : z = x
      · subst hzx
        simp only [upd_same, Option.some.injEq] at hz
        subst hz
        simp at hza
      · simp only [upd_ne _ _ hyx] at hy
        simp only [upd_ne _ _ hzx] at hz
        exact h.uniq y z oy oz a hy hz hya hza
  · intro a d ha
    obtain ⟨y, oy, hy, hya⟩ := h.owned a d ha
    have hyx : y ≠ x := by rintro rfl; rw [hx] at hy; simp at hy
    exact ⟨y, oy, by simpa only [upd_ne _ _ hyx] using hy, hya⟩
  · funext y
    by_cases hyx : y = x
    · subst hyx
      simp [view]
    · simp [view, upd_ne _ _ hyx]

/-- replacing the settings of `x` (freed first) by a block read with `r`, or by null -/
theorem inv_setOSQP {w : OptWorld α} (h : w.Inv) {x : Nat} {ox : Options α}
    (hx : w.objs x = some ox) (o : Options α) (ho : o.osqp = ox.osqp)
    (src : Option (List (Option Nat) → M Nat)) (val : Option Nat)
    (hsrc : ∀ h1, Inv { heap := h1, objs := upd w.objs x none } →
      view { heap := h1, objs := upd w.objs x none } = upd w.view x none →
      match src, val with
      | none, none => True
      | some r, some c => r h1 = .ok c
      | _, _ => False) :
    ∃ h' o', setOSQP w.heap o src = .ok (h', o') ∧
      Inv { heap := h', objs := upd w.objs x (some o') } ∧
      view { heap := h', objs := upd w.objs x (some o') } =
        upd w.view x (some { o with osqp := val }) := by
  obtain ⟨h1, hf, hi, hv⟩ := inv_free h hx
  have hs := hsrc h1 hi hv
  unfold setOSQP
  rw [ho, hf, ok_bind]
  cases src with
  | none =>
    cases val with
    | some c => simp at hs
    | none =>
      obtain ⟨a, b⟩ := inv_null hi (x := x) (by simp) o
      simp only [upd_upd] at a b
      refine ⟨_, _, rfl, a, ?_⟩
      rw [b, hv, upd_upd]
  | some r =>
    cases val with
    | none => simp at hs
    | some c =>
      simp only at hs
      simp only [hs, ok_bind]
      obtain ⟨a, b⟩ := inv_alloc hi (x := x) (by simp) o c
      simp only [upd_upd] at a b
      refine ⟨_, _, rfl, a, ?_⟩
      rw [b, hv, upd_upd]

/-- reading the settings of another object `y` -/
theorem load_other {w : OptWorld α} {x y : Nat} {oy : Options α} (hxy : y ≠ x)
    (hy : w.objs y = some oy) (h1 : List (Option Nat))
    (hi : Inv ({ heap := h1, objs := upd w.objs x none } : OptWorld α))
    (hv : view ({ heap := h1, objs := upd w.objs x none } : OptWorld α) = upd w.view x none) :
    match (oy.osqp.map fun a (h : List (Option Nat)) => load h a),
      (oy.osqp.bind fun a => (w.heap[a]?).join) with
    | none, none => True
    | some r, some c => r h1 = .ok c
    | _, _ => False := by
  cases ha : oy.osqp with
  | none => simp
  | some a =>
    obtain ⟨c, hc⟩ := hi.live y oy a (by simpa only [upd_ne _ _ hxy] using hy) ha
    have hvy := congrFun hv y
    simp only [view, upd_ne _ _ hxy, hy, Option.map_some, ha, Option.bind_some] at hvy
    injection hvy with hvy
    have hj : (h1[a]?).join = (w.heap[a]?).join := by
      have := congrArg Options.osqp hvy
      simpa using this
    change h1[a]? = some (some c) at hc
    rw [hc] at hj
    simp only [Option.map_some, Option.bind_some]
    rw [← hj]
    simp [load, hc]

/-- the one problematic operation: handing an object its own settings -/
def Op.Ok : Op α → Prop
  | .setOSQPFrom x y => x ≠ y
  | _ => True

theorem view_some {w : OptWorld α} {x : Nat} {o : Options α} (h : w.objs x = some o) :
    w.view x = some { o with osqp := o.osqp.bind fun a => (w.heap[a]?).join } := by
  simp [view, h]

theorem view_none {w : OptWorld α} {x : Nat} (h : w.objs x = none) : w.view x = none := by
  simp [view, h]

theorem step_ok (qd sd : Nat) (w : OptWorld α) (h : w.Inv) (op : Op α) (hop : op.Ok) :
    ∃ w', step qd sd w op = .ok w' ∧ w'.Inv ∧ w'.view = absStep qd sd w.view op := by
  cases op with
  | new x =>
    cases hx : w.objs x with
    | some ox =>
      exact ⟨w, by simp [step, hx], h, by simp [absStep, view_some hx]⟩
    | none =>
      obtain ⟨a, b⟩ := inv_alloc h hx (Options.default qd sd) sd
      refine ⟨_, by simp [step, hx, toDefault, freeIf], a, ?_⟩
      rw [b]
      simp only [absStep, view_none hx]
      rfl
  | newCopy x y =>
    cases hx : w.objs x with
    | some ox =>
      exact ⟨w, by simp [step, hx], h, by simp [absStep, view_some hx]⟩
    | none =>
      cases hy : w.objs y with
      | none => exact ⟨w, by simp [step, hx, hy], h, by simp [absStep, view_none hx, view_none hy]⟩
      | some oy =>
        have hw : ({ heap := w.heap, objs := upd w.objs x none } : OptWorld α) = w := by
          rw [upd_self _ _ _ hx]
        have hyx : y ≠ x := by rintro rfl; rw [hx] at hy; simp at hy
        have hl := load_other (x := x) hyx hy w.heap (by rw [hw]; exact h)
          (by rw [hw]; rw [upd_self _ _ _ (view_none hx)])
        cases ha : oy.osqp with
        | none =>
          obtain ⟨a, b⟩ := inv_null h hx oy
          refine ⟨{ heap := w.heap, objs := upd w.objs x (some { oy with osqp := none }) },
            by simp [step, hx, hy, copyFrom, setOSQP, freeIf, ha], a, ?_⟩
          rw [b]
          simp [absStep, view_none hx, view_some hy, ha]
        | some p =>
          simp only [ha, Option.map_some, Option.bind_some] at hl
          cases hc : (w.heap[p]?).join with
          | none => simp [hc] at hl
          | some c =>
            simp only [hc] at hl
            obtain ⟨a, b⟩ := inv_alloc h hx oy c
            refine ⟨_, ?_, a, ?_⟩
            · simp [step, hx, hy, copyFrom, setOSQP, freeIf, ha, hl]
            · rw [b]
              simp [absStep, view_none hx, view_some hy, ha, hc]
  | assign x y =>
    cases hx : w.objs x with
    | none => exact ⟨w, by simp [step, hx], h, by simp [absStep, view_none hx]⟩
    | some ox =>
      cases hy : w.objs y with
      | none => exact ⟨w, by simp [step, hx, hy], h, by simp [absStep, view_some hx, view_none hy]⟩
      | some oy =>
        by_cases hxy : x = y
        · subst hxy
          refine ⟨w, by simp [step, hx], h, ?_⟩
          simp only [absStep, view_some hx]
          rw [upd_self _ _ _ (view_some hx)]
        · obtain ⟨h', o', e1, e2, e3⟩ := inv_setOSQP h hx { oy with osqp := ox.osqp } rfl
            (oy.osqp.map fun a h => load h a) (oy.osqp.bind fun a => (w.heap[a]?).join)
            (fun h1 a b => load_other (fun e => hxy e.symm) hy h1 a b)
          refine ⟨_, ?_, e2, ?_⟩
          · simp [step, hx, hy, hxy, copyFrom, e1]
          · rw [e3]
            simp only [absStep, view_some hx, view_some hy]
  | reset x =>
    cases hx : w.objs x with
    | none => exact ⟨w, by simp [step, hx], h, by simp [absStep, view_none hx]⟩
    | some ox =>
      obtain ⟨h1, hf, hi, hv⟩ := inv_free h hx
      obtain ⟨a, b⟩ := inv_alloc hi (x := x) (by simp) (Options.default qd sd) sd
      simp only [upd_upd] at a b
      refine ⟨_, ?_, a, ?_⟩
      · simp [step, hx, toDefault, hf]
      · rw [b, hv, upd_upd]
        simp only [absStep, view_some hx]
        rfl
  | set x c =>
    cases hx : w.objs x with
    | none => exact ⟨w, by simp [step, hx], h, by simp [absStep, view_none hx]⟩
    | some ox =>
      refine ⟨{ w with objs := upd w.objs x (some (ox.call c).2) }, by simp only [step, hx],
        ⟨?_, ?_, ?_⟩, ?_⟩
      · intro y o a hy ha
        by_cases hyx : y = x
        · subst hyx
          simp only [upd_same, Option.some.injEq] at hy
          subst hy
          rw [(call_osqp ox c none).2] at ha
          exact h.live y ox a hx ha
        · simp only [upd_ne _ _ hyx] at hy
          exact h.live y o a hy ha
      · intro y z oy oz a hy hz hya hza
        have e : ∀ y oy, upd w.objs x (some (ox.call c).2) y = some oy → oy.osqp = some a →
            ∃ o, w.objs y = some o ∧ o.osqp = some a := by
          intro y oy hy ha
          by_cases hyx : y = x
          · subst hyx
            simp only [upd_same, Option.some.injEq] at hy
            subst hy
            rw [(call_osqp ox c none).2] at ha
            exact ⟨ox, hx, ha⟩
          · simp only [upd_ne _ _ hyx] at hy
            exact ⟨oy, hy, ha⟩
        obtain ⟨o1, a1, a2⟩ := e y oy hy hya
        obtain ⟨o2, b1, b2⟩ := e z oz hz hza
        exact h.uniq y z o1 o2 a a1 b1 a2 b2
      · intro a d ha
        obtain ⟨y, oy, hy, hya⟩ := h.owned a d ha
        by_cases hyx : y = x
        · subst hyx
          rw [hx] at hy
          injection hy with hy
          subst hy
          exact ⟨y, (ox.call c).2, by simp, by rw [(call_osqp ox c none).2]; exact hya⟩
        · exact ⟨y, oy, by simpa only [upd_ne _ _ hyx] using hy, hya⟩
      · funext y
        simp only [absStep, view_some hx]
        by_cases hyx : y = x
        · subst hyx
          simp only [view, upd_same, Option.map_some]
          rw [(call_osqp ox c (ox.osqp.bind fun a => w.heap[a]?.join)).1, (call_osqp ox c none).2]
        · simp only [view, upd_ne _ _ hyx]
  | setOSQP x c =>
    cases hx : w.objs x with
    | none => exact ⟨w, by simp [step, hx], h, by simp [absStep, view_none hx]⟩
    | some ox =>
      obtain ⟨h', o', e1, e2, e3⟩ := inv_setOSQP h hx ox rfl (c.map fun v _ => .ok v) c
        (by intro h1 _ _; cases c <;> simp)
      refine ⟨_, ?_, e2, ?_⟩
      · simp [step, hx, e1]
      · rw [e3]
        simp only [absStep, view_some hx]
  | setOSQPFrom x y =>
    cases hx : w.objs x with
    | none => exact ⟨w, by simp [step, hx], h, by simp [absStep, view_none hx]⟩
    | some ox =>
      cases hy : w.objs y with
      | none => exact ⟨w, by simp [step, hx, hy], h, by simp [absStep, view_some hx, view_none hy]⟩
      | some oy =>
        obtain ⟨h', o', e1, e2, e3⟩ := inv_setOSQP h hx ox rfl
            (oy.osqp.map fun a h => load h a) (oy.osqp.bind fun a => (w.heap[a]?).join)
            (fun h1 a b => load_other (fun e => hop e.symm) hy h1 a b)
        refine ⟨_, ?_, e2, ?_⟩
        · simp [step, hx, hy, e1]
        · rw [e3]
          simp only [absStep, view_some hx, view_some hy]
  | poke x c =>
    cases hx : w.objs x with
    | none => exact ⟨w, by simp [step, hx], h, by simp [absStep, view_none hx]⟩
    | some ox =>
      cases ha : ox.osqp with
      | none =>
        refine ⟨w, by simp [step, hx, ha], h, ?_⟩
        simp [absStep, view_some hx, ha]
      | some a =>
        obtain ⟨d, hd⟩ := h.live x ox a hx ha
        have hal : a < w.heap.length := (List.getElem?_eq_some_iff.mp hd).1
        refine ⟨{ w with heap := w.heap.set a (some c) }, by simp [step, hx, ha, load, hd],
          ⟨?_, ?_, ?_⟩, ?_⟩
        · intro y o b hy hb
          obtain ⟨e, he⟩ := h.live y o b hy hb
          by_cases hab : a = b
          · subst hab; exact ⟨c, by simp [hal]⟩
          · exact ⟨e, by simp only [List.getElem?_set_ne hab]; exact he⟩
        · exact h.uniq
        · intro b e hb
          by_cases hab : a = b
          · subst hab; exact ⟨x, ox, hx, ha⟩
          · simp only [List.getElem?_set_ne hab] at hb
            exact h.owned b e hb
        · funext y
          simp only [absStep, view_some hx, ha, Option.bind_some, hd, Option.join_some]
          by_cases hyx : y = x
          · subst hyx
            simp [view, hx, ha, hal]
          · rw [if_neg (by simp), upd_ne _ _ hyx]
            simp only [view]
            cases hy : w.objs y with
            | none => rfl
            | some oy =>
              simp only [Option.map_some]
              congr 2
              cases hb : oy.osqp with
              | none => rfl
              | some b =>
                have hab : a ≠ b := by
                  rintro rfl
                  exact hyx (h.uniq y x oy ox a hy hx hb ha)
                simp [List.getElem?_set_ne hab]
  | destroy x =>
    cases hx : w.objs x with
    | none => exact ⟨w, by simp [step, hx], h, by simp [absStep, view_none hx]⟩
    | some ox =>
      obtain ⟨h1, hf, hi, hv⟩ := inv_free h hx
      refine ⟨_, by simp [step, hx, hf], hi, ?_⟩
      rw [hv]
      simp only [absStep, view_some hx]

/-- C13: any client program that never hands an object its own settings pointer runs without use
after free or double free, behaves as if options were plain values (copies are complete and
independent), and at any time the allocated settings blocks are exactly those of live objects. -/
theorem C13_value_semantics (qd sd : Nat) (ops : List (Op α)) (hops : ∀ op ∈ ops, op.Ok) :
    ∃ w, run qd sd init ops = .ok w ∧ w.view = ops.foldl (absStep qd sd) (fun _ => none) ∧
      (∀ a c, w.heap[a]? = some (some c) → ∃ x o, w.objs x = some o ∧ o.osqp = some a) := by
  have key : ∀ (ops : List (Op α)) (w : OptWorld α), w.Inv → (∀ op ∈ ops, op.Ok) →
      ∃ w', run qd sd w ops = .ok w' ∧ w'.Inv ∧ w'.view = ops.foldl (absStep qd sd) w.view := by
    intro ops
    induction ops with
    | nil => intro w hw _; exact ⟨w, rfl, hw, rfl⟩
    | cons op ops ih =>
      intro w hw ho
      obtain ⟨w1, a, b, c⟩ := step_ok qd sd w hw op (ho op (by simp))
      obtain ⟨w2, d, e, f⟩ := ih w1 b (fun o h => ho o (by simp [h]))
      refine ⟨w2, ?_, e, ?_⟩
      · simp only [run, List.foldlM_cons] at d ⊢
        rw [a, ok_bind, d]
      · rw [f, c]; rfl
  obtain ⟨w, a, b, c⟩ := key ops init
    ⟨by intro x o a h; simp [init] at h, by intro x y ox oy a h; simp [init] at h,
      by intro a c h; simp [init] at h⟩ hops
  exact ⟨w, a, by rw [c]; rfl, b.owned⟩

/-- C13: `o.setOSQPOptions(o.getOSQPOptions())` reads freed memory. -/
theorem C13_self_settings_uaf (qd sd : Nat) :
    run qd sd (init : OptWorld α) [.new 0, .setOSQPFrom 0 0] = .error .uaf := rfl

end OptWorld

/-! Non-vacuity: copy, change the copy, the original is unchanged. -/
example : ((OptWorld.run 0 5 (OptWorld.init : OptWorld (Ext ℚ))
    [.new 0, .newCopy 1 0, .poke 1 9, .set 1 (.maxIter 3)]).toOption.bind fun w =>
      (w.view 0).map fun o => (o.osqp, o.maxIter)) = some (some 5, 1000) := by decide +kernel
example : ((OptWorld.run 0 5 (OptWorld.init : OptWorld (Ext ℚ))
    [.new 0, .newCopy 1 0, .poke 1 9, .set 1 (.maxIter 3)]).toOption.bind fun w =>
      (w.view 1).map fun o => (o.osqp, o.maxIter)) = some (some 9, 3) := by decide +kernel

end LCQ
