import Verif.Spec.MatlabOptions
import Verif.Basic.Mem

/-!
# C62: options of the QP solvers from MATLAB
-/

namespace LCQ
open Scalar

variable {α : Type} {σ : Type} {p : Mx α} {toInt : α → M Int}

theorem scalarOpt_is {name : String} {v : Option α} (h : EntryIs p name v) : scalarOpt p name = .ok v := by
  unfold scalarOpt
  cases v with
  | none =>
    cases hf : p.field name with
    | none => rfl
    | some a =>
      have := h a hf
      dsimp only
      rw [if_neg (fun hh => this hh.2)]
  | some x =>
    have h : p.field name = some (.dbl 1 1 [x]) := h
    rw [h]
    rfl

theorem optNum_is {name : String} {v : Option α} (h : EntryIs p name v) (set : α → σ → σ) (o : σ) :
    optNum p name set o = .ok (v.elim o (set · o)) := by
  rw [optNum, scalarOpt_is h, ok_bind]
  cases v <;> rfl

theorem optInt_is {name : String} {k : Option Int} (h : IntEntryIs toInt p name k) (set : Int → σ → σ) (o : σ) :
    optInt toInt p name set o = .ok (k.elim o (set · o)) := by
  cases k with
  | none =>
    rw [optInt, scalarOpt_is (v := none) h, ok_bind]
    rfl
  | some k =>
    obtain ⟨x, h1, h2⟩ := h
    rw [optInt, scalarOpt_is h1, ok_bind]
    dsimp only
    rw [h2, ok_bind]
    rfl

theorem cut_eq {lo hi : Int} (h : lo ≤ hi) (k : Int) : cut lo hi k = max lo (min k hi) := by
  simp only [cut]
  split <;> split <;> omega

theorem cut_two (k : Int) : cut (-2) 3 k = max (-2) (min k 3) := cut_eq (by omega) k

theorem cut_one (k : Int) : cut (-1) 1 k = max (-1) (min k 1) := cut_eq (by omega) k

theorem elim_of {β γ : Type} (v : Option β) (o : σ) (set : β → σ → σ) (get : σ → γ) (f : β → γ) (h : ∀ x, get (set x o) = f x) :
    get (v.elim o (set · o)) = (v.map f).getD (get o) := by
  cases v with
  | none => rfl
  | some x => exact h x

/-- C62: every entry of the struct that is a full double scalar reaches the qpOASES option of its name, whatever the other entries
are; the others keep their values.  The print level is cut to -2..3, the initial status of the bounds to -1..1. -/
theorem C62_qpoases {v : String → Option α} {k : String → Option Int} (hv : ∀ n ∈ qpoNums, EntryIs p n (v n))
    (hk : ∀ n ∈ qpoInts, IntEntryIs toInt p n (k n)) (o : QpoOptions α) : setupQpoases toInt p o = .ok (qpoWith v k o) := by
  unfold setupQpoases
  rw [optInt_is (hk "printLevel" (by simp [qpoInts])), ok_bind,
    show ∀ o : QpoOptions α, (k "printLevel").elim o (fun x => { o with printLevel := cut (-2) 3 x }) = { o with printLevel := ((k "printLevel").map fun k => max (-2) (min k 3)).getD o.printLevel } from
      fun o => by cases k "printLevel" with | none => rfl | some k => simp [cut_two]]
  rw [optInt_is (hk "enableRamping" (by simp [qpoInts])), ok_bind,
    show ∀ o : QpoOptions α, (k "enableRamping").elim o (fun x => { o with enableRamping := x }) = { o with enableRamping := (k "enableRamping").getD o.enableRamping } from
      fun o => by cases k "enableRamping" <;> rfl]
  rw [optInt_is (hk "enableFarBounds" (by simp [qpoInts])), ok_bind,
    show ∀ o : QpoOptions α, (k "enableFarBounds").elim o (fun x => { o with enableFarBounds := x }) = { o with enableFarBounds := (k "enableFarBounds").getD o.enableFarBounds } from
      fun o => by cases k "enableFarBounds" <;> rfl]
  rw [optInt_is (hk "enableFlippingBounds" (by simp [qpoInts])), ok_bind,
    show ∀ o : QpoOptions α, (k "enableFlippingBounds").elim o (fun x => { o with enableFlippingBounds := x }) = { o with enableFlippingBounds := (k "enableFlippingBounds").getD o.enableFlippingBounds } from
      fun o => by cases k "enableFlippingBounds" <;> rfl]
  rw [optInt_is (hk "enableRegularisation" (by simp [qpoInts])), ok_bind,
    show ∀ o : QpoOptions α, (k "enableRegularisation").elim o (fun x => { o with enableRegularisation := x }) = { o with enableRegularisation := (k "enableRegularisation").getD o.enableRegularisation } from
      fun o => by cases k "enableRegularisation" <;> rfl]
  rw [optInt_is (hk "enableFullLITests" (by simp [qpoInts])), ok_bind,
    show ∀ o : QpoOptions α, (k "enableFullLITests").elim o (fun x => { o with enableFullLITests := x }) = { o with enableFullLITests := (k "enableFullLITests").getD o.enableFullLITests } from
      fun o => by cases k "enableFullLITests" <;> rfl]
  rw [optInt_is (hk "enableNZCTests" (by simp [qpoInts])), ok_bind,
    show ∀ o : QpoOptions α, (k "enableNZCTests").elim o (fun x => { o with enableNZCTests := x }) = { o with enableNZCTests := (k "enableNZCTests").getD o.enableNZCTests } from
      fun o => by cases k "enableNZCTests" <;> rfl]
  rw [optInt_is (hk "enableDriftCorrection" (by simp [qpoInts])), ok_bind,
    show ∀ o : QpoOptions α, (k "enableDriftCorrection").elim o (fun x => { o with enableDriftCorrection := x }) = { o with enableDriftCorrection := (k "enableDriftCorrection").getD o.enableDriftCorrection } from
      fun o => by cases k "enableDriftCorrection" <;> rfl]
  rw [optInt_is (hk "enableCholeskyRefactorisation" (by simp [qpoInts])), ok_bind,
    show ∀ o : QpoOptions α, (k "enableCholeskyRefactorisation").elim o (fun x => { o with enableCholeskyRefactorisation := x }) = { o with enableCholeskyRefactorisation := (k "enableCholeskyRefactorisation").getD o.enableCholeskyRefactorisation } from
      fun o => by cases k "enableCholeskyRefactorisation" <;> rfl]
  rw [optInt_is (hk "enableEqualities" (by simp [qpoInts])), ok_bind,
    show ∀ o : QpoOptions α, (k "enableEqualities").elim o (fun x => { o with enableEqualities := x }) = { o with enableEqualities := (k "enableEqualities").getD o.enableEqualities } from
      fun o => by cases k "enableEqualities" <;> rfl]
  rw [optNum_is (hv "terminationTolerance" (by simp [qpoNums])), ok_bind,
    show ∀ o : QpoOptions α, (v "terminationTolerance").elim o (fun x => { o with terminationTolerance := x }) = { o with terminationTolerance := (v "terminationTolerance").getD o.terminationTolerance } from
      fun o => by cases v "terminationTolerance" <;> rfl]
  rw [optNum_is (hv "boundTolerance" (by simp [qpoNums])), ok_bind,
    show ∀ o : QpoOptions α, (v "boundTolerance").elim o (fun x => { o with boundTolerance := x }) = { o with boundTolerance := (v "boundTolerance").getD o.boundTolerance } from
      fun o => by cases v "boundTolerance" <;> rfl]
  rw [optNum_is (hv "boundRelaxation" (by simp [qpoNums])), ok_bind,
    show ∀ o : QpoOptions α, (v "boundRelaxation").elim o (fun x => { o with boundRelaxation := x }) = { o with boundRelaxation := (v "boundRelaxation").getD o.boundRelaxation } from
      fun o => by cases v "boundRelaxation" <;> rfl]
  rw [optNum_is (hv "epsNum" (by simp [qpoNums])), ok_bind,
    show ∀ o : QpoOptions α, (v "epsNum").elim o (fun x => { o with epsNum := x }) = { o with epsNum := (v "epsNum").getD o.epsNum } from
      fun o => by cases v "epsNum" <;> rfl]
  rw [optNum_is (hv "epsDen" (by simp [qpoNums])), ok_bind,
    show ∀ o : QpoOptions α, (v "epsDen").elim o (fun x => { o with epsDen := x }) = { o with epsDen := (v "epsDen").getD o.epsDen } from
      fun o => by cases v "epsDen" <;> rfl]
  rw [optNum_is (hv "maxPrimalJump" (by simp [qpoNums])), ok_bind,
    show ∀ o : QpoOptions α, (v "maxPrimalJump").elim o (fun x => { o with maxPrimalJump := x }) = { o with maxPrimalJump := (v "maxPrimalJump").getD o.maxPrimalJump } from
      fun o => by cases v "maxPrimalJump" <;> rfl]
  rw [optNum_is (hv "maxDualJump" (by simp [qpoNums])), ok_bind,
    show ∀ o : QpoOptions α, (v "maxDualJump").elim o (fun x => { o with maxDualJump := x }) = { o with maxDualJump := (v "maxDualJump").getD o.maxDualJump } from
      fun o => by cases v "maxDualJump" <;> rfl]
  rw [optNum_is (hv "initialRamping" (by simp [qpoNums])), ok_bind,
    show ∀ o : QpoOptions α, (v "initialRamping").elim o (fun x => { o with initialRamping := x }) = { o with initialRamping := (v "initialRamping").getD o.initialRamping } from
      fun o => by cases v "initialRamping" <;> rfl]
  rw [optNum_is (hv "finalRamping" (by simp [qpoNums])), ok_bind,
    show ∀ o : QpoOptions α, (v "finalRamping").elim o (fun x => { o with finalRamping := x }) = { o with finalRamping := (v "finalRamping").getD o.finalRamping } from
      fun o => by cases v "finalRamping" <;> rfl]
  rw [optNum_is (hv "initialFarBounds" (by simp [qpoNums])), ok_bind,
    show ∀ o : QpoOptions α, (v "initialFarBounds").elim o (fun x => { o with initialFarBounds := x }) = { o with initialFarBounds := (v "initialFarBounds").getD o.initialFarBounds } from
      fun o => by cases v "initialFarBounds" <;> rfl]
  rw [optNum_is (hv "growFarBounds" (by simp [qpoNums])), ok_bind,
    show ∀ o : QpoOptions α, (v "growFarBounds").elim o (fun x => { o with growFarBounds := x }) = { o with growFarBounds := (v "growFarBounds").getD o.growFarBounds } from
      fun o => by cases v "growFarBounds" <;> rfl]
  rw [optInt_is (hk "initialStatusBounds" (by simp [qpoInts])), ok_bind,
    show ∀ o : QpoOptions α, (k "initialStatusBounds").elim o (fun x => { o with initialStatusBounds := cut (-1) 1 x }) = { o with initialStatusBounds := ((k "initialStatusBounds").map fun k => max (-1) (min k 1)).getD o.initialStatusBounds } from
      fun o => by cases k "initialStatusBounds" with | none => rfl | some k => simp [cut_one]]
  rw [optNum_is (hv "epsFlipping" (by simp [qpoNums])), ok_bind,
    show ∀ o : QpoOptions α, (v "epsFlipping").elim o (fun x => { o with epsFlipping := x }) = { o with epsFlipping := (v "epsFlipping").getD o.epsFlipping } from
      fun o => by cases v "epsFlipping" <;> rfl]
  rw [optInt_is (hk "numRegularisationSteps" (by simp [qpoInts])), ok_bind,
    show ∀ o : QpoOptions α, (k "numRegularisationSteps").elim o (fun x => { o with numRegularisationSteps := x }) = { o with numRegularisationSteps := (k "numRegularisationSteps").getD o.numRegularisationSteps } from
      fun o => by cases k "numRegularisationSteps" <;> rfl]
  rw [optNum_is (hv "epsRegularisation" (by simp [qpoNums])), ok_bind,
    show ∀ o : QpoOptions α, (v "epsRegularisation").elim o (fun x => { o with epsRegularisation := x }) = { o with epsRegularisation := (v "epsRegularisation").getD o.epsRegularisation } from
      fun o => by cases v "epsRegularisation" <;> rfl]
  rw [optInt_is (hk "numRefinementSteps" (by simp [qpoInts])), ok_bind,
    show ∀ o : QpoOptions α, (k "numRefinementSteps").elim o (fun x => { o with numRefinementSteps := x }) = { o with numRefinementSteps := (k "numRefinementSteps").getD o.numRefinementSteps } from
      fun o => by cases k "numRefinementSteps" <;> rfl]
  rw [optNum_is (hv "epsIterRef" (by simp [qpoNums])), ok_bind,
    show ∀ o : QpoOptions α, (v "epsIterRef").elim o (fun x => { o with epsIterRef := x }) = { o with epsIterRef := (v "epsIterRef").getD o.epsIterRef } from
      fun o => by cases v "epsIterRef" <;> rfl]
  rw [optNum_is (hv "epsLITests" (by simp [qpoNums])), ok_bind,
    show ∀ o : QpoOptions α, (v "epsLITests").elim o (fun x => { o with epsLITests := x }) = { o with epsLITests := (v "epsLITests").getD o.epsLITests } from
      fun o => by cases v "epsLITests" <;> rfl]
  rw [optNum_is (hv "epsNZCTests" (by simp [qpoNums])), ok_bind,
    show ∀ o : QpoOptions α, (v "epsNZCTests").elim o (fun x => { o with epsNZCTests := x }) = { o with epsNZCTests := (v "epsNZCTests").getD o.epsNZCTests } from
      fun o => by cases v "epsNZCTests" <;> rfl]
  rfl

/-- C62: the same for OSQP -/
theorem C62_osqp {v : String → Option α} {k : String → Option Int} (hv : ∀ n ∈ osqpNums, EntryIs p n (v n))
    (hk : ∀ n ∈ osqpInts, IntEntryIs toInt p n (k n)) (o : OsqpOptions α) : setupOsqp toInt p o = .ok (osqpWith v k o) := by
  unfold setupOsqp
  rw [optNum_is (hv "rho" (by simp [osqpNums])), ok_bind,
    show ∀ o : OsqpOptions α, (v "rho").elim o (fun x => { o with rho := x }) = { o with rho := (v "rho").getD o.rho } from
      fun o => by cases v "rho" <;> rfl]
  rw [optNum_is (hv "sigma" (by simp [osqpNums])), ok_bind,
    show ∀ o : OsqpOptions α, (v "sigma").elim o (fun x => { o with sigma := x }) = { o with sigma := (v "sigma").getD o.sigma } from
      fun o => by cases v "sigma" <;> rfl]
  rw [optInt_is (hk "scaling" (by simp [osqpInts])), ok_bind,
    show ∀ o : OsqpOptions α, (k "scaling").elim o (fun x => { o with scaling := x }) = { o with scaling := (k "scaling").getD o.scaling } from
      fun o => by cases k "scaling" <;> rfl]
  rw [optInt_is (hk "adaptive_rho" (by simp [osqpInts])), ok_bind,
    show ∀ o : OsqpOptions α, (k "adaptive_rho").elim o (fun x => { o with adaptiveRho := x }) = { o with adaptiveRho := (k "adaptive_rho").getD o.adaptiveRho } from
      fun o => by cases k "adaptive_rho" <;> rfl]
  rw [optInt_is (hk "adaptive_rho_interval" (by simp [osqpInts])), ok_bind,
    show ∀ o : OsqpOptions α, (k "adaptive_rho_interval").elim o (fun x => { o with adaptiveRhoInterval := x }) = { o with adaptiveRhoInterval := (k "adaptive_rho_interval").getD o.adaptiveRhoInterval } from
      fun o => by cases k "adaptive_rho_interval" <;> rfl]
  rw [optNum_is (hv "adaptive_rho_tolerance" (by simp [osqpNums])), ok_bind,
    show ∀ o : OsqpOptions α, (v "adaptive_rho_tolerance").elim o (fun x => { o with adaptiveRhoTolerance := x }) = { o with adaptiveRhoTolerance := (v "adaptive_rho_tolerance").getD o.adaptiveRhoTolerance } from
      fun o => by cases v "adaptive_rho_tolerance" <;> rfl]
  rw [optNum_is (hv "adaptive_rho_fraction" (by simp [osqpNums])), ok_bind,
    show ∀ o : OsqpOptions α, (v "adaptive_rho_fraction").elim o (fun x => { o with adaptiveRhoFraction := x }) = { o with adaptiveRhoFraction := (v "adaptive_rho_fraction").getD o.adaptiveRhoFraction } from
      fun o => by cases v "adaptive_rho_fraction" <;> rfl]
  rw [optInt_is (hk "max_iter" (by simp [osqpInts])), ok_bind,
    show ∀ o : OsqpOptions α, (k "max_iter").elim o (fun x => { o with maxIter := x }) = { o with maxIter := (k "max_iter").getD o.maxIter } from
      fun o => by cases k "max_iter" <;> rfl]
  rw [optNum_is (hv "eps_abs" (by simp [osqpNums])), ok_bind,
    show ∀ o : OsqpOptions α, (v "eps_abs").elim o (fun x => { o with epsAbs := x }) = { o with epsAbs := (v "eps_abs").getD o.epsAbs } from
      fun o => by cases v "eps_abs" <;> rfl]
  rw [optNum_is (hv "eps_rel" (by simp [osqpNums])), ok_bind,
    show ∀ o : OsqpOptions α, (v "eps_rel").elim o (fun x => { o with epsRel := x }) = { o with epsRel := (v "eps_rel").getD o.epsRel } from
      fun o => by cases v "eps_rel" <;> rfl]
  rw [optNum_is (hv "eps_prim_inf" (by simp [osqpNums])), ok_bind,
    show ∀ o : OsqpOptions α, (v "eps_prim_inf").elim o (fun x => { o with epsPrimInf := x }) = { o with epsPrimInf := (v "eps_prim_inf").getD o.epsPrimInf } from
      fun o => by cases v "eps_prim_inf" <;> rfl]
  rw [optNum_is (hv "eps_dual_inf" (by simp [osqpNums])), ok_bind,
    show ∀ o : OsqpOptions α, (v "eps_dual_inf").elim o (fun x => { o with epsDualInf := x }) = { o with epsDualInf := (v "eps_dual_inf").getD o.epsDualInf } from
      fun o => by cases v "eps_dual_inf" <;> rfl]
  rw [optNum_is (hv "alpha" (by simp [osqpNums])), ok_bind,
    show ∀ o : OsqpOptions α, (v "alpha").elim o (fun x => { o with alpha := x }) = { o with alpha := (v "alpha").getD o.alpha } from
      fun o => by cases v "alpha" <;> rfl]
  rw [optNum_is (hv "delta" (by simp [osqpNums])), ok_bind,
    show ∀ o : OsqpOptions α, (v "delta").elim o (fun x => { o with delta := x }) = { o with delta := (v "delta").getD o.delta } from
      fun o => by cases v "delta" <;> rfl]
  rw [optInt_is (hk "polish" (by simp [osqpInts])), ok_bind,
    show ∀ o : OsqpOptions α, (k "polish").elim o (fun x => { o with polish := x }) = { o with polish := (k "polish").getD o.polish } from
      fun o => by cases k "polish" <;> rfl]
  rw [optInt_is (hk "polish_refine_iter" (by simp [osqpInts])), ok_bind,
    show ∀ o : OsqpOptions α, (k "polish_refine_iter").elim o (fun x => { o with polishRefineIter := x }) = { o with polishRefineIter := (k "polish_refine_iter").getD o.polishRefineIter } from
      fun o => by cases k "polish_refine_iter" <;> rfl]
  rw [optInt_is (hk "verbose" (by simp [osqpInts])), ok_bind,
    show ∀ o : OsqpOptions α, (k "verbose").elim o (fun x => { o with verbose := x }) = { o with verbose := (k "verbose").getD o.verbose } from
      fun o => by cases k "verbose" <;> rfl]
  rw [optInt_is (hk "scaled_termination" (by simp [osqpInts])), ok_bind,
    show ∀ o : OsqpOptions α, (k "scaled_termination").elim o (fun x => { o with scaledTermination := x }) = { o with scaledTermination := (k "scaled_termination").getD o.scaledTermination } from
      fun o => by cases k "scaled_termination" <;> rfl]
  rw [optInt_is (hk "check_termination" (by simp [osqpInts])), ok_bind,
    show ∀ o : OsqpOptions α, (k "check_termination").elim o (fun x => { o with checkTermination := x }) = { o with checkTermination := (k "check_termination").getD o.checkTermination } from
      fun o => by cases k "check_termination" <;> rfl]
  rw [optInt_is (hk "warm_start" (by simp [osqpInts])), ok_bind,
    show ∀ o : OsqpOptions α, (k "warm_start").elim o (fun x => { o with warmStart := x }) = { o with warmStart := (k "warm_start").getD o.warmStart } from
      fun o => by cases k "warm_start" <;> rfl]
  rw [optNum_is (hv "time_limit" (by simp [osqpNums])), ok_bind,
    show ∀ o : OsqpOptions α, (v "time_limit").elim o (fun x => { o with timeLimit := x }) = { o with timeLimit := (v "time_limit").getD o.timeLimit } from
      fun o => by cases v "time_limit" <;> rfl]
  rfl

theorem optNum_ok {name : String} {set : α → σ → σ} {o r : σ} (h : optNum p name set o = .ok r) : ∃ v, scalarOpt p name = .ok v := by
  simp only [optNum, bind_eq_ok] at h
  obtain ⟨v, h, _⟩ := h
  exact ⟨v, h⟩

theorem optInt_ok {name : String} {set : Int → σ → σ} {o r : σ} (h : optInt toInt p name set o = .ok r) :
    ∃ v, scalarOpt p name = .ok v := by
  simp only [optInt, bind_eq_ok] at h
  obtain ⟨v, h, _⟩ := h
  exact ⟨v, h⟩

theorem setupQpoases_inv {o r : QpoOptions α} (h : setupQpoases toInt p o = .ok r) : ∀ n ∈ qpoNums ++ qpoInts, ∃ v, scalarOpt p n = .ok v := by
  simp only [setupQpoases, bind_eq_ok] at h
  obtain ⟨_, h0, _, h1, _, h2, _, h3, _, h4, _, h5, _, h6, _, h7, _, h8, _, h9, _, h10, _, h11, _, h12, _, h13, _, h14, _, h15, _, h16, _, h17, _, h18, _, h19, _, h20, _, h21, _, h22, _, h23, _, h24, _, h25, _, h26, _, h27, _, h28, _⟩ := h
  simp only [qpoNums, qpoInts, List.cons_append, List.nil_append, List.forall_mem_cons, List.not_mem_nil, false_imp_iff, implies_true, and_true]
  exact ⟨optNum_ok h10, optNum_ok h11, optNum_ok h12, optNum_ok h13, optNum_ok h14, optNum_ok h15, optNum_ok h16, optNum_ok h17, optNum_ok h18, optNum_ok h19, optNum_ok h20, optNum_ok h22, optNum_ok h24, optNum_ok h26, optNum_ok h27, optNum_ok h28, optInt_ok h0, optInt_ok h1, optInt_ok h2, optInt_ok h3, optInt_ok h4, optInt_ok h5, optInt_ok h6, optInt_ok h7, optInt_ok h8, optInt_ok h9, optInt_ok h21, optInt_ok h23, optInt_ok h25⟩

theorem setupOsqp_inv {o r : OsqpOptions α} (h : setupOsqp toInt p o = .ok r) : ∀ n ∈ osqpNums ++ osqpInts, ∃ v, scalarOpt p n = .ok v := by
  simp only [setupOsqp, bind_eq_ok] at h
  obtain ⟨_, h0, _, h1, _, h2, _, h3, _, h4, _, h5, _, h6, _, h7, _, h8, _, h9, _, h10, _, h11, _, h12, _, h13, _, h14, _, h15, _, h16, _, h17, _, h18, _, h19, _, h20, _⟩ := h
  simp only [osqpNums, osqpInts, List.cons_append, List.nil_append, List.forall_mem_cons, List.not_mem_nil, false_imp_iff, implies_true, and_true]
  exact ⟨optNum_ok h0, optNum_ok h1, optNum_ok h5, optNum_ok h6, optNum_ok h8, optNum_ok h9, optNum_ok h10, optNum_ok h11, optNum_ok h12, optNum_ok h13, optNum_ok h20, optInt_ok h2, optInt_ok h3, optInt_ok h4, optInt_ok h7, optInt_ok h14, optInt_ok h15, optInt_ok h16, optInt_ok h17, optInt_ok h18, optInt_ok h19⟩

theorem ForeignScalar.fault {name : String} (h : ForeignScalar p name) {v : Option α} : scalarOpt p name ≠ .ok v := by
  obtain ⟨a, h1, h2, h3, h4⟩ := h
  unfold scalarOpt
  rw [h1]
  have he : a.isEmpty = false := by simp [Mx.isEmpty, h2, h3]
  dsimp only
  rw [if_pos ⟨he, h2, h3⟩]
  cases a with
  | dbl => cases h4
  | sparse => cases h4
  | struct => intro hh; cases hh
  | logical m n l =>
    intro hh
    cases l <;> cases hh
  | other m n =>
    obtain rfl : m = 1 := h2
    obtain rfl : n = 1 := h3
    intro hh
    cases hh

/-- C62: an entry with one element of another class than double (a logical value, a character, a struct) is read all the same: the
call has undefined behaviour. -/
theorem C62_foreign {name : String} (h : ForeignScalar p name) :
    (name ∈ qpoNums ++ qpoInts → ∀ o r, setupQpoases toInt p o ≠ .ok r) ∧
    (name ∈ osqpNums ++ osqpInts → ∀ o r, setupOsqp toInt p o ≠ .ok r) := by
  constructor
  · intro hn o r hr
    obtain ⟨v, hv⟩ := setupQpoases_inv hr name hn
    exact h.fault hv
  · intro hn o r hr
    obtain ⟨v, hv⟩ := setupOsqp_inv hr name hn
    exact h.fault hv

/-- C62: all other entries are ignored; among them are `maxIter` and `maxCpuTime`, which the options struct of qpOASES contains -/
theorem C62_qpoases_ignored {p' : Mx α} (h : ∀ n ∈ qpoNums ++ qpoInts, p.field n = p'.field n) (o : QpoOptions α) :
    setupQpoases toInt p o = setupQpoases toInt p' o := by
  have h : ∀ n ∈ qpoNums ++ qpoInts, scalarOpt p n = scalarOpt p' n := fun n hn => by rw [scalarOpt, scalarOpt, h n hn]
  have hN : ∀ n ∈ qpoNums ++ qpoInts, ∀ (set : α → QpoOptions α → QpoOptions α) o, optNum p n set o = optNum p' n set o := fun n hn set o => by
    rw [optNum, optNum, h n hn]
  have hI : ∀ n ∈ qpoNums ++ qpoInts, ∀ (set : Int → QpoOptions α → QpoOptions α) o, optInt toInt p n set o = optInt toInt p' n set o :=
    fun n hn set o => by rw [optInt, optInt, h n hn]
  unfold setupQpoases
  simp only [hI "printLevel" (by simp [qpoNums, qpoInts]),
    hI "enableRamping" (by simp [qpoNums, qpoInts]),
    hI "enableFarBounds" (by simp [qpoNums, qpoInts]),
    hI "enableFlippingBounds" (by simp [qpoNums, qpoInts]),
    hI "enableRegularisation" (by simp [qpoNums, qpoInts]),
    hI "enableFullLITests" (by simp [qpoNums, qpoInts]),
    hI "enableNZCTests" (by simp [qpoNums, qpoInts]),
    hI "enableDriftCorrection" (by simp [qpoNums, qpoInts]),
    hI "enableCholeskyRefactorisation" (by simp [qpoNums, qpoInts]),
    hI "enableEqualities" (by simp [qpoNums, qpoInts]),
    hN "terminationTolerance" (by simp [qpoNums, qpoInts]),
    hN "boundTolerance" (by simp [qpoNums, qpoInts]),
    hN "boundRelaxation" (by simp [qpoNums, qpoInts]),
    hN "epsNum" (by simp [qpoNums, qpoInts]),
    hN "epsDen" (by simp [qpoNums, qpoInts]),
    hN "maxPrimalJump" (by simp [qpoNums, qpoInts]),
    hN "maxDualJump" (by simp [qpoNums, qpoInts]),
    hN "initialRamping" (by simp [qpoNums, qpoInts]),
    hN "finalRamping" (by simp [qpoNums, qpoInts]),
    hN "initialFarBounds" (by simp [qpoNums, qpoInts]),
    hN "growFarBounds" (by simp [qpoNums, qpoInts]),
    hI "initialStatusBounds" (by simp [qpoNums, qpoInts]),
    hN "epsFlipping" (by simp [qpoNums, qpoInts]),
    hI "numRegularisationSteps" (by simp [qpoNums, qpoInts]),
    hN "epsRegularisation" (by simp [qpoNums, qpoInts]),
    hI "numRefinementSteps" (by simp [qpoNums, qpoInts]),
    hN "epsIterRef" (by simp [qpoNums, qpoInts]),
    hN "epsLITests" (by simp [qpoNums, qpoInts]),
    hN "epsNZCTests" (by simp [qpoNums, qpoInts])]

/-- C62: the same for OSQP -/
theorem C62_osqp_ignored {p' : Mx α} (h : ∀ n ∈ osqpNums ++ osqpInts, p.field n = p'.field n) (o : OsqpOptions α) :
    setupOsqp toInt p o = setupOsqp toInt p' o := by
  have h : ∀ n ∈ osqpNums ++ osqpInts, scalarOpt p n = scalarOpt p' n := fun n hn => by rw [scalarOpt, scalarOpt, h n hn]
  have hN : ∀ n ∈ osqpNums ++ osqpInts, ∀ (set : α → OsqpOptions α → OsqpOptions α) o, optNum p n set o = optNum p' n set o := fun n hn set o => by
    rw [optNum, optNum, h n hn]
  have hI : ∀ n ∈ osqpNums ++ osqpInts, ∀ (set : Int → OsqpOptions α → OsqpOptions α) o, optInt toInt p n set o = optInt toInt p' n set o :=
    fun n hn set o => by rw [optInt, optInt, h n hn]
  unfold setupOsqp
  simp only [hN "rho" (by simp [osqpNums, osqpInts]),
    hN "sigma" (by simp [osqpNums, osqpInts]),
    hI "scaling" (by simp [osqpNums, osqpInts]),
    hI "adaptive_rho" (by simp [osqpNums, osqpInts]),
    hI "adaptive_rho_interval" (by simp [osqpNums, osqpInts]),
    hN "adaptive_rho_tolerance" (by simp [osqpNums, osqpInts]),
    hN "adaptive_rho_fraction" (by simp [osqpNums, osqpInts]),
    hI "max_iter" (by simp [osqpNums, osqpInts]),
    hN "eps_abs" (by simp [osqpNums, osqpInts]),
    hN "eps_rel" (by simp [osqpNums, osqpInts]),
    hN "eps_prim_inf" (by simp [osqpNums, osqpInts]),
    hN "eps_dual_inf" (by simp [osqpNums, osqpInts]),
    hN "alpha" (by simp [osqpNums, osqpInts]),
    hN "delta" (by simp [osqpNums, osqpInts]),
    hI "polish" (by simp [osqpNums, osqpInts]),
    hI "polish_refine_iter" (by simp [osqpNums, osqpInts]),
    hI "verbose" (by simp [osqpNums, osqpInts]),
    hI "scaled_termination" (by simp [osqpNums, osqpInts]),
    hI "check_termination" (by simp [osqpNums, osqpInts]),
    hI "warm_start" (by simp [osqpNums, osqpInts]),
    hN "time_limit" (by simp [osqpNums, osqpInts])]

/-- C62: entries reach their options, the print level is cut, `maxIter` is ignored -/
example (o : QpoOptions Int) : setupQpoases .ok (.struct [("maxIter", .dbl 1 1 [4]), ("epsNum", .dbl 1 1 [5]), ("printLevel", .dbl 1 1 [7]),
    ("epsDen", .dbl 2 1 [8, 9])]) o = .ok { o with
      epsNum := 5
      printLevel := 3 } := rfl

/-- C62: the hypotheses of `C62_osqp` can be met -/
example (o : OsqpOptions Int) : setupOsqp .ok (.struct [("rho", .dbl 1 1 [4])]) o =
    .ok (osqpWith (fun n => if n = "rho" then some 4 else none) (fun _ => none) o) := by
  apply C62_osqp
  · intro n hn
    simp only [osqpNums, List.mem_cons, List.not_mem_nil, or_false] at hn
    rcases hn with rfl | rfl | rfl | rfl | rfl | rfl | rfl | rfl | rfl | rfl | rfl <;>
      first | rfl | (intro a ha; cases ha)
  · intro n hn
    simp only [osqpInts, List.mem_cons, List.not_mem_nil, or_false] at hn
    rcases hn with rfl | rfl | rfl | rfl | rfl | rfl | rfl | rfl | rfl | rfl <;> (intro a ha; cases ha)

/-- C62: the logical value `true` for `polish` -/
example (o : OsqpOptions Int) : setupOsqp .ok (.struct [("polish", .logical 1 1 [true])]) o = .error .oob := rfl

end LCQ
