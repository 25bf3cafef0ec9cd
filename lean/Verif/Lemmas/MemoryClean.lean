import Verif.Lemmas.MemoryLeak

/-!
# One load and one run leave no block behind
-/

namespace LCQ.Mem

variable {n0 : Nat} {D D' D1 : List Slot}

theorem NB.isSparse {γ : Type} {f : Bool → Op γ} (hf : ∀ b, NB n0 D (f b) D') :
    NB n0 D (isSparse >>= f) D' := by
  intro h hn
  rw [bind_apply, isSparse_snd]
  exact hf _ h hn

theorem NB.ite {β : Type} {c : Prop} [Decidable c] {m n : Op β} (hm : NB n0 D m D')
    (hn : NB n0 D n D1) (hd : sub D1 D' = true) : NB n0 D (if c then m else n) D' := by
  split
  · exact hm
  · exact hn.weaken' hd

theorem NB.touches {l : List Arr} : NB n0 D (each (fun a => Mem.touch (.arr a)) l) D :=
  .look (.each fun _ _ => .touch rfl)

theorem NB.hotSolve {c : Run} : NB n0 D (hotSolve c) D := by
  refine .look ?_
  unfold Mem.hotSolve
  refine .bind (.each fun _ _ => .touch rfl) fun _ => ?_
  cases c.sel
  case osqp => exact .bind (.touch rfl) fun _ => .each fun _ _ => .touch rfl
  all_goals exact .each fun _ _ => .touch rfl

theorem NB.loopActs {c : Run} (hx : Slot.arr .xk ∈ D) (hy : Slot.arr .yk ∈ D)
    (l : List (Bool × Arr)) : NB n0 D (loopActs c l) D := by
  induction l with
  | nil => exact .ret _
  | cons a l ih =>
    obtain ⟨hot, a⟩ := a
    unfold Mem.loopActs
    refine .bind (.when (.bind .hotSolve fun _ => .bind (.newIfNull hx) fun _ => .newIfNull hy)
      fun _ h => h) fun _ => .bind .touch fun _ => .bind ?_ fun _ => ih
    exact .look (.each fun m _ => touchCsc_built m fun _ => rfl)

/-- follow the code, nothing allocated before -/
macro "held0" : tactic => `(tactic| repeat' (first
  | with_reducible exact NB.ret _
  | with_reducible exact NB.touch
  | with_reducible exact NB.touches
  | with_reducible exact NB.setSparse
  | with_reducible exact NB.touchCsc
  | with_reducible exact NB.hotSolve
  | with_reducible exact NB.free
  | with_reducible exact NB.del
  | with_reducible exact NB.delA
  | with_reducible exact NB.renew
  | with_reducible exact NB.whenFalse
  | with_reducible exact NB.newA (by decide +kernel)
  | with_reducible exact NB.new (by decide +kernel)
  | with_reducible exact NB.newIfNull (by decide +kernel)
  | with_reducible exact NB.drop (by decide +kernel)
  | with_reducible exact NB.loopActs (by decide +kernel) (by decide +kernel) _
  | ((with_reducible apply NB.isSetNone); (with_unfolding_all decide +kernel))
  | with_reducible apply NB.isSet
  | with_reducible apply NB.isSparse
  | with_reducible apply NB.when'
  | with_reducible apply NB.ite
  | with_reducible apply NB.bind
  | with_reducible intro _
  | decide +kernel))

/-- members that the constructor sets -/
def ctorSlots : List Slot := [.opt, .arr .Qk, .arr .gk, .arr .xnew, .arr .ykA, .arr .pk, .arr .statk,
  .arr .cstat, .arr .bstat, .arr .lkTmp]

/-- members after construction and a load -/
def loadSlots : List Slot := ctorSlots ++ denseSlots ++ sparseSlots

theorem construct_nb (ok : Bool) : NB 0 [] (construct ok) ctorSlots := by
  simp only [construct, each]
  apply NB.weaken'
  held0

theorem loadDense_clean (c : Load) : NS 0 ctorSlots (loadDense c) loadSlots := by
  simp only [loadDense, setQ, setG, setTmp, setConstraints, newBounds, setCompBounds, each]
  apply NS.weaken'
  held

theorem loadSparse_clean (c : Load) : NS 0 ctorSlots (loadSparse c) loadSlots := by
  simp only [loadSparse, setQs, setG, setTmp, setConstraintsSparse, newCsc, newBounds, setCompBounds,
    each]
  apply NS.weaken'
  held

theorem loadFiles_clean (c : FileLoad) : NS 0 ctorSlots (loadFiles c) loadSlots := by
  simp only [loadFiles, loadFilesBody, fileLocs, readAll, tmpFrom, setQ, setG, setConstraints,
    newBounds, setCompBounds, each, FileLoad.given, if_true]
  generalize c.lb = lb
  generalize c.ub = ub
  cases lb <;> cases ub
  all_goals
    apply NS.weaken'
    held
  all_goals rfl

theorem setOptions_clean (b : Bool) : NB 0 loadSlots (setOptions b) loadSlots := by
  simp only [setOptions]
  apply NB.weaken'
  held0

/-- members after the choice of dense qpOASES -/
def qpSlots : List Slot := loadSlots ++ [.arr .lb, .arr .ub, .qo .main .Q, .qo .main .A]

theorem buildQp_clean : NB 0 loadSlots (do
    setBoxes
    touch (.arr .Q)
    touch (.arr .A)
    buildQpoases false) qpSlots := by
  simp only [setBoxes, buildQpoases, qoNew, qoCopy, qoEnd, subEnd, osEnd, osClear, osDelMat, qoClear,
    qoTouch, osAll, qoAll, each, Bool.false_eq_true, if_false]
  apply NB.weaken'
  held0

/-- the matrices and settings of an OSQP wrapper -/
def osSlots (w : Who) : List Slot := [.os w .settings, .os w (.Q .p), .os w (.Q .i), .os w (.Q .x),
  .os w (.Q .s), .os w (.A .p), .os w (.A .i), .os w (.A .x), .os w (.A .s)]

/-- members after the choice of OSQP -/
def osqpSlots : List Slot := loadSlots ++ osSlots .main

theorem shiftGuess_clean : NB 0 loadSlots shiftGuess loadSlots := by
  simp only [shiftGuess]
  apply NB.weaken'
  held0

theorem osInner_clean : NB 0 loadSlots (osNewMats .inner) (loadSlots ++ osSlots .inner) := by
  simp only [osNewMats, each]
  apply NB.weaken'
  held0

theorem osCopy1_clean : NB 0 (loadSlots ++ osSlots .inner) (osCopy .outer .inner false)
    (loadSlots ++ osSlots .inner ++ osSlots .outer) := by
  simp only [osCopy, osNewMats, osTouch, osSetOptions, osClear, osDelMat, each]
  apply NB.weaken'
  held0

theorem osEnd1_clean : NB 0 (loadSlots ++ osSlots .inner ++ osSlots .outer) (osEnd .inner)
    (loadSlots ++ osSlots .outer) := by
  simp only [osEnd, osClear, osDelMat, osAll, each]
  apply NB.weaken'
  held0

theorem osCopy2_clean : NB 0 (loadSlots ++ osSlots .outer) (osCopy .arg .outer false)
    (loadSlots ++ osSlots .outer ++ osSlots .arg) := by
  simp only [osCopy, osNewMats, osTouch, osSetOptions, osClear, osDelMat, each]
  apply NB.weaken'
  held0

theorem osCopy3_clean : NB 0 (loadSlots ++ osSlots .outer ++ osSlots .arg) (osCopy .main .arg false)
    (loadSlots ++ osSlots .outer ++ osSlots .arg ++ osSlots .main) := by
  simp only [osCopy, osNewMats, osTouch, osSetOptions, osClear, osDelMat, each]
  apply NB.weaken'
  held0

theorem osEnd2_clean : NB 0 (loadSlots ++ osSlots .outer ++ osSlots .arg ++ osSlots .main) (osEnd .arg)
    (loadSlots ++ osSlots .outer ++ osSlots .main) := by
  simp only [osEnd, osClear, osDelMat, osAll, each]
  apply NB.weaken'
  held0

theorem subEnd_clean : NB 0 (loadSlots ++ osSlots .outer ++ osSlots .main) (subEnd .outer)
    osqpSlots := by
  simp only [subEnd, osEnd, osClear, osDelMat, osAll, qoEnd, qoClear, qoAll, each]
  apply NB.weaken'
  held0

theorem buildOsqp_clean : NB 0 loadSlots buildOsqp osqpSlots :=
  .bind osInner_clean fun _ => .bind osCopy1_clean fun _ => .bind osEnd1_clean fun _ =>
    .bind osCopy2_clean fun _ => .bind osCopy3_clean fun _ => .bind osEnd2_clean fun _ => subEnd_clean

/-- members set in the second part of a run -/
def runSlots : List Slot := [.arr .gTilde, .arr .gPhi, .os .main .settings, .csc .Qk .p, .csc .Qk .i,
  .csc .Qk .x, .csc .Qk .s]

theorem afterInit_qp_clean {c : Run} (hc : c.sel = .qpDense) :
    NB 0 qpSlots (afterInit c) (qpSlots ++ runSlots) := by
  have hf : firstSolve c = (do
      each (fun a => touch (.arr a)) [.gk, .lbA, .ubA, .xk, .yk, .lb, .ub]
      each (fun f => touch (.qo .main f)) qoAll) := by
    unfold firstSolve
    rw [hc]
  simp only [afterInit, hf, initRest, osSetOptions, ensureIterates, setQk, newCsc, finish, qoAll, each]
  apply NB.weaken'
  held0

theorem afterInit_osqp_clean {c : Run} (hc : c.sel = .osqp) : NB 0 osqpSlots (afterInit c)
    (osqpSlots ++ runSlots ++ [.os .main .work, .os .main .data, .os .main .l, .os .main .u,
      .os .main .q]) := by
  have hf : firstSolve c = (do
      each (fun a => touch (.arr a)) [.gk, .lbA, .ubA, .xk, .yk, .lb, .ub]
      osData .main
      osSetup .main c.setup
      touch (.os .main .work)) := by
    unfold firstSolve
    rw [hc]
  simp only [afterInit, hf, initRest, osSetOptions, ensureIterates, setQk, newCsc, finish, osData,
    osSetup, osTouch, each]
  apply NB.weaken'
  held0

/-- members that may be set after one load and one run -/
def endSlots : List Slot := qpSlots ++ runSlots ++ osSlots .main ++
  [.os .main .work, .os .main .data, .os .main .l, .os .main .u, .os .main .q]

theorem run_clean {c : Run} (hc : c.sel ≠ .qpSparse) : NB 0 loadSlots (run c) endSlots := by
  intro h hn
  rw [run_eq]
  have stop : NL 0 endSlots h := hn.weaken (sub_iff (by decide +kernel))
  cases hs : c.sel with
  | qpSparse => exact absurd hs hc
  | other => exact stop
  | qpDense =>
    unfold chooseSolver
    rw [bind_apply, isSparse_fst, isSparse_snd]
    cases h.sparse with
    | true => exact stop
    | false =>
      have h1 := buildQp_clean h hn
      have h2 := afterInit_qp_clean hs _ h1
      refine NL.weaken ?_ (sub_iff (D := qpSlots ++ runSlots) (by decide +kernel))
      simpa only [Bool.false_eq_true, if_false, bind_apply, ret, if_true] using h2
  | osqp =>
    rw [chooseOsqp_eq]
    have h1 := shiftGuess_clean h hn
    have stop1 : NL 0 endSlots (shiftGuess h).2 := h1.weaken (sub_iff (by decide +kernel))
    split
    · exact stop
    · split
      · split
        · exact stop1
        · have h3 := buildOsqp_clean _ (NB.touchCsc (m := .A) _ (NB.touchCsc (m := .Q) _ h1))
          have h4 := afterInit_osqp_clean hs _ h3
          exact h4.weaken (sub_iff (by decide +kernel))
      · exact stop1

end LCQ.Mem
