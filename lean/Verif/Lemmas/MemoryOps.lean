import Verif.Lemmas.Memory

/-!
# The functions of the heap model are built from harmless steps
-/

namespace LCQ.Mem

/-- decompose a program into its steps and check each of them -/
macro "built" : tactic => `(tactic| repeat' (first
  | with_reducible exact Built.ret _
  | with_reducible exact Built.isSet _
  | with_reducible exact Built.isSparse
  | with_reducible exact Built.newA rfl
  | with_reducible exact Built.delA rfl
  | with_reducible exact Built.newIf rfl
  | with_reducible exact Built.new rfl
  | with_reducible exact Built.free rfl
  | with_reducible exact Built.drop rfl
  | with_reducible exact Built.del rfl
  | with_reducible exact Built.renew rfl
  | with_reducible exact Built.newIfNull rfl
  | with_reducible exact Built.touch rfl
  | with_reducible exact Built.setSparse rfl
  | with_reducible apply Built.andIf
  | with_reducible apply Built.when
  | with_reducible apply Built.ite
  | with_reducible refine Built.bind ?_ fun _ => ?_
  | with_reducible assumption))

/-- members that hold the loaded problem -/
def Arr.isData : Arr → Bool
  | .Q | .g | .lbTmp | .ubTmp | .A | .lbA | .ubA | .L | .R | .C | .lbL | .ubL | .lbR | .ubR | .xk
  | .yk => true
  | _ => false

/-- the same for all pointers -/
def Slot.isData : Slot → Bool
  | .arr a => a.isData
  | .csc .Qk _ => false
  | .csc _ _ => true
  | _ => false

/-- members that a run only reads -/
def Slot.isProb : Slot → Bool
  | .arr .lbTmp | .arr .ubTmp | .arr .xk | .arr .yk => false
  | s => s.isData

/-- members of the OSQP wrapper of the problem -/
def Slot.isMain : Slot → Bool
  | .os .main _ => true
  | _ => false

/-- steps that lose no block of the loaded problem; the OSQP wrapper of the problem lives on -/
def Keep : Step → Bool
  | .new s _ => !s.isData
  | .drop s => !s.isData && !s.isMain
  | .del s _ => !s.isProb
  | .renew s _ => !s.isProb
  | .setSparse _ => false
  | _ => true

/-- steps of a run -/
def RunSafe (st : Step) : Bool := Safe st && Keep st

/-- steps of a run that may use the workspace -/
def RunUse (st : Step) : Bool := SafeUse st && Keep st

/-- local pointers -/
def Slot.isLoc : Slot → Bool
  | .loc _ => true
  | _ => false

/-- only local arrays are released -/
def FreeLoc : Step → Bool
  | .free _ _ => false
  | .del s _ => s.isLoc
  | .renew s _ => s.isLoc
  | _ => true

/-- steps of a load -/
def LoadSafe (st : Step) : Bool := Safe st && FreeLoc st

theorem Built.run {β : Type} {m : Op β} (hb : Built RunSafe m) : Built Safe m :=
  hb.mono fun _ h => (Bool.and_eq_true_iff.1 h).1
theorem Built.runUse {β : Type} {m : Op β} (hb : Built RunSafe m) : Built RunUse m :=
  hb.mono fun st h => by
    obtain ⟨h1, h2⟩ := Bool.and_eq_true_iff.1 h
    refine Bool.and_eq_true_iff.2 ⟨?_, h2⟩
    cases st <;> simp_all [SafeUse, Safe]
theorem Built.useRun {β : Type} {m : Op β} (hb : Built RunUse m) : Built SafeUse m :=
  hb.mono fun _ h => (Bool.and_eq_true_iff.1 h).1
theorem Built.useKeep {β : Type} {m : Op β} (hb : Built RunUse m) : Built Keep m :=
  hb.mono fun _ h => (Bool.and_eq_true_iff.1 h).2
theorem Built.runKeep {β : Type} {m : Op β} (hb : Built RunSafe m) : Built Keep m :=
  hb.mono fun _ h => (Bool.and_eq_true_iff.1 h).2
theorem Built.load {β : Type} {m : Op β} (hb : Built LoadSafe m) : Built Safe m :=
  hb.mono fun _ h => (Bool.and_eq_true_iff.1 h).1

theorem newCsc_built {A : Step → Bool} {m : Csc} (h : ∀ p, A (.new (.csc m p) .c) = true) :
    Built A (newCsc m) := .each fun p _ => .new (h p)

theorem touchCsc_built {A : Step → Bool} (m : Csc) (h : ∀ p, A (.touch (.csc m p)) = true) :
    Built A (touchCsc m) := .each fun p _ => .touch (h p)

theorem delCsc_built (m : Csc) : Built Safe (delCsc m) := by
  simp only [delCsc, each]
  built

theorem construct_built (ok : Bool) : Built Safe (construct ok) := by
  simp only [construct, each]
  built

theorem setQ_built (c : Load) : Built LoadSafe (setQ c) := by
  simp only [setQ]
  built

theorem setG_built (c : Load) : Built LoadSafe (setG c) := by
  simp only [setG]
  built

theorem setConstraints_built (c : Load) : Built LoadSafe (setConstraints c) := by
  simp only [setConstraints, newBounds]
  built

theorem setCompBounds_built (c : Load) : Built LoadSafe (setCompBounds c) := by
  simp only [setCompBounds, each]
  built

theorem setInitialGuess_built (c : Load) : Built LoadSafe (setInitialGuess c) := by
  simp only [setInitialGuess]
  built

theorem setTmp_built (c : Load) : Built LoadSafe (setTmp c) := by
  simp only [setTmp]
  built

theorem loadDense_built (c : Load) : Built LoadSafe (loadDense c) := by
  have h1 := setQ_built c
  have h2 := setG_built c
  have h3 := setTmp_built c
  have h4 := setConstraints_built c
  have h5 := setCompBounds_built c
  have h6 := setInitialGuess_built c
  simp only [loadDense]
  built

theorem setConstraintsSparse_built (c : Load) : Built LoadSafe (setConstraintsSparse c) := by
  have h1 : ∀ m, Built LoadSafe (newCsc m) := fun m => newCsc_built fun p => rfl
  have h2 : ∀ m, Built LoadSafe (touchCsc m) := fun m => touchCsc_built m fun p => rfl
  simp only [setConstraintsSparse, newBounds, each]
  built
  all_goals first | exact h1 _ | exact h2 _

theorem loadSparse_built (c : Load) : Built LoadSafe (loadSparse c) := by
  have h1 : Built LoadSafe (setQs c) := by
    simp only [setQs]
    have : Built LoadSafe (newCsc .Q) := newCsc_built fun p => rfl
    built
  have h2 := setG_built c
  have h3 := setTmp_built c
  have h4 := setConstraintsSparse_built c
  have h5 := setCompBounds_built c
  have h6 := setInitialGuess_built c
  simp only [loadSparse]
  built

theorem readAll_built (c : FileLoad) (l : List Loc) : Built LoadSafe (readAll c l) := by
  induction l with
  | nil => exact .ret _
  | cons a l ih =>
    simp only [readAll, readLoc]
    built

theorem loadFiles_built (c : FileLoad) : Built LoadSafe (loadFiles c) := by
  have h0 := readAll_built c fileLocs
  have h1 := setQ_built c.toLoad
  have h2 := setG_built { c.toLoad with g := true }
  have h4 := setConstraints_built { c.toLoad with LR := true }
  have h5 := setCompBounds_built c.toLoad
  have h6 := setInitialGuess_built c.toLoad
  simp only [loadFiles, loadFilesBody, tmpFrom]
  refine .bind ?_ fun _ => .bind (.each fun _ _ => .drop rfl) fun _ => .ret _
  refine .andIf h0 ?_
  simp only [each]
  built

theorem setOptions_built (b : Bool) : Built RunSafe (setOptions b) := by
  simp only [setOptions]
  built

theorem qoClear_built (w : Who) : Built RunSafe (qoClear w) := by
  simp only [qoClear, each]
  built

theorem qoEnd_built (w : Who) : Built RunSafe (qoEnd w) :=
  .bind (qoClear_built w) fun _ => .each fun _ _ => .drop rfl

theorem qoNew_built (w : Who) (sp : Bool) : Built RunSafe (qoNew w sp) := by
  simp only [qoNew, each]
  built

theorem qoTouch_built (w : Who) : Built RunSafe (qoTouch w) := by
  simp only [qoTouch, each]
  built

theorem qoCopy_built (v w : Who) (sp : Bool) : Built RunSafe (qoCopy v w sp) :=
  .bind (qoClear_built v) fun _ => .bind (qoTouch_built w) fun _ => .bind (qoNew_built v sp) fun _ =>
    qoTouch_built w

/-- clearing an OSQP wrapper, after the workspace -/
def osRest (w : Who) : Op Unit := do
  touch (.os w .data)
  each (fun f => del (.os w f) .c) [.l, .u, .q, .data]
  osDelMat fun p => .os w (.Q p)
  osDelMat fun p => .os w (.A p)
  del (.os w .settings) .c

theorem osClear_eq (w : Who) : osClear w = (do free (.os w .work) .c; osRest w) := by
  unfold osClear osRest
  rfl

theorem osRest_built (w : Who) : Built RunSafe (osRest w) := by
  simp only [osRest, osDelMat, each]
  built

theorem osClear_built {w : Who} (hw : w ≠ .main) : Built RunSafe (osClear w) := by
  rw [osClear_eq]
  exact .bind (.free (by simpa [RunSafe, Safe, Keep] using hw)) fun _ => osRest_built w

theorem osEnd_built {w : Who} (hw : w ≠ .main) : Built RunSafe (osEnd w) :=
  .bind (osClear_built hw) fun _ => .each fun _ _ => .drop (by
    cases w <;> first | exact absurd rfl hw | rfl)

theorem osNewMats_built (w : Who) : Built RunSafe (osNewMats w) := by
  simp only [osNewMats, each]
  built

theorem osTouch_built (w : Who) : Built RunSafe (osTouch w) := by
  simp only [osTouch, each]
  built

theorem osSetOptions_built (w : Who) {s : Slot} (hs : s.isWork = false) :
    Built RunSafe (osSetOptions w s) := by
  simp only [osSetOptions]
  have h1 : Built RunSafe (touch s) := .touch (by simp [RunSafe, Keep, Safe, hs])
  built

theorem osData_built (w : Who) : Built RunSafe (osData w) := by
  simp only [osData, each]
  built

/-- what `osqp_setup` reads -/
def osLook (w : Who) : Op Unit := do
  each (fun f => touch (.os w f)) [.data, .l, .u, .q, .settings]
  osTouch w

theorem osLook_built (w : Who) : Built RunSafe (osLook w) := by
  have := osTouch_built w
  simp only [osLook, each]
  built

theorem osSetup_eq (w : Who) (ok : Bool) (h : Hp) :
    osSetup w ok h = when ok (new (.os w .work) .c) (osLook w h).2 := by
  simp only [osSetup, osLook, bind_apply]

theorem osSetup_built (w : Who) : Built RunSafe (osSetup w false) := by
  have := osTouch_built w
  simp only [osSetup, each, when, Bool.false_eq_true, if_false]
  built

/-- `SubsolverOSQP::copy` after `clear` -/
def osFill (dst src : Who) (ok : Bool) : Op Unit := do
  osTouch src
  osNewMats dst
  osSetOptions dst (.os src .settings)
  let b ← isSet (.os src .data)
  when b do
    each (fun f => touch (.os src f)) [.data, .l, .u, .q]
    osData dst
    osSetup dst ok

theorem osCopy_eq (v w : Who) (ok : Bool) : osCopy v w ok = (do osClear v; osFill v w ok) := by
  unfold osCopy osFill
  rfl

theorem osFill_built (v w : Who) : Built RunSafe (osFill v w false) := by
  have h1 := osTouch_built w
  have h2 := osNewMats_built v
  have h3 : Built RunSafe (osSetOptions v (.os w .settings)) := osSetOptions_built v rfl
  have h4 := osData_built v
  have h5 := osSetup_built v
  simp only [osFill, each]
  built

theorem osCopy_built {v : Who} (hv : v ≠ .main) (w : Who) : Built RunSafe (osCopy v w false) := by
  rw [osCopy_eq]
  exact .bind (osClear_built hv) fun _ => osFill_built v w

theorem subEnd_built {w : Who} (hw : w ≠ .main) : Built RunSafe (subEnd w) :=
  .bind (osEnd_built hw) fun _ => qoEnd_built w

theorem buildQpoases_built (sp : Bool) : Built RunSafe (buildQpoases sp) := by
  simp only [buildQpoases]
  refine .bind (qoNew_built _ _) fun _ => .bind (qoCopy_built _ _ _) fun _ => .bind (qoEnd_built _)
    fun _ => .bind (qoCopy_built _ _ _) fun _ => .bind (qoCopy_built _ _ _) fun _ =>
    .bind (qoEnd_built _) fun _ => subEnd_built (by decide)

/-- `buildOsqp` before the assignment to the member -/
def osqpHead : Op Unit := do
  osNewMats .inner
  osCopy .outer .inner false
  osEnd .inner
  osCopy .arg .outer false

/-- `buildOsqp` after the release of the old workspace -/
def osqpTail : Op Unit := do
  osRest .main
  osFill .main .arg false
  osEnd .arg
  subEnd .outer

theorem buildOsqp_eq (h : Hp) :
    buildOsqp h = osqpTail (free (.os .main .work) .c (osqpHead h).2).2 := by
  simp only [buildOsqp, osqpTail, osqpHead, osCopy_eq .main, osClear_eq .main, bind_apply]

theorem osqpHead_built : Built RunSafe osqpHead :=
  .bind (osNewMats_built _) fun _ => .bind (osCopy_built (by decide) _) fun _ =>
    .bind (osEnd_built (by decide)) fun _ => osCopy_built (by decide) _

theorem osqpTail_built : Built RunSafe osqpTail :=
  .bind (osRest_built _) fun _ => .bind (osFill_built _ _) fun _ =>
    .bind (osEnd_built (by decide)) fun _ => subEnd_built (by decide)

theorem setBoxes_built : Built RunSafe setBoxes := by
  simp only [setBoxes]
  built

theorem shiftGuess_built : Built RunSafe shiftGuess := by
  simp only [shiftGuess]
  built

theorem initRest_built (sel : Sel) : Built RunSafe (initRest sel) := by
  have h1 : Built RunSafe (touchCsc .R) := touchCsc_built _ fun p => rfl
  have h2 : Built RunSafe (touchCsc .L) := touchCsc_built _ fun p => rfl
  have h3 : Built RunSafe (osSetOptions .main .opt) := osSetOptions_built .main rfl
  cases sel <;>
  · simp only [initRest, each]
    built

theorem ensureIterates_built : Built RunSafe ensureIterates := by
  simp only [ensureIterates]
  built

theorem setQk_built : Built RunSafe setQk := by
  have h1 : ∀ m, Built RunSafe (touchCsc m) := fun m => touchCsc_built m fun p => rfl
  have h2 : Built RunSafe (newCsc .Qk) := newCsc_built fun p => rfl
  simp only [setQk, each]
  built
  all_goals exact h1 _

theorem finish_built : Built RunSafe finish := by
  have h1 : Built RunSafe (touchCsc .R) := touchCsc_built _ fun p => rfl
  have h2 : Built RunSafe (touchCsc .L) := touchCsc_built _ fun p => rfl
  simp only [finish, each]
  built

theorem touchArrs_built (l : List Arr) : Built RunSafe (each (fun a => touch (.arr a)) l) :=
  .each fun _ _ => .touch rfl

theorem hotSolve_built (c : Run) : Built RunUse (hotSolve c) := by
  unfold hotSolve
  refine .bind (touchArrs_built _).runUse fun _ => ?_
  cases c.sel <;> (simp only [qoAll, each]; built)

theorem loopActs_built (c : Run) (l : List (Bool × Arr)) : Built RunUse (loopActs c l) := by
  induction l with
  | nil => exact .ret _
  | cons a l ih =>
    obtain ⟨hot, a⟩ := a
    simp only [loopActs]
    refine .bind ?_ fun _ => .bind (Built.touch rfl) fun _ => .bind (.each fun m _ =>
      touchCsc_built m fun p => rfl) fun _ => ih
    exact .when (.bind (hotSolve_built c) fun _ => ensureIterates_built.runUse)

theorem toCsc_built (m : Csc) (a : Arr) : Built Safe (toCsc m a) := by
  simp only [toCsc, each]
  built

theorem switchToSparse_built : Built Safe switchToSparse := by
  have h := toCsc_built
  simp only [switchToSparse, each]
  built
  all_goals exact h _ _

theorem toDns_built (ok : Bool) (a : Arr) (m : Csc) : Built Safe (toDns ok a m) := by
  have h : Built Safe (touchCsc m) := touchCsc_built m fun p => rfl
  simp only [toDns]
  built

theorem switchToDense_built (ok : Arr → Bool) : Built Safe (switchToDense ok) := by
  have h := toDns_built
  have h2 := delCsc_built
  simp only [switchToDense, each]
  built
  all_goals first | exact h _ _ _ | exact h2 _

theorem clear_built : Built Safe clear :=
  .bind (.each fun _ _ => Built.delA rfl) fun _ => .each fun m _ => delCsc_built m

/-- `runSolver` after the choice of the subsolver -/
def afterInit (c : Run) : Op Unit := do
  initRest c.sel
  each (fun a => touch (.arr a)) [.gk, .g, .gTilde, .xk, .C]
  touchCsc .C
  firstSolve c
  ensureIterates
  when c.first do
    setQk
    loopActs c c.acts
    when c.success finish

theorem run_eq (c : Run) (h : Hp) : run c h =
    if (chooseSolver c.sel h).1 then afterInit c (chooseSolver c.sel h).2
    else ((), (chooseSolver c.sel h).2) := by
  unfold run
  rw [bind_apply]
  cases (chooseSolver c.sel h).1 <;> rfl

/-- `runSolver` before the first use of the QP solver -/
def beforeSolve (c : Run) : Op Unit := do
  initRest c.sel
  each (fun a => touch (.arr a)) [.gk, .g, .gTilde, .xk, .C]
  touchCsc .C
  each (fun a => touch (.arr a)) [.gk, .lbA, .ubA, .xk, .yk, .lb, .ub]

/-- `runSolver` after the first use of the QP solver -/
def afterSolve (c : Run) : Op Unit := do
  ensureIterates
  when c.first do
    setQk
    loopActs c c.acts
    when c.success finish

theorem beforeSolve_built (c : Run) : Built RunSafe (beforeSolve c) :=
  .bind (initRest_built _) fun _ => .bind (touchArrs_built _) fun _ =>
    .bind (touchCsc_built _ fun _ => rfl) fun _ => touchArrs_built _

theorem afterSolve_built (c : Run) : Built RunUse (afterSolve c) := by
  have h1 := ensureIterates_built.runUse
  have h2 := setQk_built.runUse
  have h3 := loopActs_built c c.acts
  have h4 := finish_built.runUse
  simp only [afterSolve]
  built

theorem qoTouchAll_built : Built RunUse (each (fun f => touch (.qo .main f)) qoAll) :=
  .each fun _ _ => .touch rfl

theorem afterInit_qp {c : Run} (hc : c.sel ≠ .osqp) (h : Hp) : afterInit c h =
    afterSolve c (each (fun f => touch (.qo .main f)) qoAll (beforeSolve c h).2).2 := by
  simp only [afterInit, afterSolve, beforeSolve, firstSolve, bind_apply]

theorem afterInit_osqp {c : Run} (hc : c.sel = .osqp) (h : Hp) : afterInit c h =
    afterSolve c (touch (.os .main .work) (when c.setup (new (.os .main .work) .c)
      (osLook .main (osData .main (beforeSolve c h).2).2).2).2).2 := by
  simp only [afterInit, afterSolve, beforeSolve, firstSolve, bind_apply, hc, osSetup_eq]

theorem chooseSolver_qp {sel : Sel} (hs : sel ≠ .osqp) : Built RunSafe (chooseSolver sel) := by
  have h1 := setBoxes_built
  have h2 := buildQpoases_built
  have h3 : ∀ m, Built RunSafe (touchCsc m) := fun m => touchCsc_built m fun p => rfl
  unfold chooseSolver
  cases sel
  case osqp => exact absurd rfl hs
  all_goals
    dsimp only
    built
  all_goals first | with_reducible exact h2 _ | with_reducible exact h3 _

theorem chooseOsqp_eq (h : Hp) : chooseSolver .osqp h =
    if (h.ptr (.arr .lb)).isSome || (h.ptr (.arr .ub)).isSome then (false, h)
    else if h.sparse then
      if ((shiftGuess h).2.ptr (.arr .lbTmp)).isSome || ((shiftGuess h).2.ptr (.arr .ubTmp)).isSome
      then (false, (shiftGuess h).2)
      else (true, (buildOsqp (touchCsc .A (touchCsc .Q (shiftGuess h).2).2).2).2)
    else (false, (shiftGuess h).2) := by
  simp only [chooseSolver, bind_apply, isSparse_fst, isSparse_snd, isSet_fst, isSet_snd]
  split
  · rfl
  · rw [bind_apply]
    cases h.sparse
    · rfl
    · simp only [if_true, bind_apply, isSet_fst, isSet_snd]
      split
      · rfl
      · simp only [bind_apply, ret]

/-- the OSQP branch either stops after harmless steps or goes on to build the subsolver -/
theorem chooseOsqp (h : Hp) : ∃ m : Op Unit, Built RunSafe m ∧
    (chooseSolver .osqp h = (false, (m h).2) ∨
      chooseSolver .osqp h = (true, (buildOsqp (m h).2).2)) := by
  rw [chooseOsqp_eq]
  split
  · exact ⟨ret (), .ret _, .inl rfl⟩
  · split
    · split
      · exact ⟨shiftGuess, shiftGuess_built, .inl rfl⟩
      · refine ⟨do shiftGuess; touchCsc .Q; touchCsc .A, .bind shiftGuess_built fun _ =>
          
          .bind (touchCsc_built _ fun _ => rfl) fun _ => touchCsc_built _ fun _ => rfl, .inr ?_⟩
        simp only [bind_apply]
    · exact ⟨shiftGuess, shiftGuess_built, .inl rfl⟩

/-! ## soundness of the calls -/

theorem Inv.join {h : Hp} (hi : Inv NoWork h) (hw : h.ptr (.os .main .work) = none) : Inv All h :=
  ⟨hi.sound, hi.fresh, fun s b _ hb => hi.good s b (by
    rintro rfl
    rw [hw] at hb
    simp at hb) hb, hi.known, hi.freed, hi.inj, hi.tmp⟩

theorem SafeUse.keeps_ptr {st : Step} (hs : SafeUse st = true) {h : Hp}
    (hw : h.ptr (.os .main .work) = none) : (st.op h).2.ptr (.os .main .work) = none := by
  have hf : ∀ s k, (Mem.free s k h).2.ptr = h.ptr := by
    intro s k
    unfold Mem.free
    cases h.ptr s <;> rfl
  have upd : ∀ (p : Slot → Option Nat) (s : Slot) (v : Option Nat), p (.os .main .work) = none →
      s ≠ .os .main .work → Function.update p s v (.os .main .work) = none := by
    intro p s v h1 h2
    simp [h2.symm, h1]
  cases st with
  | new s k =>
    simp [SafeUse, Safe] at hs
    exact upd _ _ _ hw (isWork_main hs.2 _)
  | free s k =>
    show (Mem.free s k h).2.ptr _ = none
    rw [hf]
    exact hw
  | drop s =>
    show Function.update h.ptr s none _ = none
    by_cases e : s = .os .main .work
    · simp [e]
    · exact upd _ _ _ hw e
  | del s k =>
    simp [SafeUse, Safe] at hs
    show Function.update (Mem.free s k h).2.ptr s none _ = none
    rw [hf]
    exact upd _ _ _ hw (isWork_main hs.2 _)
  | renew s k =>
    simp [SafeUse, Safe] at hs
    show Function.update (Mem.free s k h).2.ptr s _ _ = none
    rw [hf]
    exact upd _ _ _ hw (isWork_main hs.2 _)
  | newIfNull s k =>
    simp [SafeUse, Safe] at hs
    show (Mem.newIfNull s k h).2.ptr _ = none
    unfold Mem.newIfNull
    split
    · exact upd _ _ _ hw (isWork_main hs.2 _)
    · exact hw
  | touch s =>
    show (Mem.touch s h).2.ptr _ = none
    unfold Mem.touch
    cases h.ptr s <;> exact hw
  | setSparse b => exact hw

theorem Built.nowork {β : Type} {m : Op β} (hb : Built SafeUse m) {h : Hp}
    (hw : h.ptr (.os .main .work) = none) : (m h).2.ptr (.os .main .work) = none :=
  hb.keeps (I := fun h => h.ptr (.os .main .work) = none) (fun _ hs _ hw => SafeUse.keeps_ptr hs hw)
    h hw

theorem Inv.all {h : Hp} (hi : Inv All h) : Inv NoWork h := hi.weaken fun _ _ => trivial

/-- building an OSQP subsolver keeps everything but the old workspace -/
theorem buildOsqp_inv {h : Hp} (hi : Inv All h) : Inv NoWork (buildOsqp h).2 := by
  rw [buildOsqp_eq]
  exact osqpTail_built.run.inv ((osqpHead_built.run.use.invAll hi).free trivial rfl
    fun t ht => ⟨trivial, ht⟩)

/-- a run with OSQP whose setup succeeds, or before which there was no workspace -/
theorem run_osqp_inv {c : Run} (hc : c.sel = .osqp) {h : Hp} (hi : Inv All h)
    (hs : c.setup = false → h.ptr (.os .main .work) = none) : Inv All (run c h).2 := by
  rw [run_eq, hc]
  obtain ⟨m, hm, e | e⟩ := chooseOsqp h
  · rw [e]
    exact hm.run.use.invAll hi
  · rw [e]
    simp only [if_true]
    rw [afterInit_osqp hc]
    have h1 := buildOsqp_inv (hm.run.use.invAll hi)
    have hb : Built RunSafe (do beforeSolve c; osData .main; osLook .main) :=
      .bind (beforeSolve_built c) fun _ => .bind (osData_built _) fun _ => osLook_built _
    have h2 := hb.run.inv h1
    simp only [bind_apply] at h2
    refine (afterSolve_built c).useRun.invAll (Inv.touch ?_ trivial)
    cases hset : c.setup with
    | true =>
      exact h2.new rfl (by
        rintro w hw he
        cases he
        exact hw rfl) fun t _ ht => ht
    | false =>
      refine h2.join ?_
      have h3 : (buildOsqp (m h).2).2.ptr (.os .main .work) = none := by
        rw [buildOsqp_eq]
        refine osqpTail_built.run.use.nowork ?_
        have h4 := osqpHead_built.run.use.nowork (hm.run.use.nowork (hs hset))
        simp only [Mem.free, h4]
      have := hb.run.use.nowork h3
      simpa only [bind_apply] using this
  
theorem run_qp_built {c : Run} (hc : c.sel ≠ .osqp) : Built RunUse (run c) := by
  have h1 := (chooseSolver_qp hc).runUse
  have e : run c = (do
      let b ← chooseSolver c.sel
      if b then (do
        beforeSolve c
        each (fun f => touch (.qo .main f)) qoAll
        afterSolve c)
      else ret ()) := by
    funext h
    rw [run_eq, bind_apply]
    cases (chooseSolver c.sel h).1
    · rfl
    · simp only [if_true, afterInit_qp hc, bind_apply]
  rw [e]
  refine .bind h1 fun b => ?_
  with_reducible apply Built.ite
  · exact .bind (beforeSolve_built c).runUse fun _ => .bind qoTouchAll_built fun _ => afterSolve_built c
  · exact .ret _

theorem destroy_eq (h : Hp) : destroy h = (do
      osRest .main
      each (fun f => drop (.os .main f)) osAll
      qoEnd .main
      del .opt .c : Op Unit) (free (.os .main .work) .c (clear h).2).2 := by
  rw [destroy, bind_apply, bind_apply, subEnd, bind_apply, osEnd, bind_apply, osClear_eq, bind_apply]
  rw [bind_apply, bind_apply, bind_apply]

/-- the end of the object -/
theorem destroy_inv {h : Hp} (hi : Inv All h) : Inv All (destroy h).2 := by
  rw [destroy_eq]
  have h1 : Inv NoWork (free (.os .main .work) .c (clear h).2).2 :=
    (clear_built.use.invAll hi).free trivial rfl fun t ht => ⟨trivial, ht⟩
  simp only [bind_apply]
  have h2 := (osRest_built .main).run.inv h1
  have h3 : Inv All (each (fun f => drop (.os .main f)) osAll
      (osRest .main (free (.os .main .work) .c (clear h).2).2).2).2 := by
    simp only [osAll]
    rw [each, bind_apply]
    refine Built.invAll (m := each (fun f => drop (.os .main f)) _) (.each fun _ _ => .drop rfl) ?_
    exact h2.drop fun t _ ht => ht
  exact Built.invAll (Built.del rfl) ((qoEnd_built .main).run.use.invAll h3)

end LCQ.Mem
