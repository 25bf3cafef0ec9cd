import Verif.Spec.Quiet
import Verif.Lemmas.Run
import Verif.Lemmas.Loop

/-!
# Functions of the solver on states without output
-/

namespace LCQ
open Scalar
variable {α : Type} [Scalar α]

theorem map_bind' {β γ δ : Type} (x : M β) (f : β → M γ) (g : γ → δ) :
    Except.map g (x >>= f) = x >>= fun a => Except.map g (f a) := by
  cases x <;> rfl

theorem map_ok' {β γ : Type} (x : β) (g : β → γ) : Except.map g (.ok x : M β) = .ok (g x) := rfl

theorem map_ite' {β γ : Type} (c : Prop) [Decidable c] (x y : M β) (g : β → γ) :
    Except.map g (if c then x else y) = if c then Except.map g x else Except.map g y := by
  split <;> rfl

theorem bare_updateLinearization (d : Data α) (s : St α) : updateLinearization d.bare s.bare = (updateLinearization d s).map St.bare := by
  simp only [updateLinearization, map_bind', map_ok']; rfl

theorem bare_updateStep (d : Data α) (s : St α) : updateStep d.bare s.bare = (updateStep d s).map St.bare := by
  simp only [updateStep, map_bind', map_ok']; rfl

theorem bare_updateStationarity (d : Data α) (s : St α) : updateStationarity d.bare s.bare = (updateStationarity d s).map St.bare := by
  simp only [updateStationarity, map_bind', map_ok']; rfl

theorem bare_setQk (d : Data α) (s : St α) : setQk d.bare s.bare = (setQk d s).map St.bare := by
  simp only [setQk, map_bind', map_ok', map_ite']; rfl

theorem bare_updateQk (d : Data α) (s : St α) : updateQk d.bare s.bare = (updateQk d s).map St.bare := by
  simp only [updateQk, map_bind', map_ok', map_ite']; rfl

theorem bare_updateGTilde (d : Data α) (s : St α) : updateGTilde d.bare s.bare = (updateGTilde d s).map St.bare := by
  unfold updateGTilde
  change (match d.gPhi with | none => _ | some _ => _) = _
  cases d.gPhi with
  | none => rfl
  | some gp => simp only [map_bind', map_ok']; rfl

theorem bare_rhoOpt (s : Stats α) (r : α) : (s.bare.updateRhoOpt r).2 = ((s.updateRhoOpt r).2).bare := by
  unfold Stats.updateRhoOpt
  split <;> rfl

theorem bare_updatePenalty (d : Data α) (s : St α) : updatePenalty d.bare s.bare = (updatePenalty d s).map St.bare := by
  simp only [updatePenalty, map_bind']
  change (initd s.rho >>= _) = _
  congr 1
  funext r
  have := bare_updateQk d { s with
    hist := if d.opts.nDyn > 0 then [] else s.hist
    rho := some (r *. d.opts.factor)
    stats := (s.stats.updateRhoOpt (r *. d.opts.factor)).2 }
  have e : St.bare { s with
    hist := if d.opts.nDyn > 0 then [] else s.hist
    rho := some (r *. d.opts.factor)
    stats := (s.stats.updateRhoOpt (r *. d.opts.factor)).2 } = { s.bare with
    hist := if d.opts.nDyn > 0 then [] else s.hist
    rho := some (r *. d.opts.factor)
    stats := (s.bare.stats.updateRhoOpt (r *. d.opts.factor)).2 } := by
    simp only [St.bare, bare_rhoOpt]
  rw [e] at this
  refine (congrArg (· >>= fun s => updateGTilde d.bare s) this).trans ?_
  generalize updateQk d _ = m
  cases m with
  | error => rfl
  | ok u => exact bare_updateGTilde d u

theorem bare_iterOuter (s : Stats α) (k : Int) : s.bare.updateIterOuter k = (s.updateIterOuter k).map fun r => (r.1, r.2.bare) := by
  unfold Stats.updateIterOuter
  simp only [map_bind', map_ok', map_ite']; rfl

theorem bare_iterTotal (s : Stats α) (k : Int) : s.bare.updateIterTotal k = (s.updateIterTotal k).map fun r => (r.1, r.2.bare) := by
  unfold Stats.updateIterTotal
  simp only [map_bind', map_ok', map_ite']; rfl

theorem bare_subIter (s : Stats α) (k : Int) : s.bare.updateSubproblemIter k = (s.updateSubproblemIter k).map fun r => (r.1, r.2.bare) := by
  unfold Stats.updateSubproblemIter
  simp only [map_bind', map_ok', map_ite']; rfl

theorem bind_map' {β γ δ : Type} (x : M β) (g : β → γ) (f : γ → M δ) : (Except.map g x >>= f) = x >>= fun a => f (g a) := by
  cases x <;> rfl

theorem bare_updateOuterIter (s : St α) : updateOuterIter s.bare = (updateOuterIter s).map St.bare := by
  have h : s.bare.stats = s.stats.bare := rfl
  simp only [updateOuterIter, h, bare_iterOuter, bind_map', map_bind', map_ok']; rfl

theorem bare_updateTotalIter (s : St α) : updateTotalIter s.bare = (updateTotalIter s).map St.bare := by
  have h : s.bare.stats = s.stats.bare := rfl
  simp only [updateTotalIter, h, bare_iterTotal, bind_map', map_bind', map_ok']; rfl

theorem bare_incInner (s : St α) : incInner s.bare = (incInner s).map St.bare := by
  simp only [incInner, map_bind', map_ok']; rfl

theorem bare_bump (d : Data α) (s : St α) : bump d.bare s.bare = (bump d s).map St.bare := by
  simp only [bump, bare_updatePenalty, bind_map', bare_updateOuterIter, map_bind', map_ok']; rfl

theorem bare_leyffer (d : Data α) (s : St α) :
    leyfferCheckPositive d.bare s.bare = (leyfferCheckPositive d s).map fun r => (r.1, r.2.bare) := by
  simp only [leyfferCheckPositive, map_bind', map_ok', map_ite']; rfl

theorem bare_stepLength (d : Data α) (s : St α) : getOptimalStepLength d.bare s.bare = (getOptimalStepLength d s).map St.bare := by
  simp only [getOptimalStepLength, map_bind', map_ok']; rfl

theorem bare_perturbIf (e : Env α) (d : Data α) (s : St α) : perturbIf e d.bare s.bare = (perturbIf e d s).map St.bare := by
  simp only [perturbIf, perturbStep, map_bind', map_ok', map_ite']; rfl

theorem bare_transformDuals (e : Env α) (d : Data α) (s : St α) : transformDuals e d.bare s.bare = (transformDuals e d s).map St.bare := by
  simp only [transformDuals, map_bind', map_ok']; rfl

theorem bare_determine (e : Env α) (d : Data α) (s : St α) :
    determineStationarityType e d.bare s.bare = (determineStationarityType e d s).map St.bare := by
  simp only [determineStationarityType, map_bind', map_ok']; rfl

theorem bare_dynamicPenalty (d : Data α) (s : St α) : dynamicPenalty d.bare s.bare = (dynamicPenalty d s).map St.bare := by
  simp only [dynamicPenalty, bare_leyffer, bind_map', map_bind', bare_bump, map_ite', map_ok']

theorem bare_subSolve (e : Env α) (d : Data α) (s : St α) (init : Bool) :
    subSolve e d.bare s.bare init = (subSolve e d s init).map fun r => (r.1, r.2.bare) := by
  have hq : ∀ sub nV nC, qpoasesSolve e d.bare s.bare init sub nV nC = (qpoasesSolve e d s init sub nV nC).map fun r => (r.1, r.2.bare) := by
    intro sub nV nC
    simp only [qpoasesSolve, map_bind', map_ok']; rfl
  have hf : ∀ w r, osqpFinish s.bare init w r = (osqpFinish s init w r).map fun r => (r.1, r.2.bare) := by
    intro w r
    simp only [osqpFinish, map_ite', map_ok']; rfl
  have ho : ∀ sub nV nC, osqpSolve e d.bare s.bare init sub nV nC = (osqpSolve e d s init sub nV nC).map fun r => (r.1, r.2.bare) := by
    intro sub nV nC
    simp only [osqpSolve, map_bind', map_ok', map_ite', hf]; rfl
  simp only [subSolve, map_bind']
  change (initd d.sub >>= _) = _
  congr 1
  funext sub
  cases sub with
  | dense => exact hq _ _ _
  | sparse => exact hq _ _ _
  | osqp => exact ho _ _ _

theorem bare_takeSolution (d : Data α) (s : St α) : takeSolution d.bare s.bare = (takeSolution d s).map St.bare := by
  simp only [takeSolution, map_bind', map_ok']; rfl

theorem bare_afterSolve (e : Env α) (d : Data α) (s : St α) : afterSolve e d.bare s.bare = (afterSolve e d s).map St.bare := by
  have h : s.bare.stats = s.stats.bare := rfl
  simp only [afterSolve, h, bare_subIter, bind_map', map_bind', map_ok']; rfl

theorem bare_solveQP (e : Env α) (d : Data α) (s : St α) (init : Bool) :
    solveQP e d.bare s.bare init = (solveQP e d s init).map fun r => (r.1, r.2.bare) := by
  simp only [solveQP, bare_subSolve, bind_map', bare_afterSolve, bare_takeSolution, map_bind', map_ite', map_ok']

/-- step without output -/
def Step.bare : Step α → Step α
  | .inl s => .inl s.bare
  | .inr q => .inr (q.1, q.2.bare)

theorem bare_msg (s : St α) (r : RV) : s.bare.say (.msg r) = (s.say (.msg r)).bare := by
  simp [St.bare, St.say]; rfl

theorem bare_quiet (s : St α) {v : Ev α} (h : v.isMsg = false) : (s.say v).bare = s.bare := by
  simp [St.bare, St.say, h]

/-- printing an iteration changes the printed lines only -/
theorem printIteration_bare {d : Data α} {s u : St α} (h : printIteration d s = .ok u) : u.bare = s.bare := by
  unfold printIteration at h
  split at h
  · injection h with h; rw [h]
  · simp only [bind_eq_ok] at h
    obtain ⟨inner, _, h⟩ := h
    split at h
    · injection h with h; rw [h]
    · simp only [bind_eq_ok] at h
      obtain ⟨_, _, _, _, _, _, _, _, _, _, _, _, _, _, _, _, _, _, h⟩ := h
      injection h with h
      rw [← h, bare_quiet _ rfl]
      split
      · exact bare_quiet _ rfl
      · rfl

theorem track_bare {s : Stats α} {x : List α} {row : Stats.Row α} {n : Nat} {r : RV × Stats α} (h : s.track x row n = .ok r) :
    r.2.bare = s.bare := by
  simp only [Stats.track, bind_eq_ok] at h
  obtain ⟨_, _, _, _, h⟩ := h
  injection h with h
  rw [← h]
  rfl

/-- storing an iterate changes the stored iterates only -/
theorem storeIf_bare {d : Data α} {s u : St α} (h : storeIf d s = .ok u) : u.bare = s.bare := by
  unfold storeIf at h
  split at h
  · simp only [storeSteps, bind_eq_ok] at h
    obtain ⟨_, _, _, _, _, _, _, _, _, _, _, _, _, _, _, _, _, _, _, _, _, _, _, _, r, hr, h⟩ := h
    injection h with h
    have := track_bare hr
    rw [← h]
    simp only [St.bare, this]
  · injection h with h; rw [h]

theorem bare_advance {d : Data α} {s u : St α} (h : advance d s = .ok u) : advance d.bare s.bare = .ok u.bare := by
  simp only [advance, bind_eq_ok] at h
  obtain ⟨a, h1, b, h2, c, h3, f, h4, g, h5, h6⟩ := h
  have e3 := printIteration_bare h3
  have e4 := storeIf_bare h4
  have p : printIteration d.bare b.bare = .ok b.bare := rfl
  have q : storeIf d.bare b.bare = .ok b.bare := rfl
  simp only [advance, bare_updateStep, h1, map_ok', ok_bind, bare_updateStationarity, h2, p, q]
  rw [← e3, ← e4]
  simp only [bare_updateTotalIter, h5, map_ok', ok_bind, bare_incInner, h6]

theorem bare_accept (e : Env α) (d : Data α) (s : St α) : accept e d.bare s.bare = (accept e d s).map fun r => (r.1, r.2.bare) := by
  simp only [accept, bare_transformDuals, bare_determine, bind_map', map_bind', map_ok']
  congr 1
  funext a
  congr 1
  funext b
  change (initd b.algo >>= _) = _
  congr 1
  funext t
  rw [if_neg (show ¬ d.bare.opts.printLevel > 0 from lt_irrefl _)]
  split
  · rw [bare_quiet _ rfl]; rfl
  · rfl

theorem bare_checkStationarity (e : Env α) (d : Data α) (s : St α) :
    checkStationarity e d.bare s.bare = (checkStationarity e d s).map Step.bare := by
  simp only [checkStationarity, bare_accept, bare_bump, bind_map', map_bind', map_ok', map_ite']; rfl

theorem bare_checkLimits (d : Data α) (s : St α) : checkLimits d.bare s.bare = (checkLimits d s).map Step.bare := by
  simp only [checkLimits, map_bind', map_ok', map_ite']; rfl

theorem bare_nextStep (e : Env α) (d : Data α) (s : St α) : nextStep e d.bare s.bare = (nextStep e d s).map Step.bare := by
  simp only [nextStep, bare_updateLinearization, bind_map', bare_solveQP, bare_perturbIf, bare_stepLength, bare_msg, map_bind', map_ok',
    map_ite']
  rfl

theorem bare_andThen {m m' : M (Step α)} {k k' : St α → M (Step α)} (hm : m' = m.map Step.bare)
    (hk : ∀ s, k' s.bare = (k s).map Step.bare) : andThen m' k' = (andThen m k).map Step.bare := by
  subst hm
  simp only [andThen, bind_map', map_bind']
  congr 1
  funext r
  cases r with
  | inl s => exact hk s
  | inr q => rfl

theorem bare_pass {e : Env α} {d : Data α} {s : St α} {r : Step α} (h : pass e d s = .ok r) : pass e d.bare s.bare = .ok r.bare := by
  simp only [pass, bind_eq_ok] at h
  obtain ⟨a, h1, b, h2, c, h3, h4⟩ := h
  have := bare_andThen (k := fun s => andThen (checkLimits d s) fun s => nextStep e d s)
    (k' := fun s => andThen (checkLimits d.bare s) fun s => nextStep e d.bare s) (bare_checkStationarity e d c)
    (fun s => bare_andThen (bare_checkLimits d s) fun s => bare_nextStep e d s)
  simp only [pass, bare_advance h1, ok_bind, bare_dynamicPenalty, h2, map_ok', bare_updateLinearization, h3, this, h4]

theorem bare_mainLoop {e : Env α} {d : Data α} {f : Nat} {s : St α} {r : Option (RV × St α)} (h : mainLoop e d f s = .ok r) :
    mainLoop e d.bare f s.bare = .ok (r.map fun q => (q.1, q.2.bare)) := by
  induction f generalizing s with
  | zero => injection h with h; rw [← h]; rfl
  | succ f ih =>
    simp only [mainLoop, bind_eq_ok] at h
    obtain ⟨q, h1, h2⟩ := h
    simp only [mainLoop, bare_pass h1, ok_bind]
    cases q with
    | inl u => exact ih h2
    | inr q => injection h2 with h2; rw [← h2]; rfl

theorem bare_firstStep (e : Env α) (d : Data α) (s : St α) : firstStep e d.bare s.bare = (firstStep e d s).map Step.bare := by
  have hg : firstGradient d.bare s.bare = (firstGradient d s).map St.bare := by
    simp only [firstGradient, map_bind', map_ok', map_ite', bare_updateLinearization]; rfl
  have hr : ∀ (u : St α) r, ({ u.bare with stats := (u.bare.stats.updateRhoOpt r).2 } : St α) =
      St.bare { u with stats := (u.stats.updateRhoOpt r).2 } := by
    intro u r
    simp only [St.bare, bare_rhoOpt]
  simp only [firstStep, hg, bind_map', bare_solveQP, bare_setQk, bare_msg, map_bind', map_ok', map_ite', hr]
  rfl

theorem bare_chooseSolver (e : Env α) (o : Obj α) : chooseSolver e o.bare = (chooseSolver e o).map fun r => (r.1, r.2.bare) := by
  have hb : ∀ d : Data α, setBoxes d.bare = (setBoxes d).map fun r => (r.1, r.2.bare) := by
    intro d
    simp only [setBoxes, map_bind', map_ok', map_ite']; rfl
  have h1 : ∀ n : Dims, ({ o.bare.d with nDuals := some (n.nV + n.nC + 2 * n.nComp), boxOff := some n.nV } : Data α) =
      Data.bare { o.d with nDuals := some (n.nV + n.nC + 2 * n.nComp), boxOff := some n.nV } := fun _ => rfl
  simp only [chooseSolver, h1, hb, bind_map', map_bind', map_ok', map_ite']
  rfl

theorem bare_initRest (o : Obj α) : initRest o.bare = (initRest o).map fun r => (r.1, r.2.bare) := by
  have hp : initPhi o.bare.d = (initPhi o.d).map Data.bare := by
    simp only [initPhi, map_bind', map_ok', map_ite']; rfl
  simp only [initRest, hp, bind_map', map_bind', map_ok']
  congr 1
  funext n
  congr 1
  funext g
  congr 1
  funext g'
  congr 1
  funext d
  rw [if_neg (show ¬ d.bare.opts.printLevel > 0 from lt_irrefl _)]
  split
  · simp only [Obj.bare, bare_quiet _ (rfl : (Ev.newline : Ev α).isMsg = false)]; rfl
  · rfl

theorem bare_initializeSolver (e : Env α) (o : Obj α) :
    initializeSolver e o.bare = (initializeSolver e o).map fun r => (r.1, r.2.bare) := by
  simp only [initializeSolver, bare_chooseSolver, bare_initRest, bind_map', map_bind', map_ok', map_ite']

theorem bare_runSolver {e : Env α} {f : Nat} {o : Obj α} {r : Option (RV × Obj α)} (h : runSolver e f o = .ok r) :
    runSolver e f o.bare = .ok (r.map fun q => (q.1, q.2.bare)) := by
  simp only [runSolver, bind_eq_ok] at h
  obtain ⟨i, hi, h⟩ := h
  simp only [runSolver, bare_initializeSolver, hi, map_ok', ok_bind]
  split at h
  · rename_i hne
    injection h with h
    rw [if_pos hne, ← h]
    simp only [Option.map_some, Obj.bare, bare_msg]
  · rename_i hne
    rw [if_neg hne]
    simp only [bind_eq_ok] at h
    obtain ⟨u, hu, h⟩ := h
    have := bare_firstStep e i.2.d i.2.s
    rw [hu, map_ok'] at this
    change (firstStep e i.2.d.bare i.2.s.bare >>= _) = _
    rw [this, ok_bind]
    cases u with
    | inr q => injection h with h; rw [← h]; rfl
    | inl s =>
      simp only [bind_eq_ok] at h
      obtain ⟨q, hq, h⟩ := h
      injection h with h
      subst h
      change (mainLoop e i.2.d.bare f s.bare >>= _) = _
      rw [bare_mainLoop hq, ok_bind]
      cases q <;> rfl

/-! ## runs without output -/

theorem silent_pass (e : Env α) (d : Data α) (s : St α) : pass e d.bare s.bare = (pass e d.bare s).map Step.bare := by
  have ha : ∀ s : St α, advance d.bare s.bare = (advance d.bare s).map St.bare := by
    intro s
    have p : ∀ b : St α, printIteration d.bare b = .ok b := fun _ => rfl
    have q : ∀ b : St α, storeIf d.bare b = .ok b := fun _ => rfl
    simp only [advance, show updateStep d.bare s.bare = (updateStep d.bare s).map St.bare from bare_updateStep d.bare s,
      bind_map', map_bind', p, q, ok_bind,
      show ∀ s, updateStationarity d.bare (St.bare s) = (updateStationarity d.bare s).map St.bare from bare_updateStationarity d.bare,
      bare_updateTotalIter, bare_incInner]
  have hk : ∀ c : St α, _ := fun c => bare_andThen (k := fun s => andThen (checkLimits d.bare s) fun s => nextStep e d.bare s)
    (k' := fun s => andThen (checkLimits d.bare s) fun s => nextStep e d.bare s)
    (show checkStationarity e d.bare c.bare = _ from bare_checkStationarity e d.bare c)
    (fun s => bare_andThen (show checkLimits d.bare s.bare = _ from bare_checkLimits d.bare s)
      fun s => (show nextStep e d.bare s.bare = _ from bare_nextStep e d.bare s))
  simp only [pass, ha, bind_map', map_bind',
    show ∀ s, dynamicPenalty d.bare (St.bare s) = (dynamicPenalty d.bare s).map St.bare from bare_dynamicPenalty d.bare,
    show ∀ s, updateLinearization d.bare (St.bare s) = (updateLinearization d.bare s).map St.bare from bare_updateLinearization d.bare, hk]

theorem silent_mainLoop (e : Env α) (d : Data α) (f : Nat) (s : St α) :
    mainLoop e d.bare f s.bare = (mainLoop e d.bare f s).map fun r => r.map fun q => (q.1, q.2.bare) := by
  induction f generalizing s with
  | zero => rfl
  | succ f ih =>
    simp only [mainLoop, silent_pass, bind_map', map_bind']
    congr 1
    funext q
    cases q with
    | inl u => exact ih u
    | inr q => rfl

/-- the initialisation leaves the options unchanged -/
theorem initializeSolver_opts {e : Env α} {o : Obj α} {r : RV × Obj α} (h : initializeSolver e o = .ok r) :
    r.2.d.opts = o.d.opts := by
  simp only [initializeSolver, bind_eq_ok] at h
  obtain ⟨c, hc, h⟩ := h
  obtain ⟨nd, bo, l, u, sub, y, w, hc2⟩ := chooseSolver_inv hc
  split at h
  · injection h with h
    rw [← h, hc2]
  · simp only [initRest, bind_eq_ok] at h
    obtain ⟨n, _, g, _, gt, _, d', hd', h⟩ := h
    injection h with h
    rw [hc2] at hd'
    rcases initPhi_inv hd' with ⟨_, _, rfl⟩ | ⟨_, _, c, gp, _, _, rfl⟩ <;> rw [← h]

theorem silent_runSolver {e : Env α} {f : Nat} {d : Data α} {s : St α} :
    runSolver e f ⟨d.bare, s.bare⟩ = (runSolver e f ⟨d.bare, s⟩).map fun r => r.map fun q => (q.1, q.2.bare) := by
  have h := bare_initializeSolver e ⟨d.bare, s⟩
  change initializeSolver e ⟨d.bare, s.bare⟩ = _ at h
  simp only [runSolver, h, bind_map', map_bind', map_ite', map_ok']
  cases hi : initializeSolver e ⟨d.bare, s⟩ with
  | error => rfl
  | ok i =>
    have hb : i.2.d.bare = i.2.d := by
      have ho := initializeSolver_opts hi
      simp only [Data.bare] at ho ⊢
      rw [ho]
      cases hd : i.2.d
      rw [hd] at ho
      simp only [] at ho
      simp only [Options.loud, ho]
    simp only [ok_bind]
    congr 1
    · simp only [Option.map_some, Obj.bare, bare_msg]
    · have hf := bare_firstStep e i.2.d i.2.s
      change (firstStep e i.2.d.bare i.2.s.bare >>= _) = _
      rw [hf]
      simp only [bind_map', hb]
      congr 1
      funext u
      cases u with
      | inr q => simp only [Step.bare, map_ok', Option.map_some, Obj.bare, hb]
      | inl s =>
        simp only [Step.bare, map_bind', map_ok']
        have := silent_mainLoop e i.2.d f s
        rw [hb] at this
        rw [show i.2.bare.d = i.2.d from hb, this, bind_map']
        congr 1
        funext q
        cases q with
        | none => rfl
        | some q => simp only [Option.map_some, Obj.bare, hb]

/-! ## loading -/

theorem bare_thenData {m m' : M (RV × Data α)} {s : St α} {k k' : Data α → M (RV × Obj α)}
    (hm : m' = m.map fun r => (r.1, r.2.bare)) (hk : ∀ d, k' d.bare = (k d).map fun r => (r.1, r.2.bare)) :
    thenData m' s.bare k' = (thenData m s k).map fun r => (r.1, r.2.bare) := by
  subst hm
  simp only [thenData, failWith, bind_map', map_bind', map_ite', map_ok', hk, bare_msg]; rfl

theorem bare_thenSt {m m' : M (RV × St α)} {d : Data α} {k k' : St α → M (RV × Obj α)}
    (hm : m' = m.map fun r => (r.1, r.2.bare)) (hk : ∀ s, k' s.bare = (k s).map fun r => (r.1, r.2.bare)) :
    thenSt m' d.bare k' = (thenSt m d k).map fun r => (r.1, r.2.bare) := by
  subst hm
  simp only [thenSt, failWith, bind_map', map_bind', map_ite', map_ok', hk, bare_msg]; rfl

theorem bare_setQ (d : Data α) (Q : Option (List α)) : setQ d.bare Q = (setQ d Q).map fun r => (r.1, r.2.bare) := by
  simp only [setQ, map_bind', map_ite', map_ok']; rfl

theorem bare_setQs (d : Data α) (Q : Option (CSC α)) : setQs d.bare Q = (setQs d Q).map fun r => (r.1, r.2.bare) := by
  simp only [setQs, map_bind', map_ite', map_ok']; rfl

theorem bare_setG (d : Data α) (g : Option (List α)) : setG d.bare g = (setG d g).map fun r => (r.1, r.2.bare) := by
  cases g <;> (simp only [setG, map_bind', map_ite', map_ok']; rfl)

theorem bare_setTmp (d : Data α) (l u : Option (List α)) : setTmp d.bare l u = (setTmp d l u).map Data.bare := by
  simp only [setTmp, map_bind', map_ok']; rfl

theorem bare_setConstraints (e : Env α) (d : Data α) (L R A l u : Option (List α)) :
    setConstraints e d.bare L R A l u = (setConstraints e d L R A l u).map fun r => (r.1, r.2.bare) := by
  cases L <;> cases R <;> (simp only [setConstraints, map_bind', map_ite', map_ok']; rfl)

theorem bare_setConstraintsSparse (e : Env α) (d : Data α) (L R A : Option (CSC α)) (l u : Option (List α)) :
    setConstraintsSparse e d.bare L R A l u = (setConstraintsSparse e d L R A l u).map fun r => (r.1, r.2.bare) := by
  simp only [setConstraintsSparse, map_bind', map_ok']
  change (initd d.dims >>= _) = _
  iterate 8 (congr 1; funext _)
  congr 1
  funext C
  cases C <;> rfl

theorem bare_setCompBounds (e : Env α) (d : Data α) (a b c f : Option (List α)) :
    setCompBounds e d.bare a b c f = (setCompBounds e d a b c f).map fun r => (r.1, r.2.bare) := by
  simp only [setCompBounds, map_bind', map_ok']
  change (initd d.dims >>= _) = _
  congr 1
  funext n
  change (deref d.lbA >>= _) = _
  congr 1
  funext lA
  change (deref d.ubA >>= _) = _
  congr 1
  funext uA
  change (bndLoop n.nComp n.nC a b _ >>= _) = _
  congr 1
  funext r
  cases r with
  | inr s => rfl
  | inl s =>
    simp only [map_bind']
    change (bndLoop n.nComp (n.nC + n.nComp) c f _ >>= _) = _
    congr 1
    funext r
    cases r <;> rfl

theorem bare_setInitialGuess (e : Env α) (d : Data α) (s : St α) (x y : Option (List α)) :
    setInitialGuess e d.bare s.bare x y = (setInitialGuess e d s x y).map fun r => (r.1, r.2.bare) := by
  simp only [setInitialGuess, map_bind', map_ite', map_ok']; rfl

theorem bare_loadDense (e : Env α) (o : Obj α) (a : DenseArgs α) :
    loadDense e o.bare a = (loadDense e o a).map fun r => (r.1, r.2.bare) := by
  simp only [loadDense, map_bind', map_ite']
  change (initd o.d.dims >>= _) = _
  congr 1
  funext n
  congr 1
  · simp only [failWith, map_ok', Obj.bare, bare_msg]
  · refine bare_thenData (bare_setQ _ _) fun d => bare_thenData (bare_setG _ _) fun d => ?_
    simp only [bare_setTmp, bind_map', map_bind']
    congr 1
    funext d
    exact bare_thenData (bare_setConstraints ..) fun d => bare_thenData (bare_setCompBounds ..) fun d =>
      bare_thenSt (bare_setInitialGuess ..) fun s => rfl

theorem bare_loadSparse (e : Env α) (o : Obj α) (a : SparseArgs α) :
    loadSparse e o.bare a = (loadSparse e o a).map fun r => (r.1, r.2.bare) := by
  refine bare_thenData (bare_setQs _ _) fun d => bare_thenData (bare_setG _ _) fun d => bare_thenData (bare_setConstraintsSparse ..) fun d =>
    bare_thenData (bare_setCompBounds ..) fun d => bare_thenSt (bare_setInitialGuess ..) fun s => ?_
  simp only [bare_setTmp, bind_map', map_bind', map_ok']; rfl

theorem bare_switchToSparse (o : Obj α) : switchToSparse o.bare = (switchToSparse o).map fun r => (r.1, r.2.bare) := by
  simp only [switchToSparse, map_bind', map_ite', map_ok']; rfl

theorem bare_switchToDense (o : Obj α) : switchToDense o.bare = (switchToDense o).map fun r => (r.1, r.2.bare) := by
  simp only [switchToDense, map_bind', map_ite', map_ok']; rfl

theorem bare_exec {e : Env α} {f : Nat} {o : Obj α} {c : Cmd α} {r : Option (RV × Obj α)} (h : c.exec e f o = .ok r) :
    c.bare.exec e f o.bare = .ok (r.map fun q => (q.1, q.2.bare)) := by
  cases c with
  | dense a =>
    simp only [Cmd.exec, bind_eq_ok] at h
    obtain ⟨q, hq, h⟩ := h
    injection h with h
    simp only [Cmd.bare, Cmd.exec, bare_loadDense, hq, ← h]; rfl
  | sparse a =>
    simp only [Cmd.exec, bind_eq_ok] at h
    obtain ⟨q, hq, h⟩ := h
    injection h with h
    simp only [Cmd.bare, Cmd.exec, bare_loadSparse, hq, ← h]; rfl
  | options op =>
    injection h with h
    rw [← h]; rfl
  | toSparse =>
    simp only [Cmd.exec, bind_eq_ok] at h
    obtain ⟨q, hq, h⟩ := h
    injection h with h
    simp only [Cmd.bare, Cmd.exec, bare_switchToSparse, hq, ← h]; rfl
  | toDense =>
    simp only [Cmd.exec, bind_eq_ok] at h
    obtain ⟨q, hq, h⟩ := h
    injection h with h
    simp only [Cmd.bare, Cmd.exec, bare_switchToDense, hq, ← h]; rfl
  | run => exact bare_runSolver h

theorem bare_execAll {e : Env α} {f : Nat} {cs : List (Cmd α)} {o : Obj α} {r : Option (List RV × Obj α)}
    (h : execAll e f cs o = .ok r) : execAll e f (cs.map Cmd.bare) o.bare = .ok (r.map fun q => (q.1, q.2.bare)) := by
  induction cs generalizing o r with
  | nil => injection h with h; rw [← h]; rfl
  | cons c cs ih =>
    simp only [execAll, bind_eq_ok] at h
    obtain ⟨q, hq, h⟩ := h
    rw [List.map_cons, execAll, bare_exec hq, ok_bind]
    cases q with
    | none => injection h with h; rw [← h]; rfl
    | some q =>
      simp only [bind_eq_ok] at h
      obtain ⟨t, ht, h⟩ := h
      injection h with h
      simp only [Option.map_some, ih ht, ok_bind, ← h]
      cases t <;> rfl

end LCQ
