import Verif.Model.Solver

/-!
# Which members a function of the main loop can change

Inversion lemmas for successful calls on arbitrary objects, for any arithmetic.
-/

set_option linter.unusedSectionVars false

namespace LCQ
open Scalar

variable {α : Type} [Scalar α]

theorem updateLinearization_inv {d : Data α} {s s' : St α} (h : updateLinearization d s = .ok s') :
    ∃ gk, s' = { s with gk := some gk } := by
  simp only [updateLinearization, bind_eq_ok] at h
  obtain ⟨_, _, _, _, _, _, _, _, _, _, gk, _, h⟩ := h
  injection h with h
  exact ⟨gk, h.symm⟩

theorem updateStep_inv {d : Data α} {s s' : St α} (h : updateStep d s = .ok s') :
    ∃ x, s' = { s with xk := some x } := by
  simp only [updateStep, bind_eq_ok] at h
  obtain ⟨_, _, _, _, _, _, _, _, x, _, h⟩ := h
  injection h with h
  exact ⟨x, h.symm⟩

theorem updateStationarity_inv {d : Data α} {s s' : St α} (h : updateStationarity d s = .ok s') :
    ∃ a b c, s' = { s with statk := some a, cstat := some b, bstat := c } := by
  simp only [updateStationarity, bind_eq_ok] at h
  obtain ⟨_, _, _, _, _, _, _, _, _, _, _, _, _, _, b, _, _, _, r, _, h⟩ := h
  injection h with h
  exact ⟨r.1, b, r.2, h.symm⟩

theorem updateTotalIter_inv {s s' : St α} (h : updateTotalIter s = .ok s') :
    ∃ t st, s.total = some t ∧ t + 1 ≤ intMax ∧ s.stats.updateIterTotal 1 = .ok st ∧
      s' = { s with total := some (t + 1), stats := st.2 } := by
  simp only [updateTotalIter, bind_eq_ok] at h
  obtain ⟨t, ht, u, hu, st, hst, h⟩ := h
  injection h with h
  unfold addInt at hu
  split at hu
  · injection hu with hu
    rename_i hb
    refine ⟨t, st, ?_, hb.2, hst, ?_⟩
    · cases hs : s.total <;> simp [hs] at ht; exact congrArg some ht
    · rw [← h, ← hu]
  · cases hu

theorem updateOuterIter_inv {s s' : St α} (h : updateOuterIter s = .ok s') :
    ∃ t st, s.outer = some t ∧ t + 1 ≤ intMax ∧ s.stats.updateIterOuter 1 = .ok st ∧
      s' = { s with outer := some (t + 1), stats := st.2 } := by
  simp only [updateOuterIter, bind_eq_ok] at h
  obtain ⟨t, ht, u, hu, st, hst, h⟩ := h
  injection h with h
  unfold addInt at hu
  split at hu
  · injection hu with hu
    rename_i hb
    refine ⟨t, st, ?_, hb.2, hst, ?_⟩
    · cases hs : s.outer <;> simp [hs] at ht; exact congrArg some ht
    · rw [← h, ← hu]
  · cases hu

theorem incInner_inv {s s' : St α} (h : incInner s = .ok s') :
    ∃ t, s.inner = some t ∧ s' = { s with inner := some (t + 1) } := by
  simp only [incInner, bind_eq_ok] at h
  obtain ⟨t, ht, u, hu, h⟩ := h
  injection h with h
  unfold addInt at hu
  split at hu
  · injection hu with hu
    refine ⟨t, ?_, ?_⟩
    · cases hs : s.inner <;> simp [hs] at ht; exact congrArg some ht
    · rw [← h, ← hu]
  · cases hu

theorem initd_eq_ok {σ : Type} {o : Option σ} {a : σ} : initd o = .ok a ↔ o = some a := by
  cases o <;> simp

theorem deref_eq_ok {σ : Type} {o : Option σ} {a : σ} : deref o = .ok a ↔ o = some a := by
  cases o <;> simp

theorem setQk_inv {d : Data α} {s s' : St α} (h : setQk d s = .ok s') :
    ∃ a b c, s' = { s with Qk := a, Qks := b, idxC := c } := by
  simp only [setQk, bind_eq_ok] at h
  obtain ⟨_, _, _, _, h⟩ := h
  split at h
  · simp only [bind_eq_ok] at h
    obtain ⟨_, _, _, _, _, _, h⟩ := h
    injection h with h
    exact ⟨_, _, _, h.symm⟩
  · simp only [bind_eq_ok] at h
    obtain ⟨_, _, _, _, _, _, _, _, h⟩ := h
    injection h with h
    exact ⟨_, _, _, h.symm⟩

theorem updateQk_inv {d : Data α} {s s' : St α} (h : updateQk d s = .ok s') :
    ∃ a b, s' = { s with Qk := a, Qks := b } := by
  simp only [updateQk, bind_eq_ok] at h
  obtain ⟨_, _, _, _, h⟩ := h
  split at h
  · simp only [bind_eq_ok] at h
    obtain ⟨_, _, _, _, _, _, h⟩ := h
    injection h with h
    exact ⟨_, _, h.symm⟩
  · simp only [bind_eq_ok] at h
    obtain ⟨_, _, _, _, _, _, _, _, h⟩ := h
    injection h with h
    exact ⟨_, _, h.symm⟩

theorem updateGTilde_inv {d : Data α} {s s' : St α} (h : updateGTilde d s = .ok s') :
    ∃ a, s' = { s with gTilde := a } := by
  unfold updateGTilde at h
  split at h
  · injection h with h
    exact ⟨_, h.symm⟩
  · simp only [bind_eq_ok] at h
    obtain ⟨_, _, _, _, _, _, _, _, _, _, h⟩ := h
    injection h with h
    exact ⟨_, h.symm⟩

theorem updatePenalty_inv {d : Data α} {s s' : St α} (h : updatePenalty d s = .ok s') :
    ∃ r a b c, s.rho = some r ∧ s' = { s with
      hist := if d.opts.nDyn > 0 then [] else s.hist
      rho := some (r *. d.opts.factor)
      stats := (s.stats.updateRhoOpt (r *. d.opts.factor)).2
      Qk := a
      Qks := b
      gTilde := c } := by
  simp only [updatePenalty, bind_eq_ok, initd_eq_ok] at h
  obtain ⟨r, hr, s1, h1, h2⟩ := h
  obtain ⟨a, b, rfl⟩ := updateQk_inv h1
  obtain ⟨c, rfl⟩ := updateGTilde_inv h2
  exact ⟨r, a, b, c, hr, rfl⟩

theorem iterOuter_one {s : Stats α} {r : RV × Stats α} (h : s.updateIterOuter 1 = .ok r) :
    r = (.successfulReturn, { s with iterOuter := s.iterOuter + 1 }) := by
  simp only [Stats.updateIterOuter] at h
  rw [if_neg (by decide)] at h
  simp only [bind_eq_ok, addInt] at h
  obtain ⟨v, hv, h⟩ := h
  split at hv
  · injection hv with hv
    injection h with h
    rw [← h, ← hv]
  · cases hv

theorem iterTotal_one {s : Stats α} {r : RV × Stats α} (h : s.updateIterTotal 1 = .ok r) :
    r = (.successfulReturn, { s with iterTotal := s.iterTotal + 1 }) := by
  simp only [Stats.updateIterTotal] at h
  rw [if_neg (by decide)] at h
  simp only [bind_eq_ok, addInt] at h
  obtain ⟨v, hv, h⟩ := h
  split at hv
  · injection hv with hv
    injection h with h
    rw [← h, ← hv]
  · cases hv

theorem bump_inv {d : Data α} {s s' : St α} (h : bump d s = .ok s') :
    ∃ r a b c t, s.rho = some r ∧ s.outer = some t ∧ t + 1 ≤ intMax ∧ s' = { s with
      hist := if d.opts.nDyn > 0 then [] else s.hist
      rho := some (r *. d.opts.factor)
      stats := { (s.stats.updateRhoOpt (r *. d.opts.factor)).2 with
        iterOuter := (s.stats.updateRhoOpt (r *. d.opts.factor)).2.iterOuter + 1 }
      Qk := a
      Qks := b
      gTilde := c
      outer := some (t + 1)
      inner := some 0 } := by
  simp only [bump, bind_eq_ok] at h
  obtain ⟨s1, h1, s2, h2, h⟩ := h
  obtain ⟨r, a, b, c, hr, rfl⟩ := updatePenalty_inv h1
  obtain ⟨t, st, ht, htm, hst, rfl⟩ := updateOuterIter_inv h2
  injection h with h
  have := iterOuter_one hst
  refine ⟨r, a, b, c, t, hr, ht, htm, ?_⟩
  rw [← h, this]

theorem leyffer_inv {d : Data α} {s : St α} {r : Bool × St α}
    (h : leyfferCheckPositive d s = .ok r) : ∃ hh, r.2 = { s with hist := hh } := by
  unfold leyfferCheckPositive at h
  split at h
  · injection h with h
    exact ⟨s.hist, by rw [← h]⟩
  · simp only [bind_eq_ok] at h
    obtain ⟨cur, _, h⟩ := h
    split at h
    · injection h with h
      exact ⟨_, by rw [← h]⟩
    · simp only [bind_eq_ok] at h
      obtain ⟨ok, _, h⟩ := h
      split at h
      · injection h with h
        exact ⟨_, by rw [← h]⟩
      · simp only [bind_eq_ok] at h
        obtain ⟨fl, _, h⟩ := h
        injection h with h
        exact ⟨_, by rw [← h]⟩

theorem dynamicPenalty_inv {d : Data α} {s s' : St α} (h : dynamicPenalty d s = .ok s') :
    ∃ r hh, leyfferCheckPositive d s = .ok r ∧ r.2 = { s with hist := hh } ∧
      ((r.1 = false ∧ s' = r.2) ∨ (r.1 = true ∧ bump d r.2 = .ok s')) := by
  simp only [dynamicPenalty, bind_eq_ok] at h
  obtain ⟨r, hr, h⟩ := h
  obtain ⟨hh, hh'⟩ := leyffer_inv hr
  refine ⟨r, hh, hr, hh', ?_⟩
  split at h
  · rename_i hb; exact Or.inr ⟨hb, h⟩
  · rename_i hb; injection h with h; exact Or.inl ⟨by simpa using hb, h.symm⟩

theorem getOptimalStepLength_inv {d : Data α} {s s' : St α}
    (h : getOptimalStepLength d s = .ok s') :
    ∃ a b, s' = { s with lkTmp := some a, alpha := some b } := by
  simp only [getOptimalStepLength, bind_eq_ok] at h
  obtain ⟨_, _, _, _, _, _, _, _, _, _, _, _, _, _, _, _, h⟩ := h
  injection h with h
  exact ⟨_, _, h.symm⟩

theorem perturbStep_inv {e : Env α} {d : Data α} {s s' : St α} (h : perturbStep e d s = .ok s') :
    ∃ x k, s' = { s with xk := some x, rnd := k } := by
  simp only [perturbStep, bind_eq_ok] at h
  obtain ⟨_, _, _, _, _, _, h⟩ := h
  injection h with h
  exact ⟨_, _, h.symm⟩

theorem perturbIf_inv {e : Env α} {d : Data α} {s s' : St α} (h : perturbIf e d s = .ok s') :
    ∃ x k, s' = { s with xk := x, rnd := k } := by
  unfold perturbIf at h
  split at h
  · obtain ⟨x, k, rfl⟩ := perturbStep_inv h
    exact ⟨_, _, rfl⟩
  · injection h with h
    exact ⟨_, _, h.symm⟩

theorem track_inv {s : Stats α} {x : List α} {r : Stats.Row α} {n : Nat} {q : RV × Stats α}
    (h : s.track x r n = .ok q) :
    ∃ xs acc, Stats.accuNext s.accuIters r.sub = .ok acc ∧ xs.length = n ∧ q.2 = { s with
      xSteps := s.xSteps ++ [xs]
      innerIters := s.innerIters ++ [r.inner]
      subIters := s.subIters ++ [r.sub]
      accuIters := s.accuIters ++ [acc]
      stepLength := s.stepLength ++ [r.len]
      stepSize := s.stepSize ++ [r.size]
      statVals := s.statVals ++ [r.stat]
      objVals := s.objVals ++ [r.obj]
      phiVals := s.phiVals ++ [r.phi]
      meritVals := s.meritVals ++ [r.merit] } := by
  simp only [Stats.track, bind_eq_ok] at h
  obtain ⟨xs, hx, acc, ha, h⟩ := h
  injection h with h
  refine ⟨xs, acc, ha, ?_, ?_⟩
  · have : ∀ k, ∀ t : List α, loop k (fun i (acc : List α) => do
        let v ← rd x i
        .ok (acc ++ [v])) [] = .ok t → t.length = k := by
      intro k
      induction k with
      | zero => intro t ht; simp [loop] at ht; simp [← ht]
      | succ k ih =>
        intro t ht
        rw [loop, bind_eq_ok] at ht
        obtain ⟨u, hu, ht⟩ := ht
        simp only [bind_eq_ok] at ht
        obtain ⟨v, _, ht⟩ := ht
        injection ht with ht
        rw [← ht]
        simp [ih u hu]
    exact this n xs hx
  · rw [← h]

theorem storeSteps_inv {d : Data α} {s s' : St α} (h : storeSteps d s = .ok s') :
    ∃ n x row q, d.dims = some n ∧ s.xk = some x ∧ s.inner = some row.inner ∧
      s.qpIter = some row.sub ∧ s.alpha = some row.len ∧
      (∃ p, s.pk = some p ∧ maxAbs p n.nV = .ok row.size) ∧
      (∃ st, s.statk = some st ∧ maxAbs st n.nV = .ok row.stat) ∧
      getObj d s = .ok row.obj ∧ getPhi d s = .ok row.phi ∧ getMerit d s = .ok row.merit ∧
      s.stats.track x row n.nV = .ok q ∧ s' = { s with stats := q.2 } := by
  simp only [storeSteps, bind_eq_ok, initd_eq_ok, deref_eq_ok] at h
  obtain ⟨n, hn, x, hx, inner, hi, sub, hsub, a, ha, p, hp, np, hnp, st, hst, ns, hns, obj, ho, phi,
    hphi, m, hm, q, hq, h⟩ := h
  injection h with h
  exact ⟨n, x, _, q, hn, hx, hi, hsub, ha, ⟨p, hp, hnp⟩, ⟨st, hst, hns⟩, ho, hphi, hm, hq, h.symm⟩

theorem storeIf_inv {d : Data α} {s s' : St α} (h : storeIf d s = .ok s') :
    (d.opts.storeSteps = false ∧ s' = s) ∨ (d.opts.storeSteps = true ∧ storeSteps d s = .ok s') := by
  unfold storeIf at h
  split at h
  · rename_i hb; exact Or.inr ⟨hb, h⟩
  · rename_i hb; injection h with h; exact Or.inl ⟨by simpa using hb, h.symm⟩

theorem iterMore_inv {d : Data α} {s : St α} {m : Option (α × Int)} (h : iterMore d s = .ok m) :
    (d.opts.printLevel < 2 ∧ m = none) ∨ (2 ≤ d.opts.printLevel ∧ ∃ a q, s.alpha = some a ∧
      s.qpIter = some q ∧ m = some (a, q)) := by
  unfold iterMore at h
  split at h
  · rename_i hb
    simp only [bind_eq_ok, initd_eq_ok] at h
    obtain ⟨a, ha, q, hq, h⟩ := h
    injection h with h
    exact Or.inr ⟨hb, a, q, ha, hq, h.symm⟩
  · rename_i hb; injection h with h; exact Or.inl ⟨by omega, h.symm⟩

/-- what `printIteration` prints -/
theorem printIteration_inv {d : Data α} {s s' : St α} (h : printIteration d s = .ok s') :
    ∃ l, s' = { s with out := s.out ++ l } ∧
      ((d.opts.printLevel = 0 ∧ l = []) ∨
       (d.opts.printLevel ≠ 0 ∧ ∃ i, s.inner = some i ∧
         ((d.opts.printLevel = 1 ∧ 0 < i ∧ l = []) ∨
          (¬ (d.opts.printLevel = 1 ∧ 0 < i) ∧ ∃ o st phi rho np more, s.outer = some o ∧
            s.rho = some rho ∧ getPhi d s = .ok phi ∧
            (∃ v n, s.statk = some v ∧ d.dims = some n ∧ maxAbs v n.nV = .ok st) ∧
            (∃ v n, s.pk = some v ∧ d.dims = some n ∧ maxAbs v n.nV = .ok np) ∧
            iterMore d s = .ok more ∧
            l = (if (2 ≤ d.opts.printLevel ∧ i.tmod 10 = 0) ∨
                (d.opts.printLevel = 1 ∧ o.tmod 10 = 0) then [Ev.header] else []) ++
              [Ev.iter o i st phi rho np more])))) := by
  unfold printIteration at h
  split at h
  · rename_i h0
    injection h with h
    exact ⟨[], by simp [h], Or.inl ⟨h0, rfl⟩⟩
  · rename_i h0
    simp only [bind_eq_ok, initd_eq_ok] at h
    obtain ⟨i, hi, h⟩ := h
    split at h
    · rename_i h1
      injection h with h
      exact ⟨[], by simp [h], Or.inr ⟨h0, i, hi, Or.inl ⟨h1.1, h1.2, rfl⟩⟩⟩
    · rename_i h1
      simp only [bind_eq_ok, initd_eq_ok, deref_eq_ok] at h
      obtain ⟨n, hn, o, ho, st, hst, ns, hns, phi, hphi, rho, hrho, p, hp, np, hnp, more, hmore, h⟩ := h
      injection h with h
      refine ⟨_, ?_, Or.inr ⟨h0, i, hi, Or.inr ⟨h1, o, ns, phi, rho, np, more, ho, hrho, hphi,
        ⟨st, n, hst, hn, hns⟩, ⟨p, n, hp, hn, hnp⟩, hmore, rfl⟩⟩⟩
      rw [← h]
      split <;> simp [St.say]

theorem transformDuals_inv {e : Env α} {d : Data α} {s s' : St α}
    (h : transformDuals e d s = .ok s') : ∃ y, s' = { s with yk := some y } := by
  simp only [transformDuals, bind_eq_ok] at h
  obtain ⟨_, _, _, _, _, _, _, _, _, _, _, _, _, _, _, _, y, _, h⟩ := h
  injection h with h
  exact ⟨y, h.symm⟩

theorem classify_ne {tol : α} {ya : List α} {nC nComp : Nat} {l : List Nat} {a b : Bool}
    {t : AlgStat} (h : classify tol ya nC nComp l a b = .ok t) : t ≠ .notSolved := by
  induction l generalizing a b with
  | nil =>
    simp only [classify] at h
    injection h with h
    rw [← h]
    cases a <;> cases b <;> simp
  | cons i is ih =>
    simp only [classify, bind_eq_ok] at h
    obtain ⟨_, _, _, _, h⟩ := h
    split at h
    · split at h
      · injection h with h
        rw [← h]; simp
      · exact ih h
    · exact ih h

theorem determine_inv {e : Env α} {d : Data α} {s s' : St α}
    (h : determineStationarityType e d s = .ok s') :
    ∃ t, t ≠ .notSolved ∧ s' = { s with algo := some t } := by
  simp only [determineStationarityType, bind_eq_ok] at h
  obtain ⟨_, _, _, _, _, _, t, ht, h⟩ := h
  injection h with h
  exact ⟨t, classify_ne ht, h.symm⟩

/-- members changed by a successful `accept` -/
theorem accept_inv {e : Env α} {d : Data α} {s : St α} {r : RV × St α}
    (h : accept e d s = .ok r) :
    ∃ y t, t ≠ AlgStat.notSolved ∧ r.1 = .successfulReturn ∧ r.2 = { s with
      yk := some y
      algo := some t
      stats := { s.stats with status := t }
      out := s.out ++ (if d.opts.printLevel > 0 then [Ev.solution t] else []) } := by
  simp only [accept, bind_eq_ok, initd_eq_ok] at h
  obtain ⟨s1, h1, s2, h2, t, ht, h⟩ := h
  obtain ⟨y, rfl⟩ := transformDuals_inv h1
  obtain ⟨t', ht', rfl⟩ := determine_inv h2
  simp at ht
  subst ht
  injection h with h
  refine ⟨y, t', ht', ?_, ?_⟩
  · rw [← h]
  · rw [← h]
    split <;> simp [St.say, Stats.updateStatus]

/-- the solver answered with a usable solution (spec level) -/
def QpOk (sub : Sub α) (a : Resp α) : Prop :=
  match sub with
  | .osqp _ _ => a.ret = 0 ∧ 0 < a.status
  | _ => a.ret = 0

/-- the exit flag the caller sees (spec level) -/
def exitOf (sub : Sub α) (a : Resp α) : Int :=
  match sub with
  | .osqp _ _ => a.status
  | _ => a.ret

theorem osqpFinish_inv {s : St α} {init : Bool} {w : Work} {a : Resp α} {r : RV × St α}
    (h : osqpFinish s init w a = .ok r) :
    w ≠ .dangling ∧
    ((r.1 = .osqpInitialPrimalGuessFailed ∧ init = true ∧ s.xk ≠ none ∧ (w = .null ∨ a.warmX = false) ∧
        r.2 = { s with work := w, calls := s.calls + 1 }) ∨
     (r.1 = .osqpInitialDualGuessFailed ∧ init = true ∧ s.yk ≠ none ∧ (w = .null ∨ a.warmY = false) ∧
        r.2 = { s with work := w, calls := s.calls + 1 }) ∨
     (r.1 = .osqpWorkspaceNotSetUp ∧ w = .null ∧ r.2 = { s with work := w, calls := s.calls + 1 }) ∨
     (w = .live ∧ r.1 = (if a.ret ≠ 0 ∨ a.status ≤ 0 then .subproblemSolverError else .successfulReturn) ∧
        r.2 = { s with work := w, calls := s.calls + 1, qpIter := some a.iter,
                       qpExit := some a.status, ans := some a })) := by
  unfold osqpFinish at h
  split at h
  · cases h
  · rename_i hw
    refine ⟨hw, ?_⟩
    simp only at h
    split at h
    · rename_i hc
      injection h with h
      exact Or.inl ⟨by rw [← h], hc.1, hc.2.1, hc.2.2, by rw [← h]⟩
    · split at h
      · rename_i hc
        injection h with h
        exact Or.inr (Or.inl ⟨by rw [← h], hc.1, hc.2.1, hc.2.2, by rw [← h]⟩)
      · split at h
        · rename_i hc
          injection h with h
          exact Or.inr (Or.inr (Or.inl ⟨by rw [← h], hc, by rw [← h]⟩))
        · rename_i hc
          injection h with h
          refine Or.inr (Or.inr (Or.inr ⟨?_, by rw [← h], by rw [← h]⟩))
          cases w <;> simp_all

theorem copyOpt_eq_ok {o : Option (List α)} {n : Nat} {r : Option (List α)}
    (h : copyOpt o n = .ok r) :
    (o = none ∧ r = none) ∨ (∃ v w, o = some v ∧ copyN v n = .ok w ∧ r = some w) := by
  cases o with
  | none => simp [copyOpt] at h; exact Or.inl ⟨rfl, h.symm⟩
  | some v =>
    simp only [copyOpt, bind_eq_ok] at h
    obtain ⟨w, hw, h⟩ := h
    injection h with h
    exact Or.inr ⟨v, w, rfl, hw, h.symm⟩

/-- outcomes of a QP call -/
theorem subSolve_ret {e : Env α} {d : Data α} {s : St α} {init : Bool} {r : RV × St α}
    (h : subSolve e d s init = .ok r) :
    ∃ sub, d.sub = some sub ∧
    ((r.1 = .invalidOsqpBoxConstraints ∧ (∃ Q A, sub = .osqp Q A) ∧ (d.lb ≠ none ∨ d.ub ≠ none) ∧
        r.2 = s) ∨
     ∃ req a, a = e.qp s.calls req ∧ req.sub = sub ∧ req.init = init ∧
      ((r.1 = .osqpInitialPrimalGuessFailed ∧ (∃ Q A, sub = .osqp Q A) ∧ init = true ∧
          ∃ w, r.2 = { s with work := w, calls := s.calls + 1 }) ∨
       (r.1 = .osqpInitialDualGuessFailed ∧ (∃ Q A, sub = .osqp Q A) ∧ init = true ∧
          ∃ w, r.2 = { s with work := w, calls := s.calls + 1 }) ∨
       (r.1 = .osqpWorkspaceNotSetUp ∧ (∃ Q A, sub = .osqp Q A) ∧
          ∃ w, r.2 = { s with work := w, calls := s.calls + 1 }) ∨
       (((r.1 = .successfulReturn ∧ QpOk sub a) ∨ (r.1 = .subproblemSolverError ∧ ¬ QpOk sub a)) ∧
          ∃ w, r.2 = { s with work := w, calls := s.calls + 1, qpIter := some a.iter,
                              qpExit := some (exitOf sub a), ans := some a }))) := by
  simp only [subSolve, bind_eq_ok, initd_eq_ok] at h
  obtain ⟨sub, hsub, h⟩ := h
  refine ⟨sub, hsub, ?_⟩
  have hq : ∀ nV nC, (∀ Q A, sub ≠ .osqp Q A) → qpoasesSolve e d s init sub nV nC = .ok r →
      ∃ req a, a = e.qp s.calls req ∧ req.sub = sub ∧ req.init = init ∧
       (((r.1 = .successfulReturn ∧ QpOk sub a) ∨ (r.1 = .subproblemSolverError ∧ ¬ QpOk sub a)) ∧
          ∃ w, r.2 = { s with work := w, calls := s.calls + 1, qpIter := some a.iter,
                              qpExit := some (exitOf sub a), ans := some a }) := by
    intro nV nC hno h
    simp only [qpoasesSolve, bind_eq_ok] at h
    obtain ⟨_, _, g, _, _, _, lA, _, _, _, uA, _, lb, _, ub, _, x0, _, y0, _, h⟩ := h
    injection h with h
    refine ⟨⟨sub, init, g, lA, uA, x0, y0, lb, ub, d.opts.qpoases, d.opts.osqp⟩, _, rfl, rfl, rfl,
      ?_, s.work, ?_⟩
    · cases sub with
      | osqp Q A => exact absurd rfl (hno Q A)
      | dense => simp only [QpOk]; rw [← h]; simp only; split <;> simp_all
      | sparse => simp only [QpOk]; rw [← h]; simp only; split <;> simp_all
    · cases sub with
      | osqp Q A => exact absurd rfl (hno Q A)
      | dense => rw [← h]; rfl
      | sparse => rw [← h]; rfl
  split at h
  · obtain ⟨req, a, h1, h2, h3, h4⟩ := hq _ _ (by simp) h
    exact Or.inr ⟨req, a, h1, h2, h3, Or.inr (Or.inr (Or.inr h4))⟩
  · obtain ⟨req, a, h1, h2, h3, h4⟩ := hq _ _ (by simp) h
    exact Or.inr ⟨req, a, h1, h2, h3, Or.inr (Or.inr (Or.inr h4))⟩
  · rename_i Q A
    unfold osqpSolve at h
    split at h
    · rename_i hb
      injection h with h
      exact Or.inl ⟨by rw [← h], ⟨_, _, rfl⟩, hb, by rw [← h]⟩
    · simp only [bind_eq_ok] at h
      obtain ⟨_, _, g, _, _, _, lA, _, _, _, uA, _, x0, _, y0, _, h⟩ := h
      refine Or.inr ⟨⟨.osqp Q A, init, g, lA, uA, x0, y0, none, none, d.opts.qpoases, d.opts.osqp⟩,
        _, rfl, rfl, rfl, ?_⟩
      obtain ⟨_, h | h | h | h⟩ := osqpFinish_inv h
      · exact Or.inl ⟨h.1, ⟨_, _, rfl⟩, h.2.1, _, h.2.2.2.2⟩
      · exact Or.inr (Or.inl ⟨h.1, ⟨_, _, rfl⟩, h.2.1, _, h.2.2.2.2⟩)
      · exact Or.inr (Or.inr (Or.inl ⟨h.1, ⟨_, _, rfl⟩, _, h.2.2⟩))
      · refine Or.inr (Or.inr (Or.inr ⟨?_, _, h.2.2⟩))
        rw [h.2.1]
        simp only [QpOk]
        split
        · rename_i hc; right; refine ⟨rfl, ?_⟩; rintro ⟨c1, c2⟩; rcases hc with hc | hc
          · exact hc c1
          · omega
        · rename_i hc; left; refine ⟨rfl, ?_⟩
          push Not at hc
          exact ⟨hc.1, by omega⟩

/-- members changed by a QP call -/
theorem subSolve_inv {e : Env α} {d : Data α} {s : St α} {init : Bool} {r : RV × St α}
    (h : subSolve e d s init = .ok r) :
    ∃ a b w c k, (k = s.calls ∨ k = s.calls + 1) ∧
      r.2 = { s with qpIter := a, qpExit := b, work := w, ans := c, calls := k } := by
  obtain ⟨sub, _, ⟨_, _, _, h⟩ | ⟨req, a, _, _, _, h⟩⟩ := subSolve_ret h
  · exact ⟨_, _, _, _, _, Or.inl rfl, h⟩
  · rcases h with ⟨_, _, _, w, h⟩ | ⟨_, _, _, w, h⟩ | ⟨_, _, w, h⟩ | ⟨_, w, h⟩ <;>
    exact ⟨_, _, _, _, _, Or.inr rfl, h⟩

theorem afterSolve_inv {e : Env α} {d : Data α} {s s' : St α} (h : afterSolve e d s = .ok s') :
    ∃ it ex st x y, s.qpIter = some it ∧ s.qpExit = some ex ∧
      s.stats.updateSubproblemIter it = .ok st ∧
      s' = { s with stats := (st.2.updateExitFlag ex).2, xk := x, yk := y } := by
  simp only [afterSolve, bind_eq_ok, initd_eq_ok] at h
  obtain ⟨it, hit, ex, hex, st, hst, _, _, _, _, h⟩ := h
  injection h with h
  exact ⟨it, ex, st, _, _, hit, hex, hst, h.symm⟩

theorem takeSolution_inv {d : Data α} {s s' : St α} (h : takeSolution d s = .ok s') :
    ∃ a b c p, s' = { s with xnew := a, yk := b, ykA := c, pk := p } := by
  simp only [takeSolution, bind_eq_ok] at h
  obtain ⟨_, _, _, _, _, _, _, _, _, _, _, _, _, _, _, _, h⟩ := h
  injection h with h
  exact ⟨_, _, _, _, h.symm⟩

/-- members changed by `solveQPSubproblem` -/
theorem solveQP_inv {e : Env α} {d : Data α} {s : St α} {init : Bool} {r : RV × St α}
    (h : solveQP e d s init = .ok r) :
    ∃ q, subSolve e d s init = .ok q ∧ r.1 = q.1 ∧
      ∃ it ex st, q.2.qpIter = some it ∧ q.2.qpExit = some ex ∧
      s.stats.updateSubproblemIter it = .ok st ∧
      ∃ w c k x y a b p, (k = s.calls ∨ k = s.calls + 1) ∧ k = q.2.calls ∧ w = q.2.work ∧ c = q.2.ans ∧
        r.2 = { s with
          qpIter := some it, qpExit := some ex, work := w, ans := c, calls := k,
          stats := (st.2.updateExitFlag ex).2,
          xk := x, yk := y, xnew := a, ykA := b, pk := p } := by
  simp only [solveQP, bind_eq_ok] at h
  obtain ⟨q, hq, s1, h1, h⟩ := h
  obtain ⟨qi, qe, w, c, k, hk, hq2⟩ := subSolve_inv hq
  obtain ⟨it, ex, st, x, y, hit, hex, hst, hs1⟩ := afterSolve_inv h1
  have hst' : s.stats.updateSubproblemIter it = .ok st := by rw [hq2] at hst; exact hst
  have e1 : qi = some it := by rw [hq2] at hit; exact hit
  have e2 : qe = some ex := by rw [hq2] at hex; exact hex
  refine ⟨q, hq, ?_⟩
  split at h
  · injection h with h
    refine ⟨by rw [← h], it, ex, st, hit, hex, hst', w, c, k, x, y, s.xnew, s.ykA, s.pk, hk,
      by rw [hq2], by rw [hq2], by rw [hq2], ?_⟩
    rw [← h, hs1, hq2, e1, e2]
  · rename_i hne
    simp only [bind_eq_ok] at h
    obtain ⟨s2, h2, h⟩ := h
    obtain ⟨a, b, c', p, rfl⟩ := takeSolution_inv h2
    injection h with h
    refine ⟨by rw [← h]; exact (not_not.mp hne).symm, it, ex, st, hit, hex, hst', w, c, k, x, b, a, c', p, hk,
      by rw [hq2], by rw [hq2], by rw [hq2], ?_⟩
    rw [← h, hs1, hq2, e1, e2]

/-- inversion of `andThen` -/
theorem andThen_eq_ok {m : M (Step α)} {k : St α → M (Step α)} {r : Step α} :
    andThen m k = .ok r ↔ (∃ s, m = .ok (.inl s) ∧ k s = .ok r) ∨ (∃ q, m = .ok (.inr q) ∧ r = .inr q) := by
  unfold andThen
  rw [bind_eq_ok]
  constructor
  · rintro ⟨x, hx, h⟩
    cases x with
    | inl s => exact Or.inl ⟨s, hx, h⟩
    | inr q => injection h with h; exact Or.inr ⟨q, hx, h.symm⟩
  · rintro (⟨s, hs, h⟩ | ⟨q, hq, h⟩)
    · exact ⟨_, hs, h⟩
    · exact ⟨_, hq, by rw [h]⟩

end LCQ
