import Verif.Lemmas.Ready
import Verif.Spec.Reach

/-!
# What a finished run leaves behind

Partial correctness facts: what is known about the members after a call that returned normally.
-/

set_option linter.unusedSectionVars false

namespace LCQ
open Scalar

variable {α : Type} [Scalar α] {e : Env α} {d : Data α} {o : Obj α} {n : Dims} {k : Nat}

theorem wr_len {β : Type} {b c : List β} {i : Nat} {v : β} (h : wr b i v = .ok c) : c.length = b.length := by
  unfold wr at h
  split at h
  · injection h with h; rw [← h]; simp
  · cases h

theorem fillAns_len {f : Nat → α} {m : Nat} {b c : List α} (h : fillAns f m b = .ok c) : c.length = b.length :=
  loop_partial (fun _ c => c.length = b.length) m _ b c h rfl fun _ _ _ _ hs ht => (wr_len ht).trans hs

theorem shiftDuals_len {rho : α} {tmp : List α} {a m : Nat} {b c : List α}
    (h : shiftDuals rho tmp a m b = .ok c) : c.length = b.length := by
  refine loop_partial (fun _ c => c.length = b.length) m _ b c h rfl ?_
  intro _ s t _ hs ht
  simp only [bind_eq_ok] at ht
  obtain ⟨_, _, _, _, ht⟩ := ht
  exact (wr_len ht).trans hs

theorem getSolution_len {s : St α} {r : List α × List α} (h : getSolution d s = .ok r) (hy : Has s.yk k) :
    r.2.length = k := by
  obtain ⟨y, hy, ly⟩ := hy
  simp only [getSolution, bind_eq_ok, initd_eq_ok, deref_eq_ok, hy] at h
  obtain ⟨sub, _, a, _, x, _, y', hy', h⟩ := h
  injection hy' with hy'
  subst hy'
  cases sub <;>
  · simp only [bind_eq_ok] at h
    obtain ⟨x', _, y', h2, h⟩ := h
    injection h with h
    rw [← h, fillAns_len h2, ly]

theorem takeSolution_len {s s' : St α} (h : takeSolution d s = .ok s') (hy : Has s.yk k) : Has s'.yk k := by
  simp only [takeSolution, bind_eq_ok] at h
  obtain ⟨_, _, _, _, r, hr, _, _, _, _, _, _, _, _, _, _, h⟩ := h
  injection h with h
  rw [← h]
  exact ⟨_, rfl, getSolution_len hr hy⟩

theorem afterSolve_len {s s' : St α} (h : afterSolve e d s = .ok s') (hy : HasOpt s.yk k) (hd : d.nDuals = some k) :
    Has s'.yk k := by
  simp only [afterSolve, hd, initd_some, ok_bind, bind_eq_ok] at h
  obtain ⟨_, _, _, _, _, _, _, _, h⟩ := h
  injection h with h
  rw [← h]
  rcases hy with hy | ⟨y, hy, ly⟩
  · exact ⟨_, rfl, by rw [hy]; simp [Env.alloc]⟩
  · exact ⟨_, rfl, by rw [hy]; simpa using ly⟩

theorem solveQP_len {s : St α} {init : Bool} {r : RV × St α} (h : solveQP e d s init = .ok r)
    (hy : HasOpt s.yk k) (hd : d.nDuals = some k) : Has r.2.yk k := by
  simp only [solveQP, bind_eq_ok] at h
  obtain ⟨q, hq, s1, h1, h⟩ := h
  obtain ⟨_, _, _, _, _, _, hq2⟩ := subSolve_inv hq
  have hy1 : Has s1.yk k := afterSolve_len h1 (by rw [hq2]; exact hy) hd
  split at h
  · injection h with h
    rw [← h]
    exact hy1
  · simp only [bind_eq_ok] at h
    obtain ⟨s2, h2, h⟩ := h
    injection h with h
    rw [← h]
    exact takeSolution_len h2 hy1

theorem transformDuals_len {s s' : St α} (h : transformDuals e d s = .ok s') (hy : Has s.yk k) : Has s'.yk k := by
  obtain ⟨y, hy, ly⟩ := hy
  simp only [transformDuals, bind_eq_ok, hy, deref_some, ok_bind] at h
  obtain ⟨_, _, _, _, _, _, _, _, _, _, y1, h1, _, _, y2, h2, h⟩ := h
  injection h with h
  rw [← h]
  exact ⟨_, rfl, by rw [shiftDuals_len h2, shiftDuals_len h1, ly]⟩

theorem accept_len {s : St α} {r : RV × St α} (h : accept e d s = .ok r) (hy : Has s.yk k) : Has r.2.yk k := by
  simp only [accept, bind_eq_ok] at h
  obtain ⟨s1, h1, s2, h2, t, _, h⟩ := h
  have hy1 := transformDuals_len h1 hy
  obtain ⟨_, _, rfl⟩ := determine_inv h2
  injection h with h
  rw [← h]
  split <;> exact hy1

/-- the parts of a pass before the next QP keep these members -/
theorem advance_keep {s s' : St α} (h : advance d s = .ok s') :
    s'.yk = s.yk ∧ s'.idxC = s.idxC ∧ s'.outer = s.outer ∧ s'.Qks = s.Qks := by
  obtain ⟨_, _, _, _, _, _, _, _, _, _, _, _, _, rfl, _, _, rfl⟩ := advance_inv h
  exact ⟨rfl, rfl, rfl, rfl⟩

/-- Induction over the passes of the main loop: a predicate kept by the penalty updates, by QP solutions
and by the final transformation holds in the end, if it does not depend on the other members. -/
theorem main_keep (I : St α → Prop)
    (adv : ∀ s s', I s → advance d s = .ok s' → I s')
    (hist : ∀ s hh, I s → I { s with hist := hh })
    (bmp : ∀ s s', I s → bump d s = .ok s' → I s')
    (lin : ∀ s g, I s → I { s with gk := some g })
    (acc : ∀ s r, I s → accept e d s = .ok r → I r.2)
    (qp : ∀ s r, I s → solveQP e d s false = .ok r → I r.2)
    (say : ∀ s (v : Ev α), I s → I (s.say v))
    (step : ∀ s x c lt a, I s → I { s with xk := x, rnd := c, lkTmp := some lt, alpha := some a })
    {fuel : Nat} {s : St α} {q : RV × St α} (hs : I s) (h : mainLoop e d fuel s = .ok (some q)) : I q.2 := by
  refine mainLoop_rule I (fun q => I q.2) ?_ fuel s q hs h
  intro s r hs hr
  obtain ⟨s1, s2, s3, h1, h2, h3, h⟩ := pass_inv hr
  have i1 := adv _ _ hs h1
  have i2 : I s2 := by
    obtain ⟨q, hh, _, hq, h⟩ := dynamicPenalty_inv h2
    rcases h with ⟨_, h⟩ | ⟨_, h⟩
    · rw [h, hq]; exact hist _ _ i1
    · exact bmp _ _ (by rw [hq]; exact hist _ _ i1) h
  have i3 : I s3 := by
    obtain ⟨g, rfl⟩ := updateLinearization_inv h3
    exact lin _ _ i2
  rcases h with ⟨_, _, q, hq, rfl⟩ | ⟨s4, t, rho, h4, _, _, h⟩
  · exact ⟨by simp, fun q' hq' => by injection hq' with hq'; rw [← hq']; exact acc _ _ i3 hq⟩
  · have i4 : I s4 := by
      rcases h4 with ⟨_, rfl⟩ | ⟨_, _, h4⟩
      · exact i3
      · exact bmp _ _ i3 h4
    rcases h with ⟨_, rfl⟩ | ⟨_, _, rfl⟩ | ⟨_, _, h⟩
    · exact ⟨by simp, fun q' hq' => by injection hq' with hq'; rw [← hq']; exact i4⟩
    · exact ⟨by simp, fun q' hq' => by injection hq' with hq'; rw [← hq']; exact i4⟩
    · obtain ⟨gk, q, hq, h⟩ := nextStep_inv h
      have iq := qp _ _ (lin _ gk i4) hq
      rcases h with ⟨_, rfl⟩ | ⟨_, x, c, lt, a, rfl⟩
      · exact ⟨by simp, fun q' hq' => by injection hq' with hq'; rw [← hq']; exact say _ _ iq⟩
      · exact ⟨fun s' hs' => by injection hs' with hs'; rw [← hs']; exact step _ _ _ _ _ iq, by simp⟩

/-- the multiplier array after a run that passed the initialisation -/
theorem run_len {fuel : Nat} {r i : RV × Obj α} (hr : runSolver e fuel o = .ok (some r))
    (hi : initializeSolver e o = .ok i) (h1 : i.1 = .successfulReturn) (hy : HasOpt i.2.s.yk k)
    (hd : i.2.d.nDuals = some k) : Has r.2.s.yk k := by
  obtain ⟨i', hi', h⟩ := runSolver_inv hr
  rw [hi] at hi'
  injection hi' with hi'
  subst hi'
  rcases h with ⟨h, _⟩ | ⟨_, _, h⟩
  · exact absurd h1 h
  · have first : ∀ q, firstStep e i.2.d i.2.s = .ok q → (∀ s, q = .inl s → Has s.yk k) ∧
        (∀ p, q = .inr p → Has p.2.yk k) := by
      intro q hq
      obtain ⟨gk, p, hp, h⟩ := firstStep_inv hq
      have hl := solveQP_len hp hy hd
      rcases h with ⟨_, rfl⟩ | ⟨_, _, _, _, _, _, rfl⟩
      · exact ⟨by simp, fun p' hp' => by injection hp' with hp'; rw [← hp']; exact hl⟩
      · exact ⟨fun p' hp' => by injection hp' with hp'; rw [← hp']; exact hl, by simp⟩
    rcases h with h | ⟨s, hs, h⟩
    · exact (first _ h).2 _ rfl
    · refine main_keep (fun s => Has s.yk k) ?_ ?_ ?_ ?_ ?_ ?_ ?_ ?_ ((first _ hs).1 _ rfl) h
      · intro s s' hs h; rw [(advance_keep h).1]; exact hs
      · intro s _ hs; exact hs
      · intro s s' hs h
        obtain ⟨_, _, _, _, _, _, _, _, rfl⟩ := bump_inv h
        exact hs
      · intro s _ hs; exact hs
      · intro s r hs h; exact accept_len h hs
      · intro s r hs h; exact solveQP_len h (Or.inr hs) hd
      · intro s _ hs; exact hs
      · intro s _ _ _ _ hs; exact hs

/-- the dual guess read by the OSQP branch has to contain the box multipliers -/
theorem osqpDualGuess_short {y : List α} (h : y.length < n.nV + n.nA) (hA : 0 < n.nA) :
    osqpDualGuess e n (some y) = .error .oob := by
  have key : ∀ m b, loop m (fun i b => do let v ← rd y (n.nV + i); wr b i v) b = .error .oob ∨
      ∃ c, loop m (fun i b => do let v ← rd y (n.nV + i); wr b i v) b = .ok c ∧ (m = 0 ∨ n.nV + m ≤ y.length) := by
    intro m b
    induction m with
    | zero => exact Or.inr ⟨b, rfl, Or.inl rfl⟩
    | succ m ih =>
      rcases ih with ih | ⟨c, ih, _⟩
      · exact Or.inl (by rw [loop, ih]; rfl)
      · rw [loop, ih, ok_bind]
        by_cases hl : n.nV + m < y.length
        · rw [rd_ok hl, ok_bind, wr]
          split
          · exact Or.inr ⟨_, rfl, Or.inr (by omega)⟩
          · exact Or.inl rfl
        · refine Or.inl ?_
          rw [rd, List.getElem?_eq_none (by omega)]
          rfl
  simp only [osqpDualGuess]
  rcases key n.nA (e.alloc 17 n.nA) with h' | ⟨c, _, h'⟩
  · rw [h']; rfl
  · omega

/-- outcome of a successful initialisation for OSQP -/
theorem init_osqp_inv {i : RV × Obj α} (hn : o.d.dims = some n) (hq : o.d.opts.qpSolver = 2)
    (hi : initializeSolver e o = .ok i) (h1 : i.1 = .successfulReturn) :
    o.d.lb = none ∧ o.d.ub = none ∧ i.2.d.lb = none ∧ i.2.d.ub = none ∧ i.2.d.nDuals = some n.nA ∧
      HasOpt i.2.s.yk n.nA ∧ i.2.d.dims = some n ∧ i.2.d.opts = o.d.opts := by
  simp only [initializeSolver, bind_eq_ok] at hi
  obtain ⟨c, hc, hi⟩ := hi
  have e1 : c.1 = .successfulReturn := by
    by_contra hne
    rw [if_pos hne] at hi
    injection hi with hi
    exact hne (hi ▸ h1)
  rw [if_neg (by simp [e1])] at hi
  have hcc : o.d.lb = none ∧ o.d.ub = none ∧ c.2.d.lb = none ∧ c.2.d.ub = none ∧ c.2.d.nDuals = some n.nA ∧
      HasOpt c.2.s.yk n.nA ∧ c.2.d.dims = some n ∧ c.2.d.opts = o.d.opts := by
    rw [chooseSolver, hn, initd_some, ok_bind, if_neg (by omega), if_neg (by omega), if_pos hq] at hc
    split at hc
    · injection hc with hc; rw [← hc] at e1; cases e1
    · rename_i hb
      push Not at hb
      simp only [bind_eq_ok] at hc
      obtain ⟨y, hy, hc⟩ := hc
      have ly : HasOpt y n.nA := by
        cases hyk : o.s.yk with
        | none => rw [hyk, osqpDualGuess] at hy; injection hy with hy; exact Or.inl hy.symm
        | some v =>
          rw [hyk] at hy
          simp only [osqpDualGuess, bind_eq_ok] at hy
          obtain ⟨t, ht, hy⟩ := hy
          injection hy with hy
          have : t.length = n.nA := by
            refine loop_partial (fun _ c => c.length = n.nA) n.nA _ _ t ht (by simp [Env.alloc]) ?_
            intro _ s t _ hs ht
            simp only [bind_eq_ok] at ht
            obtain ⟨_, _, ht⟩ := ht
            exact (wr_len ht).trans hs
          exact Or.inr ⟨_, hy.symm, by simp [Env.alloc, this]; omega⟩
      split at hc
      · injection hc with hc; rw [← hc] at e1; cases e1
      · split at hc
        · injection hc with hc; rw [← hc] at e1; cases e1
        · simp only [bind_eq_ok] at hc
          obtain ⟨_, _, _, _, _, _, _, _, w, _, hc⟩ := hc
          injection hc with hc
          rw [← hc]
          exact ⟨hb.1, hb.2, hb.1, hb.2, rfl, ly, hn, rfl⟩
  obtain ⟨a, b, c1, c2, c3, c4, c5, c6⟩ := hcc
  simp only [initRest, bind_eq_ok] at hi
  obtain ⟨_, _, _, _, _, _, d', hd', hi⟩ := hi
  injection hi with hi
  rw [← hi]
  have hd2 : d'.lb = c.2.d.lb ∧ d'.ub = c.2.d.ub ∧ d'.nDuals = c.2.d.nDuals ∧ d'.dims = c.2.d.dims ∧
      d'.opts = c.2.d.opts := by
    rcases initPhi_inv hd' with ⟨_, _, rfl⟩ | ⟨_, _, _, _, _, _, rfl⟩ <;> exact ⟨rfl, rfl, rfl, rfl, rfl⟩
  obtain ⟨p1, p2, p3, p4, p5⟩ := hd2
  refine ⟨a, b, p1.trans c1, p2.trans c2, p3.trans c3, ?_, p4.trans c5, p5.trans c6⟩
  dsimp only
  split <;> exact c4

/-- the OSQP workspace after the initialisation -/
theorem init_osqp_work {i : RV × Obj α} (hq : o.d.opts.qpSolver = 2) (hi : initializeSolver e o = .ok i)
    (h1 : i.1 = .successfulReturn) :
    o.s.work.clear = .ok i.2.s.work ∧ (∃ Q A, i.2.d.sub = some (.osqp Q A)) ∧ i.2.s.calls = o.s.calls := by
  simp only [initializeSolver, bind_eq_ok] at hi
  obtain ⟨c, hc, hi⟩ := hi
  have e1 : c.1 = .successfulReturn := by
    by_contra hne
    rw [if_pos hne] at hi
    injection hi with hi
    exact hne (hi ▸ h1)
  rw [if_neg (by simp [e1])] at hi
  have hcc : o.s.work.clear = .ok c.2.s.work ∧ (∃ Q A, c.2.d.sub = some (.osqp Q A)) ∧ c.2.s.calls = o.s.calls := by
    simp only [chooseSolver, bind_eq_ok] at hc
    obtain ⟨n, _, hc⟩ := hc
    rw [if_neg (by omega), if_neg (by omega), if_pos hq] at hc
    split at hc
    · injection hc with hc; rw [← hc] at e1; cases e1
    · simp only [bind_eq_ok] at hc
      obtain ⟨y, hy, hc⟩ := hc
      split at hc
      · injection hc with hc; rw [← hc] at e1; cases e1
      · split at hc
        · injection hc with hc; rw [← hc] at e1; cases e1
        · simp only [bind_eq_ok] at hc
          obtain ⟨_, _, _, _, _, _, _, _, w, hw, hc⟩ := hc
          injection hc with hc
          rw [← hc]
          exact ⟨hw, ⟨_, _, rfl⟩, rfl⟩
  obtain ⟨c1, c2, c3⟩ := hcc
  simp only [initRest, bind_eq_ok] at hi
  obtain ⟨_, _, _, _, _, _, d', hd', hi⟩ := hi
  injection hi with hi
  rw [← hi]
  have hd2 : d'.sub = c.2.d.sub := by
    rcases initPhi_inv hd' with ⟨_, _, rfl⟩ | ⟨_, _, _, _, _, _, rfl⟩ <;> rfl
  refine ⟨?_, by rw [← hd2] at c2; exact c2, ?_⟩
  · rw [c1]; congr 1; dsimp only; split <;> rfl
  · dsimp only; split <;> exact c3

/-- the box bounds a successful initialisation sets when none are waiting -/
theorem setBoxes_none {b : RV × Data α} (hn : d.dims = some n) (hl : d.lbTmp = none) (hu : d.ubTmp = none)
    (h : setBoxes d = .ok b) (hb : b.1 = .successfulReturn) :
    b.2.lb = some (List.replicate n.nV (-. inf)) ∧ b.2.ub = some (List.replicate n.nV inf) := by
  simp only [setBoxes, setBox, hn, hl, hu, initd_some, ok_bind] at h
  by_cases hV : n.nV = 0
  · rw [if_pos hV] at h
    simp only [ok_bind] at h
    rw [if_pos (by simp)] at h
    injection h with h
    rw [← h] at hb
    cases hb
  · rw [if_neg hV] at h
    simp only [ok_bind] at h
    rw [if_neg (by simp), if_neg hV] at h
    simp only [ok_bind] at h
    rw [if_neg (by simp)] at h
    injection h with h
    rw [← h]
    exact ⟨rfl, rfl⟩

/-- qpOASES without waiting box bounds gets unbounded variables -/
theorem init_unbounded {i : RV × Obj α} (hn : o.d.dims = some n) (hl : o.d.lbTmp = none) (hu : o.d.ubTmp = none)
    (hq : o.d.opts.qpSolver = 0 ∨ o.d.opts.qpSolver = 1)
    (hi : initializeSolver e o = .ok i) (h1 : i.1 = .successfulReturn) :
    i.2.d.lb = some (List.replicate n.nV (-. inf)) ∧ i.2.d.ub = some (List.replicate n.nV inf) := by
  simp only [initializeSolver, bind_eq_ok] at hi
  obtain ⟨c, hc, hi⟩ := hi
  have e1 : c.1 = .successfulReturn := by
    by_contra hne
    rw [if_pos hne] at hi
    injection hi with hi
    exact hne (hi ▸ h1)
  rw [if_neg (by simp [e1])] at hi
  have hcc : c.2.d.lb = some (List.replicate n.nV (-. inf)) ∧ c.2.d.ub = some (List.replicate n.nV inf) := by
    rw [chooseSolver, hn, initd_some, ok_bind] at hc
    rcases hq with hq | hq
    · rw [if_pos hq] at hc
      dsimp only at hc
      split at hc
      · injection hc with hc; rw [← hc] at e1; cases e1
      · simp only [bind_eq_ok] at hc
        obtain ⟨b, hb, hc⟩ := hc
        split at hc
        · rename_i hne
          injection hc with hc; rw [← hc] at e1; exact absurd e1 hne
        · rename_i hb1
          have := setBoxes_none (n := n) (by exact hn) (by exact hl) (by exact hu) hb (not_not.mp hb1)
          simp only [bind_eq_ok] at hc
          obtain ⟨_, _, _, _, _, _, _, _, hc⟩ := hc
          injection hc with hc
          rw [← hc]
          exact this
    · rw [if_neg (by omega), if_pos hq] at hc
      dsimp only at hc
      split at hc
      · injection hc with hc; rw [← hc] at e1; cases e1
      · simp only [bind_eq_ok] at hc
        obtain ⟨b, hb, hc⟩ := hc
        split at hc
        · rename_i hne
          injection hc with hc; rw [← hc] at e1; exact absurd e1 hne
        · rename_i hb1
          have := setBoxes_none (n := n) (by exact hn) (by exact hl) (by exact hu) hb (not_not.mp hb1)
          simp only [bind_eq_ok] at hc
          obtain ⟨_, _, _, _, _, _, _, _, hc⟩ := hc
          injection hc with hc
          rw [← hc]
          exact this
  simp only [initRest, bind_eq_ok] at hi
  obtain ⟨_, _, _, _, _, _, d', hd', hi⟩ := hi
  injection hi with hi
  rw [← hi]
  rcases initPhi_inv hd' with ⟨_, _, rfl⟩ | ⟨_, _, _, _, _, _, rfl⟩ <;> exact hcc

/-- the data after a run that passed the initialisation -/
theorem run_data {fuel : Nat} {r i : RV × Obj α} (hr : runSolver e fuel o = .ok (some r))
    (hi : initializeSolver e o = .ok i) (h1 : i.1 = .successfulReturn) : r.2.d = i.2.d := by
  obtain ⟨i', hi', h⟩ := runSolver_inv hr
  rw [hi] at hi'
  injection hi' with hi'
  subst hi'
  rcases h with ⟨h, _⟩ | ⟨_, h, _⟩
  · exact absurd h1 h
  · exact h

/-- without lower complementarity bounds the initialisation leaves the constant and linear part of `phi` as they are -/
theorem init_noLow {i : RV × Obj α} (hi : initializeSolver e o = .ok i) (h1 : i.1 = .successfulReturn)
    (hL : o.d.lbL = none) (hR : o.d.lbR = none) : i.2.d.gPhi = o.d.gPhi ∧ i.2.d.phiConst = o.d.phiConst := by
  simp only [initializeSolver, bind_eq_ok] at hi
  obtain ⟨c, hc, hi⟩ := hi
  have e1 : c.1 = .successfulReturn := by
    by_contra hne
    rw [if_pos hne] at hi
    injection hi with hi
    exact hne (hi ▸ h1)
  rw [if_neg (by simp [e1])] at hi
  obtain ⟨_, _, _, _, _, _, _, ec⟩ := chooseSolver_inv hc
  simp only [initRest, bind_eq_ok] at hi
  obtain ⟨_, _, _, _, _, _, d', hd', hi⟩ := hi
  injection hi with hi
  rw [← hi]
  rcases initPhi_inv hd' with ⟨_, _, rfl⟩ | ⟨_, _, _, _, hL', _, _⟩
  · rw [ec]
    exact ⟨rfl, rfl⟩
  · rw [ec] at hL'
    have hL' : o.d.lbL = _ := hL'
    rw [hL] at hL'
    cases hL'

/-! ## the recorded positions of the entries of `C` -/

/-- members kept by `solveQPSubproblem` -/
theorem solveQP_keep {s : St α} {init : Bool} {r : RV × St α} (h : solveQP e d s init = .ok r) :
    r.2.idxC = s.idxC ∧ r.2.outer = s.outer ∧ r.2.rho = s.rho := by
  obtain ⟨q, _, _, _, _, _, _, _, _, _, _, _, _, _, _, _, _, _, _, _, _, hr⟩ := solveQP_inv h
  rw [hr]
  exact ⟨rfl, rfl, rfl⟩

theorem bumpQks_idx {f : α} {C : CSC α} {idx : List Int} {x y : List α} (h : bumpQks f C idx x = .ok y) :
    idx.length ≤ C.x.length := by
  refine loop_partial (fun j _ => j ≤ C.x.length) idx.length _ x y h (Nat.zero_le _) ?_
  intro j s t _ _ ht
  simp only [bind_eq_ok] at ht
  obtain ⟨_, _, _, _, c, hc, _⟩ := ht
  by_contra hl
  rw [rd, List.getElem?_eq_none (by omega)] at hc
  cases hc

theorem bump_idx {s s' : St α} {C : CSC α} (h : bump d s = .ok s') (hs : d.sparse = true) (hC : d.Cs = some C) :
    s.idxC.length ≤ C.x.length := by
  simp only [bump, updatePenalty, bind_eq_ok] at h
  obtain ⟨s1, ⟨r, hr, s2, h2, _⟩, _⟩ := h
  simp only [updateQk, bind_eq_ok, hs, if_true, deref_eq_ok, initd_eq_ok] at h2
  obtain ⟨_, _, _, _, _, _, C', hC', _, h2, _⟩ := h2
  rw [hC] at hC'
  injection hC' with hC'
  subst hC'
  exact bumpQks_idx h2

theorem setQk_idx {s s' : St α} {Q C : CSC α} (h : setQk d s = .ok s') (hn : d.dims = some n) (hs : d.sparse = true)
    (hQ : d.Qs = some Q) (hC : d.Cs = some C) (vQ : Q.ValidPtr) (vC : C.ValidPtr) (nQ : Q.n = n.nV) (nC : C.n = n.nV) :
    s'.idxC.length = s.idxC.length + C.P n.nV := by
  simp only [setQk, hn, hs, if_true, hQ, hC, initd_some, deref_some, ok_bind, bind_eq_ok] at h
  obtain ⟨r, _, b, hb, h⟩ := h
  rw [mergeQC_ok r Q C vQ vC n.nV nQ nC] at hb
  injection hb with hb
  injection h with h
  rw [← h, ← hb]
  simp [cpos_length, mall_c Q C vC n.nV (by omega)]

theorem firstStep_idx {s s' : St α} {Q C : CSC α} (h : firstStep e d s = .ok (.inl s')) (hn : d.dims = some n)
    (hs : d.sparse = true) (hQ : d.Qs = some Q) (hC : d.Cs = some C) (vQ : Q.ValidPtr) (vC : C.ValidPtr)
    (nQ : Q.n = n.nV) (nC : C.n = n.nV) : s'.idxC.length = s.idxC.length + C.P n.nV ∧ s'.outer = s.outer := by
  simp only [firstStep, bind_eq_ok] at h
  obtain ⟨s1, h1, q, hq, h⟩ := h
  obtain ⟨gk, rfl⟩ := firstGradient_inv h1
  obtain ⟨k1, k2, _⟩ := solveQP_keep hq
  split at h
  · cases h
  · simp only [bind_eq_ok, initd_eq_ok] at h
    obtain ⟨s2, h2, rho, hrho, h⟩ := h
    have := setQk_idx h2 hn hs hQ hC vQ vC nQ nC
    obtain ⟨a, b, c, rfl⟩ := setQk_inv h2
    injection h with h
    injection h with h
    rw [← h]
    exact ⟨by rw [← k1]; exact this, k2⟩

/-- the recorded positions only change at the beginning of a run -/
theorem run_idx {fuel : Nat} {r : RV × Obj α} {s0 : St α} (hr : runSolver e fuel o = .ok (some r))
    (h : Enters e o d s0) : r.2.s.idxC = s0.idxC ∧ r.2.d = d := by
  obtain ⟨i, hi, h1, rfl, hf⟩ := h
  refine ⟨?_, run_data hr hi h1⟩
  obtain ⟨i', hi', h⟩ := runSolver_inv hr
  rw [hi] at hi'
  injection hi' with hi'
  subst hi'
  rcases h with ⟨h, _⟩ | ⟨_, _, h⟩
  · exact absurd h1 h
  · rcases h with h | ⟨s, hs, h⟩
    · rw [hf] at h; cases h
    · rw [hf] at hs
      injection hs with hs
      injection hs with hs
      subst hs
      refine main_keep (fun s => s.idxC = s0.idxC) ?_ ?_ ?_ ?_ ?_ ?_ ?_ ?_ rfl h
      · intro s s' hs h; rw [(advance_keep h).2.1]; exact hs
      · intro s _ hs; exact hs
      · intro s s' hs h
        obtain ⟨_, _, _, _, _, _, _, _, rfl⟩ := bump_inv h
        exact hs
      · intro s _ hs; exact hs
      · intro s r hs h
        obtain ⟨_, _, _, _, hr⟩ := accept_inv h
        rw [hr]; exact hs
      · intro s r hs h; rw [(solveQP_keep h).1]; exact hs
      · intro s _ hs; exact hs
      · intro s _ _ _ _ hs; exact hs

/-- when more positions are recorded than `C` has entries, a run makes no penalty update -/
theorem run_no_bump {fuel : Nat} {r : RV × Obj α} {s0 : St α} {C : CSC α} (hr : runSolver e fuel o = .ok (some r))
    (h : Enters e o d s0) (hs : d.sparse = true) (hC : d.Cs = some C) (hl : C.x.length < s0.idxC.length)
    (h0 : s0.outer = some 0) : r.2.s.outer = some 0 := by
  obtain ⟨i, hi, h1, rfl, hf⟩ := h
  obtain ⟨i', hi', h⟩ := runSolver_inv hr
  rw [hi] at hi'
  injection hi' with hi'
  subst hi'
  rcases h with ⟨h, _⟩ | ⟨_, _, h⟩
  · exact absurd h1 h
  · rcases h with h | ⟨s, hs', h⟩
    · rw [hf] at h; cases h
    · rw [hf] at hs'
      injection hs' with hs'
      injection hs' with hs'
      subst hs'
      refine (main_keep (fun s => s.idxC = s0.idxC ∧ s.outer = some 0) ?_ ?_ ?_ ?_ ?_ ?_ ?_ ?_ ⟨rfl, h0⟩ h).2
      · intro s s' hs h
        obtain ⟨_, a, b, _⟩ := advance_keep h
        rw [a, b]; exact hs
      · intro s _ hs; exact hs
      · intro s s' hs' h
        have := bump_idx h hs hC
        rw [hs'.1] at this
        omega
      · intro s _ hs; exact hs
      · intro s r hs h
        obtain ⟨_, _, _, _, hr⟩ := accept_inv h
        rw [hr]; exact hs
      · intro s r hs h
        obtain ⟨a, b, _⟩ := solveQP_keep h
        rw [a, b]; exact hs
      · intro s _ hs; exact hs
      · intro s _ _ _ _ hs; exact hs

end LCQ
