import Verif.Lemmas.Frame

/-!
# Structure of a run: inversion of one pass, of the initialisation and of the whole run
-/

set_option linter.unusedSectionVars false

namespace LCQ
open Scalar

variable {α : Type} [Scalar α]

/-- what the first part of a pass does; `p` is the state in which the iteration is printed and
stored -/
theorem advance_inv {d : Data α} {s s' : St α} (h : advance d s = .ok s') :
    ∃ x a b c p l st t i, s.total = some t ∧ s.inner = some i ∧ t + 1 ≤ intMax ∧
      (∃ u, updateStep d s = .ok u ∧ updateStationarity d u = .ok p) ∧
      p = { s with xk := some x, statk := some a, cstat := some b, bstat := c } ∧
      printIteration d p = .ok { p with out := s.out ++ l } ∧
      ((d.opts.storeSteps = false ∧ st = s.stats) ∨
       (d.opts.storeSteps = true ∧
        storeSteps d { p with out := s.out ++ l } = .ok { p with out := s.out ++ l, stats := st })) ∧
      s' = { p with
        out := s.out ++ l
        stats := { st with iterTotal := st.iterTotal + 1 }
        total := some (t + 1)
        inner := some (i + 1) } := by
  simp only [advance, bind_eq_ok] at h
  obtain ⟨s1, h1, s2, h2, s3, h3, s4, h4, s5, h5, h6⟩ := h
  have hstep := h1
  have hstat := h2
  obtain ⟨x, rfl⟩ := updateStep_inv h1
  obtain ⟨a, b, c, rfl⟩ := updateStationarity_inv h2
  have hprint := h3
  obtain ⟨l, rfl, _⟩ := printIteration_inv h3
  have key : ∃ st, s4 = { s with
      xk := some x
      statk := some a
      cstat := some b
      bstat := c
      out := s.out ++ l
      stats := st } ∧ ((d.opts.storeSteps = false ∧ st = s.stats) ∨
       (d.opts.storeSteps = true ∧
        storeSteps d { s with
          xk := some x
          statk := some a
          cstat := some b
          bstat := c
          out := s.out ++ l } = .ok { s with
          xk := some x
          statk := some a
          cstat := some b
          bstat := c
          out := s.out ++ l
          stats := st })) := by
    rcases storeIf_inv h4 with ⟨hb, h4⟩ | ⟨hb, h4⟩
    · exact ⟨s.stats, h4, Or.inl ⟨hb, rfl⟩⟩
    · have hh := h4
      obtain ⟨_, _, _, q, _, _, _, _, _, _, _, _, _, _, _, rfl⟩ := storeSteps_inv h4
      exact ⟨q.2, rfl, Or.inr ⟨hb, hh⟩⟩
  obtain ⟨st, rfl, hst⟩ := key
  obtain ⟨t, q, ht, htm, hq, rfl⟩ := updateTotalIter_inv h5
  have hq' := iterTotal_one hq
  subst hq'
  obtain ⟨i, hi, rfl⟩ := incInner_inv h6
  refine ⟨x, a, b, c, _, l, st, t, i, ht, hi, htm, ⟨_, hstep, hstat⟩, rfl, hprint, hst, rfl⟩

/-- outcome of a pass -/
theorem pass_inv {e : Env α} {d : Data α} {s : St α} {r : Step α} (h : pass e d s = .ok r) :
    ∃ s1 s2 s3, advance d s = .ok s1 ∧ dynamicPenalty d s1 = .ok s2 ∧
      updateLinearization d s2 = .ok s3 ∧
      ((stationarityCheck d s3 = .ok true ∧ complementarityCheck d s3 = .ok true ∧
          ∃ q, accept e d s3 = .ok q ∧ r = .inr q) ∨
       ∃ s4 t rho, ((stationarityCheck d s3 = .ok false ∧ s4 = s3) ∨
          (stationarityCheck d s3 = .ok true ∧ complementarityCheck d s3 = .ok false ∧
            bump d s3 = .ok s4)) ∧ s4.total = some t ∧ s4.rho = some rho ∧
          ((d.opts.maxIter < t ∧ r = .inr (.maxIterationsReached, s4)) ∨
           (t ≤ d.opts.maxIter ∧ (d.opts.maxRho <. rho) = true ∧ r = .inr (.maxPenaltyReached, s4)) ∨
           (t ≤ d.opts.maxIter ∧ (d.opts.maxRho <. rho) = false ∧ nextStep e d s4 = .ok r))) := by
  simp only [pass, bind_eq_ok] at h
  obtain ⟨s1, h1, s2, h2, s3, h3, h⟩ := h
  refine ⟨s1, s2, s3, h1, h2, h3, ?_⟩
  have lim : ∀ s4, andThen (checkLimits d s4) (fun s => nextStep e d s) = .ok r →
      ∃ t rho, s4.total = some t ∧ s4.rho = some rho ∧
          ((d.opts.maxIter < t ∧ r = .inr (.maxIterationsReached, s4)) ∨
           (t ≤ d.opts.maxIter ∧ (d.opts.maxRho <. rho) = true ∧ r = .inr (.maxPenaltyReached, s4)) ∨
           (t ≤ d.opts.maxIter ∧ (d.opts.maxRho <. rho) = false ∧ nextStep e d s4 = .ok r)) := by
    intro s4 h
    rcases andThen_eq_ok.mp h with ⟨s5, h5, h⟩ | ⟨q, h5, hr⟩
    · simp only [checkLimits, bind_eq_ok, initd_eq_ok] at h5
      obtain ⟨t, ht, rho, hrho, h5⟩ := h5
      refine ⟨t, rho, ht, hrho, ?_⟩
      split at h5
      · cases h5
      · rename_i hle
        split at h5
        · cases h5
        · rename_i hlt
          injection h5 with h5
          injection h5 with h5
          subst h5
          exact Or.inr (Or.inr ⟨by omega, by simpa using hlt, h⟩)
    · simp only [checkLimits, bind_eq_ok, initd_eq_ok] at h5
      obtain ⟨t, ht, rho, hrho, h5⟩ := h5
      refine ⟨t, rho, ht, hrho, ?_⟩
      split at h5
      · rename_i hgt
        injection h5 with h5
        injection h5 with h5
        exact Or.inl ⟨by omega, by rw [hr, ← h5]⟩
      · rename_i hle
        split at h5
        · rename_i hlt
          injection h5 with h5
          injection h5 with h5
          exact Or.inr (Or.inl ⟨by omega, hlt, by rw [hr, ← h5]⟩)
        · cases h5
  rcases andThen_eq_ok.mp h with ⟨s4, h4, h⟩ | ⟨q, h4, hr⟩
  · right
    obtain ⟨t, rho, ht, hrho, hl⟩ := lim s4 h
    refine ⟨s4, t, rho, ?_, ht, hrho, hl⟩
    simp only [checkStationarity, bind_eq_ok] at h4
    obtain ⟨st, hst, h4⟩ := h4
    split at h4
    · rename_i hb
      subst hb
      simp only [bind_eq_ok] at h4
      obtain ⟨co, hco, h4⟩ := h4
      split at h4
      · simp only [bind_eq_ok] at h4
        obtain ⟨_, _, h4⟩ := h4
        cases h4
      · rename_i hb
        have hb : co = false := by simpa using hb
        subst hb
        simp only [bind_eq_ok] at h4
        obtain ⟨s5, h5, h4⟩ := h4
        injection h4 with h4
        injection h4 with h4
        subst h4
        exact Or.inr ⟨hst, hco, h5⟩
    · rename_i hb
      have hb : st = false := by simpa using hb
      subst hb
      injection h4 with h4
      injection h4 with h4
      exact Or.inl ⟨hst, h4.symm⟩
  · left
    simp only [checkStationarity, bind_eq_ok] at h4
    obtain ⟨st, hst, h4⟩ := h4
    split at h4
    · rename_i hb
      subst hb
      simp only [bind_eq_ok] at h4
      obtain ⟨co, hco, h4⟩ := h4
      split at h4
      · rename_i hb
        subst hb
        simp only [bind_eq_ok] at h4
        obtain ⟨q', hq', h4⟩ := h4
        injection h4 with h4
        injection h4 with h4
        subst h4
        exact ⟨hst, hco, q', hq', hr⟩
      · simp only [bind_eq_ok] at h4
        obtain ⟨_, _, h4⟩ := h4
        cases h4
    · cases h4

/-- outcome of the last part of a pass -/
theorem nextStep_inv {e : Env α} {d : Data α} {s : St α} {r : Step α} (h : nextStep e d s = .ok r) :
    ∃ gk q, solveQP e d { s with gk := some gk } false = .ok q ∧
      ((q.1 ≠ .successfulReturn ∧ r = .inr (q.1, q.2.say (.msg q.1))) ∨
       (q.1 = .successfulReturn ∧ ∃ x k lt a, r = .inl { q.2 with
          xk := x
          rnd := k
          lkTmp := some lt
          alpha := some a })) := by
  simp only [nextStep, bind_eq_ok] at h
  obtain ⟨s1, h1, q, hq, h⟩ := h
  obtain ⟨gk, rfl⟩ := updateLinearization_inv h1
  refine ⟨gk, q, hq, ?_⟩
  split at h
  · rename_i hne
    injection h with h
    exact Or.inl ⟨hne, h.symm⟩
  · rename_i hne
    simp only [bind_eq_ok] at h
    obtain ⟨s2, h2, s3, h3, h⟩ := h
    obtain ⟨x, k, rfl⟩ := perturbIf_inv h2
    obtain ⟨lt, a, rfl⟩ := getOptimalStepLength_inv h3
    injection h with h
    exact Or.inr ⟨not_not.mp hne, x, k, lt, a, h.symm⟩

/-- induction over the passes -/
theorem mainLoop_rule {e : Env α} {d : Data α} (I : St α → Prop) (P : RV × St α → Prop)
    (step : ∀ s r, I s → pass e d s = .ok r → (∀ s', r = .inl s' → I s') ∧ (∀ q, r = .inr q → P q))
    (f : Nat) (s : St α) (q : RV × St α) (hs : I s) (h : mainLoop e d f s = .ok (some q)) : P q := by
  induction f generalizing s with
  | zero => simp [mainLoop] at h
  | succ f ih =>
    simp only [mainLoop, bind_eq_ok] at h
    obtain ⟨r, hr, h⟩ := h
    obtain ⟨h1, h2⟩ := step s r hs hr
    cases r with
    | inl s' => exact ih s' (h1 s' rfl) h
    | inr q' =>
      simp at h
      exact h ▸ h2 q' rfl

theorem mainLoop_mono {e : Env α} {d : Data α} {f : Nat} {s : St α} {q : RV × St α}
    (h : mainLoop e d f s = .ok (some q)) (k : Nat) : mainLoop e d (f + k) s = .ok (some q) := by
  induction f generalizing s with
  | zero => simp [mainLoop] at h
  | succ f ih =>
    rw [show f + 1 + k = (f + k) + 1 by omega]
    simp only [mainLoop, bind_eq_ok] at h ⊢
    obtain ⟨r, hr, h⟩ := h
    refine ⟨r, hr, ?_⟩
    cases r with
    | inl s' => exact ih h
    | inr q' => exact h

theorem mainLoop_err {e : Env α} {d : Data α} {f : Nat} {s : St α} {x : Fault}
    (h : mainLoop e d f s = .error x) (k : Nat) : mainLoop e d (f + k) s = .error x := by
  induction f generalizing s with
  | zero => simp [mainLoop] at h
  | succ f ih =>
    rw [show f + 1 + k = (f + k) + 1 by omega]
    simp only [mainLoop] at h ⊢
    cases hp : pass e d s with
    | error y => rw [hp] at h; exact h
    | ok r =>
      rw [hp] at h
      cases r with
      | inl s' => exact ih h
      | inr q' => simp at h

theorem setBoxes_inv {d : Data α} {b : RV × Data α} (h : setBoxes d = .ok b) :
    ∃ l u, b.2 = { d with lb := l, ub := u } ∧
      (b.1 = .successfulReturn → l ≠ none ∧ u ≠ none) ∧
      (b.1 = .successfulReturn ∨ b.1 = .lcqpobjectNotSetup) := by
  have hb : ∀ v df q, setBox d v df = .ok q →
      (q.1 = .lcqpobjectNotSetup) ∨ (q.1 = .successfulReturn ∧ q.2 ≠ none) := by
    intro v df q h
    simp only [setBox, bind_eq_ok] at h
    obtain ⟨n, _, h⟩ := h
    split at h
    · injection h with h; exact Or.inl (by rw [← h])
    · split at h
      · simp only [bind_eq_ok] at h
        obtain ⟨_, _, h⟩ := h
        injection h with h; exact Or.inr (by rw [← h]; simp)
      · injection h with h; exact Or.inr (by rw [← h]; simp)
  simp only [setBoxes, bind_eq_ok] at h
  obtain ⟨l, hl, h⟩ := h
  have hl' := hb _ _ _ hl
  split at h
  · rename_i hne
    injection h with h
    rcases hl' with hl' | hl'
    · exact ⟨d.lb, d.ub, by rw [← h], by rw [← h]; simp [hl'], by rw [← h]; exact Or.inr hl'⟩
    · exact absurd hl'.1 hne
  · rename_i hne
    simp only [bind_eq_ok] at h
    obtain ⟨u, hu, h⟩ := h
    have hu' := hb _ _ _ hu
    split at h
    · rename_i hne'
      injection h with h
      rcases hu' with hu' | hu'
      · exact ⟨l.2, d.ub, by rw [← h], by rw [← h]; simp [hu'], by rw [← h]; exact Or.inr hu'⟩
      · exact absurd hu'.1 hne'
    · rename_i hne'
      injection h with h
      rcases hl' with hl' | hl'
      · simp [hl'] at hne
      · rcases hu' with hu' | hu'
        · simp [hu'] at hne'
        · exact ⟨l.2, u.2, by rw [← h], fun _ => ⟨hl'.2, hu'.2⟩, by rw [← h]; exact Or.inl rfl⟩

/-- what `chooseSolver` changes -/
theorem chooseSolver_inv {e : Env α} {o : Obj α} {r : RV × Obj α} (h : chooseSolver e o = .ok r) :
    ∃ nd bo l u sub y w, r.2 = ⟨{ o.d with
        nDuals := nd
        boxOff := bo
        lb := l
        ub := u
        sub := sub }, { o.s with
        yk := y
        work := w }⟩ := by
  simp only [chooseSolver, bind_eq_ok] at h
  obtain ⟨n, _, h⟩ := h
  split at h
  · split at h
    · injection h with h
      exact ⟨_, _, _, _, _, _, _, by rw [← h]⟩
    · simp only [bind_eq_ok] at h
      obtain ⟨b, hb, h⟩ := h
      obtain ⟨l, u, hbl, _⟩ := setBoxes_inv hb
      split at h
      · injection h with h
        exact ⟨_, _, _, _, _, _, _, by rw [← h, hbl]⟩
      · simp only [bind_eq_ok] at h
        obtain ⟨_, _, _, _, _, _, _, _, h⟩ := h
        injection h with h
        exact ⟨_, _, _, _, _, _, _, by rw [← h, hbl]⟩
  · split at h
    · split at h
      · injection h with h
        exact ⟨_, _, _, _, _, _, _, by rw [← h]⟩
      · simp only [bind_eq_ok] at h
        obtain ⟨b, hb, h⟩ := h
        obtain ⟨l, u, hbl, _⟩ := setBoxes_inv hb
        split at h
        · injection h with h
          exact ⟨_, _, _, _, _, _, _, by rw [← h, hbl]⟩
        · simp only [bind_eq_ok] at h
          obtain ⟨_, _, _, _, _, _, _, _, h⟩ := h
          injection h with h
          exact ⟨_, _, _, _, _, _, _, by rw [← h, hbl]⟩
    · split at h
      · split at h
        · injection h with h
          exact ⟨_, _, _, _, _, _, _, by rw [← h]⟩
        · simp only [bind_eq_ok] at h
          obtain ⟨y, _, h⟩ := h
          split at h
          · injection h with h
            exact ⟨_, _, _, _, _, _, _, by rw [← h]⟩
          · split at h
            · injection h with h
              exact ⟨_, _, _, _, _, _, _, by rw [← h]⟩
            · simp only [bind_eq_ok] at h
              obtain ⟨_, _, _, _, _, _, _, _, w, _, h⟩ := h
              injection h with h
              exact ⟨_, _, _, _, _, _, _, by rw [← h]⟩
      · injection h with h
        exact ⟨_, _, _, _, _, _, _, by rw [← h]⟩

theorem initPhi_inv {d d' : Data α} (h : initPhi d = .ok d') :
    (d.lbL = none ∧ d.lbR = none ∧ d' = d) ∨
    ∃ lL lR c gp, d.lbL = some lL ∧ d.lbR = some lR ∧ d' = { d with phiConst := c, gPhi := some gp } := by
  unfold initPhi at h
  split at h
  · rename_i hc
    injection h with h
    exact Or.inl ⟨hc.1, hc.2, h.symm⟩
  · simp only [bind_eq_ok, deref_eq_ok] at h
    obtain ⟨_, _, lL, hL, lR, hR, c, _, _, _, _, _, gp, _, h⟩ := h
    injection h with h
    exact Or.inr ⟨lL, lR, c, gp, hL, hR, h.symm⟩

/-- the object after a successful initialisation -/
theorem initializeSolver_ok {e : Env α} {o : Obj α} {r : RV × Obj α}
    (h : initializeSolver e o = .ok r) (hr : r.1 = .successfulReturn) :
    ∃ nd bo l u sub y w gt pc gp, r.2 = ⟨{ o.d with
        nDuals := nd
        boxOff := bo
        lb := l
        ub := u
        sub := sub
        phiConst := pc
        gPhi := gp
        lbTmp := none
        ubTmp := none }, { o.s with
        yk := y
        work := w
        gTilde := some gt
        alpha := some one
        rho := some o.d.opts.rho0
        outer := some 0
        inner := some 0
        total := some 0
        algo := some .notSolved
        stats := o.s.stats.reset
        out := o.s.out ++ (if o.d.opts.printLevel > 0 then [Ev.newline] else []) }⟩ := by
  simp only [initializeSolver, bind_eq_ok] at h
  obtain ⟨c, hc, h⟩ := h
  obtain ⟨nd, bo, l, u, sub, y, w, hc2⟩ := chooseSolver_inv hc
  split at h
  · rename_i hne
    injection h with h
    rw [← h] at hr
    exact absurd hr hne
  · simp only [initRest, bind_eq_ok] at h
    obtain ⟨n, _, g, _, gt, _, d', hd', h⟩ := h
    injection h with h
    rw [hc2] at hd' h
    rcases initPhi_inv hd' with ⟨_, _, rfl⟩ | ⟨_, _, c, gp, _, _, rfl⟩
    · refine ⟨nd, bo, l, u, sub, y, w, gt, o.d.phiConst, o.d.gPhi, ?_⟩
      rw [← h]
      simp only
      split <;> simp [St.say]
    · refine ⟨nd, bo, l, u, sub, y, w, gt, c, some gp, ?_⟩
      rw [← h]
      simp only
      split <;> simp [St.say]

theorem firstGradient_inv {d : Data α} {s s' : St α} (h : firstGradient d s = .ok s') :
    ∃ gk, s' = { s with gk := some gk } := by
  unfold firstGradient at h
  split at h
  · simp only [bind_eq_ok] at h
    obtain ⟨_, _, _, _, _, _, gk, _, h⟩ := h
    injection h with h
    exact ⟨gk, h.symm⟩
  · exact updateLinearization_inv h

/-- outcome of the first QP -/
theorem firstStep_inv {e : Env α} {d : Data α} {s : St α} {r : Step α} (h : firstStep e d s = .ok r) :
    ∃ gk q, solveQP e d { s with gk := some gk } true = .ok q ∧
      ((q.1 ≠ .successfulReturn ∧ r = .inr (q.1, q.2.say (.msg q.1))) ∨
       (q.1 = .successfulReturn ∧ ∃ a b c rho, q.2.rho = some rho ∧ r = .inl { q.2 with
          Qk := a
          Qks := b
          idxC := c
          stats := (q.2.stats.updateRhoOpt rho).2 })) := by
  simp only [firstStep, bind_eq_ok] at h
  obtain ⟨s1, h1, q, hq, h⟩ := h
  obtain ⟨gk, rfl⟩ := firstGradient_inv h1
  refine ⟨gk, q, hq, ?_⟩
  split at h
  · rename_i hne
    injection h with h
    exact Or.inl ⟨hne, h.symm⟩
  · rename_i hne
    simp only [bind_eq_ok, initd_eq_ok] at h
    obtain ⟨s2, h2, rho, hrho, h⟩ := h
    obtain ⟨a, b, c, rfl⟩ := setQk_inv h2
    injection h with h
    exact Or.inr ⟨not_not.mp hne, a, b, c, rho, hrho, h.symm⟩

/-- outcome of a run -/
theorem runSolver_inv {e : Env α} {fuel : Nat} {o : Obj α} {r : RV × Obj α}
    (h : runSolver e fuel o = .ok (some r)) :
    ∃ i, initializeSolver e o = .ok i ∧
      ((i.1 ≠ .successfulReturn ∧ r = (i.1, { i.2 with s := i.2.s.say (.msg i.1) })) ∨
       (i.1 = .successfulReturn ∧ r.2.d = i.2.d ∧
        (firstStep e i.2.d i.2.s = .ok (.inr (r.1, r.2.s)) ∨
         ∃ s, firstStep e i.2.d i.2.s = .ok (.inl s) ∧
          mainLoop e i.2.d fuel s = .ok (some (r.1, r.2.s))))) := by
  simp only [runSolver, bind_eq_ok] at h
  obtain ⟨i, hi, h⟩ := h
  refine ⟨i, hi, ?_⟩
  split at h
  · rename_i hne
    injection h with h
    injection h with h
    exact Or.inl ⟨hne, h.symm⟩
  · rename_i hne
    simp only [bind_eq_ok] at h
    obtain ⟨f, hf, h⟩ := h
    cases f with
    | inr q =>
      injection h with h
      injection h with h
      subst h
      exact Or.inr ⟨not_not.mp hne, rfl, Or.inl hf⟩
    | inl s =>
      simp only [bind_eq_ok] at h
      obtain ⟨q, hq, h⟩ := h
      cases q with
      | none => simp at h
      | some q =>
        simp at h
        subst h
        exact Or.inr ⟨not_not.mp hne, rfl, Or.inr ⟨s, hf, hq⟩⟩

/-- after a successful choice of OSQP there are no box constraints -/
theorem chooseSolver_osqp {e : Env α} {o : Obj α} {r : RV × Obj α} (h : chooseSolver e o = .ok r)
    (hr : r.1 = .successfulReturn) {Q A : CSC α} (hs : r.2.d.sub = some (.osqp Q A)) :
    r.2.d.lb = none ∧ r.2.d.ub = none := by
  simp only [chooseSolver, bind_eq_ok] at h
  obtain ⟨n, _, h⟩ := h
  split at h
  · split at h
    · injection h with h; rw [← h] at hr; cases hr
    · simp only [bind_eq_ok] at h
      obtain ⟨b, hb, h⟩ := h
      split at h
      · rename_i hne
        injection h with h; rw [← h] at hr; exact absurd hr hne
      · simp only [bind_eq_ok] at h
        obtain ⟨_, _, _, _, _, _, _, _, h⟩ := h
        injection h with h
        rw [← h] at hs
        simp at hs
  · split at h
    · split at h
      · injection h with h; rw [← h] at hr; cases hr
      · simp only [bind_eq_ok] at h
        obtain ⟨b, hb, h⟩ := h
        split at h
        · rename_i hne
          injection h with h; rw [← h] at hr; exact absurd hr hne
        · simp only [bind_eq_ok] at h
          obtain ⟨_, _, _, _, _, _, _, _, h⟩ := h
          injection h with h
          rw [← h] at hs
          simp at hs
    · split at h
      · split at h
        · injection h with h; rw [← h] at hr; cases hr
        · rename_i hlb
          simp only [bind_eq_ok] at h
          obtain ⟨y, _, h⟩ := h
          split at h
          · injection h with h; rw [← h] at hr; cases hr
          · split at h
            · injection h with h; rw [← h] at hr; cases hr
            · simp only [bind_eq_ok] at h
              obtain ⟨_, _, _, _, _, _, _, _, w, _, h⟩ := h
              injection h with h
              rw [← h]
              push Not at hlb
              simpa using hlb
      · injection h with h; rw [← h] at hr; cases hr

/-- failure codes of the initialisation -/
theorem initializeSolver_fail {e : Env α} {o : Obj α} {r : RV × Obj α}
    (h : initializeSolver e o = .ok r) (hr : r.1 ≠ .successfulReturn) :
    chooseSolver e o = .ok r ∧ (r.1 = .denseSparseMissmatch ∨ r.1 = .invalidOsqpBoxConstraints ∨
      r.1 = .notYetImplemented ∨ r.1 = .lcqpobjectNotSetup) := by
  simp only [initializeSolver, bind_eq_ok] at h
  obtain ⟨c, hc, h⟩ := h
  split at h
  · injection h with h
    subst h
    refine ⟨hc, ?_⟩
    have h := hc
    simp only [chooseSolver, bind_eq_ok] at h
    obtain ⟨n, _, h⟩ := h
    split at h
    · split at h
      · injection h with h; rw [← h]; simp
      · simp only [bind_eq_ok] at h
        obtain ⟨b, hb, h⟩ := h
        obtain ⟨_, _, _, _, hb'⟩ := setBoxes_inv hb
        split at h
        · rename_i hne
          injection h with h; rw [← h]
          rcases hb' with hb' | hb'
          · exact absurd hb' hne
          · simp [hb']
        · simp only [bind_eq_ok] at h
          obtain ⟨_, _, _, _, _, _, _, _, h⟩ := h
          injection h with h
          rw [← h] at hr; simp at hr
    · split at h
      · split at h
        · injection h with h; rw [← h]; simp
        · simp only [bind_eq_ok] at h
          obtain ⟨b, hb, h⟩ := h
          obtain ⟨_, _, _, _, hb'⟩ := setBoxes_inv hb
          split at h
          · rename_i hne
            injection h with h; rw [← h]
            rcases hb' with hb' | hb'
            · exact absurd hb' hne
            · simp [hb']
          · simp only [bind_eq_ok] at h
            obtain ⟨_, _, _, _, _, _, _, _, h⟩ := h
            injection h with h
            rw [← h] at hr; simp at hr
      · split at h
        · split at h
          · injection h with h; rw [← h]; simp
          · simp only [bind_eq_ok] at h
            obtain ⟨y, _, h⟩ := h
            split at h
            · injection h with h; rw [← h]; simp
            · split at h
              · injection h with h; rw [← h]; simp
              · simp only [bind_eq_ok] at h
                obtain ⟨_, _, _, _, _, _, _, _, w, _, h⟩ := h
                injection h with h
                rw [← h] at hr; simp at hr
        · injection h with h; rw [← h]; simp
  · simp only [initRest, bind_eq_ok] at h
    obtain ⟨n, _, g, _, gt, _, d', hd', h⟩ := h
    injection h with h
    rw [← h] at hr; simp at hr

/-- after a successful initialisation with OSQP there are no box constraints -/
theorem init_osqp {e : Env α} {o : Obj α} {r : RV × Obj α} (h : initializeSolver e o = .ok r)
    (hr : r.1 = .successfulReturn) {Q A : CSC α} (hs : r.2.d.sub = some (.osqp Q A)) :
    r.2.d.lb = none ∧ r.2.d.ub = none := by
  simp only [initializeSolver, bind_eq_ok] at h
  obtain ⟨c, hc, h⟩ := h
  split at h
  · rename_i hne
    injection h with h
    rw [← h] at hr
    exact absurd hr hne
  · rename_i hne
    simp only [initRest, bind_eq_ok] at h
    obtain ⟨n, _, g, _, gt, _, d', hd', h⟩ := h
    injection h with h
    rw [← h] at hs ⊢
    rcases initPhi_inv hd' with ⟨_, _, rfl⟩ | ⟨_, _, _, _, _, _, rfl⟩
    · have hh := chooseSolver_osqp (r := c) hc (not_not.mp hne) (Q := Q) (A := A) hs; exact hh
    · have hh := chooseSolver_osqp (r := c) hc (not_not.mp hne) (Q := Q) (A := A) hs; exact hh

end LCQ
