import Verif.Lemmas.Live
import Verif.Lemmas.Exact
import Verif.Props.Examples

/-!
# Penalty schedule and penalty cap (C22, C23)
-/

set_option linter.unusedSectionVars false

namespace LCQ
open Scalar

/-- states at the head of the main loop that can be reached from `s0` -/
inductive Heads {α : Type} [Scalar α] (e : Env α) (d : Data α) (s0 : St α) : St α → Prop
  /-- entry -/
  | entry : Heads e d s0 s0
  /-- one more pass -/
  | pass (s s' : St α) (h : Heads e d s0 s) (hp : pass e d s = .ok (.inl s')) : Heads e d s0 s'

section AnyArithmetic
variable {α : Type} [Scalar α]

/-- `s` is the state at the head of the main loop at some time during the run from `o`; `d` is the
problem data during the run -/
def DuringRun (e : Env α) (o : Obj α) (d : Data α) (s : St α) : Prop :=
  ∃ i s0, initializeSolver e o = .ok i ∧ i.1 = .successfulReturn ∧ i.2.d = d ∧
    firstStep e d i.2.s = .ok (.inl s0) ∧ Heads e d s0 s

theorem heads_live {e : Env α} {d : Data α} {s0 s : St α} (h0 : Live d.opts s0 0 0)
    (h : Heads e d s0 s) : ∃ t k, Live d.opts s t k ∧
      ((t = 0 ∧ k = 0) ∨ (d.opts.maxRho <. penalty d.opts k) = false) := by
  induction h with
  | entry => exact ⟨0, 0, h0, Or.inl ⟨rfl, rfl⟩⟩
  | pass s s' _ hp ih =>
    obtain ⟨t, k, hl, hk⟩ := ih
    rcases hl.pass hk hp with ⟨s'', k', h, l', _, _, _, _, r'⟩ | ⟨q, k', h, _⟩
    · injection h with h
      subst h
      exact ⟨t + 1, k', l', Or.inr r'⟩
    · cases h

/-- At every time during a run the penalty parameter is the initial one multiplied `k` times by the
update factor, where `k` is both the outer iteration counter and the reported number of outer
iterations. -/
theorem C22_during {e : Env α} {o : Obj α} {d : Data α} {s : St α} (h : DuringRun e o d s) :
    ∃ k : Nat, s.outer = some (k : Int) ∧ s.stats.iterOuter = k ∧
      s.rho = some (penalty o.d.opts k) ∧
      ((∀ j ≤ k, (penalty o.d.opts j <=. zero) = false) → s.stats.rhoOpt = penalty o.d.opts k) := by
  obtain ⟨i, s0, hi, hok, rfl, hf, hh⟩ := h
  have ho := (Live.start hi hok).1
  rcases Live.first hi hok hf with ⟨s1, h1, hl, _⟩ | ⟨q, h1, _⟩
  · injection h1 with h1
    subst h1
    rw [← ho] at hl
    obtain ⟨t, k, hl', _⟩ := heads_live hl hh
    rw [ho] at hl'
    exact ⟨k, hl'.outer, hl'.iterOuter, hl'.rho, hl'.rhoOpt⟩
  · cases h1

/-- each pass makes at most two penalty updates -/
theorem C22_pass {e : Env α} {o : Obj α} {d : Data α} {s s' : St α} (h : DuringRun e o d s)
    (hp : pass e d s = .ok (.inl s')) :
    ∃ k k' : Nat, s.outer = some (k : Int) ∧ s'.outer = some (k' : Int) ∧ k ≤ k' ∧ k' ≤ k + 2 := by
  obtain ⟨i, s0, hi, hok, rfl, hf, hh⟩ := h
  have ho := (Live.start hi hok).1
  rcases Live.first hi hok hf with ⟨s1, h1, hl, _⟩ | ⟨q, h1, _⟩
  · injection h1 with h1
    subst h1
    rw [← ho] at hl
    obtain ⟨t, k, hl', hk⟩ := heads_live hl hh
    rcases hl'.pass hk hp with ⟨s'', k', h, l', b1, b2, _⟩ | ⟨q, k', h, _⟩
    · injection h with h
      subst h
      exact ⟨k, k', hl'.outer, l'.outer, b1, b2⟩
    · cases h
  · cases h1

/-- C23.  A successful run in which the penalty was updated ends with a penalty parameter that does
not exceed the maximum. -/
theorem C23_success {e : Env α} {o : Obj α} {fuel : Nat} {r : RV × Obj α}
    (h : runSolver e fuel o = .ok (some r)) (hr : r.1 = .successfulReturn) :
    ∃ rho, r.2.s.rho = some rho ∧
      (r.2.s.stats.iterOuter = 0 ∨ (o.d.opts.maxRho <. rho) = false) := by
  obtain ⟨i, hi, hc⟩ := runSolver_inv h
  by_cases hok : i.1 = .successfulReturn
  · obtain ⟨_, hopts, _, hcase⟩ := run_ended h hi hok
    rcases hcase with ⟨hne, _⟩ | ⟨t, k, _, _, hend⟩
    · exact absurd hr hne
    · obtain ⟨rv, d', s'⟩ := r
      simp only at hopts hr ⊢
      cases hend with
      | success s a _ _ _ hl hc =>
        refine ⟨_, hl.rho, ?_⟩
        rw [← hopts]
        have h0 : s'.stats.iterOuter = k := hl.iterOuter
        rcases hc with rfl | hc
        · exact Or.inl h0
        · exact Or.inr hc
      | iters => cases hr
      | rho => cases hr
      | sub rv s hl hne => exact absurd hr hne
  · rcases hc with ⟨_, hr'⟩ | ⟨hok', _⟩
    · rw [hr'] at hr; exact absurd hr hok
    · exact absurd hok' hok

/-- The code `MAX_PENALTY_REACHED` is returned only if the penalty parameter exceeds the maximum. -/
theorem C23_max {e : Env α} {o : Obj α} {fuel : Nat} {r : RV × Obj α}
    (h : runSolver e fuel o = .ok (some r)) (hr : r.1 = .maxPenaltyReached) :
    ∃ rho, r.2.s.rho = some rho ∧ (o.d.opts.maxRho <. rho) = true := by
  obtain ⟨i, hi, hc⟩ := runSolver_inv h
  by_cases hok : i.1 = .successfulReturn
  · obtain ⟨_, hopts, _, hcase⟩ := run_ended h hi hok
    have hsub : ∀ (u v : St α) init, solveQP e r.2.d u init = .ok (r.1, v) → False := by
      intro u v init hv
      obtain ⟨q, hq, hrv, _⟩ := solveQP_inv hv
      obtain ⟨sub, _, ⟨h1, _⟩ | ⟨_, _, _, _, _, ⟨h1, _⟩ | ⟨h1, _⟩ | ⟨h1, _⟩ | ⟨⟨h1, _⟩ | ⟨h1, _⟩, _⟩⟩⟩ :=
        subSolve_ret hq
      all_goals
        simp only at hrv
        rw [hr, h1] at hrv
        cases hrv
    rcases hcase with ⟨_, _, _, _, _, _, _, _, u, v, hv, _⟩ | ⟨t, k, _, _, hend⟩
    · exact (hsub u v _ hv).elim
    · obtain ⟨rv, d', s'⟩ := r
      simp only at hopts hr hsub ⊢
      cases hend with
      | success => cases hr
      | iters => cases hr
      | rho s hl _ hgt => exact ⟨_, hl.rho, by rw [← hopts]; exact hgt⟩
      | sub rv s hl hne hv =>
        obtain ⟨u, v, init, hv, _⟩ := hv
        exact (hsub u v init hv).elim
  · rcases hc with ⟨_, hr'⟩ | ⟨hok', _⟩
    · obtain ⟨_, hcode⟩ := initializeSolver_fail hi hok
      rw [hr'] at hr
      simp only at hr
      rw [hr] at hcode
      simp at hcode
    · exact absurd hok' hok

/-- If from the `N`-th update on the penalty parameter exceeds the maximum, at most `N + 1` updates
are made. -/
theorem C23_bound {e : Env α} {o : Obj α} {fuel : Nat} {r : RV × Obj α} {i : RV × Obj α}
    (h : runSolver e fuel o = .ok (some r)) (hi : initializeSolver e o = .ok i)
    (hok : i.1 = .successfulReturn) (N : Nat) (hN : 1 ≤ N)
    (hcap : ∀ j, N ≤ j → (o.d.opts.maxRho <. penalty o.d.opts j) = true) :
    r.2.s.stats.iterOuter ≤ N + 1 := by
  obtain ⟨i', hi', hc⟩ := runSolver_inv h
  have : i' = i := by rw [hi] at hi'; injection hi' with hi'; exact hi'.symm
  subst this
  rcases hc with ⟨hne, _⟩ | ⟨_, hd, hc⟩
  · exact absurd hok hne
  have ho := (Live.start hi hok).1
  rcases hc with hf | ⟨s, hf, hm⟩
  · rcases Live.first hi hok hf with ⟨s, h, _⟩ | ⟨q, hq, _, _, _, _, _, _, _, h0, _⟩
    · cases h
    · injection hq with hq
      subst hq
      simp only at h0
      omega
  · rcases Live.first hi hok hf with ⟨s', h, hl, _⟩ | ⟨q, hq, _⟩
    · injection h with h
      subst h
      rw [← ho] at hl hcap
      refine mainLoop_rule (e := e) (d := i'.2.d)
        (fun s => ∃ t k, Live i'.2.d.opts s t k ∧
          ((t = 0 ∧ k = 0) ∨ (i'.2.d.opts.maxRho <. penalty i'.2.d.opts k) = false))
        (fun q => q.2.stats.iterOuter ≤ N + 1) ?_ fuel s (r.1, r.2.s) ⟨0, 0, hl, Or.inl ⟨rfl, rfl⟩⟩ hm
      rintro s r ⟨t, k, hl, hk⟩ hp
      have hkN : k < N := by
        rcases hk with ⟨_, rfl⟩ | hk
        · omega
        · by_contra hge
          rw [hcap k (by omega)] at hk
          cases hk
      rcases hl.pass hk hp with ⟨s', k', rfl, l', _, _, _, _, r'⟩ | ⟨q, k', rfl, he, _, b2, _⟩
      · refine ⟨?_, by intro q h; cases h⟩
        intro s'' h
        injection h with h
        subst h
        exact ⟨t + 1, k', l', Or.inr r'⟩
      · refine ⟨by intro q h; (cases h), ?_⟩
        intro q' h
        injection h with h
        subst h
        have := he.counts.2.2.2.1
        omega
    · cases hq

end AnyArithmetic

section Exact
variable {K : Type} [Field K] [LinearOrder K] [IsStrictOrderedRing K] [FloorRing K]

/-- closed form of the schedule in exact arithmetic -/
theorem penalty_exact {o : Options (Ext K)} {a f : K} (ha : o.rho0 = .fin a) (hf : o.factor = .fin f)
    (k : Nat) : penalty o k = .fin (a * f ^ k) := by
  induction k with
  | zero => simp [penalty, ha]
  | succ k ih =>
    rw [penalty, ih, hf, fin_mul]
    congr 1
    ring

/-- C22 in exact arithmetic: `rho = rho0 * factor^k` with the number `k` of outer iterations, this is
the reported value, and it never decreases from one pass to the next. -/
theorem C22_exact {e : Env (Ext K)} {o : Obj (Ext K)} {d : Data (Ext K)} {s : St (Ext K)} {a f : K}
    (h : DuringRun e o d s) (ha : o.d.opts.rho0 = .fin a) (hf : o.d.opts.factor = .fin f)
    (ha0 : 0 < a) (hf1 : 1 < f) :
    ∃ k : Nat, s.outer = some (k : Int) ∧ s.stats.iterOuter = k ∧
      s.rho = some (.fin (a * f ^ k)) ∧ s.stats.rhoOpt = .fin (a * f ^ k) := by
  obtain ⟨k, h1, h2, h3, h4⟩ := C22_during h
  rw [penalty_exact ha hf] at h3
  refine ⟨k, h1, h2, h3, ?_⟩
  rw [← penalty_exact ha hf]
  apply h4
  intro j _
  rw [penalty_exact ha hf]
  have : 0 < a * f ^ j := mul_pos ha0 (pow_pos (by linarith) j)
  simpa using this

theorem C22_monotone {e : Env (Ext K)} {o : Obj (Ext K)} {d : Data (Ext K)} {s s' : St (Ext K)}
    {a f r r' : K} (h : DuringRun e o d s) (hp : pass e d s = .ok (.inl s'))
    (ha : o.d.opts.rho0 = .fin a) (hf : o.d.opts.factor = .fin f)
    (ha0 : 0 < a) (hf1 : 1 < f) (hr : s.rho = some (.fin r)) (hr' : s'.rho = some (.fin r')) :
    r ≤ r' ∧ (s.outer ≠ s'.outer → r < r') := by
  have hs' : DuringRun e o d s' := by
    obtain ⟨i, s0, h1, h2, h3, h4, h5⟩ := h
    exact ⟨i, s0, h1, h2, h3, h4, .pass _ _ h5 hp⟩
  obtain ⟨k, k', h1, h2, h3, _⟩ := C22_pass h hp
  obtain ⟨j, g1, _, g3, _⟩ := C22_exact h ha hf ha0 hf1
  obtain ⟨j', g1', _, g3', _⟩ := C22_exact hs' ha hf ha0 hf1
  have ej : j = k := by rw [h1] at g1; injection g1 with g1; exact_mod_cast g1.symm
  have ej' : j' = k' := by rw [h2] at g1'; injection g1' with g1'; exact_mod_cast g1'.symm
  subst ej ej'
  have er : r = a * f ^ j := by rw [hr] at g3; injection g3 with g3; injection g3
  have er' : r' = a * f ^ j' := by rw [hr'] at g3'; injection g3' with g3'; injection g3'
  rw [er, er', h1, h2]
  refine ⟨mul_le_mul_of_nonneg_left (pow_le_pow_right₀ hf1.le h3) ha0.le, ?_⟩
  intro hne
  have : j ≠ j' := by intro hjj; exact hne (by rw [hjj])
  exact mul_lt_mul_of_pos_left (pow_lt_pow_right₀ hf1 (by omega)) ha0

/-- C23 in exact arithmetic: the number of outer iterations is at most one more than any `N ≥ 1` with
`rho0 * factor^N` above the maximum. -/
theorem C23_exact {e : Env (Ext K)} {o : Obj (Ext K)} {fuel : Nat} {r : RV × Obj (Ext K)}
    {i : RV × Obj (Ext K)} {a f b : K}
    (h : runSolver e fuel o = .ok (some r)) (hi : initializeSolver e o = .ok i)
    (hok : i.1 = .successfulReturn) (ha : o.d.opts.rho0 = .fin a) (hf : o.d.opts.factor = .fin f)
    (hb : o.d.opts.maxRho = .fin b) (ha0 : 0 < a) (hf1 : 1 < f) (N : Nat) (hN : 1 ≤ N)
    (hcap : b < a * f ^ N) : r.2.s.stats.iterOuter ≤ N + 1 := by
  refine C23_bound h hi hok N hN ?_
  intro j hj
  rw [penalty_exact ha hf, hb, fin_lt, decide_eq_true_eq]
  exact lt_of_lt_of_le hcap (mul_le_mul_of_nonneg_left (pow_le_pow_right₀ hf1.le hj) ha0.le)

end Exact

/-- the penalty is doubled 34 times from 0.01 before it exceeds 10^8 -/
example : (Ex.seen (Ex.run Ex.envPen id 1001)).map
    (fun r => (r.1, r.2.2.2.iterOuter, r.2.2.2.rhoOpt)) =
    some (.maxPenaltyReached, 34, .fin (2 ^ 34 / 100)) := by decide +kernel
/-- the bound `N + 1` is attained: one update is enough to exceed the maximum, but the dynamic rule and
the stationarity test both make one in the second pass -/
example : (Ex.seen (Ex.run (Ex.envOf fun k _ => Ex.good [1, 1]
      (if k = 0 then [] else [0, 0, 1/100, 1/100]))
    (fun o => { o with nDyn := 1, maxRho := .fin (3/200) }) 1001)).map
    (fun r => (r.1, r.2.2.2.iterTotal, r.2.2.2.iterOuter, r.2.2.2.rhoOpt)) =
    some (.maxPenaltyReached, 2, 2, .fin (1/25)) := by decide +kernel

end LCQ
