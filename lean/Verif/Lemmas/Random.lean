import Verif.Lemmas.OneSetup
import Verif.Lemmas.Quiet

/-!
# Random numbers in a run
-/

set_option linter.unusedSectionVars false

namespace LCQ
open Scalar

variable {α : Type} [Scalar α] {e : Env α} {d : Data α} {r' : Nat → Nat}

theorem bump_rnd {s s' : St α} (h : bump d s = .ok s') : s'.rnd = s.rnd := by
  obtain ⟨_, _, _, _, _, _, _, _, rfl⟩ := bump_inv h
  rfl

theorem dynamicPenalty_rnd {s s' : St α} (h : dynamicPenalty d s = .ok s') : s'.rnd = s.rnd := by
  obtain ⟨r, hh, _, hr, ⟨_, h'⟩ | ⟨_, h'⟩⟩ := dynamicPenalty_inv h
  · rw [h', hr]
  · rw [bump_rnd h', hr]

theorem advance_rnd {s s' : St α} (h : advance d s = .ok s') : s'.rnd = s.rnd := by
  obtain ⟨x, a, b, c, p, l, st, t', i, ht, hi, _, _, hp, _, hst, rfl⟩ := advance_inv h
  subst hp
  rfl

theorem checkStationarity_rnd {s s' : St α} (h : checkStationarity e d s = .ok (.inl s')) : s'.rnd = s.rnd := by
  simp only [checkStationarity, bind_eq_ok] at h
  obtain ⟨st, _, h⟩ := h
  split at h
  · simp only [bind_eq_ok] at h
    obtain ⟨co, _, h⟩ := h
    split at h
    · simp only [bind_eq_ok] at h
      obtain ⟨_, _, h⟩ := h
      cases h
    · simp only [bind_eq_ok] at h
      obtain ⟨s1, hs, h⟩ := h
      injection h with h
      injection h with h
      rw [← h, bump_rnd hs]
  · injection h with h
    injection h with h
    rw [h]

theorem checkLimits_rnd {s s' : St α} (h : checkLimits d s = .ok (.inl s')) : s'.rnd = s.rnd := by
  simp only [checkLimits, bind_eq_ok] at h
  obtain ⟨_, _, _, _, h⟩ := h
  split at h
  · cases h
  · split at h
    · cases h
    · injection h with h
      injection h with h
      rw [h]

theorem firstGradient_rnd {s s' : St α} (h : firstGradient d s = .ok s') : s'.rnd = s.rnd := by
  unfold firstGradient at h
  split at h
  · simp only [bind_eq_ok] at h
    obtain ⟨_, _, _, _, _, _, _, _, h⟩ := h
    injection h with h
    rw [← h]
  · obtain ⟨gk, rfl⟩ := updateLinearization_inv h
    rfl

theorem chooseSolver_rnd {o : Obj α} {r : RV × Obj α} (h : chooseSolver e o = .ok r) : r.2.s.rnd = o.s.rnd := by
  simp only [chooseSolver, bind_eq_ok] at h
  obtain ⟨n, _, h⟩ := h
  split at h
  · split at h
    · injection h with h; rw [← h]
    · simp only [bind_eq_ok] at h
      obtain ⟨b, _, h⟩ := h
      split at h
      · injection h with h; rw [← h]
      · simp only [bind_eq_ok] at h
        obtain ⟨_, _, _, _, _, _, _, _, h⟩ := h
        injection h with h; rw [← h]
  · split at h
    · split at h
      · injection h with h; rw [← h]
      · simp only [bind_eq_ok] at h
        obtain ⟨b, _, h⟩ := h
        split at h
        · injection h with h; rw [← h]
        · simp only [bind_eq_ok] at h
          obtain ⟨_, _, _, _, _, _, _, _, h⟩ := h
          injection h with h; rw [← h]
    · split at h
      · split at h
        · injection h with h; rw [← h]
        · simp only [bind_eq_ok] at h
          obtain ⟨y, _, h⟩ := h
          split at h
          · injection h with h; rw [← h]
          · split at h
            · injection h with h; rw [← h]
            · simp only [bind_eq_ok] at h
              obtain ⟨_, _, _, _, _, _, _, _, _, _, h⟩ := h
              injection h with h; rw [← h]
      · injection h with h; rw [← h]

theorem initializeSolver_rnd {o : Obj α} {r : RV × Obj α} (h : initializeSolver e o = .ok r) :
    r.2.s.rnd = o.s.rnd := by
  simp only [initializeSolver, bind_eq_ok] at h
  obtain ⟨c, hc, h⟩ := h
  split at h
  · injection h with h; rw [← h, chooseSolver_rnd hc]
  · simp only [initRest, bind_eq_ok] at h
    obtain ⟨_, _, _, _, _, _, _, _, h⟩ := h
    injection h with h
    rw [← h, ← chooseSolver_rnd hc]
    dsimp only
    split <;> rfl

theorem solveQP_rnd {s : St α} {init : Bool} {q : RV × St α} (h : solveQP e d s init = .ok q) : q.2.rnd = s.rnd := by
  obtain ⟨r, hr, hq, it, ex, st, _, _, _, w, k, m, x, y, a, b, p, hm, hm', _, _, h2⟩ := solveQP_inv h
  rw [h2]

theorem firstStep_rnd {s s' : St α} (h : firstStep e d s = .ok (.inl s')) : s'.rnd = s.rnd := by
  simp only [firstStep, bind_eq_ok] at h
  obtain ⟨s1, h1, q, hq, h⟩ := h
  split at h
  · cases h
  · simp only [bind_eq_ok] at h
    obtain ⟨s2, h2, r, _, h⟩ := h
    obtain ⟨a, b, g, rfl⟩ := setQk_inv h2
    injection h with h
    injection h with h
    rw [← h]
    change q.2.rnd = _
    rw [solveQP_rnd hq, firstGradient_rnd h1]

theorem firstStep_over {s : St α} {q : RV × St α} (h : firstStep e d s = .ok (.inr q)) :
    q.1 ≠ .successfulReturn ∧ q.2.rnd = s.rnd := by
  simp only [firstStep, bind_eq_ok] at h
  obtain ⟨s1, h1, p, hp, h⟩ := h
  split at h
  · rename_i hne
    injection h with h
    injection h with h
    rw [← h]
    refine ⟨hne, ?_⟩
    change p.2.rnd = _
    rw [solveQP_rnd hp, firstGradient_rnd h1]
  · simp only [bind_eq_ok] at h
    obtain ⟨s2, h2, r, _, h⟩ := h
    cases h

/-- the random numbers with the numbers from `k` to `m - 1` have the same remainders -/
def SameRand (e : Env α) (r' : Nat → Nat) (k m : Nat) : Prop := ∀ j, k ≤ j → j < m → r' j % 3 = e.rnd j % 3

theorem perturbLoop_rand {k n : Nat} {x : List α} (h : SameRand e r' k (k + n)) :
    perturbLoop { e with rnd := r' } k n x = perturbLoop e k n x := by
  unfold perturbLoop
  refine loop_congr n _ _ x fun i y hi => ?_
  dsimp only
  rw [h (k + i) (by omega) (by omega)]

theorem perturbIf_rand {s : St α} (h : d.opts.perturb = true → ∀ n, d.dims = some n → SameRand e r' s.rnd (s.rnd + n.nV)) :
    perturbIf { e with rnd := r' } d s = perturbIf e d s := by
  unfold perturbIf perturbStep
  split
  · rename_i hp
    refine bind_congr_ok fun n hn => bind_congr_ok fun x hx => ?_
    rw [perturbLoop_rand (h hp n (by rwa [initd_eq_ok] at hn))]
  · rfl

theorem nextStep_rand {s : St α} (h : d.opts.perturb = true → ∀ n, d.dims = some n → SameRand e r' s.rnd (s.rnd + n.nV)) :
    nextStep { e with rnd := r' } d s = nextStep e d s := by
  unfold nextStep
  refine bind_congr_ok fun s1 h1 => ?_
  change (solveQP e d s1 false >>= _) = (solveQP e d s1 false >>= _)
  refine bind_congr_ok fun q hq => ?_
  rw [perturbIf_rand]
  rw [solveQP_rnd hq]
  obtain ⟨gk, rfl⟩ := updateLinearization_inv h1
  exact h

theorem nextStep_over {s : St α} {q : RV × St α} (h : nextStep e d s = .ok (.inr q)) :
    nextStep { e with rnd := r' } d s = .ok (.inr q) ∧ q.2.rnd = s.rnd ∧ q.1 ≠ .successfulReturn := by
  simp only [nextStep, bind_eq_ok] at h
  obtain ⟨s1, h1, p, hp, h⟩ := h
  split at h
  · rename_i hne
    injection h with h
    injection h with h
    refine ⟨?_, ?_, ?_⟩
    · unfold nextStep
      rw [h1]
      change (solveQP e d s1 false >>= _) = _
      rw [hp]
      simp only [ok_bind]
      rw [if_pos hne, h]
    · rw [← h]
      change p.2.rnd = _
      rw [solveQP_rnd hp]
      obtain ⟨gk, rfl⟩ := updateLinearization_inv h1
      rfl
    · rw [← h]; exact hne
  · simp only [bind_eq_ok] at h
    obtain ⟨s2, h2, s3, h3, h⟩ := h
    cases h

theorem nextStep_uses {s s' : St α} (h : nextStep e d s = .ok (.inl s')) :
    (d.opts.perturb = false ∧ s'.rnd = s.rnd) ∨ (d.opts.perturb = true ∧ ∃ n, d.dims = some n ∧ s'.rnd = s.rnd + n.nV) := by
  simp only [nextStep, bind_eq_ok] at h
  obtain ⟨s1, h1, p, hp, h⟩ := h
  split at h
  · cases h
  · simp only [bind_eq_ok] at h
    obtain ⟨s2, h2, s3, h3, h⟩ := h
    injection h with h
    injection h with h
    obtain ⟨lt, a, rfl⟩ := getOptimalStepLength_inv h3
    have h4 : p.2.rnd = s.rnd := by
      rw [solveQP_rnd hp]
      obtain ⟨gk, rfl⟩ := updateLinearization_inv h1
      rfl
    have h5 : s'.rnd = s2.rnd := by rw [← h]
    unfold perturbIf at h2
    split at h2
    · rename_i hpt
      simp only [perturbStep, bind_eq_ok, initd_eq_ok] at h2
      obtain ⟨n, hn, x, _, y, _, h2⟩ := h2
      injection h2 with h2
      refine .inr ⟨hpt, n, hn, ?_⟩
      rw [h5, ← h2, ← h4]
    · rename_i hpt
      injection h2 with h2
      refine .inl ⟨by simpa using hpt, ?_⟩
      rw [h5, ← h2, h4]

theorem toNext_rnd {s s1 s2 s3 : St α} (h1 : advance d s = .ok s1) (h2 : dynamicPenalty d s1 = .ok s2)
    (h3 : updateLinearization d s2 = .ok s3) : s3.rnd = s.rnd := by
  obtain ⟨gk, rfl⟩ := updateLinearization_inv h3
  change s2.rnd = _
  rw [dynamicPenalty_rnd h2, advance_rnd h1]

theorem pass_rand {s : St α} (h : d.opts.perturb = true → ∀ n, d.dims = some n → SameRand e r' s.rnd (s.rnd + n.nV)) :
    pass { e with rnd := r' } d s = pass e d s := by
  unfold pass
  refine bind_congr_ok fun s1 h1 => bind_congr_ok fun s2 h2 => bind_congr_ok fun s3 h3 => ?_
  change andThen (checkStationarity e d s3) _ = andThen (checkStationarity e d s3) _
  refine andThen_congr fun s4 h4 => andThen_congr fun s5 h5 => nextStep_rand ?_
  rw [checkLimits_rnd h5, checkStationarity_rnd h4, toNext_rnd h1 h2 h3]
  exact h

theorem pass_uses {s s' : St α} (h : pass e d s = .ok (.inl s')) :
    (d.opts.perturb = false ∧ s'.rnd = s.rnd) ∨ (d.opts.perturb = true ∧ ∃ n, d.dims = some n ∧ s'.rnd = s.rnd + n.nV) := by
  simp only [pass, bind_eq_ok, andThen_eq_ok] at h
  obtain ⟨s1, h1, s2, h2, s3, h3, ⟨s4, h4, ⟨s5, h5, h6⟩ | ⟨q, _, h6⟩⟩ | ⟨q, _, h6⟩⟩ := h
  · have := nextStep_uses h6
    rwa [checkLimits_rnd h5, checkStationarity_rnd h4, toNext_rnd h1 h2 h3] at this
  · cases h6
  · cases h6

theorem checkStationarity_over {s : St α} {q : RV × St α} (h : checkStationarity e d s = .ok (.inr q)) :
    q.2.rnd = s.rnd ∧ q.2.calls = s.calls := by
  simp only [checkStationarity, bind_eq_ok] at h
  obtain ⟨st, _, h⟩ := h
  split at h
  · simp only [bind_eq_ok] at h
    obtain ⟨co, _, h⟩ := h
    split at h
    · simp only [bind_eq_ok] at h
      obtain ⟨p, hp, h⟩ := h
      injection h with h
      injection h with h
      obtain ⟨y, t, _, _, h2⟩ := accept_inv hp
      rw [← h, h2]
      exact ⟨rfl, rfl⟩
    · simp only [bind_eq_ok] at h
      obtain ⟨_, _, h⟩ := h
      cases h
  · cases h

theorem checkLimits_over {s : St α} {q : RV × St α} (h : checkLimits d s = .ok (.inr q)) : q.2 = s := by
  simp only [checkLimits, bind_eq_ok] at h
  obtain ⟨_, _, _, _, h⟩ := h
  split at h
  · injection h with h
    injection h with h
    rw [← h]
  · split at h
    · injection h with h
      injection h with h
      rw [← h]
    · cases h

theorem pass_over {s : St α} {q : RV × St α} (h : pass e d s = .ok (.inr q)) :
    pass { e with rnd := r' } d s = .ok (.inr q) ∧ q.2.rnd = s.rnd ∧ (q.1 = .successfulReturn → q.2.calls = s.calls) := by
  simp only [pass, bind_eq_ok, andThen_eq_ok] at h
  obtain ⟨s1, h1, s2, h2, s3, h3, h⟩ := h
  have hu : pass { e with rnd := r' } d s = andThen (checkStationarity e d s3) fun s =>
      andThen (checkLimits d s) fun s => nextStep { e with rnd := r' } d s := by
    unfold pass
    rw [h1]; simp only [ok_bind]
    rw [h2]; simp only [ok_bind]
    rw [h3]; simp only [ok_bind]
    rfl
  have hc : s3.calls = s.calls := by
    obtain ⟨gk, rfl⟩ := updateLinearization_inv h3
    change s2.calls = _
    rw [dynamicPenalty_calls h2, advance_calls h1]
  have hr := toNext_rnd h1 h2 h3
  rw [hu]
  obtain ⟨s4, h4, ⟨s5, h5, h6⟩ | ⟨p, h5, h6⟩⟩ | ⟨p, h4, h6⟩ := h
  · obtain ⟨h7, h8, h9⟩ := nextStep_over (r' := r') h6
    refine ⟨?_, ?_, fun h => absurd h h9⟩
    · simp only [andThen, h4, h5, ok_bind, h7]
    · rw [h8, checkLimits_rnd h5, checkStationarity_rnd h4, hr]
  · injection h6 with h6
    subst h6
    refine ⟨by simp only [andThen, h4, h5, ok_bind], ?_, fun _ => ?_⟩
    · rw [checkLimits_over h5, checkStationarity_rnd h4, hr]
    · rw [checkLimits_over h5, checkStationarity_calls h4, hc]
  · injection h6 with h6
    subst h6
    obtain ⟨h8, h9⟩ := checkStationarity_over h4
    exact ⟨by simp only [andThen, h4, ok_bind], h8.trans hr, fun _ => h9.trans hc⟩

theorem mainLoop_rand (fuel : Nat) : ∀ s : St α,
    (d.opts.perturb = true → ∀ n, d.dims = some n → SameRand e r' s.rnd (s.rnd + fuel * n.nV)) →
    mainLoop { e with rnd := r' } d fuel s = mainLoop e d fuel s := by
  induction fuel with
  | zero => intro s _; rfl
  | succ f ih =>
    intro s h
    unfold mainLoop
    rw [pass_rand fun hp n hn j h1 h2 => h hp n hn j h1 (by rw [Nat.succ_mul]; omega)]
    refine bind_congr_ok fun r hr => ?_
    cases r with
    | inr q => rfl
    | inl s' =>
      refine ih s' fun hp n hn j h1 h2 => ?_
      rcases pass_uses hr with ⟨h3, _⟩ | ⟨_, m, hm, h3⟩
      · rw [h3] at hp; cases hp
      · rw [hn] at hm
        injection hm with hm
        subst hm
        exact h hp n hn j (by omega) (by rw [Nat.succ_mul]; omega)

/-- a main loop that returns, with the numbers it has used -/
theorem mainLoop_used (fuel : Nat) : ∀ {s : St α} {q : RV × St α}, mainLoop e d fuel s = .ok (some q) →
    s.rnd ≤ q.2.rnd ∧ (SameRand e r' s.rnd q.2.rnd → mainLoop { e with rnd := r' } d fuel s = .ok (some q)) ∧
    ∃ m, (q.1 = .successfulReturn → q.2.calls = s.calls + m) ∧
      ((d.opts.perturb = false ∧ q.2.rnd = s.rnd) ∨
       (d.opts.perturb = true ∧ ∀ n, d.dims = some n → q.2.rnd = s.rnd + m * n.nV)) := by
  induction fuel with
  | zero => intro s q h; cases h
  | succ f ih =>
    intro s q h
    simp only [mainLoop, bind_eq_ok] at h
    obtain ⟨r, hr, h⟩ := h
    cases r with
    | inr p =>
      injection h with h
      injection h with h
      subst h
      obtain ⟨h1, h2, h3⟩ := pass_over (r' := r') hr
      refine ⟨h2.symm.le, fun _ => ?_, 0, h3, ?_⟩
      · unfold mainLoop
        rw [h1]
        rfl
      · cases hp : d.opts.perturb
        · exact .inl ⟨rfl, h2⟩
        · exact .inr ⟨rfl, fun n _ => by omega⟩
    | inl s' =>
      obtain ⟨i1, i2, m, i3, i4⟩ := ih h
      have hc := pass_calls hr
      rcases pass_uses hr with ⟨h3, h4⟩ | ⟨hp, n, hn, h3⟩
      · refine ⟨by omega, fun hS => ?_, m + 1, fun h => by rw [i3 h, hc]; omega, ?_⟩
        · unfold mainLoop
          rw [pass_rand (e := e) (r' := r') (fun h => by rw [h3] at h; cases h), hr]
          exact i2 (by rwa [h4])
        · rcases i4 with ⟨_, h5⟩ | ⟨h5, _⟩
          · exact .inl ⟨h3, h5.trans h4⟩
          · rw [h3] at h5; cases h5
      · refine ⟨by omega, fun hS => ?_, m + 1, fun h => by rw [i3 h, hc]; omega, ?_⟩
        · unfold mainLoop
          rw [pass_rand (e := e) (r' := r') (fun _ n' hn' j h1 h2 => hS j h1 (by
            rw [hn] at hn'
            injection hn' with hn'
            subst hn'
            omega)), hr]
          exact i2 fun j h1 h2 => hS j (by omega) h2
        · rcases i4 with ⟨h5, _⟩ | ⟨_, h5⟩
          · rw [hp] at h5; cases h5
          · refine .inr ⟨hp, fun n' hn' => ?_⟩
            have h6 := h5 n' hn'
            rw [hn] at hn'
            injection hn' with hn'
            subst hn'
            rw [h6, h3, Nat.succ_mul]
            omega

theorem initializeSolver_dim {o : Obj α} {r : RV × Obj α} (h : initializeSolver e o = .ok r) :
    r.2.d.dims = o.d.dims := by
  simp only [initializeSolver, bind_eq_ok] at h
  obtain ⟨c, hc, h⟩ := h
  obtain ⟨nd, bo, l, u, sub, y, w, hc2⟩ := chooseSolver_inv hc
  split at h
  · injection h with h
    rw [← h, hc2]
  · simp only [initRest, bind_eq_ok] at h
    obtain ⟨n, _, g, _, gt, _, d', hd', h⟩ := h
    injection h with h
    rw [hc2] at hd'
    rcases initPhi_inv hd' with ⟨_, _, rfl⟩ | ⟨_, _, c, gp, _, _, rfl⟩ <;> rw [← h]

theorem runSolver_rand {o : Obj α} (fuel : Nat)
    (h : o.d.opts.perturb = true → ∀ n, o.d.dims = some n → SameRand e r' o.s.rnd (o.s.rnd + fuel * n.nV)) :
    runSolver { e with rnd := r' } fuel o = runSolver e fuel o := by
  unfold runSolver
  change (initializeSolver e o >>= _) = (initializeSolver e o >>= _)
  refine bind_congr_ok fun i hi => ?_
  split
  · rfl
  · change (firstStep e i.2.d i.2.s >>= _) = (firstStep e i.2.d i.2.s >>= _)
    refine bind_congr_ok fun f hf => ?_
    cases f with
    | inr q => rfl
    | inl s =>
      dsimp only
      rw [mainLoop_rand fuel s]
      rw [initializeSolver_opts hi, initializeSolver_dim hi, firstStep_rnd hf, initializeSolver_rnd hi]
      exact h

theorem runSolver_used {o : Obj α} {fuel : Nat} {q : RV × Obj α} (hq : runSolver e fuel o = .ok (some q)) :
    o.s.rnd ≤ q.2.s.rnd ∧
    (SameRand e r' o.s.rnd q.2.s.rnd → runSolver { e with rnd := r' } fuel o = .ok (some q)) ∧
    ∃ m, (q.1 = .successfulReturn → q.2.s.calls = o.s.calls + 1 + m) ∧
      ((o.d.opts.perturb = false ∧ q.2.s.rnd = o.s.rnd) ∨
       (o.d.opts.perturb = true ∧ ∀ n, o.d.dims = some n → q.2.s.rnd = o.s.rnd + m * n.nV)) := by
  have none' : q.1 ≠ .successfulReturn → q.2.s.rnd = o.s.rnd → ∃ m, (q.1 = .successfulReturn → q.2.s.calls = o.s.calls + 1 + m) ∧
      ((o.d.opts.perturb = false ∧ q.2.s.rnd = o.s.rnd) ∨
       (o.d.opts.perturb = true ∧ ∀ n, o.d.dims = some n → q.2.s.rnd = o.s.rnd + m * n.nV)) := by
    intro h1 h2
    refine ⟨0, fun h => absurd h h1, ?_⟩
    cases hp : o.d.opts.perturb
    · exact .inl ⟨rfl, h2⟩
    · exact .inr ⟨rfl, fun n _ => by omega⟩
  have hq' := hq
  unfold runSolver at hq
  simp only [bind_eq_ok] at hq
  obtain ⟨i, hi, hq⟩ := hq
  have hri := initializeSolver_rnd hi
  split at hq
  · rename_i hne
    injection hq with hq
    injection hq with hq
    have h2 : q.2.s.rnd = o.s.rnd := by rw [← hq]; exact hri
    refine ⟨h2.symm.le, fun _ => ?_, none' (by rw [← hq]; exact hne) h2⟩
    unfold runSolver
    change (initializeSolver e o >>= _) = _
    rw [hi]
    simp only [ok_bind]
    rw [if_pos hne, hq]
  · rename_i hne
    simp only [bind_eq_ok] at hq
    obtain ⟨f, hf, hq⟩ := hq
    have hu : runSolver { e with rnd := r' } fuel o = (match (generalizing := false) f with
        | .inr q => .ok (some (q.1, { d := i.2.d, s := q.2 }))
        | .inl s => do
          let q ← mainLoop { e with rnd := r' } i.2.d fuel s
          .ok (q.map fun q => (q.1, { d := i.2.d, s := q.2 }))) := by
      unfold runSolver
      change (initializeSolver e o >>= _) = _
      rw [hi]
      simp only [ok_bind]
      rw [if_neg hne]
      change (firstStep e i.2.d i.2.s >>= _) = _
      rw [hf]
      rfl
    cases f with
    | inr p =>
      injection hq with hq
      injection hq with hq
      obtain ⟨h1, h2⟩ := firstStep_over hf
      have h3 : q.2.s.rnd = o.s.rnd := by rw [← hq]; exact h2.trans hri
      refine ⟨h3.symm.le, fun _ => ?_, none' (by rw [← hq]; exact h1) h3⟩
      rw [hu, ← hq]
    | inl s =>
      simp only [bind_eq_ok] at hq
      obtain ⟨p, hp, hq⟩ := hq
      injection hq with hq
      cases p with
      | none => cases hq
      | some p =>
        injection hq with hq
        obtain ⟨h1, h2, m, h3, h4⟩ := mainLoop_used (r' := r') fuel hp
        have hs : s.rnd = o.s.rnd := (firstStep_rnd hf).trans hri
        have hc : s.calls = o.s.calls + 1 := (firstStep_calls hf).trans (by rw [initializeSolver_calls hi])
        rw [initializeSolver_opts hi, initializeSolver_dim hi, hs] at h4
        rw [hs] at h1 h2
        rw [hc] at h3
        subst hq
        refine ⟨h1, fun hS => ?_, m, h3, h4⟩
        rw [hu]
        simp only [h2 hS, ok_bind, Option.map_some]

end LCQ
