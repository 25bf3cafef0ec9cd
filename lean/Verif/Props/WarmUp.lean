import Verif.Lemmas.WarmUpLoad

/-!
# C77: the warm-up programs
-/

namespace LCQ.WarmUp
open Scalar

section anyArith
variable {α : Type} [Scalar α]

/-- C77 (any arithmetic, any QP answers): none of the nine programs has undefined behaviour.  Loading ends with some code; unless it is
success, the exit code is 1.  Otherwise the storage is switched if the program asks for it, and the solver runs with the options of the
program.  If it is still running after `fuel` passes, so is the program; if it returns anything but success, the exit code is 1; if it
returns success, the exit code is 0, `xOpt` holds the final iterate, `yOpt` the final multipliers followed by entries that were never
written, the printed entries of `yOpt` are among the written ones, and the printed statistics are those of the run.
`M` bounds the iteration counts reported by the QP solvers; for OSQP the set-up and warm start calls have to succeed. -/
theorem C77_safe (e : Env α) (M : Int) (he : AnsBnd e M) (hM : 1001 * M ≤ intMax) {qd sd : Nat} {t : Task α} (hP : Program qd sd t)
    (ho : t.opts.qpSolver = 2 → ∀ r, (e.qp 0 r).setup = true ∧ (e.qp 0 r).warmX = true ∧ (e.qp 0 r).warmY = true) (fuel : Nat) :
    ∃ rv o1, loadDense e (start qd sd t) t.args = .ok (rv, o1) ∧
      (rv ≠ .successfulReturn → main e qd sd t fuel = .ok (some ⟨1, none⟩)) ∧
      (rv = .successfulReturn → ∃ o q, Prepared e t.dims true o ∧ o.d.opts = t.opts ∧
        (if t.late ∨ t.opts.qpSolver ≥ 1 then switchToSparse (loaded t o1) = .ok (.successfulReturn, o) ∧ o.d.sparse = true
          else o = loaded t o1) ∧
        runSolver e fuel o = .ok q ∧
        match q with
        | none => main e qd sd t fuel = .ok none
        | some (rr, r) =>
          (rr ≠ .successfulReturn → main e qd sd t fuel = .ok (some ⟨1, none⟩)) ∧
          (rr = .successfulReturn → ∃ x y : List α, r.s.xk = some x ∧ r.s.yk = some y ∧ x.length = 2 ∧ y.length = t.duals ∧
            t.shown ≤ t.duals ∧ t.duals ≤ t.ny ∧
            main e qd sd t fuel = .ok (some ⟨0, some (x, y ++ (e.alloc 1 t.ny).drop t.duals,
              if t.stats then some (getOutputStatistics r Stats.fresh) else none)⟩))) := by
  have ht := hP.ok
  obtain ⟨rv, o1, h1, hno, hyes⟩ := prepare_ok e qd sd ht.toLoads
  refine ⟨rv, o1, h1, fun hrv => ?_, fun hrv => ?_⟩
  · rw [main, hno hrv, ok_bind]
  · obtain ⟨o, h, _, hp, hopt, _, hsw⟩ := hyes hrv
    obtain ⟨q, hq, hs⟩ := run_ok he hM ht ho hp hopt fuel
    refine ⟨o, q, hp, hopt, hsw, hq, ?_⟩
    have hm := main_of h fuel
    rw [hq, ok_bind] at hm
    cases q with
    | none => exact hm
    | some r =>
      obtain ⟨rr, r⟩ := r
      dsimp only at hm ⊢
      refine ⟨fun hr => ?_, ?_⟩
      · rw [if_pos hr] at hm
        exact hm
      · rintro rfl
        obtain ⟨x, y, hx, hy, lx, ly, hsh⟩ := hs r rfl
        rw [if_neg (by simp), hsh, ok_bind] at hm
        exact ⟨x, y, hx, hy, lx, ly, ht.shown, ht.ny, hm⟩

/-- C77: the options of the programs that set the QP solver: its number, and its settings where the program sets them.  All others keep
their defaults, except for the print level.  The last two programs pass the options after the problem. -/
theorem C77_options (qd sd sp qp : Nat) :
    (warmUp qd sd : Task α).opts = { Options.default qd sd with printLevel := 2, qpSolver := 0 } ∧
    (warmUpTest qd sd : Task α).opts = (warmUp qd sd : Task α).opts ∧ (binary qd sd : Task α).opts = (warmUp qd sd : Task α).opts ∧
    (storeSteps qd sd : Task α).opts = { (warmUp qd sd : Task α).opts with storeSteps := true } ∧
    (sparse qd sd : Task α).opts = { Options.default qd sd with printLevel := 2, qpSolver := 1 } ∧
    (shifted qd sd : Task α).opts = { Options.default qd sd with printLevel := 2, qpSolver := 2 } ∧
    (osqpOptions qd sd sp : Task α).opts = { Options.default qd sd with qpSolver := 2, osqp := some sp } ∧
    (qpoasesOptions qd sd qp : Task α).opts = { Options.default qd sd with qpSolver := 1, qpoases := qp } ∧
    (osqpOptions qd sd sp : Task α).late = true ∧ (qpoasesOptions qd sd qp : Task α).late = true ∧
    ([warmUp qd sd, warmUpTest qd sd, binary qd sd, storeSteps qd sd, sparse qd sd, shifted qd sd] : List (Task α)).all (!·.late) :=
  ⟨rfl, rfl, rfl, rfl, rfl, rfl, rfl, rfl, rfl, rfl, rfl⟩

/-- C77 (any arithmetic, any QP answers): test_max_penalty.cpp has no undefined behaviour.  Loading succeeds.  The exit code is 0
exactly if the solver returned `MAX_PENALTY_REACHED`, and 1 for every other end of the run. -/
theorem C77_max_safe (e : Env α) (M : Int) (he : AnsBnd e M) (hM : 1001 * M ≤ intMax) (qd sd fuel : Nat) :
    ∃ o, loadDense e (start qd sd (maxPenalty qd sd)) (maxPenalty qd sd : Task α).args = .ok (.successfulReturn, o) ∧
      ∃ q, Prepared e ⟨2, 0, 1⟩ true o ∧ o.d.opts = (maxPenalty qd sd : Task α).opts ∧ prepare e qd sd (maxPenalty qd sd) = .ok (some o) ∧
        runSolver e fuel o = .ok q ∧ mainMax e qd sd fuel = .ok (q.map fun r => if r.1 = .maxPenaltyReached then 0 else 1) := by
  have ht := maxPenalty_loads (α := α) qd sd
  obtain ⟨rv, o1, h1, hno, hyes⟩ := prepare_ok e qd sd ht
  obtain ⟨hu0, _⟩ := (start_prepared e qd sd ht.comp).untouched
  have hrv : rv = .successfulReturn := by
    obtain ⟨rv', o', h', hr⟩ := C15_codes e _ _ (maxPenalty qd sd : Task α).args hu0.dims hu0.nV hu0.nComp ht.fits
    rw [h1] at h'
    injection h' with h'
    injection h' with h' _
    rw [h', hr]
    simp [maxPenalty, guessed, base, HasMinusInf, Task.dims]
  subst hrv
  obtain ⟨o, h, _, hp, hopt, _, hsw⟩ := hyes rfl
  have hoo : o = o1 := by
    rw [if_neg] at hsw
    · exact hsw
    · rw [(maxPenalty_opts qd sd).2]
      simp [maxPenalty]
  subst hoo
  have hsm : Small o.d.opts M := by
    rw [hopt]
    refine ⟨by rw [ht.iter]; decide, by rw [ht.iter]; decide, by rw [ht.iter]; exact hM⟩
  obtain ⟨hu, hr⟩ := hp.untouched
  obtain ⟨q, hq, _⟩ := runSolver_total (e := e) (hr rfl) he hsm (fun h2 _ => by
    rw [hopt, (maxPenalty_opts qd sd).2] at h2
    exact absurd h2 (by decide)) fuel
  refine ⟨o, h1, q, hp, hopt, h, hq, ?_⟩
  rw [mainMax, h, ok_bind]
  dsimp only
  rw [hq, ok_bind]
  cases q with
  | none => rfl
  | some r =>
    dsimp only [Option.map_some]
    split <;> rfl

end anyArith

/-! ## exact arithmetic -/

section exact
open Ext
open scoped Matrix
variable {K : Type} [Field K] [LinearOrder K] [IsStrictOrderedRing K] {e : Env (Ext K)} {c : K}

theorem prob_obj (c : K) (x : Fin 2 → K) : (prob c).obj x = (x 0 - 1 - c) ^ 2 + (x 1 - 1 - c) ^ 2 - 2 * (1 + c) ^ 2 := by
  rw [Prob.obj, prob_Q]
  have e1 : (prob c).g ⬝ᵥ x = -2 * (1 + c) * x 0 + -2 * (1 + c) * x 1 := by
    simp only [dotProduct]
    exact Fin.sum_univ_two _
  have e2 : x ⬝ᵥ ![2 * x 0, 2 * x 1] = x 0 * (2 * x 0) + x 1 * (2 * x 1) := by
    simp only [dotProduct]
    exact Fin.sum_univ_two _
  rw [e1, e2]
  ring

/-- C77: what the data mean.  Up to a constant the objective is `(x0 - 1 - c)² + (x1 - 1 - c)²`, the constraints of the subproblems are
`x0, x1 ≥ c`, and the complementarity violation is `(x0 - c) (x1 - c)`. -/
theorem C77_meaning (c : K) (x : Fin 2 → K) :
    (Feasible (prob c) (fun _ => fin c) (fun _ => pinf) (fun _ => ninf) (fun _ => pinf) x ↔ c ≤ x 0 ∧ c ≤ x 1) ∧
    (prob c).phi x = (x 0 - c) * (x 1 - c) ∧
    (prob c).obj x = (x 0 - 1 - c) ^ 2 + (x 1 - 1 - c) ^ 2 - 2 * (1 + c) ^ 2 := by
  refine ⟨?_, ?_, ?_⟩
  · constructor
    · intro h
      have g : ∀ i : Fin 2, c ≤ x i := fun i => by
        have h2 : (fin c <=. fin (((prob c).AA *ᵥ x) i)) = true := h.lA i
        rw [show ((prob c).AA *ᵥ x) i = x i from congrFun (prob_AA c x) i] at h2
        simpa using h2
      exact ⟨g 0, g 1⟩
    · rintro ⟨h0, h1⟩
      refine ⟨fun i => ?_, fun i => ?_, fun i => ?_, fun i => ?_⟩
      · show (fin c <=. fin (((prob c).AA *ᵥ x) i)) = true
        change Fin 2 at i
        rw [show ((prob c).AA *ᵥ x) i = x i from congrFun (prob_AA c x) i]
        fin_cases i
        · simpa using h0
        · simpa using h1
      all_goals rfl
  · exact prob_phi c x
  · exact prob_obj c x

/-- C77: the points with the least objective among those that satisfy all constraints are `(1 + c, c)` and `(c, 1 + c)`. -/
theorem C77_minimizers (c : K) (x : Fin 2 → K) :
    ((c ≤ x 0 ∧ c ≤ x 1 ∧ (prob c).phi x = 0) ∧ ∀ z : Fin 2 → K, c ≤ z 0 → c ≤ z 1 → (prob c).phi z = 0 → (prob c).obj x ≤ (prob c).obj z) ↔
      (x 0 = 1 + c ∧ x 1 = c) ∨ (x 0 = c ∧ x 1 = 1 + c) := by
  simp only [prob_phi, prob_obj]
  constructor
  · rintro ⟨⟨h0, h1, hp⟩, hm⟩
    have h2 := hm ![1 + c, c] (by simp) (by simp) (by simp)
    simp only [Matrix.cons_val_zero, Matrix.cons_val_one] at h2
    rcases mul_eq_zero.mp hp with h3 | h3
    · have h3 : x 0 = c := by linarith
      rw [h3] at h2
      have : (x 1 - 1 - c) ^ 2 = 0 := le_antisymm (by nlinarith) (sq_nonneg _)
      have := pow_eq_zero_iff (two_ne_zero) |>.mp this
      exact Or.inr ⟨h3, by linarith⟩
    · have h3 : x 1 = c := by linarith
      rw [h3] at h2
      have : (x 0 - 1 - c) ^ 2 = 0 := le_antisymm (by nlinarith) (sq_nonneg _)
      have := pow_eq_zero_iff (two_ne_zero) |>.mp this
      exact Or.inl ⟨by linarith, h3⟩
  · have low : ∀ z : Fin 2 → K, (z 0 - c) * (z 1 - c) = 0 → 1 ≤ (z 0 - 1 - c) ^ 2 + (z 1 - 1 - c) ^ 2 := fun z hz => by
      rcases mul_eq_zero.mp hz with h3 | h3
      · have h3 : z 0 = c := by linarith
        rw [h3]
        nlinarith [sq_nonneg (z 1 - 1 - c)]
      · have h3 : z 1 = c := by linarith
        rw [h3]
        nlinarith [sq_nonneg (z 0 - 1 - c)]
    rintro (⟨h0, h1⟩ | ⟨h0, h1⟩)
    · rw [h0, h1]
      refine ⟨⟨by linarith, le_refl _, by ring⟩, fun z _ _ hz => ?_⟩
      have := low z hz
      nlinarith
    · rw [h0, h1]
      refine ⟨⟨le_refl _, by linarith, by ring⟩, fun z _ _ hz => ?_⟩
      have := low z hz
      nlinarith

/-- a run that returns success -/
theorem Good.result {o o' : Obj (Ext K)} {x0 : Fin 2 → K} (hG : Good e o c (10 ^ 8) x0) (hc : c ≤ 1) {fuel : Nat}
    (hq : runSolver e fuel o = .ok (some (.successfulReturn, o'))) :
    ∃ (x : Fin 2 → K) (r : K) (a : AlgStat), o'.s.xk = some (ev x) ∧ o'.s.stats.rhoOpt = fin r ∧ r ≤ 10 ^ 8 ∧ Near2 r (x 0 - c) (x 1 - c) ∧
      o'.d.dims = some two2 ∧ o'.s.algo = some a := by
  obtain ⟨s, ⟨s0, h0, hre⟩, hps⟩ := run_last hq
  obtain ⟨k, hk⟩ := Reach.passes hre
  obtain ⟨x, r, hx, hr, hrR, hn⟩ := hG.near (le_refl _) hc h0 hk hps rfl
  dsimp only at hx hr
  obtain ⟨off, hDk, hd2, hopt', _⟩ := hG.setup.head ⟨s0, h0, hre⟩
  obtain ⟨j, hl, hj, _⟩ := hk.live h0
  have hend : ∃ k', Ended e o'.d (k + 1) k' (.successfulReturn, o'.s) := by
    rcases hl.pass hj hps with ⟨_, _, h, _⟩ | ⟨q, k', h, hE, _⟩
    · cases h
    · injection h with h
      subst h
      exact ⟨k', hE⟩
  obtain ⟨k', hend⟩ := hend
  obtain ⟨_, _, _, _, hrho, hrho'⟩ := hend.counts
  have hpen : ∀ j, penalty o'.d.opts j = fin (1 / 100 * 2 ^ j) :=
    penalty_fin (by rw [hopt']; exact hG.setup.rho0) (by rw [hopt']; exact hG.setup.factor)
  have hrho' := hrho' fun j _ => by
    rw [hpen, zero_fin]
    have : (0 : K) < 1 / 100 * 2 ^ j := by positivity
    simp
  have hr' : o'.s.stats.rhoOpt = fin r := by
    dsimp only at hrho hrho'
    rw [hrho']
    rw [hr] at hrho
    injection hrho with hrho
    exact hrho.symm
  have hal : ∃ a, o'.s.algo = some a := by
    obtain ⟨i, hi, hi1, hdd, _⟩ := h0
    exact run_algo hq hi hi1
  obtain ⟨a, hal⟩ := hal
  exact ⟨x, r, a, hx, hr', hrR, hn, hDk.dims, hal⟩

/-- C77: if one of the seven programs with the plain warm-up problem ends with exit code 0 and the QP solver is exact, then `xOpt` is
within `3·10⁻⁵` of one of the two solutions, or of the corner `(c, c)`; in the last case the printed penalty parameter is at least
`10⁶`. -/
theorem C77_solution {qd sd : Nat} {t : Task (Ext K)} (hP : Plain qd sd c t) (he : FinAns e)
    (hE : ExactOn e two2 (IsSub (prob c) (fun _ => fin c) (fun _ => pinf) (fun _ => ninf) (fun _ => pinf))) {fuel : Nat}
    {xs ys : List (Ext K)} {st : Option (Stats (Ext K))} (h : main e qd sd t fuel = .ok (some ⟨0, some (xs, ys, st)⟩)) :
    ∃ (x : Fin 2 → K) (r : K) (S : Stats (Ext K)), xs = ev x ∧ st = some S ∧ S.rhoOpt = fin r ∧ r ≤ 10 ^ 8 ∧
      Near2 r (x 0 - c) (x 1 - c) := by
  have ht := hP.program.ok
  obtain ⟨hD, hR⟩ := hP.data
  have hc : c = 0 ∨ c = 1 := by cases hP <;> simp
  have hst : t.stats = true := by cases hP <;> rfl
  rw [main] at h
  obtain ⟨po, hpo, h⟩ := bind_eq_ok.mp h
  cases po with
  | none => simp at h
  | some o =>
    obtain ⟨x0, hG, hopt, _⟩ := hD.good ht.toLoads hR hc he hE hpo
    dsimp only at h
    obtain ⟨q, hq, h⟩ := bind_eq_ok.mp h
    cases q with
    | none => simp at h
    | some r =>
      obtain ⟨rv, o'⟩ := r
      dsimp only at h
      split at h
      · simp at h
      · rename_i hrv
        rw [not_not] at hrv
        subst hrv
        obtain ⟨out, hout, h⟩ := bind_eq_ok.mp h
        injection h with h
        injection h with h
        subst h
        obtain ⟨x, r, a, hx, hr', hrR, hn, hdims, hal⟩ := hG.result (by rcases hc with rfl | rfl <;> norm_num) hq
        have ln : ∀ k m, (e.alloc k m).length = m := fun k m => by simp [Env.alloc]
        have g1 := C38_primal o' two2 a (ev x) (e.alloc 0 2) hdims hal hx (by simp) (by simp [ln])
        rw [List.take_of_length_le (by simp), List.drop_of_length_le (by simp [ln]), List.append_nil] at g1
        simp only [show', g1, ok_bind, deref_some] at hout
        obtain ⟨y, _, hout⟩ := bind_eq_ok.mp hout
        obtain ⟨yy, _, hout⟩ := bind_eq_ok.mp hout
        obtain ⟨_, _, hout⟩ := bind_eq_ok.mp hout
        obtain ⟨_, _, hout⟩ := bind_eq_ok.mp hout
        obtain ⟨_, _, hout⟩ := bind_eq_ok.mp hout
        injection hout with hout
        injection hout with _ hout
        injection hout with hout
        injection hout with h1 hout
        injection hout with _ h2
        rw [hst, if_pos rfl] at h2
        exact ⟨x, r, _, h1.symm, h2.symm, hr', hrR, hn⟩

end exact

end LCQ.WarmUp
