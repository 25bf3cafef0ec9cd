import Verif.Lemmas.Live
import Verif.Spec.OneSetup

/-!
# Requests of a run

What is part of every request of a run, and what changes.
-/

set_option linter.unusedSectionVars false

namespace LCQ
open Scalar

variable {α : Type} [Scalar α]

theorem bind_congr_ok {β γ : Type} {m : M β} {f g : β → M γ} (h : ∀ a, m = .ok a → f a = g a) :
    (m >>= f) = (m >>= g) := by
  cases m with
  | error x => rfl
  | ok a => exact h a rfl

/-- the fixed parts after `initializeSolver` -/
def qpFormOf (d : Data α) : QpForm α :=
  let ok {β : Type} (m : M β) (x : β) : β := match m with | .ok v => v | .error _ => x
  match d.sub with
  | some (.dense nV nC Q A) => ⟨.dense nV nC Q A, ok (copyN (d.lbA.getD []) nC) [], ok (copyN (d.ubA.getD []) nC) [],
      ok (copyOpt d.lb nV) none, ok (copyOpt d.ub nV) none, d.opts.qpoases, d.opts.osqp⟩
  | some (.sparse nV nC Q A) => ⟨.sparse nV nC Q A, ok (copyN (d.lbA.getD []) nC) [], ok (copyN (d.ubA.getD []) nC) [],
      ok (copyOpt d.lb nV) none, ok (copyOpt d.ub nV) none, d.opts.qpoases, d.opts.osqp⟩
  | some (.osqp Q A) => ⟨.osqp Q A, ok (copyN (d.lbA.getD []) A.m) [], ok (copyN (d.ubA.getD []) A.m) [],
      none, none, d.opts.qpoases, d.opts.osqp⟩
  | none => ⟨.dense 0 0 [] [], [], [], none, none, 0, none⟩

variable {e : Env α} {d : Data α} {c : Nat} {qp' : Nat → Req α → Resp α}

theorem subSolve_asks {s : St α} {init : Bool} (hk : (s.calls = c ∧ init = true) ∨ (c < s.calls ∧ init = false))
    (h : ∀ k q, (qpFormOf d).Allows c k q → qp' k q = e.qp k q) :
    subSolve { e with qp := qp' } d s init = subSolve e d s init := by
  unfold subSolve
  refine bind_congr_ok fun sub hsub => ?_
  rw [initd_eq_ok] at hsub
  have key : ∀ nV nC, (∀ lA uA lb ub, copyN (d.lbA.getD []) nC = .ok lA → copyN (d.ubA.getD []) nC = .ok uA →
      copyOpt d.lb nV = .ok lb → copyOpt d.ub nV = .ok ub →
      qpFormOf d = ⟨sub, lA, uA, lb, ub, d.opts.qpoases, d.opts.osqp⟩) →
      qpoasesSolve { e with qp := qp' } d s init sub nV nC = qpoasesSolve e d s init sub nV nC := by
    intro nV nC hf
    unfold qpoasesSolve
    refine bind_congr_ok fun g _ => bind_congr_ok fun g' _ => bind_congr_ok fun l0 hl0 => bind_congr_ok fun lA hl =>
      bind_congr_ok fun u0 hu0 => bind_congr_ok fun uA hu => bind_congr_ok fun lb hlb => bind_congr_ok fun ub hub =>
      bind_congr_ok fun x0 hx0 => bind_congr_ok fun y0 hy0 => ?_
    rw [deref_eq_ok] at hl0 hu0
    have := hf lA uA lb ub (by rw [hl0]; exact hl) (by rw [hu0]; exact hu) hlb hub
    have hq : qp' s.calls ⟨sub, init, g', lA, uA, x0, y0, lb, ub, d.opts.qpoases, d.opts.osqp⟩ =
        e.qp s.calls ⟨sub, init, g', lA, uA, x0, y0, lb, ub, d.opts.qpoases, d.opts.osqp⟩ := by
      apply h
      rw [this]
      refine ⟨rfl, rfl, rfl, rfl, rfl, rfl, rfl, ?_⟩
      rcases hk with hk | ⟨hk, rfl⟩
      · exact .inl hk
      · injection hx0 with hx0
        injection hy0 with hy0
        exact .inr ⟨hk, rfl, hx0.symm, hy0.symm⟩
    simp only [hq]
  cases sub with
  | dense nV nC Q A =>
    refine key nV nC fun lA uA lb ub h1 h2 h3 h4 => ?_
    simp only [qpFormOf, hsub, h1, h2, h3, h4]
  | sparse nV nC Q A =>
    refine key nV nC fun lA uA lb ub h1 h2 h3 h4 => ?_
    simp only [qpFormOf, hsub, h1, h2, h3, h4]
  | osqp Q A =>
    dsimp only
    unfold osqpSolve
    split
    · rfl
    refine bind_congr_ok fun g _ => bind_congr_ok fun g' _ => bind_congr_ok fun l0 hl0 => bind_congr_ok fun lA hl =>
      bind_congr_ok fun u0 hu0 => bind_congr_ok fun uA hu =>
      bind_congr_ok fun x0 hx0 => bind_congr_ok fun y0 hy0 => ?_
    rw [deref_eq_ok] at hl0 hu0
    have hq : qp' s.calls ⟨.osqp Q A, init, g', lA, uA, x0, y0, none, none, d.opts.qpoases, d.opts.osqp⟩ =
        e.qp s.calls ⟨.osqp Q A, init, g', lA, uA, x0, y0, none, none, d.opts.qpoases, d.opts.osqp⟩ := by
      apply h
      have hl' : copyN (d.lbA.getD []) A.m = .ok lA := by rw [hl0]; exact hl
      have hu' : copyN (d.ubA.getD []) A.m = .ok uA := by rw [hu0]; exact hu
      simp only [qpFormOf, hsub, hl', hu']
      refine ⟨rfl, rfl, rfl, rfl, rfl, rfl, rfl, ?_⟩
      rcases hk with hk | ⟨hk, rfl⟩
      · exact .inl hk
      · injection hx0 with hx0
        injection hy0 with hy0
        exact .inr ⟨hk, rfl, hx0.symm, hy0.symm⟩
    simp only [hq]

theorem solveQP_asks {s : St α} {init : Bool} (hk : (s.calls = c ∧ init = true) ∨ (c < s.calls ∧ init = false))
    (h : ∀ k q, (qpFormOf d).Allows c k q → qp' k q = e.qp k q) :
    solveQP { e with qp := qp' } d s init = solveQP e d s init := by
  unfold solveQP
  rw [subSolve_asks hk h]
  rfl

theorem nextStep_asks {s : St α} (hk : c < s.calls)
    (h : ∀ k q, (qpFormOf d).Allows c k q → qp' k q = e.qp k q) :
    nextStep { e with qp := qp' } d s = nextStep e d s := by
  unfold nextStep
  refine bind_congr_ok fun s1 h1 => ?_
  have h2 : s1.calls = s.calls := by
    obtain ⟨gk, rfl⟩ := updateLinearization_inv h1
    rfl
  rw [solveQP_asks (c := c) (.inr ⟨by rw [h2]; exact hk, rfl⟩) h]
  rfl

theorem bump_calls {s s' : St α} (h : bump d s = .ok s') : s'.calls = s.calls := by
  obtain ⟨_, _, _, _, _, _, _, _, rfl⟩ := bump_inv h
  rfl

theorem dynamicPenalty_calls {s s' : St α} (h : dynamicPenalty d s = .ok s') : s'.calls = s.calls := by
  obtain ⟨r, hh, _, hr, ⟨_, h'⟩ | ⟨_, h'⟩⟩ := dynamicPenalty_inv h
  · rw [h', hr]
  · rw [bump_calls h', hr]

theorem advance_calls {s s' : St α} (h : advance d s = .ok s') : s'.calls = s.calls := by
  obtain ⟨x, a, b, c, p, l, st, t', i, ht, hi, _, _, hp, _, hst, rfl⟩ := advance_inv h
  subst hp
  rfl

theorem checkStationarity_calls {s s' : St α} (h : checkStationarity e d s = .ok (.inl s')) : s'.calls = s.calls := by
  simp only [checkStationarity, bind_eq_ok] at h
  obtain ⟨st, _, h⟩ := h
  split at h
  · simp only [bind_eq_ok] at h
    obtain ⟨co, _, h⟩ := h
    split at h
    · simp only [bind_eq_ok] at h
      obtain ⟨_, _, h⟩ := h
      cases h
    · simp only [bind_eq_ok] at h
      obtain ⟨s1, hs, h⟩ := h
      injection h with h
      injection h with h
      rw [← h, bump_calls hs]
  · injection h with h
    injection h with h
    rw [h]

theorem checkLimits_calls {s s' : St α} (h : checkLimits d s = .ok (.inl s')) : s'.calls = s.calls := by
  simp only [checkLimits, bind_eq_ok] at h
  obtain ⟨_, _, _, _, h⟩ := h
  split at h
  · cases h
  · split at h
    · cases h
    · injection h with h
      injection h with h
      rw [h]

theorem andThen_congr {m : M (Step α)} {f g : St α → M (Step α)} (h : ∀ s, m = .ok (.inl s) → f s = g s) :
    andThen m f = andThen m g := by
  unfold andThen
  refine bind_congr_ok fun r hr => ?_
  cases r with
  | inl s => exact h s hr
  | inr q => rfl

theorem pass_asks {s : St α} (hk : c < s.calls)
    (h : ∀ k q, (qpFormOf d).Allows c k q → qp' k q = e.qp k q) :
    pass { e with qp := qp' } d s = pass e d s := by
  unfold pass
  refine bind_congr_ok fun s1 h1 => bind_congr_ok fun s2 h2 => bind_congr_ok fun s3 h3 => ?_
  change andThen (checkStationarity e d s3) _ = andThen (checkStationarity e d s3) _
  refine andThen_congr fun s4 h4 => andThen_congr fun s5 h5 => nextStep_asks ?_ h
  obtain ⟨gk, rfl⟩ := updateLinearization_inv h3
  rw [checkLimits_calls h5, checkStationarity_calls h4]
  change c < s2.calls
  rw [dynamicPenalty_calls h2, advance_calls h1]
  exact hk

theorem solveQP_calls {s : St α} {init : Bool} {q : RV × St α} (h : solveQP e d s init = .ok q) :
    s.calls ≤ q.2.calls ∧ (q.1 = .successfulReturn → q.2.calls = s.calls + 1) := by
  obtain ⟨r, hr, hq, it, ex, st, _, _, _, w, k, m, x, y, a, b, p, hm, hm', _, _, h2⟩ := solveQP_inv h
  have hc : q.2.calls = m := by rw [h2]
  refine ⟨by omega, fun h1 => ?_⟩
  obtain ⟨sub, _, ⟨h3, _⟩ | ⟨_, _, _, _, _, h3⟩⟩ := subSolve_ret hr
  · rw [hq, h3] at h1; cases h1
  · have : r.2.calls = s.calls + 1 := by
      rcases h3 with ⟨_, _, _, w, h⟩ | ⟨_, _, _, w, h⟩ | ⟨_, _, w, h⟩ | ⟨_, w, h⟩ <;> rw [h]
    omega

theorem pass_calls {s s' : St α} (h : pass e d s = .ok (.inl s')) : s'.calls = s.calls + 1 := by
  simp only [pass, bind_eq_ok, andThen_eq_ok] at h
  obtain ⟨s1, h1, s2, h2, s3, h3, ⟨s4, h4, ⟨s5, h5, h6⟩ | ⟨q, _, h6⟩⟩ | ⟨q, _, h6⟩⟩ := h
  · obtain ⟨gk, rfl⟩ := updateLinearization_inv h3
    obtain ⟨gk', q, hq, ⟨_, h7⟩ | ⟨hs, x, m, lt, a, h7⟩⟩ := nextStep_inv h6
    · cases h7
    · injection h7 with h7
      rw [h7]
      change q.2.calls = _
      rw [(solveQP_calls hq).2 hs]
      change s5.calls + 1 = _
      rw [checkLimits_calls h5, checkStationarity_calls h4]
      change s2.calls + 1 = _
      rw [dynamicPenalty_calls h2, advance_calls h1]
  · cases h6
  · cases h6

theorem mainLoop_asks (h : ∀ k q, (qpFormOf d).Allows c k q → qp' k q = e.qp k q) (fuel : Nat) :
    ∀ s : St α, c < s.calls → mainLoop { e with qp := qp' } d fuel s = mainLoop e d fuel s := by
  induction fuel with
  | zero => intro s _; rfl
  | succ f ih =>
    intro s hk
    unfold mainLoop
    rw [pass_asks hk h]
    refine bind_congr_ok fun r hr => ?_
    cases r with
    | inl s' => exact ih s' (by rw [pass_calls hr]; omega)
    | inr q => rfl

theorem firstGradient_calls {s s' : St α} (h : firstGradient d s = .ok s') : s'.calls = s.calls := by
  unfold firstGradient at h
  split at h
  · simp only [bind_eq_ok] at h
    obtain ⟨_, _, _, _, _, _, _, _, h⟩ := h
    injection h with h
    rw [← h]
  · obtain ⟨gk, rfl⟩ := updateLinearization_inv h
    rfl

theorem firstStep_asks {s : St α} (hk : s.calls = c)
    (h : ∀ k q, (qpFormOf d).Allows c k q → qp' k q = e.qp k q) :
    firstStep { e with qp := qp' } d s = firstStep e d s := by
  unfold firstStep
  refine bind_congr_ok fun s1 h1 => ?_
  rw [solveQP_asks (c := c) (.inl ⟨(firstGradient_calls h1).trans hk, rfl⟩) h]

theorem firstStep_calls {s s' : St α} (h : firstStep e d s = .ok (.inl s')) : s'.calls = s.calls + 1 := by
  simp only [firstStep, bind_eq_ok] at h
  obtain ⟨s1, h1, q, hq, h⟩ := h
  split at h
  · cases h
  · rename_i hs
    simp only [bind_eq_ok] at h
    obtain ⟨s2, h2, r, _, h⟩ := h
    obtain ⟨a, b, g, rfl⟩ := setQk_inv h2
    injection h with h
    injection h with h
    rw [← h]
    change q.2.calls = _
    rw [(solveQP_calls hq).2 (not_not.mp hs), firstGradient_calls h1]

theorem chooseSolver_calls {o : Obj α} {r : RV × Obj α} (h : chooseSolver e o = .ok r) : r.2.s.calls = o.s.calls := by
  simp only [chooseSolver, bind_eq_ok] at h
  obtain ⟨n, _, h⟩ := h
  split at h
  · split at h
    · injection h with h; rw [← h]
    · simp only [bind_eq_ok] at h
      obtain ⟨b, _, h⟩ := h
      split at h
      · injection h with h; rw [← h]
      · simp only [bind_eq_ok] at h
        obtain ⟨_, _, _, _, _, _, _, _, h⟩ := h
        injection h with h; rw [← h]
  · split at h
    · split at h
      · injection h with h; rw [← h]
      · simp only [bind_eq_ok] at h
        obtain ⟨b, _, h⟩ := h
        split at h
        · injection h with h; rw [← h]
        · simp only [bind_eq_ok] at h
          obtain ⟨_, _, _, _, _, _, _, _, h⟩ := h
          injection h with h; rw [← h]
    · split at h
      · split at h
        · injection h with h; rw [← h]
        · simp only [bind_eq_ok] at h
          obtain ⟨y, _, h⟩ := h
          split at h
          · injection h with h; rw [← h]
          · split at h
            · injection h with h; rw [← h]
            · simp only [bind_eq_ok] at h
              obtain ⟨_, _, _, _, _, _, _, _, _, _, h⟩ := h
              injection h with h; rw [← h]
      · injection h with h; rw [← h]

theorem initializeSolver_calls {o : Obj α} {r : RV × Obj α} (h : initializeSolver e o = .ok r) :
    r.2.s.calls = o.s.calls := by
  simp only [initializeSolver, bind_eq_ok] at h
  obtain ⟨c, hc, h⟩ := h
  split at h
  · injection h with h; rw [← h, chooseSolver_calls hc]
  · simp only [initRest, bind_eq_ok] at h
    obtain ⟨_, _, _, _, _, _, _, _, h⟩ := h
    injection h with h
    rw [← h, ← chooseSolver_calls hc]
    dsimp only
    split <;> rfl

theorem copyN_take_ok {β : Type} {b r : List β} {n : Nat} (h : copyN b n = .ok r) : r = b.take n := by
  unfold copyN at h
  split at h
  · injection h with h; exact h.symm
  · cases h

theorem choose_from {o : Obj α} {r : RV × Obj α} (h : chooseSolver e o = .ok r) (hr : r.1 = .successfulReturn) :
    ∃ sub, r.2.d.sub = some sub ∧ ∀ p : QpForm α, p.sub = sub → p.From o := by
  simp only [chooseSolver, bind_eq_ok, initd_eq_ok] at h
  obtain ⟨n, hn, h⟩ := h
  split at h
  · rename_i hq
    split at h
    · injection h with h; rw [← h] at hr; cases hr
    · simp only [bind_eq_ok, deref_eq_ok] at h
      obtain ⟨b, _, h⟩ := h
      split at h
      · rename_i hb
        injection h with h; rw [← h] at hr; exact absurd hr hb
      · simp only [bind_eq_ok, deref_eq_ok] at h
        obtain ⟨Q, hQ, Q', hQ', A, hA, A', hA', h⟩ := h
        injection h with h
        refine ⟨.dense n.nV n.nA Q' A', by rw [← h], fun p hp => ⟨n, hn, .inl ⟨hq, Q, A, hQ, hA, ?_⟩⟩⟩
        rw [hp, copyN_take_ok hQ', copyN_take_ok hA']
  · split at h
    · rename_i hq
      split at h
      · injection h with h; rw [← h] at hr; cases hr
      · simp only [bind_eq_ok, deref_eq_ok] at h
        obtain ⟨b, _, h⟩ := h
        split at h
        · rename_i hb
          injection h with h; rw [← h] at hr; exact absurd hr hb
        · simp only [bind_eq_ok, deref_eq_ok] at h
          obtain ⟨Q, hQ, Q', hQ', A, hA, A', hA', h⟩ := h
          injection h with h
          exact ⟨.sparse n.nV n.nA Q' A', by rw [← h],
            fun p hp => ⟨n, hn, .inr (.inl ⟨hq, Q, A, Q', A', hQ, hA, hQ', hA', hp⟩)⟩⟩
    · split at h
      · rename_i hq
        split at h
        · injection h with h; rw [← h] at hr; cases hr
        · simp only [bind_eq_ok] at h
          obtain ⟨y, _, h⟩ := h
          split at h
          · injection h with h; rw [← h] at hr; cases hr
          · split at h
            · injection h with h; rw [← h] at hr; cases hr
            · simp only [bind_eq_ok, deref_eq_ok] at h
              obtain ⟨Q, hQ, Q', hQ', A, hA, A', hA', w, _, h⟩ := h
              injection h with h
              exact ⟨.osqp Q' A', by rw [← h],
                fun p hp => ⟨n, hn, .inr (.inr ⟨hq, Q, A, Q', A', hQ, hA, hQ', hA', hp⟩)⟩⟩
      · injection h with h; rw [← h] at hr; cases hr

theorem initPhi_sub {d d' : Data α} (h : initPhi d = .ok d') : d'.sub = d.sub := by
  unfold initPhi at h
  split at h
  · injection h with h; rw [h]
  · simp only [bind_eq_ok] at h
    obtain ⟨_, _, _, _, _, _, _, _, _, _, _, _, _, _, h⟩ := h
    injection h with h; rw [← h]

theorem qpFormOf_sub {d : Data α} {sub : Sub α} (h : d.sub = some sub) : (qpFormOf d).sub = sub := by
  cases sub <;> simp only [qpFormOf, h]

theorem init_from {o : Obj α} {i : RV × Obj α} (h : initializeSolver e o = .ok i) (hs : i.1 = .successfulReturn) :
    (qpFormOf i.2.d).From o := by
  simp only [initializeSolver, bind_eq_ok] at h
  obtain ⟨c, hc, h⟩ := h
  split at h
  · rename_i hne
    injection h with h
    rw [← h] at hs
    exact absurd hs hne
  · rename_i hne
    obtain ⟨sub, h1, h2⟩ := choose_from hc (not_not.mp hne)
    apply h2
    simp only [initRest, bind_eq_ok] at h
    obtain ⟨_, _, _, _, _, _, d', hd', h⟩ := h
    injection h with h
    refine qpFormOf_sub ?_
    rw [← h]
    exact (initPhi_sub hd').trans h1

/-- a run asks nothing else of the QP solver -/
theorem runSolver_asks {o : Obj α} {i : RV × Obj α} (hi : initializeSolver e o = .ok i)
    (h : ∀ k q, (qpFormOf i.2.d).Allows o.s.calls k q → qp' k q = e.qp k q) (fuel : Nat) :
    runSolver { e with qp := qp' } fuel o = runSolver e fuel o := by
  unfold runSolver
  change (initializeSolver e o >>= _) = (initializeSolver e o >>= _)
  rw [hi]
  simp only [ok_bind]
  split
  · rfl
  · rw [firstStep_asks (c := o.s.calls) (initializeSolver_calls hi) h]
    refine bind_congr_ok fun f hf => ?_
    cases f with
    | inr q => rfl
    | inl s =>
      dsimp only
      rw [mainLoop_asks h fuel s (by rw [firstStep_calls hf, initializeSolver_calls hi]; omega)]

end LCQ
