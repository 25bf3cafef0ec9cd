import Verif.Lemmas.Live
import Verif.Spec.Reach
import Verif.Props.Tracking

/-!
# QP statistics during a run (lemmas for C93)
-/

namespace LCQ
open Scalar

variable {α : Type} [Scalar α] {e : Env α} {d : Data α}

/-- the answers of the QP solver to the requests `l`, the first of which is the `c`-th one made in this environment -/
def answersFrom (e : Env α) : Nat → List (Req α) → List (Resp α)
  | _, [] => []
  | c, q :: l => e.qp c q :: answersFrom e (c + 1) l

theorem answersFrom_concat (e : Env α) (c : Nat) (l : List (Req α)) (q : Req α) :
    answersFrom e c (l ++ [q]) = answersFrom e c l ++ [e.qp (c + l.length) q] := by
  induction l generalizing c with
  | nil => simp [answersFrom]
  | cons a l ih =>
    simp only [List.cons_append, answersFrom, ih, List.length_cons, List.cons.injEq, List.append_cancel_left_eq, and_true, true_and]
    rw [show c + 1 + l.length = c + (l.length + 1) by omega]

/-- codes of an OSQP wrapper that could not start the solver -/
def NotStarted (rv : RV) : Prop :=
  rv = .osqpInitialPrimalGuessFailed ∨ rv = .osqpInitialDualGuessFailed ∨ rv = .osqpWorkspaceNotSetUp

/-- the fields that concern the QP solver are the same -/
structure SameQp (s s' : St α) : Prop where
  calls : s'.calls = s.calls
  iter : s'.qpIter = s.qpIter
  exit : s'.qpExit = s.qpExit
  work : s'.work = s.work
  sum : s'.stats.subproblemIter = s.stats.subproblemIter
  flag : s'.stats.exitFlag = s.stats.exitFlag

theorem SameQp.rfl' (s : St α) : SameQp s s := ⟨rfl, rfl, rfl, rfl, rfl, rfl⟩

theorem SameQp.trans {s s' s'' : St α} (h : SameQp s s') (h' : SameQp s' s'') : SameQp s s'' :=
  ⟨h'.calls.trans h.calls, h'.iter.trans h.iter, h'.exit.trans h.exit, h'.work.trans h.work, h'.sum.trans h.sum, h'.flag.trans h.flag⟩

theorem SameQp.advance {s s' : St α} (h : advance d s = .ok s') : SameQp s s' := by
  have hf : s'.stats.subproblemIter = s.stats.subproblemIter ∧ s'.stats.exitFlag = s.stats.exitFlag := by
    obtain ⟨_, h1, ⟨_, h2⟩ | ⟨_, _, _, _, _, _, _, _, _, _, _, _, _, _, _, _, _, h2⟩⟩ := advance_stats h <;>
      exact ⟨h1, by rw [h2]⟩
  obtain ⟨x, a, b, c, p, l, st, t', i, ht, hi, _, _, hp, _, hst, rfl⟩ := advance_inv h
  subst hp
  exact ⟨rfl, rfl, rfl, rfl, hf.1, hf.2⟩

theorem SameQp.bump {s s' : St α} (h : bump d s = .ok s') : SameQp s s' := by
  obtain ⟨_, _, a, b, hs⟩ := bump_stats h
  obtain ⟨_, _, _, _, _, _, _, _, h'⟩ := bump_inv h
  refine ⟨?_, ?_, ?_, ?_, by rw [hs], by rw [hs]⟩ <;> rw [h']

theorem SameQp.dynamic {s s' : St α} (h : dynamicPenalty d s = .ok s') : SameQp s s' := by
  obtain ⟨r, hh, _, hr, ⟨_, h'⟩ | ⟨_, h'⟩⟩ := dynamicPenalty_inv h
  · rw [h', hr]
    exact ⟨rfl, rfl, rfl, rfl, rfl, rfl⟩
  · have := SameQp.bump h'
    rw [hr] at this
    exact ⟨this.calls, this.iter, this.exit, this.work, this.sum, this.flag⟩

theorem SameQp.lin {s s' : St α} (h : updateLinearization d s = .ok s') : SameQp s s' := by
  obtain ⟨_, rfl⟩ := updateLinearization_inv h
  exact ⟨rfl, rfl, rfl, rfl, rfl, rfl⟩

theorem SameQp.accept {s : St α} {q : RV × St α} (h : accept e d s = .ok q) : SameQp s q.2 := by
  obtain ⟨y, a', _, _, hq2⟩ := accept_inv h
  refine ⟨?_, ?_, ?_, ?_, ?_, ?_⟩ <;> rw [hq2]

theorem osqpFinish_live {s : St α} {init : Bool} {w : Work} {a : Resp α} {r : RV × St α} (h : osqpFinish s init w a = .ok r) :
    (¬ NotStarted r.1 → r.2.work = .live) ∧ (init = false → w = .live → ¬ NotStarted r.1) := by
  unfold osqpFinish at h
  split at h
  · cases h
  · rename_i hnd
    simp only at h
    split at h
    · rename_i hc
      injection h with h
      subst h
      exact ⟨fun hn => absurd (show NotStarted _ from Or.inl rfl) hn, fun hi => by rw [hi] at hc; simp at hc⟩
    · split at h
      · rename_i hc
        injection h with h
        subst h
        exact ⟨fun hn => absurd (show NotStarted _ from Or.inr (Or.inl rfl)) hn, fun hi => by rw [hi] at hc; simp at hc⟩
      · split at h
        · rename_i hc
          injection h with h
          subst h
          exact ⟨fun hn => absurd (show NotStarted _ from Or.inr (Or.inr rfl)) hn, fun _ hw => by rw [hw] at hc; cases hc⟩
        · rename_i hc
          injection h with h
          subst h
          refine ⟨fun _ => ?_, fun _ _ => ?_⟩
          · show w = .live
            cases w
            · exact absurd rfl hc
            · rfl
            · exact absurd rfl hnd
          · simp only [NotStarted]
            split <;> simp

/-- the workspace after an OSQP call that has started the solver -/
theorem subSolve_live {s : St α} {init : Bool} {r : RV × St α} (h : subSolve e d s init = .ok r) {Q A : CSC α}
    (hs : d.sub = some (.osqp Q A)) (hb : d.lb = none ∧ d.ub = none) :
    (¬ NotStarted r.1 → r.2.work = .live) ∧ (init = false → s.work = .live → ¬ NotStarted r.1) := by
  simp only [subSolve, hs, initd_some, ok_bind, osqpSolve, hb.1, hb.2, ne_eq, not_true_eq_false, or_self, if_false, bind_eq_ok] at h
  obtain ⟨_, _, _, _, _, _, _, _, _, _, _, _, _, _, _, _, h⟩ := h
  obtain ⟨h1, h2⟩ := osqpFinish_live h
  exact ⟨h1, fun hi hw => h2 hi (by rw [hi, hw]; rfl)⟩

/-- a call of the QP solver: it answers and the answer is counted, or OSQP could not be started and the numbers of the last call are
counted again -/
theorem solve_count {s : St α} {init : Bool} {q : RV × St α} (h : solveQP e d s init = .ok q) {sub : Sub α} (hs : d.sub = some sub)
    (hb : ∀ Q A, sub = .osqp Q A → d.lb = none ∧ d.ub = none) :
    ∃ it ex, q.2.qpIter = some it ∧ q.2.qpExit = some ex ∧ q.2.calls = s.calls + 1 ∧
      q.2.stats.subproblemIter = s.stats.subproblemIter + max 0 it ∧ q.2.stats.exitFlag = ex ∧
      (∀ Q A, sub = .osqp Q A → ¬ NotStarted q.1 → q.2.work = .live) ∧
      ((NotStarted q.1 ∧ s.qpIter = some it ∧ s.qpExit = some ex ∧ (∃ Q A, sub = .osqp Q A) ∧ (init = false → s.work ≠ .live)) ∨
       (¬ NotStarted q.1 ∧ ∃ req : Req α, req.sub = sub ∧ req.init = init ∧ it = (e.qp s.calls req).iter ∧
          ex = exitOf sub (e.qp s.calls req))) := by
  obtain ⟨r, hr, h1, it, ex, st, hit, hex, hst, w, c, m, x, y, a, b, p, _, hm, hw, _, hq⟩ := solveQP_inv h
  have hsum : q.2.stats.subproblemIter = s.stats.subproblemIter + max 0 it := by
    rw [hq]
    simp only [Stats.updateExitFlag]
    rw [subproblemIter_inv hst]
    simp only
    split <;> omega
  have hlive : ∀ Q A, sub = .osqp Q A → (¬ NotStarted r.1 → r.2.work = .live) ∧ (init = false → s.work = .live → ¬ NotStarted r.1) := by
    rintro Q A rfl
    exact subSolve_live hr hs (hb Q A rfl)
  refine ⟨it, ex, by rw [hq], by rw [hq], ?_, hsum, by rw [hq]; rfl, ?_, ?_⟩
  · rw [hq]
    simp only
    rw [hm]
    obtain ⟨sub', hs', ⟨_, ⟨Q, A, rfl⟩, hx, _⟩ | ⟨_, _, _, _, _, ⟨_, _, _, _, hx⟩ | ⟨_, _, _, _, hx⟩ | ⟨_, _, _, hx⟩ | ⟨_, _, hx⟩⟩⟩ :=
      subSolve_ret hr
    · rw [hs] at hs'
      injection hs' with hs'
      have := hb Q A hs'
      simp [this] at hx
    all_goals rw [hx]
  · intro Q A he hn
    rw [h1] at hn
    rw [hq]
    simp only
    rw [hw]
    exact (hlive Q A he).1 hn
  · rw [h1]
    obtain ⟨sub', hs', hcase⟩ := subSolve_ret hr
    have hss : sub' = sub := by rw [hs] at hs'; injection hs' with hs'; exact hs'.symm
    subst hss
    have bad : ∀ w', r.2 = { s with work := w', calls := s.calls + 1 } → NotStarted r.1 → (∃ Q A, sub' = .osqp Q A) →
        (NotStarted r.1 ∧ s.qpIter = some it ∧ s.qpExit = some ex ∧ (∃ Q A, sub' = .osqp Q A) ∧ (init = false → s.work ≠ .live)) := by
      rintro w' hx hn ⟨Q, A, he⟩
      rw [hx] at hit hex
      exact ⟨hn, hit, hex, ⟨Q, A, he⟩, fun hi hl => (hlive Q A he).2 hi hl hn⟩
    rcases hcase with ⟨_, ⟨Q, A, he⟩, hx, _⟩ | ⟨req, ans, hans, hq1, hq2, ⟨hc, ho, _, w', hx⟩ | ⟨hc, ho, _, w', hx⟩ | ⟨hc, ho, w', hx⟩ |
      ⟨hc, w', hx⟩⟩
    · have := hb Q A he
      simp [this] at hx
    · exact Or.inl (bad w' hx (Or.inl hc) ho)
    · exact Or.inl (bad w' hx (Or.inr (Or.inl hc)) ho)
    · exact Or.inl (bad w' hx (Or.inr (Or.inr hc)) ho)
    · right
      refine ⟨?_, req, hq1, hq2, ?_, ?_⟩
      · rcases hc with ⟨hc, _⟩ | ⟨hc, _⟩ <;> simp [NotStarted, hc]
      · rw [hx] at hit
        injection hit with hit
        rw [← hit, hans]
      · rw [hx] at hex
        injection hex with hex
        rw [← hex, hans]

/-- what is known about the statistics after the requests `l`, the first of them being number `c` -/
structure QpCount (e : Env α) (sub : Sub α) (c : Nat) (l : List (Req α)) (s : St α) : Prop where
  calls : s.calls = c + l.length
  sum : s.stats.subproblemIter = ((answersFrom e c l).map fun a => max 0 a.iter).sum
  flag : ∃ a, (answersFrom e c l).getLast? = some a ∧ s.stats.exitFlag = exitOf sub a
  asks : ∀ (i : Nat) (q : Req α), l[i]? = some q → q.sub = sub ∧ (q.init = true ↔ i = 0)

theorem QpCount.same {sub : Sub α} {c : Nat} {l : List (Req α)} {s s' : St α} (h : QpCount e sub c l s) (hs : SameQp s s') :
    QpCount e sub c l s' :=
  ⟨hs.calls.trans h.calls, hs.sum.trans h.sum, by rw [hs.flag]; exact h.flag, h.asks⟩

theorem QpCount.first {sub : Sub α} {s s' : St α} {req : Req α} (h1 : req.sub = sub) (h2 : req.init = true)
    (h0 : s.stats.subproblemIter = 0) (hc : s'.calls = s.calls + 1)
    (hsum : s'.stats.subproblemIter = s.stats.subproblemIter + max 0 (e.qp s.calls req).iter)
    (hf : s'.stats.exitFlag = exitOf sub (e.qp s.calls req)) : QpCount e sub s.calls [req] s' := by
  refine ⟨hc, ?_, ⟨_, rfl, hf⟩, ?_⟩
  · rw [hsum, h0]
    simp [answersFrom]
  · intro j p hj
    cases j with
    | zero =>
      simp only [List.getElem?_cons_zero, Option.some.injEq] at hj
      subst hj
      exact ⟨h1, by rw [h2]; simp⟩
    | succ n => simp at hj

theorem QpCount.more {sub : Sub α} {c : Nat} {l : List (Req α)} {s s' : St α} (h : QpCount e sub c l s) (hl : l ≠ [])
    {req : Req α} (h1 : req.sub = sub) (h2 : req.init = false) (hc : s'.calls = s.calls + 1)
    (hsum : s'.stats.subproblemIter = s.stats.subproblemIter + max 0 (e.qp s.calls req).iter)
    (hf : s'.stats.exitFlag = exitOf sub (e.qp s.calls req)) : QpCount e sub c (l ++ [req]) s' := by
  refine ⟨?_, ?_, ?_, ?_⟩
  · rw [hc, h.calls, List.length_append]
    simp [Nat.add_assoc]
  · rw [hsum, h.sum, answersFrom_concat, ← h.calls]
    simp
  · rw [answersFrom_concat, ← h.calls]
    exact ⟨_, by simp, hf⟩
  · intro i q hi
    rcases Nat.lt_or_ge i l.length with hlt | hge
    · rw [List.getElem?_append_left hlt] at hi
      exact h.asks i q hi
    · rw [List.getElem?_append_right hge] at hi
      have hl0 : 0 < l.length := List.length_pos_of_ne_nil hl
      cases hk : i - l.length with
      | zero =>
        rw [hk] at hi
        simp only [List.getElem?_cons_zero, Option.some.injEq] at hi
        subst hi
        exact ⟨h1, by rw [h2]; constructor <;> intro hh <;> [cases hh; omega]⟩
      | succ n =>
        rw [hk] at hi
        simp at hi

end LCQ
