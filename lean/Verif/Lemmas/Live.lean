import Verif.Lemmas.Run

/-!
# Invariants of the counters, the penalty parameter and the status during a run
-/

set_option linter.unusedSectionVars false
set_option linter.unnecessarySeqFocus false

namespace LCQ
open Scalar

variable {α : Type} [Scalar α]

/-- penalty parameter after `k` updates, as computed by the machine (spec level) -/
def penalty (o : Options α) : Nat → α
  | 0 => o.rho0
  | k + 1 => penalty o k *. o.factor

/-- `t` iterations and `k` penalty updates have been made and the run is not finished -/
structure Live (o : Options α) (s : St α) (t k : Nat) : Prop where
  total : s.total = some (t : Int)
  iterTotal : s.stats.iterTotal = t
  outer : s.outer = some (k : Int)
  iterOuter : s.stats.iterOuter = k
  rho : s.rho = some (penalty o k)
  rhoOpt : (∀ j ≤ k, (penalty o j <=. zero) = false) → s.stats.rhoOpt = penalty o k
  algo : s.algo = some .notSolved
  status : s.stats.status = .notSolved

theorem Live.advance {d : Data α} {s s' : St α} {t k : Nat} (h : Live d.opts s t k)
    (ha : advance d s = .ok s') : Live d.opts s' (t + 1) k ∧ s'.calls = s.calls := by
  obtain ⟨x, a, b, c, p, l, st, t', i, ht, hi, _, _, hp, _, hst, rfl⟩ := advance_inv ha
  subst hp
  have ht' : t' = t := by have := h.total.symm.trans ht; injection this with this; exact this.symm
  subst ht'
  have hs : st.iterTotal = s.stats.iterTotal ∧ st.iterOuter = s.stats.iterOuter ∧
      st.rhoOpt = s.stats.rhoOpt ∧ st.status = s.stats.status := by
    rcases hst with ⟨_, rfl⟩ | ⟨_, hst⟩
    · exact ⟨rfl, rfl, rfl, rfl⟩
    · obtain ⟨_, _, _, q, _, _, _, _, _, _, _, _, _, _, hq, hst⟩ := storeSteps_inv hst
      obtain ⟨_, _, _, _, hq⟩ := track_inv hq
      have : st = q.2 := congrArg St.stats hst
      rw [this, hq]
      exact ⟨rfl, rfl, rfl, rfl⟩
  obtain ⟨h1, h2, h3, h4⟩ := hs
  refine ⟨⟨by simp, by simp [h1, h.iterTotal], h.outer, by simp [h2, h.iterOuter], h.rho, ?_,
    h.algo, by simp [h4, h.status]⟩, rfl⟩
  intro hh
  simp [h3, h.rhoOpt hh]

theorem Live.bump {d : Data α} {s s' : St α} {t k : Nat} (h : Live d.opts s t k)
    (hb : bump d s = .ok s') : Live d.opts s' t (k + 1) ∧ s'.calls = s.calls := by
  obtain ⟨r, a, b, c, o, hr, ho, _, rfl⟩ := bump_inv hb
  have hr' : r = penalty d.opts k := by have := h.rho.symm.trans hr; injection this with this; exact this.symm
  have ho' : o = (k : Int) := by have := h.outer.symm.trans ho; injection this with this; exact this.symm
  subst hr' ho'
  have hu : (s.stats.updateRhoOpt (penalty d.opts k *. d.opts.factor)).2.iterTotal = s.stats.iterTotal ∧
      (s.stats.updateRhoOpt (penalty d.opts k *. d.opts.factor)).2.iterOuter = s.stats.iterOuter ∧
      (s.stats.updateRhoOpt (penalty d.opts k *. d.opts.factor)).2.status = s.stats.status := by
    unfold Stats.updateRhoOpt
    split <;> exact ⟨rfl, rfl, rfl⟩
  obtain ⟨h1, h2, h3⟩ := hu
  refine ⟨⟨h.total, by simp [h1, h.iterTotal], by simp, by simp [h2, h.iterOuter], rfl, ?_, h.algo,
    by simp [h3, h.status]⟩, rfl⟩
  intro hh
  have := hh (k + 1) (le_refl _)
  simp only [penalty] at this
  simp [Stats.updateRhoOpt, this, penalty]

theorem Live.congr {o : Options α} {s s' : St α} {t k : Nat} (h : Live o s t k)
    (h1 : s'.total = s.total) (h2 : s'.outer = s.outer) (h3 : s'.rho = s.rho) (h4 : s'.algo = s.algo)
    (h5 : s'.stats = s.stats) : Live o s' t k :=
  ⟨h1.trans h.total, by rw [h5]; exact h.iterTotal, h2.trans h.outer, by rw [h5]; exact h.iterOuter,
    h3.trans h.rho, by rw [h5]; exact h.rhoOpt, h4.trans h.algo, by rw [h5]; exact h.status⟩

theorem Live.dynamic {d : Data α} {s s' : St α} {t k : Nat} (h : Live d.opts s t k)
    (hb : dynamicPenalty d s = .ok s') :
    (Live d.opts s' t k ∨ Live d.opts s' t (k + 1)) ∧ s'.calls = s.calls := by
  obtain ⟨r, hh, _, hr, ⟨_, h'⟩ | ⟨_, h'⟩⟩ := dynamicPenalty_inv hb
  · subst h'
    exact ⟨Or.inl (h.congr (by rw [hr]) (by rw [hr]) (by rw [hr]) (by rw [hr]) (by rw [hr])), by rw [hr]⟩
  · have hl : Live d.opts r.2 t k :=
      h.congr (by rw [hr]) (by rw [hr]) (by rw [hr]) (by rw [hr]) (by rw [hr])
    exact ⟨Or.inr (hl.bump h').1, by rw [(hl.bump h').2, hr]⟩

theorem subproblemIter_inv {s : Stats α} {it : Int} {q : RV × Stats α}
    (h : s.updateSubproblemIter it = .ok q) :
    q.2 = { s with subproblemIter := if it < 0 then s.subproblemIter else s.subproblemIter + it } := by
  unfold Stats.updateSubproblemIter at h
  split at h
  · rename_i hlt
    injection h with h
    rw [← h, if_pos hlt]
  · rename_i hlt
    simp only [bind_eq_ok, addInt] at h
    obtain ⟨v, hv, h⟩ := h
    split at hv
    · injection hv with hv
      injection h with h
      rw [← h, ← hv, if_neg hlt]
    · cases hv

theorem Live.solve {e : Env α} {d : Data α} {s : St α} {init : Bool} {q : RV × St α} {t k : Nat}
    (h : Live d.opts s t k) (hb : solveQP e d s init = .ok q) :
    Live d.opts q.2 t k ∧ (q.2.calls = s.calls ∨ q.2.calls = s.calls + 1) := by
  obtain ⟨_, _, _, it, ex, st, _, _, hst, w, c, m, x, y, a, b, p, hm, _, _, _, hq⟩ := solveQP_inv hb
  have := subproblemIter_inv hst
  refine ⟨⟨?_, ?_, ?_, ?_, ?_, ?_, ?_, ?_⟩, ?_⟩ <;> rw [hq] <;>
    simp [Stats.updateExitFlag, this, h.total, h.iterTotal, h.outer, h.iterOuter, h.rho, h.algo,
      h.status, hm]
  exact h.rhoOpt

theorem Live.say {o : Options α} {s : St α} {t k : Nat} (h : Live o s t k) (v : Ev α) :
    Live o (s.say v) t k := h.congr rfl rfl rfl rfl rfl

theorem Live.lin {d : Data α} {s s' : St α} {t k : Nat} (h : Live d.opts s t k)
    (hb : updateLinearization d s = .ok s') : Live d.opts s' t k ∧ s'.calls = s.calls := by
  obtain ⟨gk, rfl⟩ := updateLinearization_inv hb
  exact ⟨h.congr rfl rfl rfl rfl rfl, rfl⟩

/-- a failed or successful step at the end of a pass -/
theorem Live.next {e : Env α} {d : Data α} {s : St α} {r : Step α} {t k : Nat}
    (h : Live d.opts s t k) (hb : nextStep e d s = .ok r) :
    (∃ s', r = .inl s' ∧ Live d.opts s' t k ∧ s'.calls ≤ s.calls + 1) ∨
    (∃ q, r = .inr q ∧ q.1 ≠ .successfulReturn ∧ Live d.opts q.2 t k ∧ q.2.calls ≤ s.calls + 1 ∧
      ∃ u v, solveQP e d u false = .ok (q.1, v) ∧ q.2 = v.say (.msg q.1)) := by
  obtain ⟨gk, q, hq, ⟨hne, rfl⟩ | ⟨_, x, m, lt, a, rfl⟩⟩ := nextStep_inv hb
  · right
    have hl : Live d.opts { s with gk := some gk } t k := h.congr rfl rfl rfl rfl rfl
    obtain ⟨h1, h2⟩ := hl.solve hq
    refine ⟨_, rfl, hne, h1.say _, ?_, _, q.2, hq, rfl⟩
    simp only [St.say]
    rcases h2 with h2 | h2 <;> rw [h2] <;> simp
  · left
    have hl : Live d.opts { s with gk := some gk } t k := h.congr rfl rfl rfl rfl rfl
    obtain ⟨h1, h2⟩ := hl.solve hq
    refine ⟨_, rfl, h1.congr rfl rfl rfl rfl rfl, ?_⟩
    simp only
    rcases h2 with h2 | h2 <;> rw [h2] <;> simp

/-- how a run can end after a successful initialisation; `t` iterations, `k` penalty updates, `c`
bounds the number of QP calls -/
inductive Ended (e : Env α) (d : Data α) (t k : Nat) : RV × St α → Prop
  | success (s : St α) (a : AlgStat) (ha : a ≠ .notSolved) (hs : s.algo = some a)
      (hst : s.stats.status = a)
      (hl : Live d.opts { s with algo := some .notSolved, stats := { s.stats with status := .notSolved } } t k)
      (hc : k = 0 ∨ (d.opts.maxRho <. penalty d.opts k) = false) : Ended e d t k (.successfulReturn, s)
  | iters (s : St α) (hl : Live d.opts s t k) (ht : d.opts.maxIter < t) :
      Ended e d t k (.maxIterationsReached, s)
  | rho (s : St α) (hl : Live d.opts s t k) (ht : (t : Int) ≤ d.opts.maxIter)
      (hr : (d.opts.maxRho <. penalty d.opts k) = true) : Ended e d t k (.maxPenaltyReached, s)
  | sub (rv : RV) (s : St α) (hl : Live d.opts s t k) (hne : rv ≠ .successfulReturn)
      (hr : ∃ u v init, solveQP e d u init = .ok (rv, v) ∧ s = v.say (.msg rv))
      (ht : t ≠ 0 → (t : Int) ≤ d.opts.maxIter ∧ (d.opts.maxRho <. penalty d.opts k) = false) :
      Ended e d t k (rv, s)

theorem Ended.counts {e : Env α} {d : Data α} {t k : Nat} {q : RV × St α} (h : Ended e d t k q) :
    q.2.total = some (t : Int) ∧ q.2.stats.iterTotal = t ∧ q.2.outer = some (k : Int) ∧
    q.2.stats.iterOuter = k ∧ q.2.rho = some (penalty d.opts k) ∧
    ((∀ j ≤ k, (penalty d.opts j <=. zero) = false) → q.2.stats.rhoOpt = penalty d.opts k) := by
  cases h with
  | success s a _ _ _ hl _ => exact ⟨hl.total, hl.iterTotal, hl.outer, hl.iterOuter, hl.rho, hl.rhoOpt⟩
  | iters s hl _ => exact ⟨hl.total, hl.iterTotal, hl.outer, hl.iterOuter, hl.rho, hl.rhoOpt⟩
  | rho s hl _ _ => exact ⟨hl.total, hl.iterTotal, hl.outer, hl.iterOuter, hl.rho, hl.rhoOpt⟩
  | sub rv s hl _ _ _ => exact ⟨hl.total, hl.iterTotal, hl.outer, hl.iterOuter, hl.rho, hl.rhoOpt⟩

theorem getPhi_congr {d : Data α} {s s' : St α} (h : s'.xk = s.xk) : getPhi d s' = getPhi d s := by
  simp only [getPhi, h]

theorem complementarityCheck_congr {d : Data α} {s s' : St α} (h : s'.xk = s.xk) :
    complementarityCheck d s' = complementarityCheck d s := by
  simp only [complementarityCheck, getPhi_congr h]

/-- if the dynamic rule fires, the point is not complementary -/
theorem leyffer_fires {d : Data α} {s : St α} {r : Bool × St α}
    (h : leyfferCheckPositive d s = .ok r) (hr : r.1 = true) :
    complementarityCheck d s = .ok false := by
  unfold leyfferCheckPositive at h
  split at h
  · injection h with h
    rw [← h] at hr; simp at hr
  · simp only [bind_eq_ok] at h
    obtain ⟨cur, _, h⟩ := h
    split at h
    · injection h with h
      rw [← h] at hr; simp at hr
    · simp only [bind_eq_ok] at h
      obtain ⟨ok, hok, h⟩ := h
      split at h
      · injection h with h
        rw [← h] at hr; simp at hr
      · rename_i hb
        rw [hok]
        simpa using hb

theorem bump_xk {d : Data α} {s s' : St α} (h : bump d s = .ok s') : s'.xk = s.xk := by
  obtain ⟨_, _, _, _, _, _, _, _, rfl⟩ := bump_inv h
  rfl

/-- success in a pass excludes an update by the dynamic rule in the same pass -/
theorem no_update_before_success {d : Data α} {s1 s2 s3 : St α}
    (h2 : dynamicPenalty d s1 = .ok s2) (h3 : updateLinearization d s2 = .ok s3)
    (hc : complementarityCheck d s3 = .ok true) :
    ∃ hh gk, s3 = { s1 with hist := hh, gk := some gk } := by
  obtain ⟨r, hh, hr, hr2, ⟨hb, h'⟩ | ⟨hb, h'⟩⟩ := dynamicPenalty_inv h2
  · obtain ⟨gk, rfl⟩ := updateLinearization_inv h3
    subst h'
    rw [hr2]
    exact ⟨hh, gk, rfl⟩
  · exfalso
    have h1 := leyffer_fires hr hb
    obtain ⟨gk, rfl⟩ := updateLinearization_inv h3
    have hx : ({ s2 with gk := some gk } : St α).xk = s1.xk := by
      show s2.xk = s1.xk
      rw [bump_xk h', hr2]
    rw [complementarityCheck_congr hx, h1] at hc
    cases hc

/-- one pass -/
theorem Live.pass {e : Env α} {d : Data α} {s : St α} {r : Step α} {t k : Nat}
    (h : Live d.opts s t k) (hk : (t = 0 ∧ k = 0) ∨ (d.opts.maxRho <. penalty d.opts k) = false)
    (hb : pass e d s = .ok r) :
    (∃ s' k', r = .inl s' ∧ Live d.opts s' (t + 1) k' ∧ k ≤ k' ∧ k' ≤ k + 2 ∧
      s'.calls ≤ s.calls + 1 ∧ ((t + 1 : Nat) : Int) ≤ d.opts.maxIter ∧
      (d.opts.maxRho <. penalty d.opts k') = false) ∨
    (∃ q k', r = .inr q ∧ Ended e d (t + 1) k' q ∧ k ≤ k' ∧ k' ≤ k + 2 ∧
      (q.2.calls = s.calls ∨ (q.2.calls ≤ s.calls + 1 ∧ ((t + 1 : Nat) : Int) ≤ d.opts.maxIter))) := by
  obtain ⟨s1, s2, s3, h1, h2, h3, ⟨hst, hco, q, hq, rfl⟩ | ⟨s4, t', rho, h4, ht', hrho, hlim⟩⟩ :=
    pass_inv hb
  · right
    obtain ⟨l1, c1⟩ := h.advance h1
    obtain ⟨hh, gk, rfl⟩ := no_update_before_success h2 h3 hco
    obtain ⟨y, a, ha, hq1, hq2⟩ := accept_inv hq
    refine ⟨q, k, rfl, ?_, le_refl _, by omega, Or.inl ?_⟩
    · have : q = (.successfulReturn, q.2) := by rw [← hq1]
      rw [this]
      refine .success _ a ha (by rw [hq2]) (by rw [hq2]) ?_ ?_
      · rw [hq2]
        refine ⟨l1.total, l1.iterTotal, l1.outer, l1.iterOuter, l1.rho, l1.rhoOpt, rfl, rfl⟩
      · rcases hk with hk | hk
        · exact Or.inl hk.2
        · exact Or.inr hk
    · rw [hq2]; exact c1
  · obtain ⟨l1, c1⟩ := h.advance h1
    obtain ⟨l2, c2⟩ := l1.dynamic h2
    have key : ∃ k', Live d.opts s4 (t + 1) k' ∧ k ≤ k' ∧ k' ≤ k + 2 ∧ s4.calls = s.calls := by
      have l3 : ∃ k', Live d.opts s3 (t + 1) k' ∧ k ≤ k' ∧ k' ≤ k + 1 ∧ s3.calls = s.calls := by
        rcases l2 with l2 | l2
        · obtain ⟨l3, c3⟩ := l2.lin h3
          exact ⟨k, l3, le_refl _, by omega, by omega⟩
        · obtain ⟨l3, c3⟩ := l2.lin h3
          exact ⟨k + 1, l3, by omega, by omega, by omega⟩
      obtain ⟨k', l3, b1, b2, c3⟩ := l3
      rcases h4 with ⟨_, rfl⟩ | ⟨_, _, h4⟩
      · exact ⟨k', l3, b1, by omega, c3⟩
      · obtain ⟨l4, c4⟩ := l3.bump h4
        exact ⟨k' + 1, l4, by omega, by omega, by omega⟩
    obtain ⟨k', l4, b1, b2, c4⟩ := key
    have et : t' = ((t + 1 : Nat) : Int) := by
      have := l4.total.symm.trans ht'; injection this with this; exact this.symm
    have er : rho = penalty d.opts k' := by
      have := l4.rho.symm.trans hrho; injection this with this; exact this.symm
    subst et er
    rcases hlim with ⟨hgt, rfl⟩ | ⟨hle, hgt, rfl⟩ | ⟨hle, hgt, hn⟩
    · right
      exact ⟨_, k', rfl, .iters _ l4 hgt, b1, b2, Or.inl c4⟩
    · right
      exact ⟨_, k', rfl, .rho _ l4 hle hgt, b1, b2, Or.inl c4⟩
    · rcases l4.next hn with ⟨s', rfl, l5, c5⟩ | ⟨q, rfl, hne, l5, c5, u, v, hv, hqv⟩
      · left
        exact ⟨s', k', rfl, l5, b1, b2, by omega, hle, hgt⟩
      · right
        refine ⟨q, k', rfl, ?_, b1, b2, Or.inr ⟨by omega, hle⟩⟩
        have : q = (q.1, q.2) := rfl
        rw [this]
        exact .sub _ _ l5 hne ⟨u, v, false, hv, hqv⟩ (fun _ => ⟨hle, hgt⟩)

/-- state at the entry of the main loop -/
theorem Live.start {e : Env α} {o : Obj α} {i : RV × Obj α} (hi : initializeSolver e o = .ok i)
    (hr : i.1 = .successfulReturn) :
    i.2.d.opts = o.d.opts ∧ i.2.s.calls = o.s.calls ∧
    i.2.s.total = some 0 ∧ i.2.s.outer = some 0 ∧ i.2.s.rho = some o.d.opts.rho0 ∧
    i.2.s.algo = some .notSolved ∧ i.2.s.stats = o.s.stats.reset := by
  obtain ⟨nd, bo, l, u, sub, y, w, gt, pc, gp, h⟩ := initializeSolver_ok hi hr
  rw [h]
  exact ⟨rfl, rfl, rfl, rfl, rfl, rfl, rfl⟩

/-- the first QP -/
theorem Live.first {e : Env α} {o : Obj α} {i : RV × Obj α} {r : Step α}
    (hi : initializeSolver e o = .ok i) (hr : i.1 = .successfulReturn)
    (hf : firstStep e i.2.d i.2.s = .ok r) :
    (∃ s, r = .inl s ∧ Live o.d.opts s 0 0 ∧ s.calls ≤ o.s.calls + 1) ∨
    (∃ q, r = .inr q ∧ q.1 ≠ .successfulReturn ∧ q.2.total = some 0 ∧ q.2.outer = some 0 ∧
      q.2.rho = some o.d.opts.rho0 ∧ q.2.algo = some .notSolved ∧
      q.2.stats.status = .notSolved ∧ q.2.stats.iterTotal = 0 ∧ q.2.stats.iterOuter = 0 ∧
      q.2.calls ≤ o.s.calls + 1 ∧
      ∃ u v, solveQP e i.2.d u true = .ok (q.1, v) ∧ q.2 = v.say (.msg q.1)) := by
  obtain ⟨h0, h1, h2, h3, h4, h5, h6⟩ := Live.start hi hr
  obtain ⟨gk, q, hq, hcase⟩ := firstStep_inv hf
  obtain ⟨_, _, _, it, ex, st, _, _, hst, w, c, m, x, y, a, b, p, hm, _, _, _, hq2⟩ := solveQP_inv hq
  have hs := subproblemIter_inv hst
  have hcalls : q.2.calls ≤ o.s.calls + 1 := by
    rw [hq2]
    rcases hm with hm | hm <;> rw [hm] <;> simp [h1]
  have hstats : q.2.stats.status = .notSolved ∧ q.2.stats.iterTotal = 0 ∧ q.2.stats.iterOuter = 0 := by
    rw [hq2]
    simp [Stats.updateExitFlag, hs, h6, Stats.reset]
  rcases hcase with ⟨hne, rfl⟩ | ⟨hok, a', b', c', rho, hrho, rfl⟩
  · right
    refine ⟨_, rfl, hne, ?_, ?_, ?_, ?_, hstats.1, hstats.2.1, hstats.2.2, hcalls, _, q.2, hq, rfl⟩ <;>
      simp [St.say, hq2, h2, h3, h4, h5]
  · left
    refine ⟨_, rfl, ?_, hcalls⟩
    have hrho' : rho = o.d.opts.rho0 := by
      rw [hq2] at hrho
      have := h4.symm.trans hrho
      injection this with this; exact this.symm
    subst hrho'
    have hu : ∀ st : Stats α, (st.updateRhoOpt o.d.opts.rho0).2.iterTotal = st.iterTotal ∧
        (st.updateRhoOpt o.d.opts.rho0).2.iterOuter = st.iterOuter ∧
        (st.updateRhoOpt o.d.opts.rho0).2.status = st.status := by
      intro st
      unfold Stats.updateRhoOpt
      split <;> exact ⟨rfl, rfl, rfl⟩
    refine ⟨?_, ?_, ?_, ?_, ?_, ?_, ?_, ?_⟩
    · simp [hq2, h2]
    · simp only [(hu _).1, hstats.2.1]; rfl
    · simp [hq2, h3]
    · simp only [(hu _).2.1, hstats.2.2]; rfl
    · simp [hq2, h4, penalty]
    · intro hh
      have := hh 0 (le_refl _)
      simp only [penalty] at this
      simp [Stats.updateRhoOpt, this, penalty]
    · simp [hq2, h5]
    · simp only [(hu _).2.2, hstats.1]

/-- how an initialised run ends -/
theorem run_ended {e : Env α} {fuel : Nat} {o : Obj α} {r : RV × Obj α} {i : RV × Obj α}
    (hrun : runSolver e fuel o = .ok (some r)) (hi : initializeSolver e o = .ok i)
    (hok : i.1 = .successfulReturn) :
    r.2.d = i.2.d ∧ r.2.d.opts = o.d.opts ∧ r.2.s.calls ≤ o.s.calls + 1 + o.d.opts.maxIter.toNat ∧
    ((r.1 ≠ .successfulReturn ∧ r.2.s.total = some 0 ∧ r.2.s.outer = some 0 ∧
      r.2.s.rho = some o.d.opts.rho0 ∧ r.2.s.algo = some .notSolved ∧
      r.2.s.stats.status = .notSolved ∧ r.2.s.stats.iterTotal = 0 ∧ r.2.s.stats.iterOuter = 0 ∧
      ∃ u v, solveQP e r.2.d u true = .ok (r.1, v) ∧ r.2.s = v.say (.msg r.1)) ∨
     ∃ t k, 0 < t ∧ t ≤ o.d.opts.maxIter.toNat + 1 ∧ Ended e r.2.d t k (r.1, r.2.s)) := by
  obtain ⟨i', hi', hc⟩ := runSolver_inv hrun
  have : i' = i := by rw [hi] at hi'; injection hi' with hi'; exact hi'.symm
  subst this
  rcases hc with ⟨hne, _⟩ | ⟨_, hd, hc⟩
  · exact absurd hok hne
  · obtain ⟨hopts, _⟩ := Live.start hi hok
    refine ⟨hd, by rw [hd, hopts], ?_⟩
    rcases hc with hf | ⟨s, hf, hm⟩
    · rcases Live.first hi hok hf with ⟨s, h, _⟩ | ⟨q, hq, hne, a1, a2, a3, a4, a5, a6, a7, a8, u, v, hv⟩
      · cases h
      · injection hq with hq
        subst hq
        simp only at *
        exact ⟨by omega, Or.inl ⟨hne, a1, a2, a3, a4, a5, a6, a7, u, v, by rw [hd]; exact hv.1, hv.2⟩⟩
    · rcases Live.first hi hok hf with ⟨s', h, hl, hcalls⟩ | ⟨q, hq, _⟩
      · injection h with h
        subst h
        rw [← hopts] at hl
        have := mainLoop_rule (e := e) (d := i'.2.d)
          (fun s => ∃ t k, Live i'.2.d.opts s t k ∧
            ((t = 0 ∧ k = 0) ∨ (i'.2.d.opts.maxRho <. penalty i'.2.d.opts k) = false) ∧
            (t = 0 ∨ (t : Int) ≤ i'.2.d.opts.maxIter) ∧ s.calls ≤ o.s.calls + 1 + t)
          (fun q => ∃ t k, 0 < t ∧ t ≤ i'.2.d.opts.maxIter.toNat + 1 ∧ Ended e i'.2.d t k q ∧
            q.2.calls ≤ o.s.calls + 1 + i'.2.d.opts.maxIter.toNat)
          (by
            rintro s r ⟨t, k, hl, hk, ht, hc⟩ hp
            rcases hl.pass hk hp with ⟨s', k', rfl, l', _, _, c', m', r'⟩ | ⟨q, k', rfl, he, _, _, c'⟩
            · refine ⟨?_, by intro q h; cases h⟩
              intro s'' h
              injection h with h
              subst h
              exact ⟨t + 1, k', l', Or.inr r', Or.inr m', by omega⟩
            · refine ⟨by intro q h; (cases h), ?_⟩
              intro q' h
              injection h with h
              subst h
              refine ⟨t + 1, k', by omega, by omega, he, ?_⟩
              rcases c' with c' | c' <;> omega)
          fuel s (r.1, r.2.s) ⟨0, 0, hl, Or.inl ⟨rfl, rfl⟩, Or.inl rfl, by omega⟩ hm
        obtain ⟨t, k, h1, h2, h3, h4⟩ := this
        rw [hopts] at h2 h4
        exact ⟨h4, Or.inr ⟨t, k, h1, h2, by rw [hd]; exact h3⟩⟩
      · cases hq

end LCQ
