import Verif.Lemmas.Live
import Verif.Props.Stats
import Verif.Props.Examples

/-!
# Iteration tracking (C30)
-/

set_option linter.unusedSectionVars false

namespace LCQ
open Scalar

variable {α : Type} [Scalar α]

/-- all tracked series have `m` entries (spec level) -/
structure Stats.Len (s : Stats α) (m : Nat) : Prop where
  x : s.xSteps.length = m
  inner : s.innerIters.length = m
  sub : s.subIters.length = m
  accu : s.accuIters.length = m
  len : s.stepLength.length = m
  size : s.stepSize.length = m
  stat : s.statVals.length = m
  obj : s.objVals.length = m
  phi : s.phiVals.length = m
  merit : s.meritVals.length = m

/-- prefix sums (spec level) -/
def prefixSums (l : List Int) : List Int := (List.range l.length).map fun j => (l.take (j + 1)).sum

theorem prefixSums_concat (l : List Int) (a : Int) :
    prefixSums (l ++ [a]) = prefixSums l ++ [(l ++ [a]).sum] := by
  unfold prefixSums
  rw [List.length_append, List.length_singleton, List.range_succ, List.map_append]
  congr 1
  · apply List.map_congr_left
    intro j hj
    rw [List.mem_range] at hj
    rw [List.take_append_of_le_length (by omega)]
  · simp

theorem prefixSums_last (l : List Int) : (prefixSums l).getLast? = if l = [] then none else some l.sum := by
  rcases List.eq_nil_or_concat l with rfl | ⟨l', a, rfl⟩
  · simp [prefixSums]
  · rw [List.concat_eq_append, prefixSums_concat]
    simp

/-- tracking invariant after `t` iterations -/
structure TInv (d : Data α) (s : St α) (t : Nat) : Prop where
  len : s.stats.Len (if d.opts.storeSteps then t else 0)
  wide : ∀ n, d.dims = some n → ∀ x ∈ s.stats.xSteps, x.length = n.nV
  accu : s.stats.accuIters = prefixSums s.stats.subIters

theorem TInv.congr {d : Data α} {s s' : St α} {t : Nat} (h : TInv d s t) {a b c f : _} {st : AlgStat}
    (hs : s'.stats = { s.stats with
      iterOuter := a
      rhoOpt := b
      subproblemIter := c
      exitFlag := f
      status := st }) : TInv d s' t := by
  refine ⟨?_, ?_, ?_⟩
  · rw [hs]
    exact ⟨h.len.x, h.len.inner, h.len.sub, h.len.accu, h.len.len, h.len.size, h.len.stat, h.len.obj,
      h.len.phi, h.len.merit⟩
  · rw [hs]; exact h.wide
  · rw [hs]; exact h.accu

theorem updateRhoOpt_stats (s : Stats α) (r : α) : ∃ b, (s.updateRhoOpt r).2 = { s with rhoOpt := b } := by
  unfold Stats.updateRhoOpt
  split
  · exact ⟨s.rhoOpt, rfl⟩
  · exact ⟨r, rfl⟩

/-- statistics and QP iteration number after a penalty update -/
theorem bump_stats {d : Data α} {s s' : St α} (h : bump d s = .ok s') :
    s'.qpIter = s.qpIter ∧ s'.xk = s.xk ∧
    ∃ a b, s'.stats = { s.stats with iterOuter := a, rhoOpt := b } := by
  obtain ⟨r, a, b, c, o, _, _, _, rfl⟩ := bump_inv h
  obtain ⟨b, hb⟩ := updateRhoOpt_stats s.stats (r *. d.opts.factor)
  refine ⟨rfl, rfl, s.stats.iterOuter + 1, b, ?_⟩
  simp only
  rw [hb]

theorem dynamic_stats {d : Data α} {s s' : St α} (h : dynamicPenalty d s = .ok s') :
    s'.qpIter = s.qpIter ∧ s'.xk = s.xk ∧
    ∃ a b, s'.stats = { s.stats with iterOuter := a, rhoOpt := b } := by
  obtain ⟨r, hh, _, hr, ⟨_, h'⟩ | ⟨_, h'⟩⟩ := dynamicPenalty_inv h
  · subst h'
    rw [hr]
    exact ⟨rfl, rfl, _, _, rfl⟩
  · have := bump_stats h'
    rw [hr] at this
    exact this

theorem solve_stats {e : Env α} {d : Data α} {s : St α} {init : Bool} {q : RV × St α}
    (h : solveQP e d s init = .ok q) :
    ∃ it ex, q.2.qpIter = some it ∧ q.2.stats = { s.stats with
      subproblemIter := if it < 0 then s.stats.subproblemIter else s.stats.subproblemIter + it
      exitFlag := ex } := by
  obtain ⟨_, _, _, it, ex, st, _, _, hst, w, c, m, x, y, a, b, p, hm, _, _, _, hq⟩ := solveQP_inv h
  refine ⟨it, ex, by rw [hq], ?_⟩
  rw [hq]
  simp only [Stats.updateExitFlag]
  rw [subproblemIter_inv hst]

/-- the first part of a pass: a row is appended if steps are stored -/
theorem advance_stats {d : Data α} {s s' : St α} (h : advance d s = .ok s') :
    s'.qpIter = s.qpIter ∧ s'.stats.subproblemIter = s.stats.subproblemIter ∧
    ((d.opts.storeSteps = false ∧ s'.stats = { s.stats with iterTotal := s.stats.iterTotal + 1 }) ∨
     (d.opts.storeSteps = true ∧ ∃ (n : Dims) (x : List α) (row : Stats.Row α) (acc : Int), d.dims = some n ∧ s'.xk = some x ∧ n.nV ≤ x.length ∧
        s.qpIter = some row.sub ∧
        s.inner = some row.inner ∧ s.alpha = some row.len ∧
        (∃ p, s.pk = some p ∧ maxAbs p n.nV = .ok row.size) ∧
        (∃ st, s'.statk = some st ∧ maxAbs st n.nV = .ok row.stat) ∧
        getObj d s' = .ok row.obj ∧ getPhi d s' = .ok row.phi ∧ getMerit d s' = .ok row.merit ∧
        Stats.accuNext s.stats.accuIters row.sub = .ok acc ∧
        s'.stats = { s.stats with
          iterTotal := s.stats.iterTotal + 1
          xSteps := s.stats.xSteps ++ [x.take n.nV]
          innerIters := s.stats.innerIters ++ [row.inner]
          subIters := s.stats.subIters ++ [row.sub]
          accuIters := s.stats.accuIters ++ [acc]
          stepLength := s.stats.stepLength ++ [row.len]
          stepSize := s.stats.stepSize ++ [row.size]
          statVals := s.stats.statVals ++ [row.stat]
          objVals := s.stats.objVals ++ [row.obj]
          phiVals := s.stats.phiVals ++ [row.phi]
          meritVals := s.stats.meritVals ++ [row.merit] })) := by
  obtain ⟨x, a, b, c, p, l, st, t', i, ht, hi, _, _, hp, _, hst, rfl⟩ := advance_inv h
  subst hp
  rcases hst with ⟨hb, rfl⟩ | ⟨hb, hst⟩
  · exact ⟨rfl, rfl, Or.inl ⟨hb, rfl⟩⟩
  · obtain ⟨n, x', row, q, hn, hx, hin, hsub, hal, hpk, hsk, ho, hph, hm, hq, hst⟩ := storeSteps_inv hst
    simp only at hx hin hsub hal hpk hsk
    injection hx with hx
    subst hx
    have hx' := hq
    obtain ⟨xs, acc, hacc, hlen, hq2⟩ := track_inv hq
    have hstq : st = q.2 := congrArg St.stats hst
    have hxs : xs = x.take n.nV ∧ n.nV ≤ x.length := by
      simp only [Stats.track, bind_eq_ok] at hx'
      obtain ⟨xs', hxs', acc', _, hx'⟩ := hx'
      injection hx' with hx'
      have e1 : q.2.xSteps = s.stats.xSteps ++ [xs'] := by rw [← hx']
      rw [hq2] at e1
      simp only [List.append_cancel_left_eq, List.cons.injEq, and_true] at e1
      subst e1
      exact Stats.take_ok x n.nV xs hxs'
    refine ⟨rfl, by simp [hstq, hq2], Or.inr ⟨hb, n, x, row, acc, hn, rfl, hxs.2, hsub, hin, hal, hpk, hsk, ho, hph,
      hm, hacc, ?_⟩⟩
    simp only
    rw [hstq, hq2, hxs.1]

theorem TInv.advance {d : Data α} {s s' : St α} {t : Nat} (h : TInv d s t) (ha : advance d s = .ok s') :
    TInv d s' (t + 1) ∧
    (d.opts.storeSteps = true → s'.stats.subIters.sum = s.stats.subIters.sum + s.qpIter.getD 0 ∧
      s'.stats.subIters ≠ [] ∧
      ∃ n x, d.dims = some n ∧ s'.xk = some x ∧ s'.stats.xSteps.getLast? = some (x.take n.nV)) := by
  obtain ⟨_, _, ⟨hb, hs⟩ | ⟨hb, n, x, row, acc, hn, hx, hxn, hq, _, _, _, _, _, _, _, hacc, hs⟩⟩ := advance_stats ha
  · refine ⟨⟨?_, ?_, ?_⟩, by simp [hb]⟩
    · have := h.len
      rw [hb] at this ⊢
      rw [hs]
      exact ⟨this.x, this.inner, this.sub, this.accu, this.len, this.size, this.stat, this.obj,
        this.phi, this.merit⟩
    · rw [hs]; exact h.wide
    · rw [hs]; exact h.accu
  · refine ⟨⟨?_, ?_, ?_⟩, ?_⟩
    · have := h.len
      rw [hb] at this ⊢
      simp only [if_true] at this ⊢
      rw [hs]
      constructor <;> simp [this.x, this.inner, this.sub, this.accu, this.len, this.size, this.stat,
        this.obj, this.phi, this.merit]
    · intro n' hn' z hz
      rw [hs] at hz
      have en : n' = n := by rw [hn] at hn'; injection hn' with hn'; exact hn'.symm
      subst en
      simp only [List.mem_append, List.mem_singleton] at hz
      rcases hz with hz | rfl
      · exact h.wide n' hn z hz
      · simp [hxn]
    · rw [hs]
      simp only
      rw [prefixSums_concat, ← h.accu]
      congr 2
      unfold Stats.accuNext at hacc
      rw [h.accu, prefixSums_last] at hacc
      split at hacc
      · rename_i he
        split at he
        · rename_i he'
          injection hacc with hacc
          simp [he', hacc]
        · cases he
      · rename_i v he
        split at he
        · cases he
        · injection he with he
          rw [Stats.addInt_ok hacc, ← he]
          simp
    · intro _
      rw [hs]
      refine ⟨by simp [hq], by simp, n, x, hn, hx, by simp⟩

/-- how an initialised run ends, as far as tracking is concerned; `u` is the number of iterations of
a last, failed QP call -/
def Tracked (d : Data α) (q : RV × St α) : Prop :=
  ∃ t : Nat, q.2.stats.iterTotal = t ∧ TInv d q.2 t ∧
    (d.opts.storeSteps = true →
      (q.1 = .successfulReturn ∨ q.1 = .maxIterationsReached ∨ q.1 = .maxPenaltyReached) →
      q.2.stats.subproblemIter = q.2.stats.subIters.sum ∧ 0 < t ∧
      ∃ n x, d.dims = some n ∧ q.2.xk = some x ∧ q.2.stats.xSteps.getLast? = some (x.take n.nV))

theorem track_pass {e : Env α} {d : Data α} (hpos : ∀ k r, 0 ≤ (e.qp k r).iter) {s : St α} {r : Step α}
    {t k : Nat} (hl : Live d.opts s t k)
    (hk : (t = 0 ∧ k = 0) ∨ (d.opts.maxRho <. penalty d.opts k) = false) (h : TInv d s t)
    (hq : ∃ it, s.qpIter = some it ∧ (d.opts.storeSteps = true →
      s.stats.subproblemIter = s.stats.subIters.sum + it))
    (hp : pass e d s = .ok r) :
    (∀ s', r = .inl s' → TInv d s' (t + 1) ∧ ∃ it, s'.qpIter = some it ∧ (d.opts.storeSteps = true →
      s'.stats.subproblemIter = s'.stats.subIters.sum + it)) ∧
    (∀ q, r = .inr q → Tracked d q) := by
  obtain ⟨it, hit, hsum⟩ := hq
  have hpass := hl.pass hk hp
  obtain ⟨s1, s2, s3, h1, h2, h3, hcase⟩ := pass_inv hp
  obtain ⟨t1, f1⟩ := h.advance h1
  obtain ⟨q1, p1, _⟩ := advance_stats h1
  obtain ⟨q2, x2, a, b, p2⟩ := dynamic_stats h2
  have t2 : TInv d s2 (t + 1) := t1.congr (a := a) (b := b) (c := s1.stats.subproblemIter)
    (f := s1.stats.exitFlag) (st := s1.stats.status) (by rw [p2])
  obtain ⟨gk, rfl⟩ := updateLinearization_inv h3
  have t3 : TInv d { s2 with gk := some gk } (t + 1) := t2.congr (s := s2) (a := s2.stats.iterOuter) (b := s2.stats.rhoOpt)
    (c := s2.stats.subproblemIter) (f := s2.stats.exitFlag) (st := s2.stats.status) rfl
  -- facts after the row has been stored
  have base : d.opts.storeSteps = true → s2.stats.subproblemIter = s2.stats.subIters.sum ∧
      ∃ n x, d.dims = some n ∧ s2.xk = some x ∧ s2.stats.xSteps.getLast? = some (x.take n.nV) := by
    intro hb
    obtain ⟨e1, e2, n, x, e3, e4, e5⟩ := f1 hb
    rw [p2]
    refine ⟨?_, n, x, e3, by rw [x2]; exact e4, e5⟩
    simp only
    rw [p1, hsum hb, e1, hit]
    rfl
  have itot : s2.stats.iterTotal = ((t + 1 : Nat) : Int) := by
    rw [p2]
    exact (hl.advance h1).1.iterTotal
  rcases hcase with ⟨_, _, q, hq, rfl⟩ | ⟨s4, t', rho, h4, _, _, hlim⟩
  · refine ⟨(by intro s' h; cases h), ?_⟩
    intro q' h
    injection h with h
    subst h
    obtain ⟨y, a', _, _, hq2⟩ := accept_inv hq
    refine ⟨t + 1, by rw [hq2]; exact itot, ?_, ?_⟩
    · refine t3.congr (a := s2.stats.iterOuter) (b := s2.stats.rhoOpt) (c := s2.stats.subproblemIter)
        (f := s2.stats.exitFlag) (st := a') ?_
      rw [hq2]
    · intro hb _
      rw [hq2]
      obtain ⟨b1, b2⟩ := base hb
      exact ⟨b1, by omega, b2⟩
  · have t4 : TInv d s4 (t + 1) ∧ s4.stats.subproblemIter = s2.stats.subproblemIter ∧
        s4.stats.subIters = s2.stats.subIters ∧ s4.stats.iterTotal = s2.stats.iterTotal ∧
        s4.xk = s2.xk ∧ s4.stats.xSteps = s2.stats.xSteps := by
      rcases h4 with ⟨_, rfl⟩ | ⟨_, _, h4⟩
      · exact ⟨t3, rfl, rfl, rfl, rfl, rfl⟩
      · obtain ⟨_, x4, a', b', p4⟩ := bump_stats h4
        refine ⟨t3.congr (a := a') (b := b') (c := s2.stats.subproblemIter)
          (f := s2.stats.exitFlag) (st := s2.stats.status) (by rw [p4]), ?_, ?_, ?_, x4, ?_⟩ <;> rw [p4]
    obtain ⟨t4, e1, e2, e3, e4, e5⟩ := t4
    have fin : ∀ rv : RV, Tracked d (rv, s4) := by
      intro rv
      refine ⟨t + 1, by rw [e3]; exact itot, t4, ?_⟩
      intro hb _
      simp only
      rw [e1, e2, e4, e5]
      obtain ⟨b1, b2⟩ := base hb
      exact ⟨b1, by omega, b2⟩
    rcases hlim with ⟨_, rfl⟩ | ⟨_, _, rfl⟩ | ⟨_, _, hn⟩
    · exact ⟨(by intro s' h; cases h), by intro q h; injection h with h; subst h; exact fin _⟩
    · exact ⟨(by intro s' h; cases h), by intro q h; injection h with h; subst h; exact fin _⟩
    · obtain ⟨gk', q, hq, hcase⟩ := nextStep_inv hn
      obtain ⟨it', ex, hit', hstats⟩ := solve_stats hq
      have t5 : TInv d q.2 (t + 1) := t4.congr (a := s4.stats.iterOuter) (b := s4.stats.rhoOpt)
        (c := _) (f := ex) (st := s4.stats.status) hstats
      have itpos : q.1 = .successfulReturn → 0 ≤ it' := by
        intro hok
        obtain ⟨q', hq', hr', it2, _, _, hit2, _, _, w, c, m, x, y, a1, b1, p1, _, _, _, _, hq2⟩ := solveQP_inv hq
        have : it' = it2 := by rw [hq2] at hit'; injection hit' with hit'; exact hit'.symm
        subst this
        obtain ⟨sub, _, ⟨hx, _⟩ | ⟨req, ans, hans, _, _, hx | hx | hx | ⟨_, w', hx⟩⟩⟩ := subSolve_ret hq'
        · rw [← hr', hok] at hx; cases hx
        · rw [← hr', hok] at hx; cases hx.1
        · rw [← hr', hok] at hx; cases hx.1
        · rw [← hr', hok] at hx; cases hx.1
        · rw [hx] at hit2
          injection hit2 with hit2
          rw [← hit2, hans]
          exact hpos _ _
      rcases hcase with ⟨hne, rfl⟩ | ⟨hok, x, m, lt, al, rfl⟩
      · refine ⟨(by intro s' h; cases h), ?_⟩
        intro q' h
        injection h with h
        subst h
        refine ⟨t + 1, ?_, ⟨t5.len, t5.wide, t5.accu⟩, ?_⟩
        · show q.2.stats.iterTotal = _
          rw [hstats]
          simp only
          rw [e3]; exact itot
        · intro hb hc
          exfalso
          have hq' := hq
          obtain ⟨q', hq', hr', _⟩ := solveQP_inv hq
          simp only at hc
          rw [hr'] at hc hne
          obtain ⟨sub, _, ⟨hx, _⟩ | ⟨req, ans, hans, _, _, hx | hx | hx | ⟨hx | hx, w', _⟩⟩⟩ := subSolve_ret hq'
          · rw [hx] at hc; simp at hc
          · rw [hx.1] at hc; simp at hc
          · rw [hx.1] at hc; simp at hc
          · rw [hx.1] at hc; simp at hc
          · exact hne hx.1
          · rw [hx.1] at hc; simp at hc
      · refine ⟨?_, (by intro q h; cases h)⟩
        intro s' h
        injection h with h
        subst h
        refine ⟨⟨t5.len, t5.wide, t5.accu⟩, it', hit', ?_⟩
        intro hb
        have := itpos hok
        simp only
        rw [hstats]
        simp only
        rw [if_neg (by omega), e1, e2, (base hb).1]

/-- the run as a whole -/
theorem run_tracked {e : Env α} (hpos : ∀ k r, 0 ≤ (e.qp k r).iter) {o : Obj α} {fuel : Nat}
    {r : RV × Obj α} {i : RV × Obj α}
    (h : runSolver e fuel o = .ok (some r)) (hi : initializeSolver e o = .ok i)
    (hok : i.1 = .successfulReturn) : Tracked r.2.d (r.1, r.2.s) := by
  obtain ⟨i', hi', hc⟩ := runSolver_inv h
  rw [hi] at hi'
  injection hi' with hi'
  subst hi'
  rcases hc with ⟨hne, _⟩ | ⟨_, hd, hc⟩
  · exact absurd hok hne
  rw [hd]
  obtain ⟨hopts, h1, h2, h3, h4, h5, h6⟩ := Live.start hi hok
  -- statistics before the first QP
  have t0 : TInv i.2.d i.2.s 0 := by
    refine ⟨?_, ?_, ?_⟩
    · rw [h6]
      constructor <;> simp [Stats.reset]
    · rw [h6]; simp [Stats.reset]
    · rw [h6]; simp [Stats.reset, prefixSums]
  rcases hc with hf | ⟨s, hf, hm⟩
  · obtain ⟨gk, q, hq, hcase⟩ := firstStep_inv hf
    obtain ⟨it', ex, hit', hstats⟩ := solve_stats hq
    rcases hcase with ⟨hne, hr⟩ | ⟨_, _, _, _, _, _, hr⟩
    · injection hr with hr
      have e1 : r.1 = q.1 := congrArg Prod.fst hr
      have e2 : r.2.s = q.2.say (.msg q.1) := congrArg Prod.snd hr
      have t1 : TInv i.2.d q.2 0 := t0.congr (a := i.2.s.stats.iterOuter) (b := i.2.s.stats.rhoOpt)
        (c := _) (f := ex) (st := i.2.s.stats.status) hstats
      refine ⟨0, ?_, ?_, ?_⟩
      · simp only
        rw [e2]
        show q.2.stats.iterTotal = _
        rw [hstats, h6]
        rfl
      · simp only
        rw [e2]
        exact ⟨t1.len, t1.wide, t1.accu⟩
      · intro hb hc
        exfalso
        simp only at hc
        rw [e1] at hc
        obtain ⟨q', hq', hr', _⟩ := solveQP_inv hq
        rw [hr'] at hc hne
        obtain ⟨sub, _, ⟨hx, _⟩ | ⟨req, ans, hans, _, _, hx | hx | hx | ⟨hx | hx, w', _⟩⟩⟩ := subSolve_ret hq'
        · rw [hx] at hc; simp at hc
        · rw [hx.1] at hc; simp at hc
        · rw [hx.1] at hc; simp at hc
        · rw [hx.1] at hc; simp at hc
        · exact hne hx.1
        · rw [hx.1] at hc; simp at hc
    · cases hr
  · obtain ⟨gk, q, hq, hcase⟩ := firstStep_inv hf
    obtain ⟨it', ex, hit', hstats⟩ := solve_stats hq
    rcases hcase with ⟨hne, hr⟩ | ⟨hqok, a', b', c', rho, hrho, hr⟩
    · cases hr
    · injection hr with hr
      have t1 : TInv i.2.d q.2 0 := t0.congr (a := i.2.s.stats.iterOuter) (b := i.2.s.stats.rhoOpt)
        (c := _) (f := ex) (st := i.2.s.stats.status) hstats
      obtain ⟨b2, hb2⟩ := updateRhoOpt_stats q.2.stats rho
      have t2 : TInv i.2.d s 0 := t1.congr (a := q.2.stats.iterOuter) (b := b2)
        (c := q.2.stats.subproblemIter) (f := q.2.stats.exitFlag) (st := q.2.stats.status)
        (by rw [hr]; simp only; rw [hb2])
      have itpos : 0 ≤ it' := by
        obtain ⟨q', hq', hr', it2, _, _, hit2, _, _, w, c, m, x, y, a1, b1, p1, _, _, _, _, hq2⟩ := solveQP_inv hq
        have : it' = it2 := by rw [hq2] at hit'; injection hit' with hit'; exact hit'.symm
        subst this
        obtain ⟨sub, _, ⟨hx, _⟩ | ⟨req, ans, hans, _, _, hx | hx | hx | ⟨_, w', hx⟩⟩⟩ := subSolve_ret hq'
        · rw [← hr', hqok] at hx; cases hx
        · rw [← hr', hqok] at hx; cases hx.1
        · rw [← hr', hqok] at hx; cases hx.1
        · rw [← hr', hqok] at hx; cases hx.1
        · rw [hx] at hit2
          injection hit2 with hit2
          rw [← hit2, hans]
          exact hpos _ _
      have hs0 : ∃ it, s.qpIter = some it ∧ (i.2.d.opts.storeSteps = true →
          s.stats.subproblemIter = s.stats.subIters.sum + it) := by
        refine ⟨it', by rw [hr]; exact hit', ?_⟩
        intro _
        rw [hr]
        simp only
        rw [hb2, hstats, h6]
        simp only [Stats.reset, List.sum_nil]
        rw [if_neg (by omega)]
      have hlive : Live i.2.d.opts s 0 0 := by
        rcases Live.first hi hok hf with ⟨s', h, hl, _⟩ | ⟨q, hq, _⟩
        · injection h with h
          subst h
          rw [hopts]
          exact hl
        · cases hq
      exact mainLoop_rule (e := e) (d := i.2.d)
        (fun s => ∃ t k, Live i.2.d.opts s t k ∧
          ((t = 0 ∧ k = 0) ∨ (i.2.d.opts.maxRho <. penalty i.2.d.opts k) = false) ∧ TInv i.2.d s t ∧
          ∃ it, s.qpIter = some it ∧ (i.2.d.opts.storeSteps = true →
            s.stats.subproblemIter = s.stats.subIters.sum + it))
        (fun q => Tracked i.2.d q)
        (by
          rintro s r ⟨t, k, hl, hk, ht, hq⟩ hp
          obtain ⟨g1, g2⟩ := track_pass hpos hl hk ht hq hp
          refine ⟨?_, g2⟩
          intro s' hs'
          obtain ⟨g3, g4⟩ := g1 s' hs'
          rcases hl.pass hk hp with ⟨s'', k', hr', l', _, _, _, _, r'⟩ | ⟨q, _, hr', _⟩
          · rw [hr'] at hs'
            injection hs' with hs'
            subst hs'
            exact ⟨t + 1, k', l', Or.inr r', g3, g4⟩
          · rw [hr'] at hs'
            cases hs')
        fuel s (r.1, r.2.s) ⟨0, 0, hlive, Or.inl ⟨rfl, rfl⟩, t2, hs0⟩ hm

/-- C30.  After an initialised run all series have as many entries as there were iterations (none if
steps are not stored), the stored iterates have `nV` entries, the accumulated numbers are the prefix
sums of the numbers of QP iterations; after a run that was not aborted by the QP solver the last
stored iterate is the returned one and the accumulated number is the reported total. -/
theorem C30_tracking {e : Env α} (hpos : ∀ k r, 0 ≤ (e.qp k r).iter) {o : Obj α} {fuel : Nat}
    {r : RV × Obj α} {i : RV × Obj α}
    (h : runSolver e fuel o = .ok (some r)) (hi : initializeSolver e o = .ok i)
    (hok : i.1 = .successfulReturn) :
    (∃ t : Nat, r.2.s.stats.iterTotal = t ∧
      r.2.s.stats.Len (if o.d.opts.storeSteps then t else 0)) ∧
    (∀ n, r.2.d.dims = some n → ∀ x ∈ r.2.s.stats.xSteps, x.length = n.nV) ∧
    r.2.s.stats.accuIters = prefixSums r.2.s.stats.subIters ∧
    (o.d.opts.storeSteps = true →
      (r.1 = .successfulReturn ∨ r.1 = .maxIterationsReached ∨ r.1 = .maxPenaltyReached) →
      r.2.s.stats.accuIters.getLast? = some r.2.s.stats.subproblemIter ∧
      ∃ n x, r.2.d.dims = some n ∧ r.2.s.xk = some x ∧
        r.2.s.stats.xSteps.getLast? = some (x.take n.nV)) := by
  obtain ⟨t, h1, h2, h3⟩ := run_tracked hpos h hi hok
  have hopts : r.2.d.opts = o.d.opts := (run_ended h hi hok).2.1
  rw [← hopts]
  refine ⟨⟨t, h1, h2.len⟩, h2.wide, h2.accu, ?_⟩
  intro hb hc
  obtain ⟨g1, g2, g3⟩ := h3 hb hc
  refine ⟨?_, g3⟩
  simp only at h2 g1
  rw [h2.accu, prefixSums_last, g1]
  have : r.2.s.stats.subIters ≠ [] := by
    have := h2.len.sub
    rw [hb] at this
    simp only [if_true] at this
    intro he
    rw [he] at this
    simp at this
    omega
  simp [this]

/-- four iterations, three QP iterations each -/
example : (Ex.seen (Ex.run Ex.envBad (fun o => { o with maxIter := 3 }) 1001)).map
    (fun r => (r.2.2.2.subIters, r.2.2.2.accuIters, r.2.2.2.subproblemIter, r.2.2.2.xSteps.length)) =
    some ([3, 3, 3, 3], [3, 6, 9, 12], 12, 4) := by decide +kernel
/-- negative iteration numbers are accumulated but not counted in the total -/
example : (Ex.seen (Ex.run (Ex.envOf fun _ _ => { Ex.good [1, 0] [] with iter := -1 })
    (fun o => { o with maxIter := 1 }) 1001)).map
    (fun r => (r.2.2.2.accuIters, r.2.2.2.subproblemIter)) =
    some ([-1, -2], 0) := by decide +kernel
example : (Ex.seen (Ex.run Ex.envBad (fun o => { o with maxIter := 3, storeSteps := false }) 1001)).map
    (fun r => (r.2.2.2.iterTotal, r.2.2.2.accuIters)) = some (4, []) := by decide +kernel

end LCQ
