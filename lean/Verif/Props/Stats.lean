import Verif.Model.Stats
import Verif.Lemmas.Loop
import Mathlib.Data.Rat.Floor
import Mathlib.Algebra.BigOperators.Group.List.Basic

/-!
# C31: output statistics
-/

set_option linter.unusedSectionVars false

namespace LCQ
namespace Stats
open Scalar

variable {α : Type} [Scalar α]

/-- calls issued after the last `reset` -/
def since : List (Call α) → List (Call α) :=
  List.foldl (fun h c => match c with | .reset => [] | c => h ++ [c]) []

/-- accepted increments of the three counters -/
def totals (h : List (Call α)) : List Int :=
  h.filterMap fun | .total d => if 0 ≤ d then some d else none | _ => none
@[inherit_doc totals] def outers (h : List (Call α)) : List Int :=
  h.filterMap fun | .outer d => if 0 ≤ d then some d else none | _ => none
@[inherit_doc totals] def subs (h : List (Call α)) : List Int :=
  h.filterMap fun | .sub d => if 0 ≤ d then some d else none | _ => none
/-- accepted penalty values -/
def rhos (h : List (Call α)) : List α :=
  h.filterMap fun | .rho r => if (r <=. zero) = true then none else some r | _ => none
/-- recorded states -/
def stats (h : List (Call α)) : List AlgStat :=
  h.filterMap fun | .status t => some t | _ => none
/-- recorded exit flags -/
def flags (h : List (Call α)) : List Int :=
  h.filterMap fun | .flag f => some f | _ => none
/-- recorded rows -/
def rows (h : List (Call α)) : List (List α × Row α) :=
  h.filterMap fun | .track x r n => some (x.take n, r) | _ => none

/-- what the statistics must hold after the given accepted updates -/
structure ShowsL (s : Stats α) (T O S : List Int) (R : List α) (A : List AlgStat) (F : List Int)
    (W : List (List α × Row α)) : Prop where
  total : s.iterTotal = T.sum
  outer : s.iterOuter = O.sum
  sub : s.subproblemIter = S.sum
  rho : s.rhoOpt = R.getLastD zero
  status : s.status = A.getLastD .notSolved
  flag : s.exitFlag = F.getLastD 0
  x : s.xSteps = W.map (·.1)
  inner : s.innerIters = W.map (·.2.inner)
  subIters : s.subIters = W.map (·.2.sub)
  accu : s.accuIters.length = W.length ∧
    ∀ i < W.length, s.accuIters[i]? = some ((W.take (i + 1)).map (·.2.sub)).sum
  len : s.stepLength = W.map (·.2.len)
  size : s.stepSize = W.map (·.2.size)
  stat : s.statVals = W.map (·.2.stat)
  obj : s.objVals = W.map (·.2.obj)
  phi : s.phiVals = W.map (·.2.phi)
  merit : s.meritVals = W.map (·.2.merit)

/-- what the statistics must hold after the calls `h` since the last reset -/
def Shows (s : Stats α) (h : List (Call α)) : Prop :=
  s.ShowsL (totals h) (outers h) (subs h) (rhos h) (stats h) (flags h) (rows h)

theorem fresh_shows : (fresh : Stats α).Shows [] := by
  unfold Shows
  constructor <;> simp [fresh, totals, outers, subs, rhos, stats, flags, rows]

theorem shows_append (s : Stats α) (h : List (Call α)) (c : Call α)
    (hl : s.ShowsL (totals h ++ totals [c]) (outers h ++ outers [c]) (subs h ++ subs [c])
      (rhos h ++ rhos [c]) (stats h ++ stats [c]) (flags h ++ flags [c]) (rows h ++ rows [c])) :
    s.Shows (h ++ [c]) := by
  simpa only [Shows, totals, outers, subs, rhos, stats, flags, rows, List.filterMap_append] using hl

theorem addInt_ok {a b v : Int} (h : addInt a b = .ok v) : v = a + b := by
  unfold addInt at h
  split at h
  · simpa using h.symm
  · simp at h

theorem getLastD_concat {β : Type} (l : List β) (a d : β) : (l ++ [a]).getLastD d = a := by
  simp [List.getLastD_eq_getLast?]

theorem take_ok (x : List α) (n : Nat) (t : List α)
    (h : loop n (fun i (acc : List α) => do let v ← rd x i; .ok (acc ++ [v])) [] = .ok t) :
    t = x.take n ∧ n ≤ x.length := by
  have := loop_partial (fun i t => t = x.take i ∧ i ≤ x.length) n _ _ _ h (by simp) (by
    rintro i hi t t' ⟨rfl, hl⟩ hb
    rw [bind_eq_ok] at hb
    obtain ⟨v, hv, hb⟩ := hb
    obtain ⟨h1, h2⟩ := rd_eq_ok hv
    simp at hb
    subst hb
    refine ⟨?_, by omega⟩
    rw [List.take_add_one, h2]
    rfl)
  exact this

/-- a call that is not a reset extends the history by itself -/
theorem shows_call {s s' : Stats α} {h : List (Call α)} (c : Call α) (hc : c = .reset → False)
    (hs : s.Shows h) (r : RV) (he : s.call c = .ok (r, s')) : s'.Shows (h ++ [c]) := by
  apply shows_append
  unfold Shows at hs
  cases c with
  | reset => exact (hc rfl).elim
  | total d =>
    simp only [call, updateIterTotal] at he
    split at he
    · rename_i hd
      simp only [Except.ok.injEq, Prod.mk.injEq] at he
      obtain ⟨_, rfl⟩ := he
      have e : totals [Call.total (α := α) d] = ([] : List Int) := by simp [totals]; omega
      rw [e]
      have eouters : outers [Call.total (α := α) d] = [] := rfl
      have esubs : subs [Call.total (α := α) d] = [] := rfl
      have erhos : rhos [Call.total (α := α) d] = [] := rfl
      have estats : stats [Call.total (α := α) d] = [] := rfl
      have eflags : flags [Call.total (α := α) d] = [] := rfl
      have erows : rows [Call.total (α := α) d] = [] := rfl
      simp only [eouters, esubs, erhos, estats, eflags, erows, List.append_nil]
      exact hs
    · rename_i hd
      rw [bind_eq_ok] at he
      obtain ⟨v, hv, he⟩ := he
      simp only [Except.ok.injEq, Prod.mk.injEq] at he
      obtain ⟨_, rfl⟩ := he
      have := addInt_ok hv
      subst this
      have e : totals [Call.total (α := α) d] = [d] := by
        have hd' : 0 ≤ d := by omega
        simp [totals, hd']
      rw [e]
      have eouters : outers [Call.total (α := α) d] = [] := rfl
      have esubs : subs [Call.total (α := α) d] = [] := rfl
      have erhos : rhos [Call.total (α := α) d] = [] := rfl
      have estats : stats [Call.total (α := α) d] = [] := rfl
      have eflags : flags [Call.total (α := α) d] = [] := rfl
      have erows : rows [Call.total (α := α) d] = [] := rfl
      simp only [eouters, esubs, erhos, estats, eflags, erows, List.append_nil]
      exact { hs with total := by simp [hs.total] }
  | outer d =>
    simp only [call, updateIterOuter] at he
    split at he
    · rename_i hd
      simp only [Except.ok.injEq, Prod.mk.injEq] at he
      obtain ⟨_, rfl⟩ := he
      have e : outers [Call.outer (α := α) d] = ([] : List Int) := by simp [outers]; omega
      rw [e]
      have etotals : totals [Call.outer (α := α) d] = [] := rfl
      have esubs : subs [Call.outer (α := α) d] = [] := rfl
      have erhos : rhos [Call.outer (α := α) d] = [] := rfl
      have estats : stats [Call.outer (α := α) d] = [] := rfl
      have eflags : flags [Call.outer (α := α) d] = [] := rfl
      have erows : rows [Call.outer (α := α) d] = [] := rfl
      simp only [etotals, esubs, erhos, estats, eflags, erows, List.append_nil]
      exact hs
    · rename_i hd
      rw [bind_eq_ok] at he
      obtain ⟨v, hv, he⟩ := he
      simp only [Except.ok.injEq, Prod.mk.injEq] at he
      obtain ⟨_, rfl⟩ := he
      have := addInt_ok hv
      subst this
      have e : outers [Call.outer (α := α) d] = [d] := by
        have hd' : 0 ≤ d := by omega
        simp [outers, hd']
      rw [e]
      have etotals : totals [Call.outer (α := α) d] = [] := rfl
      have esubs : subs [Call.outer (α := α) d] = [] := rfl
      have erhos : rhos [Call.outer (α := α) d] = [] := rfl
      have estats : stats [Call.outer (α := α) d] = [] := rfl
      have eflags : flags [Call.outer (α := α) d] = [] := rfl
      have erows : rows [Call.outer (α := α) d] = [] := rfl
      simp only [etotals, esubs, erhos, estats, eflags, erows, List.append_nil]
      exact { hs with outer := by simp [hs.outer] }
  | sub d =>
    simp only [call, updateSubproblemIter] at he
    split at he
    · rename_i hd
      simp only [Except.ok.injEq, Prod.mk.injEq] at he
      obtain ⟨_, rfl⟩ := he
      have e : subs [Call.sub (α := α) d] = ([] : List Int) := by simp [subs]; omega
      rw [e]
      have etotals : totals [Call.sub (α := α) d] = [] := rfl
      have eouters : outers [Call.sub (α := α) d] = [] := rfl
      have erhos : rhos [Call.sub (α := α) d] = [] := rfl
      have estats : stats [Call.sub (α := α) d] = [] := rfl
      have eflags : flags [Call.sub (α := α) d] = [] := rfl
      have erows : rows [Call.sub (α := α) d] = [] := rfl
      simp only [etotals, eouters, erhos, estats, eflags, erows, List.append_nil]
      exact hs
    · rename_i hd
      rw [bind_eq_ok] at he
      obtain ⟨v, hv, he⟩ := he
      simp only [Except.ok.injEq, Prod.mk.injEq] at he
      obtain ⟨_, rfl⟩ := he
      have := addInt_ok hv
      subst this
      have e : subs [Call.sub (α := α) d] = [d] := by
        have hd' : 0 ≤ d := by omega
        simp [subs, hd']
      rw [e]
      have etotals : totals [Call.sub (α := α) d] = [] := rfl
      have eouters : outers [Call.sub (α := α) d] = [] := rfl
      have erhos : rhos [Call.sub (α := α) d] = [] := rfl
      have estats : stats [Call.sub (α := α) d] = [] := rfl
      have eflags : flags [Call.sub (α := α) d] = [] := rfl
      have erows : rows [Call.sub (α := α) d] = [] := rfl
      simp only [etotals, eouters, erhos, estats, eflags, erows, List.append_nil]
      exact { hs with sub := by simp [hs.sub] }
  | rho v =>
    simp only [call, updateRhoOpt] at he
    split at he
    · rename_i hd
      simp only [Except.ok.injEq, Prod.mk.injEq] at he
      obtain ⟨_, rfl⟩ := he
      have e : rhos [Call.rho v] = [] := by simp [rhos, hd]
      rw [e]
      have etotals : totals [Call.rho v] = [] := rfl
      have eouters : outers [Call.rho v] = [] := rfl
      have esubs : subs [Call.rho v] = [] := rfl
      have estats : stats [Call.rho v] = [] := rfl
      have eflags : flags [Call.rho v] = [] := rfl
      have erows : rows [Call.rho v] = [] := rfl
      simp only [etotals, eouters, esubs, estats, eflags, erows, List.append_nil]
      exact hs
    · rename_i hd
      simp only [Except.ok.injEq, Prod.mk.injEq] at he
      obtain ⟨_, rfl⟩ := he
      have e : rhos [Call.rho v] = [v] := by simp [rhos, hd]
      rw [e]
      have etotals : totals [Call.rho v] = [] := rfl
      have eouters : outers [Call.rho v] = [] := rfl
      have esubs : subs [Call.rho v] = [] := rfl
      have estats : stats [Call.rho v] = [] := rfl
      have eflags : flags [Call.rho v] = [] := rfl
      have erows : rows [Call.rho v] = [] := rfl
      simp only [etotals, eouters, esubs, estats, eflags, erows, List.append_nil]
      exact { hs with rho := by rw [getLastD_concat] }
  | status t =>
      simp only [call, updateStatus, Except.ok.injEq, Prod.mk.injEq] at he
      obtain ⟨_, rfl⟩ := he
      have e : stats [Call.status (α := α) t] = [t] := rfl
      rw [e]
      have etotals : totals [Call.status (α := α) t] = [] := rfl
      have eouters : outers [Call.status (α := α) t] = [] := rfl
      have esubs : subs [Call.status (α := α) t] = [] := rfl
      have erhos : rhos [Call.status (α := α) t] = [] := rfl
      have eflags : flags [Call.status (α := α) t] = [] := rfl
      have erows : rows [Call.status (α := α) t] = [] := rfl
      simp only [etotals, eouters, esubs, erhos, eflags, erows, List.append_nil]
      exact { hs with status := by rw [getLastD_concat] }
  | flag t =>
      simp only [call, updateExitFlag, Except.ok.injEq, Prod.mk.injEq] at he
      obtain ⟨_, rfl⟩ := he
      have e : flags [Call.flag (α := α) t] = [t] := rfl
      rw [e]
      have etotals : totals [Call.flag (α := α) t] = [] := rfl
      have eouters : outers [Call.flag (α := α) t] = [] := rfl
      have esubs : subs [Call.flag (α := α) t] = [] := rfl
      have erhos : rhos [Call.flag (α := α) t] = [] := rfl
      have estats : stats [Call.flag (α := α) t] = [] := rfl
      have erows : rows [Call.flag (α := α) t] = [] := rfl
      simp only [etotals, eouters, esubs, erhos, estats, erows, List.append_nil]
      exact { hs with flag := by rw [getLastD_concat] }
  | track x row n =>
      simp only [call, track] at he
      rw [bind_eq_ok] at he
      obtain ⟨xs, hx, he⟩ := he
      obtain ⟨rfl, -⟩ := take_ok x n xs hx
      rw [bind_eq_ok] at he
      obtain ⟨acc, hacc, he⟩ := he
      simp only [Except.ok.injEq, Prod.mk.injEq] at he
      obtain ⟨_, rfl⟩ := he
      have e : rows [Call.track x row n] = [(x.take n, row)] := rfl
      rw [e]
      have etotals : totals [Call.track x row n] = [] := rfl
      have eouters : outers [Call.track x row n] = [] := rfl
      have esubs : subs [Call.track x row n] = [] := rfl
      have erhos : rhos [Call.track x row n] = [] := rfl
      have estats : stats [Call.track x row n] = [] := rfl
      have eflags : flags [Call.track x row n] = [] := rfl
      simp only [etotals, eouters, esubs, erhos, estats, eflags, List.append_nil]
      have hsum : acc = ((rows h).map (·.2.sub)).sum + row.sub := by
        unfold accuNext at hacc
        split at hacc
        · rename_i hn
          simp only [List.getLast?_eq_none_iff] at hn
          have h0 := hs.accu.1
          rw [hn] at h0
          have : rows h = [] := List.length_eq_zero_iff.mp h0.symm
          simp at hacc
          simp [this, hacc]
        · rename_i last hl
          have h0 := hs.accu.1
          have hpos : 0 < (rows h).length := by
            rw [← h0]
            cases hh : s.accuIters with
            | nil => simp [hh] at hl
            | cons a b => simp
          have h1 := hs.accu.2 ((rows h).length - 1) (by omega)
          rw [List.getLast?_eq_getElem?, h0, h1] at hl
          rw [addInt_ok hacc]
          simp only [Option.some.injEq] at hl
          rw [← hl, List.take_of_length_le (by omega)]
      exact { hs with
        x := by simp [hs.x]
        inner := by simp [hs.inner]
        subIters := by simp [hs.subIters]
        accu := by
          refine ⟨by simp [hs.accu.1], ?_⟩
          intro i hi
          simp only [List.length_append, List.length_singleton] at hi
          by_cases hi' : i < (rows h).length
          · rw [List.getElem?_append_left (by rw [hs.accu.1]; exact hi'), hs.accu.2 i hi',
              List.take_append_of_le_length (by omega)]
          · have hi2 : i = (rows h).length := by omega
            rw [List.getElem?_append_right (by rw [hs.accu.1]; omega), hs.accu.1, hi2, Nat.sub_self,
              List.take_of_length_le (by simp)]
            simp [hsum]
        len := by simp [hs.len]
        size := by simp [hs.size]
        stat := by simp [hs.stat]
        obj := by simp [hs.obj]
        phi := by simp [hs.phi]
        merit := by simp [hs.merit] }

/-- C31: after any sequence of calls on a new statistics object that does not overflow a counter,
every counter, value and series is what the calls since the last reset prescribe: counters are sums
of the non-negative increments, single values are the last accepted ones, series are the recorded
rows in order, and the accumulated iteration numbers are the prefix sums. -/
theorem C31_history (cs : List (Call α)) (s : Stats α) (he : (fresh : Stats α).calls cs = .ok s) :
    s.Shows (since cs) := by
  have key : ∀ (cs : List (Call α)) (s0 : Stats α) (h : List (Call α)), s0.Shows h →
      s0.calls cs = .ok s →
      s.Shows (cs.foldl (fun h c => match c with | .reset => [] | c => h ++ [c]) h) := by
    intro cs
    induction cs with
    | nil =>
      intro s0 h hs he
      simp [calls] at he
      subst he
      exact hs
    | cons c cs ih =>
      intro s0 h hs he
      simp only [calls, List.foldlM_cons] at he
      rw [bind_eq_ok] at he
      obtain ⟨s1, h1, he⟩ := he
      rw [bind_eq_ok] at h1
      obtain ⟨⟨r, s2⟩, h2, h1⟩ := h1
      simp only [Except.ok.injEq] at h1
      subst h1
      rw [List.foldl_cons]
      apply ih s2 _ _ he
      cases c with
      | reset =>
        simp only [call, Except.ok.injEq, Prod.mk.injEq] at h2
        rw [← h2.2]
        exact fresh_shows
      | _ => exact shows_call _ (by intro hh; cases hh) hs r h2
  exact key cs fresh [] fresh_shows he

/-- C31: `reset` gives exactly a newly constructed object. -/
theorem C31_reset (s : Stats α) : s.reset = fresh := rfl

/-- C31: assignment copies every field. -/
theorem C31_assign (s rhs : Stats α) : s.assign rhs = rhs := rfl

/-- C31: counters reject negative increments without change and otherwise add, unless the `int`
counter overflows. -/
theorem C31_counters (s : Stats α) (d : Int) :
    (d < 0 → s.updateIterTotal d = .ok (.invalidTotalIterCount, s) ∧
      s.updateIterOuter d = .ok (.invalidTotalOuterIter, s) ∧
      s.updateSubproblemIter d = .ok (.ivalidSubproblemIter, s)) ∧
    (0 ≤ d → s.iterTotal + d ≤ 2147483647 → 0 ≤ s.iterTotal →
      s.updateIterTotal d = .ok (.successfulReturn, { s with iterTotal := s.iterTotal + d })) ∧
    (0 ≤ d → s.iterOuter + d ≤ 2147483647 → 0 ≤ s.iterOuter →
      s.updateIterOuter d = .ok (.successfulReturn, { s with iterOuter := s.iterOuter + d })) ∧
    (0 ≤ d → s.subproblemIter + d ≤ 2147483647 → 0 ≤ s.subproblemIter →
      s.updateSubproblemIter d =
        .ok (.successfulReturn, { s with subproblemIter := s.subproblemIter + d })) ∧
    (0 ≤ d → 2147483647 < s.subproblemIter + d → s.updateSubproblemIter d = .error .overflow) := by
  refine ⟨fun h => ⟨?_, ?_, ?_⟩, fun h h1 h2 => ?_, fun h h1 h2 => ?_, fun h h1 h2 => ?_,
    fun h h1 => ?_⟩
  · simp [updateIterTotal, h]
  · simp [updateIterOuter, h]
  · simp [updateSubproblemIter, h]
  · rw [updateIterTotal, if_neg (by omega), addInt, if_pos (by simp only [intMax]; omega)]; rfl
  · rw [updateIterOuter, if_neg (by omega), addInt, if_pos (by simp only [intMax]; omega)]; rfl
  · rw [updateSubproblemIter, if_neg (by omega), addInt, if_pos (by simp only [intMax]; omega)]; rfl
  · rw [updateSubproblemIter, if_neg (by omega), addInt, if_neg (by simp only [intMax]; omega)]; rfl

/-- C31: the array getters return null iff the series is empty and otherwise a copy. -/
theorem C31_getters {β : Type} (l : List β) (junk : Nat → β) :
    getArr l junk = .ok (if l = [] then none else some l) := by
  unfold getArr
  by_cases hl : l = []
  · simp [hl]
  · rw [if_neg (by simpa using hl), if_neg hl]
    have := loop_eq (fun i => l.take i ++ ((List.range l.length).map junk).drop i)
      l.length (fun i vals => do
        let v ← rd l i
        wr vals i v) ((List.range l.length).map junk) (by simp) (by
      intro i hi
      have hv : rd l i = .ok (l[i]) := by simp [rd, List.getElem?_eq_getElem hi]
      rw [hv, ok_bind, wr_ok (by
        simp only [List.length_append, List.length_take, List.length_drop, List.length_map,
          List.length_range]; omega)]
      congr 1
      rw [List.set_append_right _ _ (by simp), List.length_take, Nat.min_eq_left (le_of_lt hi),
        Nat.sub_self, List.drop_eq_getElem_cons (by simpa using hi)]
      simp only [List.set_cons_zero]
      rw [List.take_add_one, List.getElem?_eq_getElem hi, List.append_assoc]
      rfl)
    rw [this, ok_bind]
    congr 2
    rw [List.take_length, List.drop_of_length_le (by simp), List.append_nil]

end Stats

/-! Non-vacuity -/
example : ((Stats.fresh : Stats (Ext ℚ)).calls [.total 5, .reset, .total 2, .total (-1), .total 3,
    .track [.fin 1, .fin 2, .fin 3] ⟨0, 4, .fin 1, .fin 1, .fin 1, .fin 1, .fin 1, .fin 1⟩ 2,
    .track [.fin 4, .fin 5] ⟨1, 6, .fin 1, .fin 1, .fin 1, .fin 1, .fin 1, .fin 1⟩ 2]).map
      (fun s => (s.iterTotal, s.accuIters, s.xSteps)) =
    .ok (5, [4, 10], [[.fin 1, .fin 2], [.fin 4, .fin 5]]) := by decide +kernel

end LCQ
